import Verif.Heimdall.Text
/-
Model of components/heimdall/pkg/server: token audiences (jwt.go) and the /config handler (server.go:85-176).
The Kubernetes API is a parameter: `claims` is the unverified content of a token, `review` the TokenReview API, `groups` the
stored workload groups, `ca` the result of GetIstioCAClientConfigWithKubeConfig. Logging and the text of error answers are not
modelled.
-/
namespace Verif.Heimdall

/-- as used in components/heimdall/pkg/server -/
structure Ref where
  ns : Str
  name : Str
deriving DecidableEq, Repr

/-- jwt.go:29 -/
def audPrefix : Str := "nasp-heimdall:workloadgroup:".toList

/-- jwt.go:35-37 `Generate` -/
def generate (r : Ref) : Str := audPrefix ++ (r.ns ++ ':' :: r.name)

/-- jwt.go:39-41 `Valid` -/
def validAud (a : Str) : Bool := audPrefix.isPrefixOf a

/-- jwt.go:47-56 `Parse` -/
def parseAud (a : Str) : Ref :=
  match split ':' a with
  | [_, _, ns, name] => ⟨ns, name⟩
  | _ => ⟨[], []⟩

/-- the status of a TokenReview; (components/heimdall/pkg/server) -/
structure Status where
  error : Str
  authenticated : Bool
  username : Str
deriving DecidableEq, Repr

/-- as used in components/heimdall/pkg/server -/
structure User where
  name : Str
  sa : Ref
  group : Ref
deriving DecidableEq, Repr

/-- the parts of the API the server uses; (the surroundings of components/heimdall/pkg/server; a parameter of the model) -/
structure Api (WG CA : Type) where
  claims : Str → Option (List Str)
  review : Str → List Str → Option Status
  groups : Ref → Option WG
  ca : Ref → Option CA

/-- jwt.go:72-77: the first NASP audience of the token, or nothing -/
def firstAud (auds : List Str) : Str := (auds.find? validAud).getD []

/-- as used in components/heimdall/pkg/server -/
def saPrefix : Str := "system:serviceaccount:".toList

/-- jwt.go:105-117: the service account in the user name; `none` is the error for a malformed one -/
def saOf (username : Str) : Option Ref :=
  if saPrefix.isPrefixOf username then
    match split ':' username with
    | [_, _, ns, name] => some ⟨ns, name⟩
    | _ => none
  else some ⟨[], []⟩

/-- jwt.go:66-121 `AuthenticateToken`; every error is `none` -/
def authenticate {WG CA : Type} (api : Api WG CA) (token : Str) : Option User :=
  match api.claims token with
  | none => none
  | some auds =>
    match api.review token [firstAud auds] with
    | none => none
    | some st =>
      if st.error ≠ [] then none
      else if st.authenticated = false then none
      else match saOf st.username with
        | none => none
        | some sa => some { name := st.username, sa := sa, group := parseAud (firstAud auds) }

/-- what the answer contains: the group, the CA configuration and the service account (server.go:131-171: all other fields come
from these, from constants or from the client's address) -/
structure Answer (WG CA : Type) where
  group : WG
  ref : Ref
  ca : CA
  saName : Str

/-- the result of a call (components/heimdall/pkg/server), an error or a panic -/
inductive Result (WG CA : Type) where
  | unauthorized
  | notFound
  | internal
  | ok (a : Answer WG CA)

/-- server.go:109-111 -/
def withDefaultSA (r : Ref) : Ref := if r.name = [] then { r with name := "default".toList } else r

/-- server.go:85-176: `POST /config` with the given Authorization header -/
def config {WG CA : Type} (api : Api WG CA) (header : Str) : Result WG CA :=
  if header = [] then .unauthorized
  else match split ' ' header with
    | [_, token] =>
      match authenticate api token with
      | none => .unauthorized
      | some u =>
        match api.groups u.group with
        | none => .notFound
        | some g =>
          match api.ca (withDefaultSA u.sa) with
          | none => .internal
          | some c => .ok { group := g, ref := u.group, ca := c, saName := (withDefaultSA u.sa).name }
    | _ => .unauthorized

end Verif.Heimdall
