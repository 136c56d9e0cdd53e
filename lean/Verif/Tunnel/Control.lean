import Verif.Tunnel.Sessions
/-
Model of the control stream handshake of one tunnel session
(`/repo/pkg/network/tunnel/server/session.go` `openControlStream` 333-392, run in one
goroutine per accepted stream: `Handle` 112-116, `handleStream` 254-276) and of the
Kubernetes token authenticator (`/repo/pkg/network/tunnel/auth/k8stoken.go`).

Simplifications: message decoding has succeeded (a decode error closes the session and
opens nothing, session.go:335-341); the effect of `s.Close()` after an error response is
left out (it opens nothing); `errors.WrapIfWithDetails(nil, …)` is `nil`, as documented by
emperror.dev/errors.
-/
namespace Verif.Tunnel

/-- Result triple of `Authenticator.Authenticate` without the user (api.go). -/
structure AuthOut where
  ok : Bool
  err : Option String
deriving Repr, DecidableEq

/-- Program counter of an `openControlStream` call on stream `i`. where a goroutine is (program counter in pkg/network/tunnel/server/session.go) -/
inductive CTh
  /-- no message received on this stream yet -/
  | start
  /-- `s.ctrlStream` was read (session.go:354): did it exist? next: authenticate -/
  | checked (existed : Bool)
  /-- response prepared (session.go:354-376): does it carry an error? next: send -/
  | respond (error : Bool)
  /-- success response sent, next: `s.ctrlStream = NewControlStream` (session.go:389) -/
  | accepted
  /-- returned or running the control stream -/
  | done
deriving Repr, DecidableEq

/-- Observable events, newest first. specification / ghost trace; models no code -/
inductive CEv
  /-- the authenticator returned `out` for the token of stream `i` -/
  | auth (i : Nat) (out : AuthOut)
  /-- stream `i` became a control stream -/
  | opened (i : Nat)
  /-- an error response was sent on stream `i` -/
  | refused (i : Nat)
deriving Repr, DecidableEq

/-- Session state: `ctrlStream` (session.go:38) as the stream it wraps. -/
structure CSt where
  ctrl : Option Nat
  ths : Nat → CTh
  tr : List CEv

/-- the state of pkg/network/tunnel/server/session.go, with the environment and ghost fields -/
def CSt.init : CSt := { ctrl := none, ths := fun _ => .start, tr := [] }

/-- the atomic steps and calls of pkg/network/tunnel/server/session.go, and what the surroundings do; the lines are cited at the steps or in the transition function -/
inductive CAct
  /-- an `openControlStream` message arrives on stream `i`; `s.ctrlStream != nil` is
  evaluated (session.go:354) -/
  | check (i : Nat)
  /-- session.go:358-376: authenticate (if configured and no error so far); `out` is what
  the authenticator returns if it is called -/
  | authenticate (i : Nat) (out : AuthOut)
  /-- session.go:378-389: send the response; the write may fail -/
  | send (i : Nat) (ok : Bool)
  /-- session.go:394-396 -/
  | setCtrl (i : Nat)
deriving Repr, DecidableEq

/-- `authError` (session.go:362-368): `errors.WrapIfWithDetails` of a nil error is nil, so
the branch `!ok` with a nil error leaves `authError == nil`. -/
def authError (out : AuthOut) : Bool :=
  if out.err.isSome then true          -- session.go:364-365
  else if !out.ok then out.err.isSome  -- session.go:366-367
  else false

/-- One atomic action; `hasAuth` is `s.server.authenticator != nil`. the transition function of the steps (pkg/network/tunnel/server/session.go); the lines are cited at the steps or at the cases -/
def cexec (hasAuth : Bool) (st : CSt) : CAct → Option CSt
  | .check i =>
    match st.ths i with
    | .start => some { st with ths := upd st.ths i (.checked st.ctrl.isSome) }
    | _ => none
  | .authenticate i out =>
    match st.ths i with
    | .checked true => some { st with ths := upd st.ths i (.respond true) }
    | .checked false =>
      if hasAuth then
        some { st with ths := upd st.ths i (.respond (authError out)), tr := .auth i out :: st.tr }
      else some { st with ths := upd st.ths i (.respond false) }
    | _ => none
  | .send i ok =>
    match st.ths i with
    | .respond e =>
      if !ok then some { st with ths := upd st.ths i .done }
      else if e then some { st with ths := upd st.ths i .done, tr := .refused i :: st.tr }
      else some { st with ths := upd st.ths i .accepted }
    | _ => none
  | .setCtrl i =>
    match st.ths i with
    | .accepted =>
      some { st with ctrl := some i, ths := upd st.ths i .done, tr := .opened i :: st.tr }
    | _ => none

/-- Reachable states when every action satisfies `g`. specification / ghost trace; models no code -/
inductive CReach (hasAuth : Bool) (g : CSt → CAct → Prop) : CSt → Prop
  | init : CReach hasAuth g CSt.init
  | step {st st' : CSt} (a : CAct) : CReach hasAuth g st → g st a →
      cexec hasAuth st a = some st' → CReach hasAuth g st'

/-- Guard: every authenticator answer that is not "ok" comes with an error. specification / ghost trace; models no code -/
def ErrWhenNotOk (_ : CSt) : CAct → Prop
  | .authenticate _ out => out.ok = false → out.err ≠ none
  | _ => True

/-- Guard: `openControlStream` messages of the session are handled one after the other. specification / ghost trace; models no code -/
def OneAtATime (st : CSt) : CAct → Prop
  | .check i => ∀ j, j ≠ i → st.ths j = .start ∨ st.ths j = .done
  | _ => True

/-- What the Kubernetes API answers to a `TokenReview` (k8stoken.go:59-75). -/
structure TokenReview where
  createErr : Option String
  statusError : String
  authenticated : Bool

/-- `k8sAuthenticator.Authenticate` (k8stoken.go:58-90), without the user. -/
def k8sAuthenticate (r : TokenReview) : AuthOut :=
  match r.createErr with
  | some e => { ok := false, err := some ("could not create token review: " ++ e) }
  | none =>
    if r.statusError ≠ "" then { ok := false, err := some r.statusError }
    else if !r.authenticated then { ok := false, err := some "token authentication failed" }
    else { ok := true, err := none }

/-- The metadata taken from the user name (k8stoken.go:84-89):
`system:serviceaccount:<ns>:<name>`; a map, later keys win, as in the composite literal
(a duplicate non-constant key overwrites). -/
def k8sMetadata (parts : List String) : List (String × String) :=
  match parts with
  | [a, b, c, d] => if a = "system" then (if b = "namespace" then [("namespace", d)] else [("namespace", c), (b, d)]) else []
  | _ => []

end Verif.Tunnel
