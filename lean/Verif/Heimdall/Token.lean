import Verif.Heimdall.Auth
/-
Model of components/heimdall/pkg/controllers/workloadgroup.go: the access token of one workload group.
Time is in seconds. The API server's objects are the state; `reconcile` runs on a consistent view of it. Not modelled: the owner
reference and labels of the secret, conflicts of concurrent writers (an update that fails leaves the secret unchanged and is
`apiFails`).
-/
namespace Verif.Heimdall

/-- the token in a secret; (components/heimdall/pkg/controllers/workloadgroup.go) -/
inductive Tok where
  /-- no JWT (workloadgroup.go:166-168) -/
  | garbage
  /-- a token with its audience, service account and expiry -/
  | jwt (aud : Str) (sa : Nat) (exp : Nat)
  /-- a JWT without expiry -/
  | noExpiry
deriving DecidableEq, Repr

/-- the secret of the group: its token, if any; (components/heimdall/pkg/controllers/workloadgroup.go) -/
structure Secret where
  token : Option Tok
deriving DecidableEq, Repr

/-- the state of components/heimdall/pkg/controllers/workloadgroup.go, with the environment and ghost fields -/
structure TSt where
  now : Nat := 0
  /-- the group: name, monitoring label, service account, token duration (`none`: the annotation cannot be parsed) -/
  group : Ref
  label : Bool := false
  sa : Nat := 0
  dur : Option Nat := some 86400
  secret : Option Secret := none
  /-- a reconciliation crashed (workloadgroup.go:169: `claims.ExpiresAt` is nil) -/
  crashed : Bool := false
  /-- the last reconciliation returned an error -/
  failed : Bool := false
  /-- ghost: time of the last reconciliation -/
  last : Nat := 0

/-- the atomic steps and calls of components/heimdall/pkg/controllers/workloadgroup.go, and what the surroundings do; the lines are cited at the steps or in the transition function -/
inductive TAct where
  | tick (n : Nat)
  | setLabel (b : Bool)
  | setSa (n : Nat)
  | setDur (d : Option Nat)
  /-- somebody changes or deletes the secret -/
  | tamper (s : Option Secret)
  /-- workloadgroup.go:71-106 `Reconcile`; `granted`: the lifetime the API server gives the new token, `none` if a request fails -/
  | reconcile (granted : Option Nat)

/-- workloadgroup.go:153-175: whether a new token is created; `none` on errors -/
def needsToken (now : Nat) : Option Secret → Option Bool
  | none => some true
  | some ⟨none⟩ => some true
  | some ⟨some .garbage⟩ => none
  | some ⟨some .noExpiry⟩ => none
  | some ⟨some (.jwt _ _ exp)⟩ => some (now + 600 > exp)

/-- workloadgroup.go:125-198 `createToken` -/
def createToken (s : TSt) (granted : Option Nat) : TSt :=
  if s.secret = some ⟨some .noExpiry⟩ then { s with crashed := true }
  else match needsToken s.now s.secret with
    | none => { s with failed := true }
    | some false => { s with failed := false }
    | some true => match s.dur, granted with
      | some _, some g => { s with secret := some ⟨some (.jwt (generate s.group) s.sa (s.now + g))⟩, failed := false }
      | _, _ => { s with failed := true }

/-- workloadgroup.go:108-123 `deleteToken` -/
def deleteToken (s : TSt) (granted : Option Nat) : TSt :=
  if granted.isSome then { s with secret := none, failed := false } else { s with failed := true }

/-- the transition function of the steps (components/heimdall/pkg/controllers/workloadgroup.go); the lines are cited at the steps or at the cases -/
def texec (s : TSt) : TAct → TSt
  | .tick n => { s with now := s.now + n }
  | .setLabel b => { s with label := b }
  | .setSa n => { s with sa := n }
  | .setDur d => { s with dur := d }
  | .tamper x => { s with secret := x }
  | .reconcile g => if s.label then { createToken s g with last := s.now } else { deleteToken s g with last := s.now }

/-- runs (specification; models no code) -/
def truns : List TAct → TSt → TSt
  | [], s => s
  | a :: as, s => truns as (texec s a)

end Verif.Heimdall
