import Verif.Heimdall.Text
/-
Model of components/heimdall/pkg/cert: the certificate directory of the webhook server (certificate.go, renewer.go) and the CA bundle of
the webhook configuration (webhook_certifier.go).
Assumptions: key pairs and signatures of different generations do not match; `crypto/x509` accepts a chain if the server certificate is
signed by the root, both are valid at the time and the name is among the DNS names. Cryptography and PEM are abstracted: the content of
a file is absent, junk (truncated or foreign) or the complete content of a generation.
-/
namespace Verif.Heimdall.Cert
open Verif.Heimdall

/-- `time.AddDate(0, 6, 0)` and `time.AddDate(1, 0, 0)`; (the surroundings of the certificate renewer of components/heimdall (renewer.go, certificate.go, webhook_certifier.go); a parameter of the model) -/
structure Calendar where
  plus6 : Nat → Nat
  plus12 : Nat → Nat
  le6 : ∀ t, t ≤ plus6 t
  le12 : ∀ t, plus6 t ≤ plus12 t

/-- certificate.go:75-180 `NewCertificate`: what was generated at once: the CA and the server certificate have the same validity -/
structure Gen where
  id : Nat
  names : List Str
  notBefore : Nat
  notAfter : Nat
deriving DecidableEq, Repr

/-- (the surroundings of the certificate renewer of components/heimdall (renewer.go, certificate.go, webhook_certifier.go); a parameter of the model) -/
inductive File where
  | absent
  | junk
  | of (g : Gen)
deriving DecidableEq, Repr

/-- as used in the certificate renewer of components/heimdall (renewer.go, certificate.go, webhook_certifier.go) -/
inductive Name where
  | caCrt | caKey | tlsCrt | tlsKey
deriving DecidableEq, Repr

/-- as used in the certificate renewer of components/heimdall (renewer.go, certificate.go, webhook_certifier.go) -/
abbrev Dir := Name → File

/-- update of a component; models no code -/
def Dir.set (d : Dir) (f : Name) (c : File) : Dir := fun f' => if f' = f then c else d f'

/-- certificate.go:182-208 `NewCertificateFromDirectory`: all four files can be read -/
def readable (d : Dir) : Bool := decide (d .caCrt ≠ .absent) && decide (d .caKey ≠ .absent) && decide (d .tlsCrt ≠ .absent) &&
  decide (d .tlsKey ≠ .absent)

/-- certificate.go:220-258 `Verify` for one name (`none`: the empty name, which is not compared) at one time -/
def verify (d : Dir) (name : Option Str) (t : Nat) : Bool :=
  match d .tlsCrt, d .tlsKey, d .caCrt with
  | .of b, .of k, .of a =>
    decide (b.id = k.id) && decide (a.id = b.id) && decide (b.notBefore ≤ t) && decide (t ≤ b.notAfter) &&
      decide (a.notBefore ≤ t) && decide (t ≤ a.notAfter) &&
      match name with
      | none => true
      | some n => decide (n ∈ b.names)
  | _, _, _ => false

/-- renewer.go:167-202 `verifyCertificate` -/
def accepted (cal : Calendar) (d : Dir) (names : List Str) (t : Nat) : Bool :=
  readable d && (if names.length = 0 then [none] else names.map some).all fun n => verify d n (cal.plus6 t)

/-- certificate.go:260-290 `Write`: every file is truncated and then filled; the files come in the order of a Go map -/
def micro (order : List Name) (g : Gen) : List (Name × File) := order.flatMap fun f => [(f, .junk), (f, .of g)]

/-- as used in the certificate renewer of components/heimdall (renewer.go, certificate.go, webhook_certifier.go) -/
def apply (d : Dir) (l : List (Name × File)) : Dir := l.foldl (fun d s => d.set s.1 s.2) d

/-- `hist` (ghost): everything that was ever generated -/
structure St where
  dir : Dir := fun _ => .absent
  next : Nat := 0
  hist : List Gen := []
  now : Nat := 0

/-- renewer.go:106-165 `checkCertificate`: the directory afterwards and the certificate given to the after check functions.
`n` counts the steps of the writing until it fails or the process dies; writing is complete with `2 * order.length` steps. -/
def check (cal : Calendar) (names : List Str) (order : List Name) (n : Nat) (s : St) : St :=
  if accepted cal s.dir names s.now then s
  else
    let g : Gen := ⟨s.next, names, s.now, cal.plus12 s.now⟩
    { s with dir := apply s.dir ((micro order g).take n), next := s.next + 1, hist := g :: s.hist }

/-- the atomic steps and calls of the certificate renewer of components/heimdall (renewer.go, certificate.go, webhook_certifier.go), and what the surroundings do; the lines are cited at the steps or in the transition function -/
inductive Act where
  | check (names : List Str) (order : List Name) (n : Nat)
  /-- someone removes, damages or restores a file -/
  | touch (f : Name) (c : File)
  | pass (d : Nat)

/-- the transition function of the steps (the certificate renewer of components/heimdall (renewer.go, certificate.go, webhook_certifier.go)); the lines are cited at the steps or at the cases -/
def exec (cal : Calendar) (s : St) : Act → Option St
  | .check names order n => some (check cal names order n s)
  | .touch f .absent => some { s with dir := s.dir.set f .absent }
  | .touch f .junk => some { s with dir := s.dir.set f .junk }
  | .touch f (.of g) => if g ∈ s.hist then some { s with dir := s.dir.set f (.of g) } else none
  | .pass d => some { s with now := s.now + d }

/-- runs (specification; models no code) -/
inductive Reach (cal : Calendar) : St → Prop where
  | init : Reach cal {}
  | step {s s' : St} {a : Act} : Reach cal s → exec cal s a = some s' → Reach cal s'

/-! ### the webhook configuration -/

/-- a webhook configuration: the CA bundle (by generation) and everything else; (the certificate renewer of components/heimdall (renewer.go, certificate.go, webhook_certifier.go)) -/
structure Config where
  bundle : Nat
  spec : Nat
deriving DecidableEq, Repr

/-- `ca`: the generation of the certificate directory if it is accepted; `api`: the configuration in the cluster; `mem`: the copy of the
certifier (`none` before it started); `triggers`: updates the informer has not delivered yet; the state of the certificate renewer of components/heimdall (renewer.go, certificate.go, webhook_certifier.go), with the environment and ghost fields -/
structure HSt where
  ca : Option Nat := none
  next : Nat := 1
  api : Config := ⟨0, 0⟩
  mem : Option Config := none
  triggers : Nat := 0
  crashed : Bool := false
deriving DecidableEq, Repr

/-- the atomic steps and calls of the certificate renewer of components/heimdall (renewer.go, certificate.go, webhook_certifier.go), and what the surroundings do; the lines are cited at the steps or in the transition function -/
inductive HAct where
  /-- webhook_certifier.go:81-126, renewer.go:77-86: load the configuration and check -/
  | start (renewed updated : Bool)
  /-- renewer.go:93-94 -/
  | trigger (renewed updated : Bool)
  /-- renewer.go:95-96 -/
  | tick (renewed updated : Bool)
  /-- someone edits the configuration -/
  | edit (c : Config)
  /-- the certificate in the directory stops being accepted -/
  | lose
deriving DecidableEq, Repr

/-- renewer.go:106-145 with webhook_certifier.go:94-121, 280-392: `renewed`: whether a renewal succeeds, `updated`: whether the update
of the configuration succeeds. A failed renewal hands a nil certificate to the function, which dereferences it. An update that equals
the configuration in the cluster is not sent; one that is sent is reported by the informer. -/
def hcheck (needs renewed updated : Bool) (s : HSt) : HSt :=
  match s.mem with
  | none => s
  | some m =>
    let (ca, next, needs) := match s.ca with
      | some g => (some g, s.next, needs)
      | none => if renewed then (some s.next, s.next + 1, true) else (none, s.next, true)
    match ca with
    | none => { s with crashed := true }
    | some g =>
      let m' : Config := ⟨g, m.spec⟩
      if needs && updated && decide (m' ≠ s.api) then
        { s with ca := some g, next := next, mem := some m', api := m', triggers := s.triggers + 1 }
      else { s with ca := some g, next := next, mem := some m' }

/-- the transition function of the steps (the certificate renewer of components/heimdall (renewer.go, certificate.go, webhook_certifier.go)); the lines are cited at the steps or at the cases -/
def hexec (s : HSt) (a : HAct) : Option HSt :=
  if s.crashed then none
  else match a with
    | .start r u => if s.mem.isSome then none else some (hcheck true r u { s with mem := some s.api })
    | .trigger r u => if s.triggers = 0 ∨ s.mem.isNone then none else some (hcheck true r u { s with triggers := s.triggers - 1 })
    | .tick r u => if s.mem.isNone then none else some (hcheck false r u s)
    | .edit c => if s.mem.isNone then some { s with api := c } else some { s with api := c, triggers := s.triggers + 1 }
    | .lose => some { s with ca := none }

/-- runs (specification; models no code) -/
inductive HReach (guard : HAct → Prop) : HSt → Prop where
  | init : HReach guard {}
  | step {s s' : HSt} {a : HAct} : HReach guard s → guard a → hexec s a = some s' → HReach guard s'

end Verif.Heimdall.Cert
