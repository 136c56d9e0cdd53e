import Verif.Heimdall.Text
/-
Model of what the certifier of components/heimdall does with a webhook configuration (components/heimdall/pkg/cert/webhook_certifier.go:81-206:
`Start`, `dnsNames`, `loadWebhookConfiguration`), and of the events that make the controller of workload groups look at a group
(components/heimdall/pkg/predicates/labelselector.go, pkg/controllers/workloadgroup.go:66-100, 200-226).
-/
namespace Verif.Heimdall.Webhook
open Verif.Heimdall

/-! ### the webhook configuration -/

/-- `FailurePolicy` of a webhook (Kubernetes) -/
inductive Policy where
  | fail
  | ignore
deriving DecidableEq, Repr

/-- a webhook of a configuration: the service it is reached at (name and namespace; none for one reached at a URL), its CA bundle, its policy and
everything else (Kubernetes; as used in webhook_certifier.go:94-121, 130-163) -/
structure Hook where
  service : Option (Str × Str)
  bundle : List Nat
  policy : Option Policy
  rest : Nat
deriving DecidableEq, Repr

/-- which configuration the certifier works on (webhook_certifier.go:49-55) -/
inductive Kind where
  | mutating
  | validating
deriving DecidableEq, Repr

/-- webhook_certifier.go:167-209 `loadWebhookConfiguration`: the configuration of this name, the mutating one if it can be had -/
def load (mutating validating : Option (List Hook)) : Option (Kind × List Hook) := match mutating with
  | some hs => some (.mutating, hs)
  | none => match validating with
    | some hs => some (.validating, hs)
    | none => none

/-- webhook_certifier.go:140-143, 152-155: `fmt.Sprintf("%s.%s.svc", …)` -/
def svcName (s : Str × Str) : Str := s.1 ++ '.' :: s.2 ++ ".svc".toList

/-- webhook_certifier.go:130-163 `dnsNames`; none: a panic, a webhook without a service -/
def dnsNames : List Hook → Option (List Str)
  | [] => some []
  | h :: r => match h.service with
    | none => none
    | some s => (dnsNames r).map (svcName s :: ·)

/-- webhook_certifier.go:94-112: what is written to the webhooks after a check of the certificate -/
def stamp (ca : List Nat) (hs : List Hook) : List Hook := hs.map fun h => { h with policy := some .fail, bundle := ca }

/-- how `Start` goes (webhook_certifier.go:81-126): an error, a panic, or it runs with the names asked for in the certificate and, after the first
check, this configuration -/
inductive Started where
  | error
  | panic
  | runs (k : Kind) (names : List Str) (hs : List Hook)
deriving DecidableEq, Repr

/-- webhook_certifier.go:81-126 -/
def start (ca : List Nat) (mutating validating : Option (List Hook)) : Started := match load mutating validating with
  | none => .error
  | some (k, hs) => match dnsNames hs with
    | none => .panic
    | some names => .runs k names (stamp ca hs)

/-! ### the events of the controller of workload groups -/

/-- the events of a watched object (controller-runtime), with what the filter says about the object before and after; labelselector.go:40-55 -/
inductive Event where
  | create (new : Bool)
  | update (old new : Bool)
  | delete (old : Bool)
  | generic (obj : Bool)
deriving DecidableEq, Repr

/-- labelselector.go:40-55 `NewPredicateFuncs` -/
def passes : Event → Bool
  | .create new => new
  | .update old new => old || new
  | .delete old => old
  | .generic obj => obj

/-- the event by which the informer goes from one version of an object to another (controller-runtime); a version is whether the object has the label,
none if there is no object -/
def eventOf : Option Bool → Option Bool → Option Event
  | none, none => none
  | none, some b => some (.create b)
  | some a, some b => some (.update a b)
  | some a, none => some (.delete a)

/-- one workload group: whether it is there and has the label, the version the controller has seen, the secret with the token, the changes of the
secret the controller has not been told of, and whether the group is in the queue (workloadgroup.go:66-100, 200-226) -/
structure St where
  obj : Option Bool := none
  seen : Option Bool := none
  secret : Bool := false
  events : Nat := 0
  queue : Bool := false
deriving DecidableEq, Repr

/-- what may happen -/
inductive Act where
  /-- the group is created, labelled, unlabelled or deleted -/
  | user (v : Option Bool)
  /-- someone deletes the secret, or the garbage collector does so with the secret of a group that is gone -/
  | lost
  /-- the informer delivers the current version of the group; versions in between may be left out (labelselector.go:40-55, workloadgroup.go:211-216) -/
  | deliver
  /-- the informer delivers a change of the secret, which has the group as owner (workloadgroup.go:217-222) -/
  | deliverSecret
  /-- `Reconcile` (workloadgroup.go:66-100): `fails`: with an error; `stale`: what it knows of the secret is outdated, and it does nothing (only while
  a change of the secret has not been delivered) -/
  | reconcile (fails stale : Bool)
  /-- the group is put into the queue again after five minutes (workloadgroup.go:96-98) -/
  | timer
  /-- the controller is restarted: it sees everything anew -/
  | restart
deriving DecidableEq, Repr

/-- the secret is written or deleted; every change is an event -/
def St.setSecret (s : St) (b : Bool) : St := if s.secret = b then s else { s with secret := b, events := s.events + 1 }

/-- the transition function; the lines are cited at the steps. A group that is not there is an error (workloadgroup.go:69-75), and errors put the group
into the queue again (controller-runtime). -/
def exec (s : St) : Act → Option St
  | .user v => some { s with obj := v }
  | .lost => if s.secret then some (s.setSecret false) else none
  | .deliver => match eventOf s.seen s.obj with
    | none => some s
    | some e => some { s with seen := s.obj, queue := s.queue || passes e }
  | .deliverSecret => if s.events = 0 then none else some { s with events := s.events - 1, queue := true }
  | .reconcile fails stale =>
    if s.queue = false then none
    else if fails then some s
    else if stale then (if s.events = 0 then none else match s.seen with
      | none => some s
      | some _ => some { s with queue := false })
    else match s.seen with
      | none => some s
      | some b => some { s.setSecret b with queue := false }
  | .timer => some { s with queue := true }
  | .restart => some { s with seen := none, queue := false, events := if s.secret then 1 else 0 }

/-- runs -/
inductive Reach : St → Prop where
  | init : Reach {}
  | step {s s' : St} {a : Act} : Reach s → exec s a = some s' → Reach s'

/-- a run, for the examples -/
def run (s : St) : List Act → Option St
  | [] => some s
  | a :: as => (exec s a).bind fun s' => run s' as

end Verif.Heimdall.Webhook
