import Verif.Base
/-
Model of pkg/istio/discovery/xds.go:128-203 (`GetListenerProperties`) for one address; addresses do not influence each other.
`subscribe` is the call of the ADS client, whose result channel carries the responses in order. Calls are numbered; the callbacks of a
call are named by its number. The read of the response outside the lock (xds.go:140) is modelled as atomic.
-/
namespace Verif.Ads.LProps

/-- a response of the ADS client, as handled in pkg/istio/discovery/xds.go:128-203 -/
inductive Resp where
  | ok (v : Nat)
  | err (e : Nat)
deriving DecidableEq, Repr

/-- where a call is (pkg/istio/discovery/xds.go:128-203) -/
inductive Phase where
  /-- polls the entry, for at most two seconds (xds.go:139-146, 205-210) -/
  | waiting
  | returned (r : Resp)
  /-- returned an error of its own -/
  | failed
deriving DecidableEq, Repr

/-- the state of the discovery client for one address (pkg/istio/discovery/xds.go:128-203) with ghost fields -/
structure St where
  /-- `listenerPropertiesContexts[address]`: the call that created it and the last response -/
  entry : Option (Nat × Option Resp) := none
  /-- the goroutine that receives the responses runs -/
  watcher : Bool := false
  /-- the channel of responses -/
  chan : List Resp := []
  calls : List (Nat × Phase) := []
  cancelled : List Nat := []
  /-- ghost: responses the channel carried so far; responses received; invocations of callbacks -/
  hist : List Resp := []
  recvd : List Resp := []
  cbs : List (Nat × Nat) := []
deriving DecidableEq, Repr

/-- the atomic steps of the calls (pkg/istio/discovery/xds.go:128-203) -/
inductive Act where
  /-- xds.go:128-137, 155-171: a call starts; `sub`: whether subscribing succeeds (if it is done) -/
  | call (id : Nat) (sub : Bool)
  /-- the mesh sends a response -/
  | push (r : Resp)
  /-- xds.go:173-191, 196-203 -/
  | receive
  /-- xds.go:176-177 -/
  | stopWatcher
  | cancel (id : Nat)
  | poll (id : Nat)
  | timeout (id : Nat)
deriving DecidableEq, Repr

/-- the phase of a call; models no code -/
def phaseOf (calls : List (Nat × Phase)) (id : Nat) : Option Phase := (calls.find? (·.1 = id)).map (·.2)

/-- replaces the phase of a call; models no code -/
def setPhase (calls : List (Nat × Phase)) (id : Nat) (p : Phase) : List (Nat × Phase) :=
  calls.map fun c => if c.1 = id then (id, p) else c

/-- the transition relation of the steps of `Act`; the lines are cited at the constructors -/
def exec (s : St) : Act → Option St
  | .call id sub =>
    if (phaseOf s.calls id).isSome then none
    else match s.entry with
      | some _ => some { s with calls := s.calls ++ [(id, .waiting)] }
      | none =>
        if sub then some { s with entry := some (id, none), watcher := true, calls := s.calls ++ [(id, .waiting)] }
        else some { s with entry := some (id, none), calls := s.calls ++ [(id, .failed)] }
  | .push r => if s.watcher then some { s with chan := s.chan ++ [r], hist := s.hist ++ [r] } else none
  | .receive =>
    if s.watcher then
      match s.entry, s.chan with
      | some (o, _), r :: c =>
        some { s with entry := some (o, some r), chan := c, recvd := s.recvd ++ [r], cbs := match r with
          | .ok v => s.cbs ++ [(o, v)]
          | .err _ => s.cbs }
      | _, _ => none
    else none
  | .stopWatcher =>
    match s.entry with
    | some (o, _) => if s.watcher ∧ o ∈ s.cancelled then some { s with watcher := false } else none
    | none => none
  | .cancel id => some { s with cancelled := id :: s.cancelled }
  | .poll id =>
    match phaseOf s.calls id, s.entry with
    | some .waiting, some (_, some r) => some { s with calls := setPhase s.calls id (.returned r) }
    | _, _ => none
  | .timeout id =>
    match phaseOf s.calls id, s.entry with
    | some .waiting, some (_, none) => some { s with calls := setPhase s.calls id .failed }
    | _, _ => none

/-- (specification; models no code) -/
inductive Reach (guard : St → Act → Prop) : St → Prop where
  | init : Reach guard {}
  | step {s s' : St} {a : Act} : Reach guard s → guard s a → exec s a = some s' → Reach guard s'

/-- a run of steps; models no code -/
def run (s : St) : List Act → Option St
  | [] => some s
  | a :: as => match exec s a with
    | none => none
    | some s' => run s' as

end Verif.Ads.LProps
