/-
What a filter's code sees of its life: /repo/pkg/proxywasm/plugin.go (`EnsureInstances`, `startInstance`, `stopInstance`),
filter.go (`NewFilterContext`, `Close`) and utils.go (`StopWasmContext`).

All calls into one instance of the code are made with the lock of the instance held, so a sequence of calls made under the lock is one
step; which instance is used by whom, how many there are and what `Acquire` says is left to the environment (see C65-C68).
An instance is dropped in one step, at any time: the model has more schedules than the code, which drops the last ones, in order.
-/
import Verif.Base

namespace Verif.Life

/-- The calls into an instance of a filter's code (pkg/proxywasm/plugin.go, filter.go, utils.go, stream.go). -/
inductive Kind where
  /-- `instance.Start` (plugin.go:189) -/
  | boot
  /-- `ProxyOnContextCreate` of the root context (plugin.go:303) -/
  | root
  /-- `ProxyOnVmStart` (plugin.go:309) -/
  | vmStart
  /-- `ProxyOnConfigure` with the size of the configuration (plugin.go:317-318) -/
  | configure (size : Nat)
  /-- `ProxyOnContextCreate` of a filter's context (filter.go:64) -/
  | create
  /-- any callback for a stream (stream.go) -/
  | call
  /-- `ProxyOnDone` (utils.go:28) -/
  | done
  /-- `ProxyOnLog` (utils.go:42) -/
  | log
  /-- `ProxyOnDelete` (utils.go:48) -/
  | delete
  /-- `instance.Stop` (plugin.go:167) -/
  | halt
deriving DecidableEq, Repr

/-- A call: the instance, the filter's context (`none`: the root context or none), what was called and if it succeeded
(specification / ghost trace; models no code). -/
structure Ev where
  inst : Nat
  ctx : Option Nat
  kind : Kind
  ok : Bool
deriving DecidableEq, Repr

/-- How far starting an instance gets (plugin.go:180-201, 297-327); an answer `false` counts as a failure as in the code. -/
inductive StartOut where
  | noInstance | bootErr | rootErr | vmErr | configErr | ok
deriving DecidableEq, Repr

/-- How far `StopWasmContext` gets (utils.go:27-54); `importErr`: the host function `Done` fails. -/
inductive StopOut where
  | doneErr | importErr | logErr | deleteErr | ok
deriving DecidableEq, Repr

/-- plugin.go:183-198 and `startInstance` (plugin.go:297-327): the calls made; `size` is the size of the plugin's configuration -/
def startCalls (i size : Nat) : StartOut → List Ev
  | .noInstance => []
  | .bootErr => [⟨i, none, .boot, false⟩]
  | .rootErr => [⟨i, none, .boot, true⟩, ⟨i, none, .root, false⟩]
  | .vmErr => [⟨i, none, .boot, true⟩, ⟨i, none, .root, true⟩, ⟨i, none, .vmStart, false⟩]
  | .configErr => [⟨i, none, .boot, true⟩, ⟨i, none, .root, true⟩, ⟨i, none, .vmStart, true⟩, ⟨i, none, .configure size, false⟩]
  | .ok => [⟨i, none, .boot, true⟩, ⟨i, none, .root, true⟩, ⟨i, none, .vmStart, true⟩, ⟨i, none, .configure size, true⟩]

/-- `StopWasmContext` (utils.go:27-54): the calls made for a context of an instance -/
def stopCalls (i : Nat) (c : Option Nat) : StopOut → List Ev
  | .doneErr => [⟨i, c, .done, false⟩]
  | .importErr => [⟨i, c, .done, true⟩]
  | .logErr => [⟨i, c, .done, true⟩, ⟨i, c, .log, false⟩]
  | .deleteErr => [⟨i, c, .done, true⟩, ⟨i, c, .log, true⟩, ⟨i, c, .delete, false⟩]
  | .ok => [⟨i, c, .done, true⟩, ⟨i, c, .log, true⟩, ⟨i, c, .delete, true⟩]

/-- Where a filter of a stream is: in `NewFilterContext` with an instance, in use, closed, or not made because its context could not be
created (pkg/proxywasm/filter.go). -/
inductive Phase where
  | acquired | open_ | closed | failed
deriving DecidableEq, Repr

/-- The instances of a plugin and the filters made from it (plugin.go:30-50, filter.go:24-31). -/
structure St where
  /-- the running instances (`instances`) -/
  insts : List Nat := []
  /-- the number of the next new instance -/
  next : Nat := 0
  /-- a filter's instance and phase -/
  filters : Nat → Option (Nat × Phase) := fun _ => none
  /-- the filters whose acquisition of an instance was not undone by `ReleaseInstance` -/
  held : List Nat := []
  tr : List Ev := []

/-- the steps (plugin.go, filter.go), and what the surroundings decide; the lines are cited at the cases of `exec` -/
inductive Act where
  | add (o : StartOut)
  | drop (i : Nat) (o : StopOut)
  | acquire (f i : Nat)
  | create (f : Nat) (ok : Bool)
  | call (f : Nat) (ok : Bool)
  | close (f : Nat) (o : StopOut)
deriving DecidableEq, Repr

/-- update of a component; models no code -/
def St.setFilter (s : St) (f : Nat) (x : Nat × Phase) : St := { s with filters := fun g => if g = f then some x else s.filters g }

/-- the transition function of the steps; `size`: the size of the plugin's configuration (plugin.go:208-245) -/
def exec (size : Nat) (s : St) : Act → Option St
  -- one round of the loop of `EnsureInstances` (plugin.go:180-201)
  | .add o => some { s with insts := if o = .ok then s.insts ++ [s.next] else s.insts, next := s.next + 1,
                            tr := s.tr ++ startCalls s.next size o }
  -- `stopInstance`, whose error is only logged, and `Stop` (plugin.go:162-169, 281-295)
  | .drop i o =>
    if i ∈ s.insts then some { s with insts := s.insts.filter (· ≠ i), tr := s.tr ++ stopCalls i none o ++ [⟨i, none, .halt, true⟩] }
    else none
  -- `GetInstance` of a running instance (filter.go:35, plugin.go:76-96)
  | .acquire f i =>
    if i ∈ s.insts ∧ s.filters f = none then some { s.setFilter f (i, .acquired) with held := f :: s.held } else none
  -- `ProxyOnContextCreate`, `RegisterFilterContext` (filter.go:64-70); after an error the instance is not released
  | .create f ok =>
    match s.filters f with
    | some (i, .acquired) => some { s.setFilter f (i, if ok then .open_ else .failed) with tr := s.tr ++ [⟨i, some f, .create, ok⟩] }
    | _ => none
  -- a callback of a stream
  | .call f ok =>
    match s.filters f with
    | some (i, .open_) => some { s with tr := s.tr ++ [⟨i, some f, .call, ok⟩] }
    | _ => none
  -- `Close` (filter.go:91-99): the instance is released whether or not the context could be stopped
  | .close f o =>
    match s.filters f with
    | some (i, .open_) => some { s.setFilter f (i, .closed) with held := s.held.filter (· ≠ f), tr := s.tr ++ stopCalls i (some f) o }
    | _ => none

/-- runs; `guard` restricts the surroundings (specification; models no code) -/
inductive Reach (size : Nat) (guard : St → Act → Prop) : St → Prop where
  | init : Reach size guard {}
  | step {s s' : St} {a : Act} : Reach size guard s → guard s a → exec size s a = some s' → Reach size guard s'

/-- a run of given steps (specification; models no code) -/
def run (size : Nat) : St → List Act → Option St
  | s, [] => some s
  | s, a :: as => match exec size s a with | some s' => run size s' as | none => none

end Verif.Life
