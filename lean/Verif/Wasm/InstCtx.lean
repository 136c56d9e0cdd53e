import Verif.Base
/-
Model of what a plugin keeps for each instance of its code: `GetWasmInstanceContext`, `startInstance` and `stopInstance` of
pkg/proxywasm/plugin.go (246-326) with `EnsureInstances` (plugin.go:157-206) and the first lines of `NewFilterContext` (filter.go:34-53).

Instances and instance contexts are numbered in the order in which they are made. One action is one access to the map of contexts (a
`sync.Map`) or one critical section of the plugin's lock that is invisible to others in between. Starting an instance is one step: nobody else
knows the instance yet. That several instances are published at once at the end of `EnsureInstances` and that the last ones are dropped is left
out: the model has more schedules.
-/
namespace Verif.Wasm.InstCtx

/-- where a call of `GetWasmInstanceContext` is: before `Load`, after a `Load` that found nothing (plugin.go:247-252), or returned -/
inductive Ph where
  | before
  | missed
  | held (c : Nat)
deriving DecidableEq, Repr

/-- a call of `GetWasmInstanceContext`; `stop`: from `stopInstance` (plugin.go:283), otherwise from `NewFilterContext` (filter.go:49) -/
structure Thread where
  inst : Nat
  stop : Bool
  ph : Ph
deriving DecidableEq, Repr

/-- the plugin: its instances, the map of contexts (plugin.go:41-46), the calls in progress. Ghosts: the number of instances and contexts made,
and what was returned for whom: the instance, the context, and whether the plugin had the instance when it was returned -/
structure St where
  list : List Nat := []
  ctxs : List (Nat × Nat) := []
  threads : List Thread := []
  made : Nat := 0
  madeCtx : Nat := 0
  answers : List (Nat × Nat × Bool) := []
deriving DecidableEq, Repr

/-- `Load` (plugin.go:247) -/
def St.load (s : St) (i : Nat) : Option Nat := (s.ctxs.find? fun e => e.1 = i).map (·.2)

/-- `Store` (plugin.go:276) -/
def St.store (s : St) (i c : Nat) : List (Nat × Nat) := (i, c) :: s.ctxs.filter fun e => e.1 ≠ i

/-- the atomic steps of pkg/proxywasm/plugin.go:157-326 and filter.go:34-53 -/
inductive Act where
  /-- `NewInstance` or `Start` fails (plugin.go:183-192) -/
  | startNone
  /-- `NewInstance`, `Start` and `startInstance` succeed, the instance is in the list (plugin.go:183-202) -/
  | startOk
  /-- `startInstance` fails in the code of the filter: its context was made and stored (plugin.go:194-197, 300-326) -/
  | startFail
  /-- `GetInstance` returns an instance to `NewFilterContext` (filter.go:35) -/
  | get (i : Nat)
  /-- `EnsureInstances` begins to drop an instance (plugin.go:172) -/
  | drop (i : Nat)
  /-- the `Load` of the call number `t` (plugin.go:247-251) -/
  | load (t : Nat)
  /-- the `Store` of the call number `t`, which returns (plugin.go:253-278) -/
  | store (t : Nat)
  /-- the end of `stopInstance`: the context is deleted if the code stopped without an error (plugin.go:288-295) -/
  | stopped (t : Nat) (ok : Bool)
deriving DecidableEq, Repr

/-- the transition function; the lines are cited at the steps -/
def exec (s : St) : Act → Option St
  | .startNone => some { s with made := s.made + 1 }
  | .startOk => some { s with list := s.list ++ [s.made], ctxs := s.store s.made s.madeCtx, made := s.made + 1, madeCtx := s.madeCtx + 1 }
  | .startFail => some { s with ctxs := s.store s.made s.madeCtx, made := s.made + 1, madeCtx := s.madeCtx + 1 }
  | .get i => if i ∈ s.list then some { s with threads := s.threads ++ [⟨i, false, .before⟩] } else none
  | .drop i => if i ∈ s.list then some { s with list := s.list.erase i, threads := s.threads ++ [⟨i, true, .before⟩] } else none
  | .load t => match s.threads[t]? with
    | some ⟨i, b, .before⟩ => match s.load i with
      | some c => some { s with threads := s.threads.set t ⟨i, b, .held c⟩, answers := (i, c, decide (i ∈ s.list)) :: s.answers }
      | none => some { s with threads := s.threads.set t ⟨i, b, .missed⟩ }
    | _ => none
  | .store t => match s.threads[t]? with
    | some ⟨i, b, .missed⟩ => some { s with ctxs := s.store i s.madeCtx, madeCtx := s.madeCtx + 1, threads := s.threads.set t ⟨i, b, .held s.madeCtx⟩, answers := (i, s.madeCtx, decide (i ∈ s.list)) :: s.answers }
    | _ => none
  | .stopped t ok => match s.threads[t]? with
    | some ⟨i, true, .held c⟩ => some { s with ctxs := if ok then s.ctxs.filter fun e => e.1 ≠ i else s.ctxs, threads := s.threads.set t ⟨i, false, .held c⟩ }
    | _ => none

/-- runs with a condition on the steps -/
inductive Reach (g : St → Act → Prop) : St → Prop where
  | init : Reach g {}
  | step {s s' : St} {a : Act} : Reach g s → g s a → exec s a = some s' → Reach g s'

/-- a run, for the examples -/
def run (s : St) : List Act → Option St
  | [] => some s
  | a :: as => (exec s a).bind fun s' => run s' as

end Verif.Wasm.InstCtx
