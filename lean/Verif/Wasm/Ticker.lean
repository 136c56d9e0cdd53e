import Verif.Base
/-
Model of the tick timer of a filter: pkg/proxywasm/host.go:243-300 `SetTickPeriodMilliseconds`, `Done`,
pkg/proxywasm/common_properties.go:21-42, and how they are reached: every call into a Wasm instance, also the one that stops it
(pkg/proxywasm/utils.go:27-55, plugin.go:281-295), holds the lock of the instance.

One instance. A call into it is the program's (`none`) or that of a ticker (`some i`). Tickers and their channels have the same number.
When the timer of a ticker fires is arbitrary; a period is only positive or not. Whether the calls of the instance fail is not modelled,
because it makes no difference here. `Done` is called on behalf of the root context, whose properties hold the channel.
-/
namespace Verif.Wasm.Ticker

/-- as used in pkg/proxywasm/host.go -/
inductive T where
  /-- the goroutine has not registered its channel yet (host.go:255-267) -/
  | starting
  /-- in `select` -/
  | waiting
  /-- the timer has fired, waiting for the lock (host.go:275-277) -/
  | wants
  /-- in `proxy_on_tick` -/
  | ticking
  | stopped
deriving Repr, DecidableEq

/-- the state of pkg/proxywasm/host.go, with the environment and ghost fields -/
structure St where
  /-- who holds the lock of the instance -/
  lock : Option (Option Nat) := none
  /-- the holder is sending on this channel -/
  sending : Option Nat := none
  ts : List T := []
  /-- the property `ticker.done_channel` -/
  chan : Option Nat := none
  crashed : Bool := false
  /-- ghost: what has happened, newest first -/
  log : List (Sum Nat (Option Nat)) := []
deriving Repr, DecidableEq

/-- `Sum.inl i`: a tick of ticker `i` has begun; `Sum.inr c`: `Done` has returned, having stopped ticker `c` (none: there was no channel) specification / ghost trace; models no code -/
abbrev Ev := Sum Nat (Option Nat)

/-- the atomic steps and calls of pkg/proxywasm/host.go, and what the surroundings do; the lines are cited at the steps or in the transition function -/
inductive Act where
  /-- the program begins a call into the instance -/
  | enter
  | leave
  /-- the filter sets the period -/
  | setTick (period : Int)
  /-- `Done` -/
  | done
  /-- a ticker begins, its timer fires, it gets the lock, its tick ends, it receives from its channel -/
  | start (i : Nat)
  | fire (i : Nat)
  | take (i : Nat)
  | give (i : Nat)
  | recv (i : Nat)
deriving Repr, DecidableEq

/-- the instance executes something and is not blocked; (pkg/proxywasm/host.go) -/
def St.busy (s : St) : Prop := s.lock.isSome ∧ s.sending = none
instance (s : St) : Decidable s.busy := inferInstanceAs (Decidable (_ ∧ _))

/-- the transition function of the steps (pkg/proxywasm/host.go); the lines are cited at the steps or at the cases -/
def exec (s : St) (a : Act) : Option St :=
  if s.crashed then none else
  match a with
  | .enter => if s.lock = none then some { s with lock := some none } else none
  | .leave => if s.lock = some none ∧ s.sending = none then some { s with lock := none } else none
  | .setTick p => if s.busy then
      -- host.go:256-257: `time.NewTicker` panics for a period that is not positive
      if 0 < p then some { s with ts := s.ts ++ [.starting] } else some { s with crashed := true }
    else none
  | .done => if s.busy then
      match s.chan with
      | some c => some { s with sending := some c }
      | none => some { s with log := .inr none :: s.log }
    else none
  | .start i => if s.ts[i]? = some .starting then some { s with ts := s.ts.set i .waiting, chan := some i } else none
  | .fire i => if s.ts[i]? = some .waiting then some { s with ts := s.ts.set i .wants } else none
  | .take i => if s.ts[i]? = some .wants ∧ s.lock = none then
      some { s with ts := s.ts.set i .ticking, lock := some (some i), log := .inl i :: s.log } else none
  | .give i => if s.ts[i]? = some .ticking ∧ s.lock = some (some i) ∧ s.sending = none then
      some { s with ts := s.ts.set i .waiting, lock := none } else none
  | .recv i => if s.ts[i]? = some .waiting ∧ s.sending = some i then
      some { s with ts := s.ts.set i .stopped, sending := none, log := .inr (some i) :: s.log } else none

/-- runs whose actions all satisfy a guard; specification / ghost trace; models no code -/
inductive Reach (g : St → Act → Prop) : St → St → Prop where
  | refl {s} : Reach g s s
  | step {s s' s'' a} : Reach g s s' → g s' a → exec s' a = some s'' → Reach g s s''

/-- as used in pkg/proxywasm/host.go -/
def Any : St → Act → Prop := fun _ _ => True

end Verif.Wasm.Ticker
