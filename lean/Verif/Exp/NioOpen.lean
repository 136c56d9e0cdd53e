import Verif.Exp.NioConn
/-
Model of experimental/java/main.go, part 3: asynchronous accepting and dialing.
The events of the selector's queue that matter here are those of the modelled listener or dialer; all others (of other
channels and wake-ups) are `Ev.other`. Connections are numbered. Merging of the events of one key in `Select` is `merged`.
-/
namespace Verif.Nio
open Verif Verif.Kafka

/-- an event in the queue of a `Selector` (experimental/java/main.go:124-131): one of the modelled channel, or another one -/
inductive Ev where
  | mine (key : Nat)
  | other
deriving DecidableEq, Repr

/-! ### accepting -/

/-- where an accepting goroutine (main.go:319-334) is -/
inductive APhase where
  | accept            -- main.go:321
  | put (c : Nat)     -- main.go:330
  | notify            -- main.go:332
  | finished
deriving DecidableEq, Repr

/-- state of a `TCPListener` (experimental/java/main.go:70-79) with its selector and ghost fields -/
structure ASt where
  /-- connections waiting in the underlying listener, oldest first -/
  backlog : List Nat := []
  terminated : Bool := false
  inProg : Bool := false
  accs : List (Nat × APhase) := []
  /-- `asyncConnection` -/
  chan : List Nat := []
  queue : List Ev := []
  /-- ghost: connections that arrived; connections `AsyncAccept` returned; a report of the key to the caller that it has not
  answered with `AsyncAccept` -/
  arrived : List Nat := []
  handed : List Nat := []
  owed : Bool := false

/-- the atomic steps of experimental/java/main.go:315-335, experimental/java/main.go:337-344, experimental/java/main.go:289-298, experimental/java/main.go:145-209 and of the environment -/
inductive AAct where
  | arrive (c : Nat)
  /-- main.go:316-319 `StartAsyncAccept` -/
  | start (key : Nat)
  /-- main.go:321: a connection is accepted -/
  | accept (i : Nat)
  /-- main.go:322-328: an error -/
  | fail (i : Nat)
  | put (i : Nat)
  | notify (i : Nat)
  /-- main.go:337-344 `AsyncAccept` -/
  | asyncAccept
  /-- main.go:184-205: `Select` empties the queue and reports -/
  | drain
  | other
  /-- main.go:289-297 `Close` -/
  | close

/-- replaces the phase of one accepting goroutine; models no code -/
def setA (l : List (Nat × APhase)) (i : Nat) (p : APhase) : List (Nat × APhase) := l.modify i fun r => (r.1, p)

/-- main.go:280: the capacity of `asyncConnection` -/
def acceptCap : Nat := 1

/-- the transition relation of the steps of `AAct`; the lines are cited at the constructors of `APhase` and `AAct` -/
def aexec (s : ASt) : AAct → Option ASt
  | .arrive c => if s.terminated then none else some { s with backlog := s.backlog ++ [c], arrived := s.arrived ++ [c] }
  | .start k => if s.inProg then some s else some { s with inProg := true, accs := s.accs ++ [(k, .accept)] }
  | .accept i => match s.accs[i]?, s.backlog with
    | some (_, .accept), c :: r => if s.terminated then none else some { s with backlog := r, accs := setA s.accs i (.put c) }
    | _, _ => none
  | .fail i => match s.accs[i]? with
    | some (_, .accept) => if s.terminated then some { s with inProg := false, accs := setA s.accs i .finished } else some s
    | _ => none
  | .put i => match s.accs[i]? with
    | some (_, .put c) =>
      if s.chan.length < acceptCap then some { s with chan := s.chan ++ [c], accs := setA s.accs i .notify } else none
    | _ => none
  | .notify i => match s.accs[i]? with
    | some (k, .notify) =>
      if s.queue.length < queueCap then some { s with queue := s.queue ++ [.mine k], accs := setA s.accs i .accept } else none
    | _ => none
  | .asyncAccept => match s.chan with
    | c :: r => some { s with chan := r, handed := s.handed ++ [c], owed := false }
    | [] => some { s with owed := false }
  | .drain => some { s with queue := [], owed := s.owed || s.queue.any (· ≠ .other) }
  | .other => if s.queue.length < queueCap then some { s with queue := s.queue ++ [.other] } else none
  | .close => some { s with terminated := true }

/-- a run of steps; models no code -/
def aruns : List AAct → ASt → Option ASt
  | [], s => some s
  | a :: as, s => (aexec s a).bind (aruns as)

/-! ### dialing -/

/-- where a dialing goroutine (main.go:574-586) is -/
inductive DPhase where
  | dial                -- main.go:575
  | append (c : Nat)    -- main.go:581-583
  | notify              -- main.go:585
  | finished
deriving DecidableEq, Repr

/-- state of a `TCPDialer` (experimental/java/main.go:551-558) with its selector and ghost fields -/
structure DSt where
  dials : List (Nat × DPhase) := []
  /-- `asyncConnections`, each with the key it was dialed for (the key is ghost) -/
  conns : List (Nat × Nat) := []
  queue : List Ev := []
  /-- ghost: connections in the order they were appended; what `AsyncDial` returned; reports not answered yet -/
  completed : List (Nat × Nat) := []
  handed : List (Nat × Nat) := []
  owed : List Nat := []

/-- the atomic steps of experimental/java/main.go:573-587, experimental/java/main.go:589-600, experimental/java/main.go:145-209 and of the environment -/
inductive DAct where
  /-- main.go:573-574 `StartAsyncDial` -/
  | start (key : Nat)
  | connected (i c : Nat)
  /-- main.go:576-579 -/
  | failed (i : Nat)
  | append (i : Nat)
  | notify (i : Nat)
  /-- main.go:589-600 `AsyncDial` called for a report of `key` -/
  | asyncDial (key : Nat)
  | drain
  | other

/-- replaces the phase of one dialing goroutine; models no code -/
def setD (l : List (Nat × DPhase)) (i : Nat) (p : DPhase) : List (Nat × DPhase) := l.modify i fun r => (r.1, p)

/-- main.go:184-197: one report for each key, however many events it has -/
def merged : List Ev → List Nat → List Nat
  | [], acc => acc
  | .other :: r, acc => merged r acc
  | .mine k :: r, acc => merged r (if k ∈ acc then acc else acc ++ [k])

/-- the transition relation of the steps of `DAct`; the lines are cited at the constructors of `DPhase` and `DAct` -/
def dexec (s : DSt) : DAct → Option DSt
  | .start k => some { s with dials := s.dials ++ [(k, .dial)] }
  | .connected i c => match s.dials[i]? with
    | some (_, .dial) => some { s with dials := setD s.dials i (.append c) }
    | _ => none
  | .failed i => match s.dials[i]? with
    | some (_, .dial) => some { s with dials := setD s.dials i .finished }
    | _ => none
  | .append i => match s.dials[i]? with
    | some (k, .append c) => some { s with
        conns := s.conns ++ [(k, c)], completed := s.completed ++ [(k, c)], dials := setD s.dials i .notify }
    | _ => none
  | .notify i => match s.dials[i]? with
    | some (k, .notify) =>
      if s.queue.length < queueCap then some { s with queue := s.queue ++ [.mine k], dials := setD s.dials i .finished } else none
    | _ => none
  | .asyncDial k => match s.conns with
    | c :: r => some { s with conns := r, handed := s.handed ++ [c], owed := s.owed.erase k }
    | [] => some { s with owed := s.owed.erase k }
  | .drain => some { s with queue := [], owed := s.owed ++ merged s.queue [] }
  | .other => if s.queue.length < queueCap then some { s with queue := s.queue ++ [.other] } else none

/-- a run of steps; models no code -/
def druns : List DAct → DSt → Option DSt
  | [], s => some s
  | a :: as, s => (dexec s a).bind (druns as)

end Verif.Nio
