/-
Model of the keepalive of a control stream: `/repo/pkg/network/tunnel/server/stream.go:61-65, 78-124` (`NewControlStream`, `Close`, `keepalive`,
`pong`), with the time in milliseconds.

Timers fire in time and goroutines run at once: the time does not pass while a timer is due or a fired `keepalive` has not run. Within one
instant everything may happen in any order. Simplifications: a pong is handled when it arrives; a failed ping is only logged
(stream.go:62-64, 99-101), so its outcome is left out; the fields are read and written without synchronisation, which is not modelled.
-/
namespace Verif.Tunnel.Keep

/-- a control stream (server/stream.go:29-43) -/
structure St where
  now : Nat := 0
  /-- `lastPong`, none: zero -/
  lastPong : Option Nat := none
  /-- when `keepaliveTimer` fires, none: not set, fired or stopped -/
  timer : Option Nat := none
  /-- `keepalive` was started and has not run: at first by `NewControlStream` (stream.go:61-65), later by the timer -/
  running : Bool := true
  closed : Bool := false
  /-- when pings were sent, newest first -/
  pings : List Nat := []
  /-- when pongs came, newest first -/
  pongs : List Nat := []
  /-- when `keepalive` closed the stream -/
  cuts : List Nat := []
deriving DecidableEq, Repr

/-- the steps; lines at the transition function (server/stream.go) -/
inductive Act where
  | tick | fire | body | pong | close
deriving DecidableEq, Repr

/-- `Close` (stream.go:78-85) -/
def St.close (s : St) : St := { s with timer := none, closed := true }

/-- `keepalive` (stream.go:87-116) -/
def St.keepalive (T : Nat) (s : St) : St :=
  if T = 0 then s
  else
    let p := s.lastPong.getD s.now
    let s := { s with lastPong := some p, timer := some (s.now + 1000) }
    if T < s.now - p then { s.close with cuts := s.now :: s.cuts } else { s with pings := s.now :: s.pings }

/-- one step (server/stream.go); `T`: the keepalive timeout -/
def exec (T : Nat) (s : St) : Act → Option St
  -- the time passes
  | .tick => if s.running = true ∨ (∃ d ∈ s.timer, d ≤ s.now) then none else some { s with now := s.now + 1 }
  -- the timer starts the function given to `AfterFunc` (stream.go:98-102)
  | .fire => if ∃ d ∈ s.timer, d ≤ s.now then some { s with timer := none, running := true } else none
  | .body => if s.running then some { s.keepalive T with running := false } else none
  -- `pong` (stream.go:118-124)
  | .pong => if s.closed then none else some { s with lastPong := some s.now, pongs := s.now :: s.pongs }
  -- closed by the session or the peer (session.go:147-151)
  | .close => some s.close

/-- reachable states of runs whose steps all meet the guard (specification; models no code) -/
inductive Reach (T : Nat) (guard : St → Act → Prop) : St → Prop
  | init : Reach T guard {}
  | step {s s' : St} {a : Act} : Reach T guard s → guard s a → exec T s a = some s' → Reach T guard s'

/-- runs (specification; models no code) -/
def run (T : Nat) : St → List Act → Option St
  | s, [] => some s
  | s, a :: as => match exec T s a with
    | some s' => run T s' as
    | none => none

end Verif.Tunnel.Keep
