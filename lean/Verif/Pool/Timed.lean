import Verif.Base
/-
Model of the clocks of the connection pool (`/repo/pkg/network/pool/channel.go`, `/repo/pkg/network/pool/conn.go`): the pool's
own idle timeout with its one-second ticker, the idle timers of the pooled connections, and the creation of the initial
connections. The interleaving of the callers inside `Get` and `Put` is the subject of `Verif.Pool.Channel`; here `Get`, `Put`
and `Close` are one step each, and what is kept apart is the decision of the idle check and the `Close` that follows it.

Time is counted in milliseconds. Timers and tickers fire when they are due: time does not advance past a due timer
(goroutines that are scheduled late only make things later). A connection whose timer fired is taken out of the channel at
once; the code marks it closed and removes it before the channel is looked at again (channel.go:262-286).
-/
namespace Verif.Pool.Timed

/-- what happened, with the time, newest first; specification / ghost trace; models no code -/
inductive Ev
  /-- the pool was created (channel.go:112-114; the time is the one stored in `lastUsedAt`) -/
  | made
  /-- connection `c` was created and put into the pool by `NewChannelPool` -/
  | initial (c : Nat)
  /-- `Get` returned connection `c` -/
  | got (c : Nat)
  /-- `Get` returned an error -/
  | getErr
  /-- `Put` took connection `c` back and keeps it -/
  | kept (c : Nat)
  /-- `Put` closed connection `c` -/
  | refused (c : Nat)
  /-- a caller closed connection `c` after a failed read: it is closed without `Put` (conn.go:37-40) -/
  | dropped (c : Nat)
  /-- the idle timer of connection `c` closed it -/
  | expired (c : Nat)
  /-- the pool was closed because it was idle -/
  | idleClosed
  /-- the pool was closed by its user -/
  | closed
deriving Repr, DecidableEq

/-- the state of pkg/network/pool/channel.go and conn.go, with the environment and ghost fields -/
structure St where
  now : Nat
  /-- `idleTimeout`, `connectionIdleTimeout`, `maxCap` -/
  idleTO : Nat
  connTO : Nat
  cap : Nat
  /-- `c.conns != nil` -/
  isOpen : Bool
  /-- `lastUsedAt` -/
  lastUsed : Nat
  /-- when the ticker of `handleIdleTimeout` fires next; none: the goroutine has ended -/
  nextTick : Option Nat
  /-- the idle check found the timeout elapsed and is about to call `Close` (channel.go:303-305) -/
  pend : Bool
  /-- the connections in the channel, oldest first, with the time their idle timer fires -/
  idle : List (Nat × Option Nat)
  /-- the connections callers have -/
  out : List Nat
  nextC : Nat
  tr : List (Nat × Ev)

/-- `NewChannelPool` (channel.go:111-151) when the factory succeeds: `lastUsedAt` is read first (114), then the initial
connections are made, which takes `d` milliseconds altogether, and put into the channel without an idle timer (142: no
`Release`), then the goroutine with the ticker starts (148, 310). -/
def St.init (idleTO connTO cap n d : Nat) : St :=
  { now := d, idleTO := idleTO, connTO := connTO, cap := cap, isOpen := true, lastUsed := 0
    nextTick := some (d + 1000), pend := false
    idle := (List.range n).map (fun c => (c, none)), out := [], nextC := n
    tr := ((List.range n).map (fun c => (d, Ev.initial c))) ++ [(0, Ev.made)] }

/-- the atomic steps and calls of pkg/network/pool/channel.go and conn.go, and what the surroundings do; the lines are cited at the steps or in the transition function -/
inductive Act
  /-- a millisecond passes -/
  | tick
  /-- `Get`; `ok`: the factory, if it is called, succeeds (channel.go:156-180) -/
  | get (ok : Bool)
  /-- `Close` of a connection that did not fail, i.e. `Put` (channel.go:184-216) -/
  | put (c : Nat)
  /-- `Close` of a connection a read of which failed (conn.go:37-40, 59-68) -/
  | drop (c : Nat)
  /-- the ticker of `handleIdleTimeout` fires (channel.go:300-320) -/
  | check
  /-- … and its `c.Close()` (channel.go:305) -/
  | idleClose
  /-- `Close` by the user (channel.go:220-247) -/
  | close
  /-- the idle timer of the connection `c` (conn.go:93-103) -/
  | expire (c : Nat)
deriving Repr, DecidableEq

/-- is a timer due?; specification / ghost trace; models no code -/
def St.due (st : St) : Bool :=
  st.nextTick == some st.now || st.pend || st.idle.any (fun e => e.2 == some st.now)

/-- the transition function of the steps (pkg/network/pool/channel.go and conn.go); the lines are cited at the steps or at the cases -/
def exec (st : St) : Act → Option St
  | .tick => if st.due then none else some { st with now := st.now + 1 }
  | .get ok =>
    if st.isOpen then
      match st.idle with
      | (c, _) :: rest => some { st with
          lastUsed := st.now, idle := rest, out := c :: st.out, tr := (st.now, .got c) :: st.tr }
      | [] =>
        if ok then some { st with
          lastUsed := st.now, out := st.nextC :: st.out, nextC := st.nextC + 1
          tr := (st.now, .got st.nextC) :: st.tr }
        else some { st with lastUsed := st.now, tr := (st.now, .getErr) :: st.tr }
    else some { st with lastUsed := st.now, tr := (st.now, .getErr) :: st.tr }
  | .put c =>
    if c ∈ st.out then
      if st.isOpen && st.idle.length < st.cap then
        some { st with
          lastUsed := st.now, out := st.out.filter (· != c)
          -- conn.go:84-87: a timer only if idleTimeout > 0
          idle := st.idle ++ [(c, if 0 < st.connTO then some (st.now + st.connTO) else none)]
          tr := (st.now, .kept c) :: st.tr }
      else some { st with
          lastUsed := st.now, out := st.out.filter (· != c), tr := (st.now, .refused c) :: st.tr }
    else none
  | .drop c =>
    if c ∈ st.out then
      some { st with out := st.out.filter (· != c), tr := (st.now, .dropped c) :: st.tr }
    else none
  | .check =>
    if st.nextTick = some st.now then
      if st.isOpen then some { st with
          nextTick := some (st.now + 1000)
          -- channel.go:303: `time.Since(c.lastUsedAt) > c.idleTimeout`
          pend := decide (st.idleTO < st.now - st.lastUsed) }
      else some { st with nextTick := none }
    else none
  | .idleClose =>
    if st.pend then
      if st.isOpen then
        some { st with pend := false, isOpen := false, idle := [], tr := (st.now, .idleClosed) :: st.tr }
      else some { st with pend := false }
    else none
  | .close =>
    if st.isOpen then some { st with isOpen := false, idle := [], tr := (st.now, .closed) :: st.tr }
    else some st
  | .expire c =>
    match st.idle.find? (fun e => e.1 == c) with
    | some (_, some t) => if t = st.now then some { st with
        idle := st.idle.filter (fun e => e.1 != c), tr := (st.now, .expired c) :: st.tr } else none
    | _ => none

/-- runs (specification; models no code) -/
inductive Reach (g : St → Act → Prop) (s0 : St) : St → Prop
  | init : Reach g s0 s0
  | step {st st' : St} (a : Act) : Reach g s0 st → g st a → exec st a = some st' → Reach g s0 st'

/-- no restriction; specification / ghost trace; models no code -/
def Free (_ : St) (_ : Act) : Prop := True

/-- Guard: nobody uses the pool between the decision of the idle check and the `Close` that follows it. specification / ghost trace; models no code -/
def Prompt (st : St) : Act → Prop
  | .get _ => st.pend = false
  | .put _ => st.pend = false
  | _ => True

/-! ### Specification, on the trace alone -/

/-- a use of the pool: its creation, a `Get`, or a `Put`; specification / ghost trace; models no code -/
def Ev.isUse : Ev → Bool
  | .made | .got _ | .getErr | .kept _ | .refused _ => true
  | _ => false

/-- the events about connection `c`; specification / ghost trace; models no code -/
def Ev.about (c : Nat) : Ev → Bool
  | .initial c' | .got c' | .kept c' | .refused c' | .dropped c' | .expired c' => c' == c
  | _ => false

/-- The last use before the end of the trace. specification / ghost trace; models no code -/
def lastUse (tr : List (Nat × Ev)) : Option Nat := (tr.find? (fun e => e.2.isUse)).map (·.1)

/-- The last event about a connection. specification / ghost trace; models no code -/
def lastOf (c : Nat) (tr : List (Nat × Ev)) : Option (Nat × Ev) := tr.find? (fun e => e.2.about c)

/-- Has the pool been closed?; specification / ghost trace; models no code -/
def closedIn (tr : List (Nat × Ev)) : Prop := ∃ t, (t, Ev.closed) ∈ tr ∨ (t, Ev.idleClosed) ∈ tr

/-- The pool is never closed for idleness unless its last use is more than the timeout ago. specification / ghost trace; models no code -/
def NotEarly (idleTO : Nat) (tr : List (Nat × Ev)) : Prop :=
  ∀ h1 h2 t s, tr = h1 ++ (t, .idleClosed) :: h2 → lastUse h2 = some s → s + idleTO < t

/-- No connection is dropped by its timer except exactly the timeout after it was put back. specification / ghost trace; models no code -/
def ConnExact (connTO : Nat) (tr : List (Nat × Ev)) : Prop :=
  ∀ h1 h2 t c, tr = h1 ++ (t, .expired c) :: h2 → ∃ s, lastOf c h2 = some (s, .kept c) ∧ t = s + connTO

end Verif.Pool.Timed
