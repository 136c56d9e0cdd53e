import Verif.Tunnel.Sessions
/-
Model of `/repo/pkg/network/listener/multi_listener.go` (the whole file except logging,
`AddListeners`, which is a loop over `AddListener`, and nil listeners): `AddListener`,
`RemoveListener`, `Accept`, `Close`, the goroutine of every added listener and the goroutine that
closes it, as an interleaving of their atomic steps (one operation on the `sync.Map`, one
load/store of `closed`, one channel operation, one call of the wrapped listener).

Threads, listeners, registration keys and connections are numbers.  The `n`-th successful
`AddListener` makes registration `n`.  What a wrapped listener's `Accept` returns — a connection, or
an error other than `net.ErrClosed`, which the code passes on in the same way — is one number, fresh
for every call.
-/
namespace Verif.Net
open Verif.Tunnel (upd)

/-- The listeners of the program: `key l` is `getID` of the listener itself (multi_listener.go:222-232,
its `ID()` if it has one and its address otherwise), `addr l` is `Addr().String()`. -/
structure Lis where
  key : Nat → Nat
  addr : Nat → Nat

/-- Where the goroutine of a registration (multi_listener.go:193-220) is: in `lis.Accept()`, about to send
what it got, or gone. -/
inductive Gor where
  | accepting
  | holding (c : Nat)
  | gone
deriving Repr, DecidableEq

/-- One `*listener` (multi_listener.go:56-61) with its goroutine. -/
structure Reg where
  lid : Nat
  /-- `ctxc` was called -/
  cancelled : Bool
  gor : Gor
deriving Repr, DecidableEq

/-- What a caller of the multi-listener is in the middle of. (pkg/network/listener/multi_listener.go) -/
inductive Op where
  | idle
  /-- between `Load` (:108) and `Store` (:117) -/
  | adding (l : Nat)
  /-- past the check at :140, receiving at :145 -/
  | accepting
  /-- the listeners `Close` has still to remove (:171-173) -/
  | closing (ls : List Nat)
  /-- between `close(acceptChan)` (:175) and `closed.Store(true)` (:177) -/
  | closingEnd
deriving Repr, DecidableEq

/-- What the callers and the wrapped listeners see. specification / ghost trace; models no code -/
inductive MEv where
  /-- `AddListener l` succeeded as registration `r` -/
  | added (r l : Nat)
  /-- … failed with ErrListenerAlreadyExists -/
  | dup (l : Nat)
  /-- registration `r` was taken out and cancelled -/
  | removed (r : Nat)
  /-- the goroutine of `r` got `c` from its listener -/
  | arrived (c r : Nat)
  /-- `Accept` returned `c` of registration `r` -/
  | returned (c r : Nat)
  /-- the wrapped listener `l` was closed -/
  | netClosed (l : Nat)
  /-- a call failed with ErrListenerClosed -/
  | refused
  /-- `Close` returned nil -/
  | closed
  /-- send on or close of a closed channel -/
  | panicked
deriving Repr, DecidableEq

/-- the state of pkg/network/listener/multi_listener.go, with the environment and ghost fields -/
structure MSt where
  regs : List Reg
  /-- `listeners`: key → registration -/
  map : List (Nat × Nat)
  /-- `acceptChan`, capacity 1: (connection, registration) -/
  chan : Option (Nat × Nat)
  chanClosed : Bool
  /-- `closed` -/
  closed : Bool
  netClosed : Nat → Bool
  op : Nat → Op
  /-- number of connections so far -/
  nc : Nat
  panicked : Bool
  /-- newest first -/
  tr : List MEv

/-- `NewMultiListener` (multi_listener.go:71-87). -/
def MSt.init : MSt :=
  { regs := [], map := [], chan := none, chanClosed := false, closed := false
    netClosed := fun _ => false, op := fun _ => .idle, nc := 0, panicked := false, tr := [] }

/-- the atomic steps and calls of pkg/network/listener/multi_listener.go, and what the surroundings do; the lines are cited at the steps or in the transition function -/
inductive MAct where
  | add (t l : Nat)
  | store (t : Nat)
  | remove (l : Nat)
  | acceptCall (t : Nat)
  | acceptRecv (t : Nat)
  | closeCall (t : Nat)
  | closeRemove (t : Nat)
  | closeChan (t : Nat)
  | closeEnd (t : Nat)
  | incoming (r : Nat)
  | send (r : Nat)
  | stop (r : Nat)
  | netClose (r : Nat)
deriving Repr, DecidableEq

/-- `listeners.Load`; (pkg/network/listener/multi_listener.go) -/
def MSt.lookup (st : MSt) (k : Nat) : Option Nat := (st.map.find? fun e => e.1 == k).map (·.2)

/-- update of a component; models no code -/
def setReg (regs : List Reg) (r : Nat) (f : Reg → Reg) : List Reg := regs.modify r f

/-- `RemoveListener` for a listener whose `getID` is `k` (multi_listener.go:128-137). -/
def MSt.del (st : MSt) (k : Nat) : MSt :=
  match st.lookup k with
  | none => st
  | some r =>
    { st with map := st.map.filter (fun e => e.1 != k)
              regs := setReg st.regs r (fun g => { g with cancelled := true })
              tr := .removed r :: st.tr }

/-- One atomic step.  Nothing happens any more after a panic. the transition function of the steps (pkg/network/listener/multi_listener.go); the lines are cited at the cases -/
def mexec (L : Lis) (st : MSt) (a : MAct) : Option MSt :=
  if st.panicked then none else
  match a with
  -- AddListener, multi_listener.go:105-123
  | .add t l =>
    if st.op t = .idle then
      if st.closed then some { st with tr := .refused :: st.tr }
      else match st.lookup (L.key l) with
        | some _ => some { st with tr := .dup l :: st.tr }
        | none => some { st with op := upd st.op t (.adding l) }
    else none
  -- multi_listener.go:112-121: the new registration and `Store`, which overwrites
  | .store t =>
    match st.op t with
    | .adding l =>
      some { st with op := upd st.op t .idle
                     regs := st.regs ++ [{ lid := l, cancelled := false, gor := .accepting }]
                     map := (L.key l, st.regs.length) :: st.map.filter (fun e => e.1 != L.key l)
                     tr := .added st.regs.length l :: st.tr }
    | _ => none
  -- RemoveListener called by the user
  | .remove l => some (st.del (L.key l))
  -- Accept, multi_listener.go:139-156
  | .acceptCall t =>
    if st.op t = .idle then
      if st.closed then some { st with tr := .refused :: st.tr }
      else some { st with op := upd st.op t .accepting }
    else none
  | .acceptRecv t =>
    if st.op t = .accepting then
      match st.chan with
      | some (c, r) => some { st with op := upd st.op t .idle, chan := none, tr := .returned c r :: st.tr }
      | none =>
        if st.chanClosed then some { st with op := upd st.op t .idle, tr := .refused :: st.tr }
        else none
    else none
  -- Close, multi_listener.go:158-182; the range over the map is one step here
  | .closeCall t =>
    if st.op t = .idle then
      if st.closed then some { st with tr := .refused :: st.tr }
      else some { st with op := upd st.op t
                            (.closing (st.map.filterMap fun e => st.regs[e.2]?.map (·.lid))) }
    else none
  -- `RemoveListener` of the stored `*listener`, which has no `ID()`: its key is the address
  | .closeRemove t =>
    match st.op t with
    | .closing (l :: ls) => some { st.del (L.addr l) with op := upd st.op t (.closing ls) }
    | _ => none
  | .closeChan t =>
    match st.op t with
    | .closing [] =>
      if st.chanClosed then some { st with panicked := true, tr := .panicked :: st.tr }
      else some { st with op := upd st.op t .closingEnd, chanClosed := true }
    | _ => none
  | .closeEnd t =>
    match st.op t with
    | .closingEnd => some { st with op := upd st.op t .idle, closed := true, tr := .closed :: st.tr }
    | _ => none
  -- startListener, multi_listener.go:193-220
  | .incoming r =>
    match st.regs[r]? with
    | some { lid := l, cancelled := _, gor := .accepting } =>
      if st.netClosed l then none
      else some { st with regs := setReg st.regs r (fun g => { g with gor := .holding st.nc })
                          nc := st.nc + 1, tr := .arrived st.nc r :: st.tr }
    | _ => none
  | .send r =>
    match st.regs[r]? with
    | some { lid := _, cancelled := _, gor := .holding c } =>
      if st.chanClosed then some { st with panicked := true, tr := .panicked :: st.tr }
      else if st.chan.isNone then
        some { st with regs := setReg st.regs r (fun g => { g with gor := .accepting }), chan := some (c, r) }
      else none
    | _ => none
  | .stop r =>
    match st.regs[r]? with
    | some { lid := l, cancelled := _, gor := .accepting } =>
      if st.netClosed l then some { st with regs := setReg st.regs r (fun g => { g with gor := .gone }) }
      else none
    | _ => none
  -- the goroutine at multi_listener.go:197-202
  | .netClose r =>
    match st.regs[r]? with
    | some { lid := l, cancelled := true, gor := _ } =>
      some { st with netClosed := upd st.netClosed l true, tr := .netClosed l :: st.tr }
    | _ => none

/-- Executions whose every step satisfies `guard` in the state it is taken in. specification / ghost trace; models no code -/
inductive MReach (L : Lis) (guard : MSt → MAct → Prop) : MSt → Prop where
  | init : MReach L guard .init
  | step {st a st'} : MReach L guard st → guard st a → mexec L st a = some st' → MReach L guard st'

/-- All executions. specification / ghost trace; models no code -/
abbrev MAll : MSt → MAct → Prop := fun _ _ => True

end Verif.Net
