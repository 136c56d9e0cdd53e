import Verif.Tunnel.Sessions
/-
Model of the connection pool (`/repo/pkg/network/pool/channel.go`,
`/repo/pkg/network/pool/conn.go`) as an interleaving system of goroutines calling `Get`,
`Put` (through `Close` of a pooled connection), `Close`, and of the idle timers.

Atomic actions: taking/releasing the mutex, one channel operation, one method of
`poolConnection` (`Discard`, `Acquire`, `Release`).

Simplifications: names, logging, `lastUsedAt` and the pool's own idle timeout (which just
calls `Close` from another goroutine) are left out; `Put` is only called through
`poolConnection.Close` with the wrapped connection, as in the code base; initial
connections are obtained by `Get`+`Close`; data transfer is not modelled, `failed` is an
arbitrary boolean.
-/
namespace Verif.Pool
open Verif.Tunnel (upd)

/-- Program counters. where a goroutine is (program counter in pkg/network/pool/channel.go and conn.go) -/
inductive PTh
  | idle
  /-- `Get` holding the mutex in `removeClosedConnections`, `n` receives left
  (channel.go:261-286) -/
  | gPrune (n : Nat)
  /-- … having received wrapper `w` (channel.go:281) -/
  | gHold (n : Nat) (w : Nat)
  /-- `Get` after unlocking; was `c.conns` non-nil? (channel.go:159-164) -/
  | gRecv (isOpen : Bool)
  /-- `Get` received wrapper `w`, next: `Acquire` (channel.go:165-170) -/
  | gAcq (w : Nat)
  /-- `Put(r)` waiting for the mutex (channel.go:192) -/
  | pWait (r : Nat)
  | pPrune (n : Nat) (r : Nat)
  | pHold (n : Nat) (w : Nat) (r : Nat)
  /-- `Put` has sent wrapper `w` to the channel, next: `wc.Release()` (channel.go:207-209) -/
  | pRel (w : Nat)
  /-- `Close` after setting `c.conns = nil`, next: `close(conns)` (channel.go:237) -/
  | cChan
  /-- `Close` draining the channel (channel.go:238-243) -/
  | cDrain
deriving Repr, DecidableEq

/-- Observable events, newest first. specification / ghost trace; models no code -/
inductive PEv
  /-- `Get` of goroutine `i` returned wrapper `w` of connection `r` -/
  | handed (i w r : Nat)
  /-- `Get` returned an error -/
  | getErr (i : Nat)
  /-- the caller gave connection `r` back by calling `Close` on wrapper `w` -/
  | back (w r : Nat)
  /-- `Close` of the pool returned nil / an error -/
  | closed
  | closeErr
deriving Repr, DecidableEq

/-- the state of pkg/network/pool/channel.go and conn.go, with the environment and ghost fields -/
structure PSt where
  /-- `maxCap`, the channel's capacity (channel.go:135) -/
  cap : Nat
  /-- buffered wrappers, oldest first -/
  buf : List Nat
  chClosed : Bool
  /-- `c.conns != nil` -/
  isOpen : Bool
  mu : Option Nat
  /-- `poolConnection.Conn` of a wrapper -/
  raw : Nat → Nat
  /-- `poolConnection.closed` -/
  wclosed : Nat → Bool
  /-- is the wrapper's idle timer running? -/
  timer : Nat → Bool
  /-- has the underlying connection been closed? -/
  rclosed : Nat → Bool
  /-- is the underlying connection's deadline in the past? -/
  past : Nat → Bool
  nextW : Nat
  nextR : Nat
  /-- ghost: handed out by `Get` and not given back yet -/
  own : Nat → Bool
  ths : Nat → PTh
  tr : List PEv

/-- `NewChannelPool` (channel.go:107-151) with `initialCap = 0`. -/
def PSt.init (cap : Nat) : PSt :=
  { cap := cap, buf := [], chClosed := false, isOpen := true, mu := none, raw := fun _ => 0
    wclosed := fun _ => false, timer := fun _ => false, rclosed := fun _ => false
    past := fun _ => false, nextW := 0, nextR := 0, own := fun _ => false
    ths := fun _ => .idle, tr := [] }

/-- `poolConnection.Discard` (conn.go:59-68): a no-op if already closed. -/
def PSt.discard (st : PSt) (w : Nat) : PSt :=
  if st.wclosed w then st
  else { st with timer := upd st.timer w false, wclosed := upd st.wclosed w true
                 rclosed := upd st.rclosed (st.raw w) true }

/-- the atomic steps and calls of pkg/network/pool/channel.go and conn.go, and what the surroundings do; the lines are cited at the steps or in the transition function -/
inductive PAct
  /-- channel.go:262-274 (Get) -/
  | getLock (i : Nat)
  /-- channel.go:281, by `Get` or `Put` -/
  | pruneRecv (i : Nat)
  /-- channel.go:282-284 -/
  | pruneBack (i : Nat)
  /-- channel.go:266-269 -/
  | getUnlock (i : Nat)
  /-- channel.go:160-179: receive, or fail, or make a new connection (`ok`: the factory
  succeeds) -/
  | getRecv (i : Nat) (ok : Bool)
  /-- channel.go:170-172, conn.go:76-81 -/
  | getAcq (i : Nat)
  /-- a caller calls `Close` on wrapper `w` it got from `Get` (conn.go:37-43) -/
  | userClose (i : Nat) (w : Nat) (failed : Bool)
  /-- channel.go:192-195,274 -/
  | putLock (i : Nat)
  /-- channel.go:197-214 up to the channel operation -/
  | putSend (i : Nat)
  /-- channel.go:209-210, conn.go:84-91 -/
  | putRel (i : Nat)
  /-- the idle timer of wrapper `w` fires (conn.go:100-102) -/
  | timerFire (w : Nat)
  /-- channel.go:221-235 -/
  | closeStart (i : Nat)
  /-- channel.go:237 -/
  | closeChan (i : Nat)
  /-- channel.go:238-246: one iteration; `err`: closing the connection fails -/
  | drain (i : Nat) (err : Bool)
deriving Repr, DecidableEq

/-- One atomic action; `none` if it is not enabled (e.g. blocked). the transition function of the steps (pkg/network/pool/channel.go and conn.go); the lines are cited at the steps -/
def pexec (st : PSt) : PAct → Option PSt
  | .getLock i =>
    match st.ths i, st.mu with
    | .idle, none => some { st with
        mu := some i, ths := upd st.ths i (.gPrune (if st.isOpen then st.buf.length else 0)) }
    | _, _ => none
  | .pruneRecv i =>
    match st.ths i, st.buf with
    | .gPrune (n + 1), w :: rest => some { st with buf := rest, ths := upd st.ths i (.gHold n w) }
    | .pPrune (n + 1) r, w :: rest => some { st with buf := rest, ths := upd st.ths i (.pHold n w r) }
    | _, _ => none
  | .pruneBack i =>
    match st.ths i with
    | .gHold n w =>
      if st.wclosed w then some { st with ths := upd st.ths i (.gPrune n) }
      else if st.buf.length < st.cap then
        some { st with buf := st.buf ++ [w], ths := upd st.ths i (.gPrune n) }
      else none
    | .pHold n w r =>
      if st.wclosed w then some { st with ths := upd st.ths i (.pPrune n r) }
      else if st.buf.length < st.cap then
        some { st with buf := st.buf ++ [w], ths := upd st.ths i (.pPrune n r) }
      else none
    | _ => none
  | .getUnlock i =>
    match st.ths i with
    | .gPrune 0 => some { st with mu := none, ths := upd st.ths i (.gRecv st.isOpen) }
    | _ => none
  | .getRecv i ok =>
    match st.ths i with
    | .gRecv false => some { st with ths := upd st.ths i .idle, tr := .getErr i :: st.tr }
    | .gRecv true =>
      match st.buf with
      | w :: rest => some { st with buf := rest, ths := upd st.ths i (.gAcq w) }
      | [] =>
        if st.chClosed then some { st with ths := upd st.ths i .idle, tr := .getErr i :: st.tr }
        else if ok then
          some { st with
            raw := upd st.raw st.nextW st.nextR, own := upd st.own st.nextW true
            nextW := st.nextW + 1, nextR := st.nextR + 1
            ths := upd st.ths i .idle, tr := .handed i st.nextW st.nextR :: st.tr }
        else some { st with ths := upd st.ths i .idle, tr := .getErr i :: st.tr }
    | _ => none
  | .getAcq i =>
    match st.ths i with
    | .gAcq w => some { st with
        past := upd st.past (st.raw w) false, timer := upd st.timer w false
        own := upd st.own w true, ths := upd st.ths i .idle
        tr := .handed i w (st.raw w) :: st.tr }
    | _ => none
  | .userClose i w failed =>
    match st.ths i with
    | .idle =>
      if failed then
        some { st.discard w with own := upd st.own w false, tr := .back w (st.raw w) :: st.tr }
      else some { st with ths := upd st.ths i (.pWait (st.raw w)), own := upd st.own w false
                          tr := .back w (st.raw w) :: st.tr }
    | _ => none
  | .putLock i =>
    match st.ths i, st.mu with
    | .pWait r, none => some { st with
        mu := some i, ths := upd st.ths i (.pPrune (if st.isOpen then st.buf.length else 0) r) }
    | _, _ => none
  | .putSend i =>
    match st.ths i with
    | .pPrune 0 r =>
      if st.isOpen then
        if st.buf.length < st.cap then
          some { st with
            raw := upd st.raw st.nextW r, nextW := st.nextW + 1
            buf := st.buf ++ [st.nextW], ths := upd st.ths i (.pRel st.nextW) }
        else some { st with rclosed := upd st.rclosed r true, mu := none, ths := upd st.ths i .idle }
      else some { st with rclosed := upd st.rclosed r true, mu := none, ths := upd st.ths i .idle }
    | _ => none
  | .putRel i =>
    match st.ths i with
    | .pRel w => some { st with
        timer := upd st.timer w true, past := upd st.past (st.raw w) true
        mu := none, ths := upd st.ths i .idle }
    | _ => none
  | .timerFire w =>
    if st.timer w then some ({ st with timer := upd st.timer w false }.discard w) else none
  | .closeStart i =>
    match st.ths i with
    | .idle =>
      if st.isOpen then
        if st.mu = none then some { st with isOpen := false, ths := upd st.ths i .cChan }
        else none
      else some { st with tr := .closed :: st.tr }
    | _ => none
  | .closeChan i =>
    match st.ths i with
    | .cChan => some { st with chClosed := true, ths := upd st.ths i .cDrain }
    | _ => none
  | .drain i err =>
    match st.ths i, st.buf with
    | .cDrain, w :: rest =>
      if err && !st.wclosed w then
        some { ({ st with buf := rest }).discard w with
                ths := upd st.ths i .idle, tr := .closeErr :: st.tr }
      else some (({ st with buf := rest }).discard w)
    | .cDrain, [] => some { st with ths := upd st.ths i .idle, tr := .closed :: st.tr }
    | _, _ => none

/-- runs (specification; models no code) -/
inductive PReach (g : PSt → PAct → Prop) (cap : Nat) : PSt → Prop
  | init : PReach g cap (PSt.init cap)
  | step {st st' : PSt} (a : PAct) : PReach g cap st → g st a → pexec st a = some st' →
      PReach g cap st'

/-! ### Specification -/

/-- Is connection `r` in the hands of a caller after the events `h` (newest first)?; specification / ghost trace; models no code -/
def outAfter : List PEv → Nat → Bool
  | [], _ => false
  | .handed _ _ r' :: h, r => if r' = r then true else outAfter h r
  | .back _ r' :: h, r => if r' = r then false else outAfter h r
  | _ :: h, r => outAfter h r

/-- No connection is handed out while it is in a caller's hands. specification / ghost trace; models no code -/
def Exclusive (tr : List PEv) : Prop :=
  ∀ h1 h2 i w r, tr = h1 ++ .handed i w r :: h2 → outAfter h2 r = false

/-- Guard: callers close a connection they got from `Get` once (and only those). specification / ghost trace; models no code -/
def CloseOnce (st : PSt) : PAct → Prop
  | .userClose _ w _ => st.own w = true
  | _ => True

/-- A connection in a caller's hands is usable: not closed, no deadline in the past. -/
def OutUsable (st : PSt) : Prop :=
  ∀ r, outAfter st.tr r = true → st.rclosed r = false ∧ st.past r = false

/-- Where the connections the pool created and did not give away can be. specification / ghost trace; models no code -/
def Accounted (st : PSt) : Prop :=
  ∀ r, r < st.nextR → outAfter st.tr r = true ∨ st.rclosed r = true
    ∨ (∃ w ∈ st.buf, st.raw w = r) ∨ ∃ i, st.ths i ≠ .idle

/-- Runs from one state to another. specification / ghost trace; models no code -/
inductive PRun (g : PSt → PAct → Prop) : PSt → PSt → Prop
  | refl (st) : PRun g st st
  | step {st st' st'' : PSt} (a : PAct) : PRun g st st' → g st' a → pexec st' a = some st'' →
      PRun g st st''

/-- Execute a list of actions. specification / ghost trace; models no code -/
def prun (st : PSt) : List PAct → Option PSt
  | [] => some st
  | a :: as => (pexec st a).bind fun st' => prun st' as

/-- No restriction on the scheduling. specification / ghost trace; models no code -/
def Anything (_ : PSt) (_ : PAct) : Prop := True

/-- Guard: callers behave (`CloseOnce`), idle timers do not fire while a `Get` is in
progress, and no `Get` receives between the send and the `Release` of a `Put`. specification / ghost trace; models no code -/
def Calm (st : PSt) : PAct → Prop
  | .userClose _ w _ => st.own w = true
  | .timerFire _ => ∀ i, match st.ths i with
    | .gPrune _ | .gHold _ _ | .gRecv _ | .gAcq _ => False
    | _ => True
  | .getRecv _ _ => ∀ i w, st.ths i ≠ .pRel w
  | _ => True

end Verif.Pool
