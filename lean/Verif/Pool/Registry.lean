import Verif.Tunnel.Sessions
/-
Model of `/repo/pkg/network/pool/syncmap_registry.go` (the whole file except logging and
`GetPool`/`HasPool`, which are one `Load`): `AddPool`, `RemovePool`, `Close`, `Len` and the
cleanup goroutines, as an interleaving of their atomic steps (one operation on the
`sync.Map`, one atomic operation on the counter, one read/write of the cancel function).

Goroutines are anonymous: the state counts how many of them are at each program point.
Pool ids and pools are numbers.  `int(uint64)` conversion is two's complement.
-/
namespace Verif.Pool
open Verif.Tunnel (upd)

/-- the state of pkg/network/pool/syncmap_registry.go, with the environment and ghost fields -/
structure RSt where
  /-- `store` as an association list -/
  store : List (Nat × Nat)
  /-- `count` (uint64) -/
  count : Nat
  /-- `Pool.IsClosed()` -/
  pclosed : Nat → Bool
  /-- goroutines between `LoadOrStore` and `AddUint64(1)` (syncmap_registry.go:138-140) -/
  nInc : Nat
  /-- … before the load at :142 -/
  nAddChk : Nat
  /-- goroutines between `LoadAndDelete` and `AddUint64(-1)` (:117-119) -/
  nDec : Nat
  /-- … before the load at :121 -/
  nRemChk : Nat
  /-- … before `stopCleanupCheck` at :122 -/
  nStop : Nat
  /-- cleanup goroutines that saw a closed pool under this id and are about to call
  `RemovePool` (:171-173) -/
  want : List Nat
  /-- cleanup goroutines created at :143, not running yet -/
  nSpawn : Nat
  /-- … after `stopCleanupCheck` at :161, before :166 -/
  nStarted : Nat
  /-- cleanup loops that have not been cancelled -/
  live : List Nat
  /-- the loop `cleanupCheckCancelFunc` belongs to -/
  cancel : Option Nat
  nextL : Nat
  /-- `closed` -/
  closed : Bool

/-- `NewSyncMapPoolRegistry` (syncmap_registry.go:62-80). -/
def RSt.init : RSt :=
  { store := [], count := 0, pclosed := fun _ => false, nInc := 0, nAddChk := 0, nDec := 0
    nRemChk := 0, nStop := 0, want := [], nSpawn := 0, nStarted := 0, live := [], cancel := none
    nextL := 0, closed := false }

/-- `2^64`; arithmetic of Go's fixed-size integers, as used in pkg/network/pool/syncmap_registry.go -/
abbrev M64 : Nat := 18446744073709551616

/-- `store.Load`; (pkg/network/pool/syncmap_registry.go) -/
def RSt.lookup (st : RSt) (id : Nat) : Option Nat := (st.store.find? fun e => e.1 == id).map (·.2)

/-- `Len` (syncmap_registry.go:148-150): `int(count)`. -/
def RSt.len (st : RSt) : Int :=
  if st.count < 9223372036854775808 then (st.count : Int) else (st.count : Int) - 18446744073709551616

/-- `stopCleanupCheck` (syncmap_registry.go:152-158). -/
def RSt.stop (st : RSt) : RSt :=
  match st.cancel with
  | none => st
  | some k => { st with live := st.live.filter (· ≠ k) }

/-- The check after the removal of a pool (:121-123). -/
def RSt.stopIf (st : RSt) : RSt := if st.count = 0 then st.stop else st

/-- `store.LoadAndDelete` followed by the branch on `loaded` (:117-118). -/
def RSt.delete (st : RSt) (id : Nat) : RSt :=
  match st.lookup id with
  | none => st
  | some _ => { st with store := st.store.filter (fun e => e.1 != id), nDec := st.nDec + 1 }

/-- the atomic steps and calls of pkg/network/pool/syncmap_registry.go, and what the surroundings do; the lines are cited at the steps or in the transition function -/
inductive RAct
  /-- `AddPool(id, p)` up to `LoadOrStore` (:134-138); the registry is given a pool that may
  be closed already -/
  | add (id p : Nat)
  | inc
  | addChk
  /-- `RemovePool(id)` up to `LoadAndDelete` (:117) -/
  | rem (id : Nat)
  | dec
  | remChk
  | stop
  /-- pool `p` gets closed by somebody -/
  | poolClose (p : Nat)
  | start1
  | start2
  /-- a running cleanup loop sees a closed pool (:171) -/
  | see (id : Nat)
  /-- … and calls `RemovePool` (:173) -/
  | wantRem (id : Nat)
deriving Repr, DecidableEq

/-- the transition function of the steps (pkg/network/pool/syncmap_registry.go); the lines are cited at the steps or at the cases -/
def rexec (st : RSt) : RAct → Option RSt
  | .add id p =>
    if st.pclosed p then some st
    else match st.lookup id with
      | some _ => some st
      | none => some { st with store := st.store ++ [(id, p)], nInc := st.nInc + 1 }
  | .inc => if 0 < st.nInc then
      some { st with nInc := st.nInc - 1, nAddChk := st.nAddChk + 1, count := (st.count + 1) % M64 }
    else none
  | .addChk => if 0 < st.nAddChk then
      some { st with nAddChk := st.nAddChk - 1
                     nSpawn := if st.count = 1 then st.nSpawn + 1 else st.nSpawn }
    else none
  | .rem id => some (st.delete id)
  | .dec => if 0 < st.nDec then
      some { st with nDec := st.nDec - 1, nRemChk := st.nRemChk + 1
                     count := (st.count + (M64 - 1)) % M64 }
    else none
  | .remChk => if 0 < st.nRemChk then
      some { st with nRemChk := st.nRemChk - 1
                     nStop := if st.count = 0 then st.nStop + 1 else st.nStop }
    else none
  | .stop => if 0 < st.nStop then some ({ st with nStop := st.nStop - 1 }.stop) else none
  | .poolClose p => some { st with pclosed := upd st.pclosed p true }
  | .start1 => if 0 < st.nSpawn then
      some ({ st with nSpawn := st.nSpawn - 1, nStarted := st.nStarted + 1 }.stop)
    else none
  | .start2 => if 0 < st.nStarted then
      some { st with nStarted := st.nStarted - 1, cancel := some st.nextL
                     live := st.nextL :: st.live, nextL := st.nextL + 1 }
    else none
  | .see id => if st.live = [] then none
    else match st.lookup id with
      | some p => if st.pclosed p then some { st with want := id :: st.want } else none
      | none => none
  | .wantRem id => if id ∈ st.want then some (({ st with want := st.want.erase id }).delete id) else none

/-- runs (specification; models no code) -/
inductive RReach (g : RSt → RAct → Prop) : RSt → Prop
  | init : RReach g RSt.init
  | step {st st' : RSt} (a : RAct) : RReach g st → g st a → rexec st a = some st' → RReach g st'

/-- No restriction on the scheduling. specification / ghost trace; models no code -/
def RAny (_ : RSt) (_ : RAct) : Prop := True

/-- No `AddPool`/`RemovePool` is between its map operation and its counter update. specification / ghost trace; models no code -/
def RSt.counted (st : RSt) : Prop := st.nInc = 0 ∧ st.nDec = 0

/-- No call and no cleanup goroutine start is under way. specification / ghost trace; models no code -/
def RSt.quiet (st : RSt) : Prop :=
  st.nInc = 0 ∧ st.nDec = 0 ∧ st.nAddChk = 0 ∧ st.nRemChk = 0 ∧ st.nStop = 0 ∧ st.nSpawn = 0
    ∧ st.nStarted = 0

/-- Guard: calls do not overlap with each other or with the start of a cleanup goroutine, and
the number of pools fits in an `int`. specification / ghost trace; models no code -/
def Serial (st : RSt) : RAct → Prop
  | .add _ _ => st.quiet ∧ st.store.length + 1 < 9223372036854775808
  | .rem _ | .wantRem _ => st.quiet
  | _ => True

/-- `Close` (syncmap_registry.go:91-110), not overlapping with other calls: `order` is the
order in which `Range` visits the entries, `fails p` tells whether closing pool `p` returns an
error. A pool is closed for `IsClosed` even then (channel.go:225-229). -/
def RSt.closeAll (fails : Nat → Bool) : List (Nat × Nat) → RSt → RSt × Bool
  | [], st => ({ st with closed := true }, true)
  | (id, p) :: rest, st =>
    let st := { st with pclosed := upd st.pclosed p true }
    if fails p then (st, false)
    else
      let st := match st.lookup id with
        | none => st
        | some _ => { st with store := st.store.filter (fun e => e.1 != id)
                              count := (st.count + (M64 - 1)) % M64 }.stopIf
      RSt.closeAll fails rest st

end Verif.Pool
