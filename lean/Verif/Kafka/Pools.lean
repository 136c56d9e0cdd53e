import Verif.Base
/-
Model of components/kafka-protocol-go/pkg/pools/pool.go:22-89 (byte slices; the other element types use the same generic code).
A buffer is its identity and its capacity. A `sync.Pool` is the list of buffers it holds; `Get` may return any of them or nil
(sync.Pool drops items at any time), so `get` is a relation.
-/
namespace Verif.Kafka
open Verif

/-- a byte slice by its identity and capacity (models no code of its own) -/
structure Buf where
  id : Nat
  cap : Nat
deriving DecidableEq

/-- pool.go:42-59 `getBucketIndex` -/
def bucketIndex (c : Nat) : Nat :=
  if c ≤ 4 * 1024 then 0
  else if c ≤ 8 * 1024 then 1
  else if c ≤ 16 * 1024 then 2
  else if c ≤ 32 * 1024 then 3
  else if c ≤ 64 * 1024 then 4
  else if c ≤ 128 * 1024 then 5
  else 6

/-- pool.go:66-70: capacity of a newly allocated slice -/
def allocCap (capacity : Nat) : Nat :=
  if bucketIndex capacity ≤ 2 then 2 ^ bucketIndex capacity * 4 * 1024 else capacity

/-- the pools (bucket index → buffers), the buffers handed out and not released, the next unused identity; (components/kafka-protocol-go/pkg/pools/pool.go:34-94) -/
structure PoolState where
  pools : Nat → List Buf
  live : List Buf
  next : Nat

/-- a `getSlice` call: the buffer returned, the length of the returned slice, and the capacity that was asked for; (components/kafka-protocol-go/pkg/pools/pool.go) -/
structure Got where
  buf : Buf
  length : Nat
  asked : Nat

/-- the loop of pool.go:63-82 on one bucket: pooled buffers that are too small are dropped, `pool.Get` returns any
element or nil. Third argument: buffers left in the bucket; fourth: the pooled buffer returned, or none for a new one. -/
inductive GetLoop (capacity : Nat) : List Buf → List Buf → Option Buf → Prop
  | alloc (l l' : List Buf) : l'.Sublist l → GetLoop capacity l l' none
  | take (l a c : List Buf) (b : Buf) : l = a ++ b :: c → capacity ≤ b.cap → GetLoop capacity l (a ++ c) (some b)
  | drop (l a c l' : List Buf) (b : Buf) (r : Option Buf) : l = a ++ b :: c → b.cap < capacity →
      GetLoop capacity (a ++ c) l' r → GetLoop capacity l l' r

/-- one step of the history of the pools. `length ≤ capacity` is what Go itself requires (`make`, `slice[:length]`). (components/kafka-protocol-go/pkg/pools/pool.go, `sync.Pool` by contract) -/
inductive PoolStep : PoolState → Option Got → PoolState → Prop
  /-- GetByteSlice returns a pooled buffer -/
  | getPooled (s : PoolState) (length capacity : Nat) (rest : List Buf) (b : Buf) : length ≤ capacity →
      GetLoop capacity (s.pools (bucketIndex capacity)) rest (some b) →
      PoolStep s (some ⟨b, length, capacity⟩)
        { s with pools := fun i => if i = bucketIndex capacity then rest else s.pools i, live := b :: s.live }
  /-- GetByteSlice allocates -/
  | getNew (s : PoolState) (length capacity : Nat) (rest : List Buf) : length ≤ capacity →
      GetLoop capacity (s.pools (bucketIndex capacity)) rest none →
      PoolStep s (some ⟨⟨s.next, allocCap capacity⟩, length, capacity⟩)
        { pools := fun i => if i = bucketIndex capacity then rest else s.pools i,
          live := ⟨s.next, allocCap capacity⟩ :: s.live, next := s.next + 1 }
  /-- ReleaseByteSlice (pool.go:85-89) of a buffer that is in use, which its user gives up -/
  | release (s : PoolState) (a c : List Buf) (b : Buf) : s.live = a ++ b :: c →
      PoolStep s none { s with pools := fun i => if i = bucketIndex b.cap then b :: s.pools i else s.pools i, live := a ++ c }
  /-- the garbage collector empties pools -/
  | gc (s : PoolState) (p : Nat → List Buf) : (∀ i, (p i).Sublist (s.pools i)) → PoolStep s none { s with pools := p }

end Verif.Kafka
