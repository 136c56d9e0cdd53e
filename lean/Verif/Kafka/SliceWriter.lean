import Verif.Base
/-
Model of components/kafka-protocol-go/pkg/protocol/types/bytes/slicewriter.go.
The Go slice `w.buf` is its backing array (`arr`, as long as the capacity) and its length.
-/
namespace Verif.Kafka
open Verif

/-- `SliceWriter` (components/kafka-protocol-go/pkg/protocol/types/bytes/slicewriter.go:27-29): the array behind the slice and the length of the slice -/
structure SW where
  arr : Bytes
  len : Nat

/-- `cap(w.buf)`; (components/kafka-protocol-go/pkg/protocol/types/bytes/slicewriter.go:27-29) -/
def SW.cap (w : SW) : Nat := w.arr.length
/-- slicewriter.go:121-123 `Bytes` -/
def SW.bytes (w : SW) : Bytes := w.arr.take w.len

/-- NewSliceWriter(make([]byte, 0, n)), slicewriter.go:33-37; the array holds whatever was there before -/
def SW.new (arr : Bytes) : SW := ⟨arr, 0⟩

/-- `copy(arr[off:], p)` for `off + len(p) ≤ cap`; (Go `copy`) -/
def overwrite (arr : Bytes) (off : Nat) (p : Bytes) : Bytes := arr.take off ++ p ++ arr.drop (off + p.length)

/-- slicewriter.go:39-47 `Write` -/
def SW.write (w : SW) (p : Bytes) : Res Nat × SW :=
  if p.length > w.cap - w.len then (.error .other, w)
  else (.ok p.length, ⟨overwrite w.arr w.len p, w.len + p.length⟩)

/-- slicewriter.go:49-61 `WriteAt`; `w.buf[off:]` panics outside [0, len] -/
def SW.writeAt (w : SW) (p : Bytes) (off : Int) : Res Nat × SW :=
  if p.length = 0 then (.ok 0, w)
  else if (p.length : Int) > w.cap - off then (.error .other, w)
  else if off < 0 ∨ off > w.len then (.error .panic, w)
  else
    let n := min p.length (w.len - off.toNat)
    (.ok n, ⟨overwrite w.arr off.toNat (p.take n), w.len⟩)

/-- slicewriter.go:63-87 `InsertAt`: the slice is extended by zeros, the tail moved, `p` copied. The error of line 80-82
(less moved than expected) cannot happen after the slicing succeeded: `copy` moves `min (len-moveTo) (len-off)` bytes. -/
def SW.insertAt (w : SW) (p : Bytes) (off : Int) : Res Nat × SW :=
  if p.length = 0 then (.ok 0, w)
  else if p.length > w.cap - w.len then (.error .other, w)
  else
    let arr1 := overwrite w.arr w.len (List.replicate p.length 0)
    let len1 := w.len + p.length
    if off < 0 ∨ off + p.length > len1 then (.error .panic, ⟨arr1, len1⟩)
    else
      let moved := ((arr1.take len1).drop off.toNat).take (len1 - (off.toNat + p.length))
      let arr2 := overwrite arr1 (off.toNat + p.length) moved
      let n := min p.length (len1 - off.toNat)
      (.ok n, ⟨overwrite arr2 off.toNat (p.take n), len1⟩)

/-- `whence` of components/kafka-protocol-go/pkg/protocol/types/bytes/slicewriter.go:89-104 -/
inductive SWhence where | start | current | other
deriving DecidableEq

/-- slicewriter.go:89-104 `Seek` -/
def SW.seek (w : SW) (off : Int) (wh : SWhence) : Res Int × SW :=
  match wh with
  | .other => (.error .other, w)
  | wh =>
    let q := if wh = .current then off + w.len else off
    if q < 0 ∨ q > w.cap then (.error .other, w) else (.ok q, ⟨w.arr, q.toNat⟩)

/-- slicewriter.go:110-119 `Slice`; `w.buf[lower:upper]` panics when lower > upper -/
def SW.slice (w : SW) (lower upper : Int) : Res Bytes :=
  if lower < 0 then .error .other
  else if upper > w.cap then .error .other
  else if lower > upper then .error .panic
  else .ok ((w.arr.take upper.toNat).drop lower.toNat)

end Verif.Kafka
