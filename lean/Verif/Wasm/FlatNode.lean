import Verif.Base
/-
Model of pkg/istio/fb/FlatNode.go and KeyVal.go on top of the FlatBuffers runtime (github.com/google/flatbuffers/go: table.go, encode.go),
and of the part of pkg/istio/istio_middleware.go:58-72 that reads the metadata of the peer.

Every read may be out of range and then panics (`none`). Offsets are 32 bit numbers and wrap. Simplification: the capacity of the
byte slice is its length (Go allows a slice up to its capacity).
-/
namespace Verif.Wasm.FlatNode

/-- texts or bytes; models no code -/
abbrev Bs := List UInt8

/-- arithmetic of Go's fixed-size integers, as used in pkg/istio/istio_middleware.go and pkg/istio/fb -/
def M : Nat := 4294967296

/-- encode.go `GetUint16` at an offset -/
def u16 (b : Bs) (o : Nat) : Option Nat :=
  match b[o]?, b[o + 1]? with
  | some x, some y => some (x.toNat + 256 * y.toNat)
  | _, _ => none

/-- encode.go `GetUint32` at an offset -/
def u32 (b : Bs) (o : Nat) : Option Nat :=
  match u16 b o, u16 b (o + 2) with
  | some x, some y => some (x + 65536 * y)
  | _, _ => none

/-- table.go `Offset`: the entry of the vtable for a field, zero if there is none -/
def offset (b : Bs) (pos v : Nat) : Option Nat :=
  match u32 b pos with
  | none => none
  | some s =>
    let vt := (pos + M - s) % M
    match u16 b vt with
    | none => none
    | some sz => if v < sz then u16 b ((vt + v) % M) else some 0

/-- table.go `Indirect` -/
def indirect (b : Bs) (o : Nat) : Option Nat := (u32 b o).map fun d => (o + d) % M

/-- table.go `ByteVector` -/
def byteVector (b : Bs) (o : Nat) : Option Bs :=
  match indirect b o with
  | none => none
  | some o => match u32 b o with
    | none => none
    | some n =>
      let start := (o + 4) % M
      let stop := (start + n) % M
      if start ≤ stop ∧ stop ≤ b.length then some ((b.drop start).take (stop - start)) else none

/-- FlatNode.go:38-44 `Namespace` (6), KeyVal.go `Key` (4), `Value` (6): a text field, `nil` if absent -/
def text (b : Bs) (pos v : Nat) : Option Bs :=
  match offset b pos v with
  | none => none
  | some 0 => some []
  | some o => byteVector b ((o + pos) % M)

/-- FlatNode.go:58-64 `LabelsLength` -/
def labelsLength (b : Bs) (pos : Nat) : Option Nat :=
  match offset b pos 8 with
  | none => none
  | some 0 => some 0
  | some o => (indirect b ((o + pos) % M)).bind (u32 b)

/-- FlatNode.go:46-56 `Labels`: the position of a label (it is only called for an index below the length) -/
def label (b : Bs) (pos j : Nat) : Option Nat :=
  match offset b pos 8 with
  | none => none
  | some 0 => none
  | some o => match indirect b ((o + pos) % M) with
    | none => none
    | some x => indirect b ((x + 4 + j * 4) % M)

/-- istio_middleware.go:63-67: the labels from index `i` on, `n` of them -/
def labels (b : Bs) (pos : Nat) : Nat → Nat → Option (List (Bs × Bs))
  | 0, _ => some []
  | n + 1, i => match label b pos i with
    | none => none
    | some p => match text b p 4, text b p 6, labels b pos n (i + 1) with
      | some k, some v, some l => some ((k, v) :: l)
      | _, _, _ => none

/-- the value of a key in the map made of labels: the last one, empty if there is none; (pkg/istio/istio_middleware.go and pkg/istio/fb) -/
def lookup (l : List (Bs × Bs)) (k : Bs) : Bs := ((l.reverse.find? fun e => e.1 = k).map (·.2)).getD []

/-- istio_middleware.go:58-72: the name and the namespace of the peer's service -/
def peer (b : Bs) (key : Bs) : Option (Bs × Bs) :=
  match u32 b 0 with
  | none => none
  | some pos => match labelsLength b (pos % M) with
    | none => none
    | some n => match labels b (pos % M) n 0, text b (pos % M) 6 with
      | some l, some ns => some (lookup l key, ns)
      | _, _ => none

end Verif.Wasm.FlatNode
