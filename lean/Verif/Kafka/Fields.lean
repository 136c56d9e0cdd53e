import Verif.Kafka.BatchLemmas
/-
Model of the field processors in
components/kafka-protocol-go/pkg/protocol/types/fields (context.go, bool.go … uuid.go, string.go, bytes.go, records.go,
array.go, arrayofstruct.go, taggedfields.go).  Line numbers without a file name refer to the file named in the section.

Simplifications (all files): error texts are dropped; memory pools are value-transparent (see the pool model, C24);
`Write` appends to an unbounded writer — the bounded `SliceWriter` is handled where the code allocates one
(`inCap`, tagged fields) and by theorem C08; memory exhaustion by `make([]T, length)` for huge lengths is not modelled.
-/
namespace Verif.Kafka
open Verif

/-- context.go:46-59 `Context` (the spec name and the typed default are carried by the schema). -/
structure Ctx where
  lo : Int
  hi : Int
  flo : Int := 32767
  fhi : Int := 32767
  nlo : Int := 0
  nhi : Int := 0
  tag : Option Nat := none
  tlo : Int := -1
  thi : Int := -1
deriving DecidableEq, Repr

/-- `version >= lo && version <= hi`; as in components/kafka-protocol-go/pkg/protocol/types/fields/context.go:70-72 and its siblings -/
def inRange (lo hi v : Int) : Bool := decide (lo ≤ v) && decide (v ≤ hi)

/-- context.go:69-71 `IsTaggedVersion`. -/
def Ctx.tagged (c : Ctx) (v : Int) : Bool := c.tag.isSome && inRange c.tlo c.thi v
/-- context.go:73-75 `IsSupportedVersion`. -/
def Ctx.supported (c : Ctx) (v : Int) : Bool := inRange c.lo c.hi v
/-- context.go:77-79 `IsFlexibleVersion`. -/
def Ctx.flexible (c : Ctx) (v : Int) : Bool := inRange c.flo c.fhi v
/-- context.go:81-83 `IsNullableVersion`. -/
def Ctx.nullable (c : Ctx) (v : Int) : Bool := inRange c.nlo c.nhi v
/-- context.go:85-88 `OnlyTaggedVersionsSupported`. -/
def Ctx.onlyTagged (c : Ctx) : Bool := decide (c.tlo = c.lo) && decide (c.thi = c.hi)

/-! ### lengths: `varint.WriteUint32(w, uint32(length+1))` or a classic big-endian length of `k` bytes -/

/-- string.go:244,265; bytes.go:111-113,187,208; array.go:118-120,180,193; records.go:130-147. -/
def writeLen (flex : Bool) (k : Nat) (n : Int) : Res Bytes :=
  if flex then writeUvarint32 (wrapU 4 (n + 1)) else .ok (putInt k n)

/-- string.go:222-240; bytes.go:166-183; array.go:136-153; records.go:159-176: `int(length)-1` or the signed length. -/
def readLen (flex : Bool) (k : Nat) : Dec Int :=
  if flex then readUvarint32 ⟫= fun n => Dec.ret ((n : Int) - 1) else readInt k

/-! ### string.go -/

/-- string.go:36-39 `NullableString`; a nil and an empty `value` are never distinguished by the API and are both `[]`. -/
structure NStr where
  value : Bytes := []
  isNil : Bool := false
deriving DecidableEq, Repr

/-- string.go:34 `nullStringBytes = []byte("null")`. -/
def nullBytes : Bytes := [110, 117, 108, 108]

/-- string.go:49-61 `SetValue`. -/
def NStr.ofValue (s : Bytes) : NStr := if s = nullBytes then ⟨[], true⟩ else ⟨s, false⟩

/-- string.go:147-183 `String.Write`. -/
def writeStr (c : Ctx) (v : Int) (s : NStr) : Res Bytes :=
  if !c.supported v then .ok []
  else if s.isNil then
    if !c.nullable v then .error .other
    else if c.flexible v then writeUvarint32 0 else .ok (putInt 2 (-1))
  else if s.value.length > 0x7fff then .error .other
  else writeLen (c.flexible v) 2 s.value.length +++ .ok s.value

/-- string.go:116-145 `String.SizeInBytes`. -/
def sizeStr (c : Ctx) (v : Int) (s : NStr) : Res Nat :=
  if !c.supported v then .ok 0
  else if s.isNil then
    if !c.nullable v then .error .other
    else if c.flexible v then .ok (uint32Size 0) else .ok 2
  else if s.value.length > 0x7fff then .error .other
  else if c.flexible v then .ok (s.value.length + uint32Size (s.value.length + 1))
  else .ok (s.value.length + 2)

/-- string.go:185-220 `readStringValue`. -/
def readStrValue (c : Ctx) (v : Int) (n : Int) : Dec NStr :=
  if n < 0 then
    if c.nullable v then Dec.ret ⟨[], true⟩ else Dec.fail .other
  else if n > 0x7fff then Dec.fail .other
  else if n = 0 then Dec.ret ⟨[], false⟩
  else readExact n.toNat ⟫= fun b => Dec.ret ⟨b, decide (b = nullBytes)⟩

/-- string.go:104-113 `String.Read`; `cur` is the value held before the call. -/
def readStr (c : Ctx) (v : Int) (cur : NStr) : Dec NStr :=
  if !c.supported v then Dec.ret cur
  else readLen (c.flexible v) 2 ⟫= readStrValue c v

/-! ### bytes.go -/

/-- bytes.go:94-132 `Bytes.Write`. -/
def writeBytesF (c : Ctx) (v : Int) (d : Option Bytes) : Res Bytes :=
  if !c.supported v then .ok []
  else match d with
    | none => if !c.nullable v then .error .other else writeLen (c.flexible v) 4 (-1)
    | some b =>
      if b = [] then writeLen (c.flexible v) 4 0
      else if b.length > 2147483647 then .error .other
      else writeLen (c.flexible v) 4 b.length +++ .ok b

/-- bytes.go:52-92 `Bytes.SizeInBytes`. -/
def sizeBytesF (c : Ctx) (v : Int) (d : Option Bytes) : Res Nat :=
  if !c.supported v then .ok 0
  else match d with
    | none => if !c.nullable v then .error .other else if c.flexible v then .ok (uint32Size 0) else .ok 4
    | some b =>
      if b = [] then (if c.flexible v then .ok (uint32Size 1) else .ok 4)
      else if c.flexible v then
        if b.length + 1 > 2147483647 then .error .other else .ok (b.length + uint32Size (b.length + 1))
      else if b.length > 2147483647 then .error .other else .ok (b.length + 4)

/-- bytes.go:134-164 `readBytesValue`; null leaves `*out` as it was. -/
def readBytesValue (c : Ctx) (v : Int) (cur : Option Bytes) (n : Int) : Dec (Option Bytes) :=
  if n < 0 then
    if c.nullable v then Dec.ret cur else Dec.fail .other
  else if n > 2147483647 then Dec.fail .other
  else if n = 0 then Dec.ret (some [])
  else readExact n.toNat ⟫= fun b => Dec.ret (some b)

/-- bytes.go:40-49 `Bytes.Read`. -/
def readBytesF (c : Ctx) (v : Int) (cur : Option Bytes) : Dec (Option Bytes) :=
  if !c.supported v then Dec.ret cur
  else readLen (c.flexible v) 4 ⟫= readBytesValue c v cur

/-! ### records.go -/

/-- recordbatches.go:30-33 `RecordBatches`. -/
structure RecBatches where
  items : List RecordBatch := []
  isNil : Bool := false

/-- records.go:85-157 `Records.Write`: the batches are written first and the length is inserted in front of them. -/
def writeRecordsF (x : Ext) (c : Ctx) (v : Int) (d : RecBatches) : Res Bytes :=
  if !c.supported v then .ok []
  else if d.isNil then
    if !c.nullable v then .error .other
    else if c.flexible v then writeUvarint32 0 else .ok (putInt 4 (-1))
  else match writeBatches x d.items with
    | .error e => .error e
    | .ok b =>
      if c.flexible v then
        if b.length + 1 > 4294967295 then .error .other else writeLen true 4 b.length +++ .ok b
      else if b.length > 2147483647 then .error .other else writeLen false 4 b.length +++ .ok b

/-- records.go:48-83 `Records.SizeInBytes`. -/
def sizeRecordsF (c : Ctx) (v : Int) (d : RecBatches) : Res Nat :=
  if !c.supported v then .ok 0
  else if d.isNil then
    if !c.nullable v then .error .other
    else if c.flexible v then .ok (uint32Size 0) else .ok 4
  else
    let n := batchesSize d.items
    if c.flexible v then
      if n + 1 > 4294967295 then .error .other else .ok (uint32Size (n + 1) + n)
    else if n > 2147483647 then .error .other else .ok (4 + n)

/-- records.go:180-202 `readRecordsValue`. -/
def readRecordsValue (x : Ext) (c : Ctx) (v : Int) (cur : RecBatches) (n : Int) : Dec RecBatches :=
  if n < 0 then
    if c.nullable v then Dec.ret ⟨[], true⟩ else Dec.fail .other
  else if n = 0 then Dec.ret { cur with isNil := false }
  else fun bs =>
    if (bs.length : Int) < n then .error .other
    else (inChunk n (readBatches x) ⟫= fun items => Dec.ret ⟨items, false⟩) bs

/-- records.go:36-46 `Records.Read`. -/
def readRecordsF (x : Ext) (c : Ctx) (v : Int) (cur : RecBatches) : Dec RecBatches :=
  if !c.supported v then Dec.ret cur
  else readLen (c.flexible v) 4 ⟫= readRecordsValue x c v cur

/-! ### fixed-width fields: bool.go, int8.go … int64.go, uint16.go, float64.go, uuid.go (each lines 26-52; uuid.go 45-97) -/

/-- `Write` of a fixed-width field: nothing when the version does not support it. components/kafka-protocol-go/pkg/protocol/types/fields/int32.go:46-52; bool.go, int8.go, int16.go, uint16.go, int64.go, float64.go and uuid.go are alike -/
def writeFixed (c : Ctx) (v : Int) (enc : Bytes) : Res Bytes := if !c.supported v then .ok [] else .ok enc
/-- `SizeInBytes` of a fixed-width field. components/kafka-protocol-go/pkg/protocol/types/fields/int32.go:38-44 and its siblings -/
def sizeFixed (c : Ctx) (v : Int) (k : Nat) : Res Nat := if !c.supported v then .ok 0 else .ok k
/-- `Read` of a fixed-width field. components/kafka-protocol-go/pkg/protocol/types/fields/int32.go:29-35 and its siblings -/
def readFixed {α : Type} (c : Ctx) (v : Int) (d : Dec α) (cur : α) : Dec α := if !c.supported v then Dec.ret cur else d

/-- types/bool.go `ReadBool`: the byte is compared with zero. -/
def readBool : Dec Bool := readExact 1 ⟫= fun b => Dec.ret (decide (b ≠ [0]))
/-- types/bool.go `WriteBool`. -/
def putBool (b : Bool) : Bytes := [if b then 1 else 0]
/-- uuid.go:50-78: two int64 reads copied back big-endian, i.e. 16 raw bytes. -/
def readUuid : Dec Bytes :=
  readExact 8 ⟫= fun a => readExact 8 ⟫= fun b => Dec.ret (a ++ b)

/-! ### array.go and arrayofstruct.go (the two files have the same control flow, element operations differ) -/

/-- operations of a field (or array element) type at a fixed version -/
structure Ops (α : Type) where
  /-- value after `SetDefault` -/
  dflt : α
  /-- Go zero value, the state of a fresh array element -/
  zero : α
  /-- `Read` into a variable holding the given value -/
  read : α → Dec α
  write : α → Res Bytes
  size : α → Res Nat

/-- array.go:204-212, arrayofstruct.go:212-225 `writeArrayValue`. -/
def writeItems {α : Type} (w : α → Res Bytes) : List α → Res Bytes
  | [] => .ok []
  | a :: l => w a +++ writeItems w l

/-- array.go:82-90, arrayofstruct.go:82-94. -/
def sizeItems {α : Type} (s : α → Res Nat) : List α → Res Nat
  | [] => .ok 0
  | a :: l => sadd (s a) (sizeItems s l)

/-- array.go:168-173, arrayofstruct.go:172-181. -/
def readItems {α : Type} (d : Dec α) : Nat → Dec (List α)
  | 0 => Dec.ret []
  | n + 1 => d ⟫= fun a => readItems d n ⟫= fun l => Dec.ret (a :: l)

/-- array.go:101-134, arrayofstruct.go:105-138 `Write`; note the missing length limit: the length wraps. -/
def writeArr {α : Type} (c : Ctx) (v : Int) (w : α → Res Bytes) (d : Option (List α)) : Res Bytes :=
  if !c.supported v then .ok []
  else match d with
    | none => if !c.nullable v then .error .other else writeLen (c.flexible v) 4 (-1)
    | some l =>
      if l.length = 0 then writeLen (c.flexible v) 4 0
      else writeLen (c.flexible v) 4 l.length +++ writeItems w l

/-- array.go:50-99, arrayofstruct.go:50-103 `SizeInBytes`. -/
def sizeArr {α : Type} (c : Ctx) (v : Int) (s : α → Res Nat) (d : Option (List α)) : Res Nat :=
  if !c.supported v then .ok 0
  else match d with
    | none => if !c.nullable v then .error .other else if c.flexible v then .ok (uint32Size 0) else .ok 4
    | some l =>
      if l.length = 0 then (if c.flexible v then .ok (uint32Size 1) else .ok 4)
      else if c.flexible v then
        if l.length + 1 > 4294967295 then .error .other
        else sadd (.ok (uint32Size (l.length + 1))) (sizeItems s l)
      else if l.length > 2147483647 then .error .other
      else sadd (.ok 4) (sizeItems s l)

/-- array.go:155-176, arrayofstruct.go:159-184 `readArrayValue`. -/
def readArrValue {α : Type} (c : Ctx) (v : Int) (d : Dec α) (n : Int) : Dec (Option (List α)) :=
  if n < 0 then
    if c.nullable v then Dec.ret none else Dec.fail .other
  else readItems d n.toNat ⟫= fun l => Dec.ret (some l)

/-- array.go:37-47, arrayofstruct.go:37-47 `Read`; an unsupported version yields nil. -/
def readArr {α : Type} (c : Ctx) (v : Int) (d : Dec α) : Dec (Option (List α)) :=
  if !c.supported v then Dec.ret none
  else readLen (c.flexible v) 4 ⟫= readArrValue c v d

/-! ### taggedfields.go -/

/-- taggedfields.go:144-147 `RawTaggedField`. -/
structure RawTag where
  tag : Nat
  value : Bytes
deriving DecidableEq, Repr

/-- insertion into a list sorted by tag; the `sort.Slice` of the tagged fields before they are written (fields/taggedfields.go), as insertion sort -/
def insertTag (a : RawTag) : List RawTag → List RawTag
  | [] => [a]
  | b :: l => if a.tag ≤ b.tag then a :: b :: l else b :: insertTag a l

/-- taggedfields.go:73-75 `sort.Slice` by tag (order of equal tags is irrelevant: they are rejected next). -/
def sortTags : List RawTag → List RawTag
  | [] => []
  | a :: l => insertTag a (sortTags l)

/-- taggedfields.go:77-81: two neighbours with the same tag. -/
def hasAdjDup : List RawTag → Bool
  | a :: b :: l => decide (a.tag = b.tag) || hasAdjDup (b :: l)
  | _ => false

/-- taggedfields.go:115-141 `writeTaggedField`. -/
def writeTag (a : RawTag) : Res Bytes :=
  if a.value.length > 4294967295 then .error .other
  else writeUvarint32 a.tag +++ writeUvarint32 a.value.length +++ .ok a.value

/-- taggedfields.go:83-87. -/
def writeTagList : List RawTag → Res Bytes
  | [] => .ok []
  | a :: l => writeTag a +++ writeTagList l

/-- taggedfields.go:60-90 `WriteRawTaggedFields`. -/
def writeRawTags (l : List RawTag) : Res Bytes :=
  if l.length > 4294967295 then .error .other
  else writeUvarint32 l.length +++
    (if hasAdjDup (sortTags l) then .error .other else writeTagList (sortTags l))

/-- taggedfields.go:92-113 `readTaggedField`; a zero-length value at the end of the input is an `io.EOF` error. -/
def readTag : Dec RawTag :=
  readUvarint32 ⟫= fun t => readUvarint32 ⟫= fun n => readExact n ⟫= fun b => Dec.ret ⟨t, b⟩

/-- taggedfields.go:35-58 `ReadRawTaggedFields`; `io.EOF` on the count is treated as zero. -/
def readRawTags : Dec (List RawTag) := fun bs =>
  match readUvarint32 bs with
  | .error .eof => .ok ([], [])
  | .error e => .error e
  | .ok (n, r) => if n = 0 then .ok ([], r) else readItems readTag n r

end Verif.Kafka
