import Verif.Kafka.WireSpec
/-
What a round trip must preserve, written down independently of the code (only types of the model and the wire format of
Verif/Kafka/WireSpec.lean are used): sound schemas, valid values, and the value a reader must get.
-/
namespace Verif.Kafka.Wire
open Verif Verif.Kafka

/-! ### schemas -/

/-- A field declaration is sound at version `v` of a structure that is (not) flexible at `v`: it is tagged only where it
exists and where the structure is flexible, its tag fits uint32. (specification; models no code.) -/
def soundCtx (c : Ctx) (v : Int) (flex : Bool) : Bool :=
  (!isTagged c v || (flex && within c.lo c.hi v)) &&
  (match c.tag with
   | none => !(decide (c.tlo = c.lo) && decide (c.thi = c.hi))
   | some t => decide (t < 2^32))

/-- Specification; models no code. -/
def tagList (c : Ctx) : List Nat := match c.tag with | none => [] | some t => [t]

/-- the tags declared by a structure; (specification; models no code.) -/
def declared : Sch → List Nat
  | .nil => []
  | .prim c _ _ _ rest => tagList c ++ declared rest
  | .arr c _ _ rest => tagList c ++ declared rest
  | .struct c _ _ _ _ rest => tagList c ++ declared rest
  | .arrS c _ _ _ _ rest => tagList c ++ declared rest

/-- Specification; models no code. -/
def soundPrim : Prim → Bool
  | .int k => decide (k ≠ 0)
  | _ => true

/-- A structure is sound at version `v`: sound declarations, distinct tags, sound sub-structures (flexible if tagged). (specification; models no code.) -/
def sound (v : Int) (flex : Bool) : Sch → Bool
  | .nil => true
  | .prim c _ p _ rest =>
    soundCtx c v flex && soundPrim p && (tagList c).all (fun t => !(declared rest).contains t) && sound v flex rest
  | .arr c _ p rest =>
    soundCtx c v flex && soundPrim p && (tagList c).all (fun t => !(declared rest).contains t) && sound v flex rest
  | .struct c _ flo fhi sub rest =>
    soundCtx c v flex && (!isTagged c v || within flo fhi v) && sound v (within flo fhi v) sub &&
    (tagList c).all (fun t => !(declared rest).contains t) && sound v flex rest
  | .arrS c _ flo fhi sub rest =>
    soundCtx c v flex && sound v (within flo fhi v) sub &&
    (tagList c).all (fun t => !(declared rest).contains t) && sound v flex rest

/-- Specification; models no code. -/
def soundMsg (m : Msg) (v : Int) : Bool := sound v (within m.flo m.fhi v) m.fields

/-! ### values -/

/-- Specification; models no code. -/
def isControl (b : RecordBatch) : Bool := decide (b.attributes / 32 % 2 = 1)

/-- A batch that can be written uncompressed and read back: header values in their Go ranges, magic 2, no compression,
at most one record in a control batch, records that fit, total length fits int32. (specification; models no code.) -/
structure BatchFits (x : Ext) (b : RecordBatch) : Prop where
  baseOffset : -2^63 ≤ b.baseOffset ∧ b.baseOffset < 2^63
  partitionLeaderEpoch : -2^31 ≤ b.partitionLeaderEpoch ∧ b.partitionLeaderEpoch < 2^31
  magic : b.magic = 2
  attributes : -2^15 ≤ b.attributes ∧ b.attributes < 2^15
  lastOffsetDelta : -2^31 ≤ b.lastOffsetDelta ∧ b.lastOffsetDelta < 2^31
  baseTimestamp : -2^63 ≤ b.baseTimestamp ∧ b.baseTimestamp < 2^63
  maxTimestamp : -2^63 ≤ b.maxTimestamp ∧ b.maxTimestamp < 2^63
  producerId : -2^63 ≤ b.producerId ∧ b.producerId < 2^63
  producerEpoch : -2^15 ≤ b.producerEpoch ∧ b.producerEpoch < 2^15
  baseSequence : -2^31 ≤ b.baseSequence ∧ b.baseSequence < 2^31
  uncompressed : codec b = 0
  control : isControl b = true → (b.records.getD []).length ≤ 1
  records : ∀ r ∈ b.records.getD [], RecordFits r ∧ exactTs r.timestampDelta
  length : 49 + (payload x b).length < 2^31

/-- a batch as it is read back: nil slices normalized, length and CRC as on the wire, complete; (specification; models no code.) -/
def backBatch (x : Ext) (b : RecordBatch) : RecordBatch :=
  { b with
    batchLength := ((49 + (payload x b).length : Nat) : Int)
    crc := x.crc32c (batchTail x b)
    isComplete := true
    records := some ((b.records.getD []).map fun r =>
      { r with headers := r.headers.map fun hs => hs.map fun h =>
          { h with key := if h.key.getD [] = [] then none else h.key } }) }

/-- a primitive value as it is read back: unchanged, but the text "null" becomes null, null strings lose stale content,
batches as in `backBatch`; (specification; models no code.) -/
def backPrim (x : Ext) : (p : Prim) → p.Val → p.Val
  | .str, s => if s.isNil = true ∨ s.value = utf8Null then ⟨if s.isNil then [] else s.value, true⟩ else s
  | .records, d => if d.isNil then ⟨[], true⟩ else ⟨d.items.map (backBatch x), false⟩
  | .bool, a => a
  | .int _, a => a
  | .u16, a => a
  | .f64, a => a
  | .uuid, a => a
  | .bytes, a => a

/-- values of a primitive type that can be read back; (specification; models no code.) -/
def validPrim (x : Ext) : (p : Prim) → p.Val → Prop
  | .bool, _ => True
  | .int k, i => -(256 ^ k / 2 : Nat) ≤ i ∧ i < (256 ^ k / 2 : Nat)
  | .u16, n => n < 2^16
  | .f64, n => n < 2^64
  | .uuid, b => b.length = 16
  | .str, _ => True
  | .bytes, _ => True
  | .records, d => ∀ b ∈ d.items, BatchFits x b

/-- does a message of version `v` carry the field?; (specification; models no code.) -/
def present (c : Ctx) (v : Int) (isDefault : Bool) : Bool :=
  if isTagged c v then !isDefault else within c.lo c.hi v

/-- the length field of an array can hold its length; (specification; models no code.) -/
def lenFits (flex : Bool) (n : Nat) : Prop := if flex then n + 1 < 2^32 else n < 2^31

/-- Specification; models no code. -/
def validArray {α : Type} (flex : Bool) (ok : α → Prop) (a : Option (List α)) : Prop :=
  ∀ l, a = some l → lenFits flex l.length ∧ ∀ y ∈ l, ok y

/-- Requirements on values: on primitive values, on the null flag of structures, on unknown tagged fields; (specification; models no code.) -/
structure Req where
  prim : (p : Prim) → p.Val → Prop
  isNil : Bool → Prop
  unknown : List Nat → RawTag → Prop

/-- Specification; models no code. -/
def validStruct {β : Type} (K : Req) (tags : List Nat) (ok : β → Prop) (s : StructVal β) : Prop :=
  K.isNil s.isNil ∧ ok s.fields ∧ ∀ a ∈ s.unknown, K.unknown tags a

/-- the requirements hold for every field the version carries; (specification; models no code.) -/
def valid (K : Req) (v : Int) : (s : Sch) → s.Val → Prop
  | .nil, _ => True
  | .prim c _ p d rest, (a, b) => (present c v (isDflt p d a) = true → K.prim p a) ∧ valid K v rest b
  | .arr c _ p rest, (a, b) =>
    (present c v (noItems a) = true → validArray (within c.flo c.fhi v) (K.prim p) a) ∧ valid K v rest b
  | .struct c _ _ _ sub rest, (a, b) =>
    (present c v (decide (a.unknown = []) && allDflt sub a.fields) = true →
      validStruct K (declared sub) (valid K v sub) a) ∧ valid K v rest b
  | .arrS c _ _ _ sub rest, (a, b) =>
    (present c v (noItems a) = true →
      validArray (within c.flo c.fhi v) (validStruct K (declared sub) (valid K v sub)) a) ∧ valid K v rest b

/-- Specification; models no code. -/
def validMsg (K : Req) (v : Int) (m : Msg) (s : m.Val) : Prop :=
  validStruct K (declared m.fields) (valid K v m.fields) s

/-- what a round trip requires: readable primitive values, no null structures, unknown tagged fields that are not empty,
do not use a declared tag and fit uint32; (specification; models no code.) -/
def roundReq (x : Ext) : Req where
  prim := validPrim x
  isNil := fun b => b = false
  unknown := fun tags a => a.tag < 2^32 ∧ a.value ≠ [] ∧ a.tag ∉ tags

/-- what exact sizes require: UUIDs of 16 bytes, byte slices not exactly 2^31-1 long, record batches that fit; (specification; models no code.) -/
def sizeReq (x : Ext) : Req where
  prim := fun p => match p with
    | .uuid => fun a => a.length = 16
    | .bytes => fun a => ∀ b, a = some b → b.length ≠ 2147483647
    | .records => fun a => ∀ b ∈ a.items, BatchFits x b
    | _ => fun _ => True
  isNil := fun _ => True
  unknown := fun _ a => a.tag < 2^32

/-- what the wire format requires: records that fit (batches may be compressed, but not with snappy, see C150), tags that fit uint32; (specification; models no code.) -/
def wireReq : Req where
  prim := fun p => match p with
    | .records => fun a => ∀ b ∈ a.items, (∀ r ∈ b.records.getD [], RecordFits r ∧ exactTs r.timestampDelta) ∧ clean b
    | _ => fun _ => True
  isNil := fun _ => True
  unknown := fun _ a => a.tag < 2^32

/-! ### the value a reader must get -/

/-- the default of every field; (specification; models no code.) -/
def defaults : (s : Sch) → s.Val
  | .nil => ()
  | .prim _ _ p d rest => (dflt p d, defaults rest)
  | .arr _ _ _ rest => (none, defaults rest)
  | .struct _ _ _ _ sub rest => (⟨false, defaults sub, []⟩, defaults rest)
  | .arrS _ _ _ _ _ rest => (none, defaults rest)

/-- a structure as it is read back: unknown tagged fields by ascending tag; (specification; models no code.) -/
def backStruct {β : Type} (f : β → β) (s : StructVal β) : StructVal β :=
  ⟨false, f s.fields, s.unknown.mergeSort fun a b => decide (a.tag ≤ b.tag)⟩

/-- the fields as they are read back: carried ones keep their values, the others have their defaults; (specification; models no code.) -/
def back (x : Ext) (v : Int) : (s : Sch) → s.Val → s.Val
  | .nil, _ => ()
  | .prim c _ p d rest, (a, b) =>
    (if present c v (isDflt p d a) then backPrim x p a else dflt p d, back x v rest b)
  | .arr c _ p rest, (a, b) =>
    (if present c v (noItems a) then a.map (·.map (backPrim x p)) else none, back x v rest b)
  | .struct c _ _ _ sub rest, (a, b) =>
    (if present c v (decide (a.unknown = []) && allDflt sub a.fields) then backStruct (back x v sub) a
     else ⟨false, defaults sub, []⟩, back x v rest b)
  | .arrS c _ _ _ sub rest, (a, b) =>
    (if present c v (noItems a) then a.map (·.map (backStruct (back x v sub))) else none, back x v rest b)

/-- a message as it is read back; (specification; models no code.) -/
def backMsg (x : Ext) (v : Int) (m : Msg) (s : m.Val) : m.Val := backStruct (back x v m.fields) s

end Verif.Kafka.Wire
