import Verif.Kafka.RoundSpec
/-
Which values Write must accept, written down independently of the code (types of the model and Verif/Kafka/WireSpec.lean only).
-/
namespace Verif.Kafka.Wire
open Verif Verif.Kafka

/-- a batch that can be written: magic 2, a known compression codec whose compressor succeeds, length fits uint32; (specification; models no code.) -/
def batchWritable (x : Ext) (b : RecordBatch) : Prop :=
  b.magic = 2 ∧
  (b.records.getD [] = [] ∨ codec b = 0 ∨
    (codec b ≤ 4 ∧ ∃ z, x.compress (codec b) ((b.records.getD []).map record).flatten = .ok z)) ∧
  49 + (payload x b).length < 2^32

/-- A primitive value that can be written: null only where nullable, strings of at most 2^15-1 and byte strings of at most
2^31-1 bytes, writable batches whose total length fits the length field. (specification; models no code.) -/
def primWritable (x : Ext) (nullable flex : Bool) : (p : Prim) → p.Val → Prop
  | .str, s => if s.isNil then nullable = true else s.value.length < 2^15
  | .bytes, none => nullable = true
  | .bytes, some b => b.length < 2^31
  | .records, d =>
    if d.isNil then nullable = true
    else (∀ b ∈ d.items, batchWritable x b) ∧
      ((d.items.map (batch x)).flatten).length + (if flex then 1 else 0) < (if flex then 2^32 else 2^31)
  | .bool, _ => True
  | .int _, _ => True
  | .u16, _ => True
  | .f64, _ => True
  | .uuid, _ => True

/-- an array that can be written: null only where nullable, all elements writable; (specification; models no code.) -/
def arrayWritable {α : Type} (nullable : Bool) (ok : α → Prop) : Option (List α) → Prop
  | none => nullable = true
  | some l => ∀ y ∈ l, ok y

/-- A structure that can be written: writable fields; in flexible versions distinct tags and tagged values shorter than
2^32, in others no tagged fields at all. (A null structure is always accepted and written as nothing.) (specification; models no code.) -/
def structWritable {β : Type} (flo fhi v : Int) (ok : β → Prop) (enc : β → Bytes × List RawTag) (s : StructVal β) : Prop :=
  s.isNil = true ∨
  (ok s.fields ∧
    if within flo fhi v then
      ((s.unknown ++ (enc s.fields).2).map (·.tag)).Nodup ∧ (s.unknown ++ (enc s.fields).2).length < 2^32 ∧
      ∀ a ∈ s.unknown ++ (enc s.fields).2, a.value.length < 2^32
    else s.unknown = [])

/-- A field that can be written: if the version carries it, its value is writable; if it was introduced after version 0,
is not ignorable and the version does not have it, it must have its default. (Fields the protocol removed in later
versions are not protected by the code, see C12.) (specification; models no code.) -/
def fieldWritable (c : Ctx) (ignorable : Bool) (v : Int) (isDefault : Bool) (ok : Prop) : Prop :=
  (present c v isDefault = true → ok) ∧
  (ignorable = false → 0 < c.lo → within c.lo c.hi v = false → isDefault = true)

/-- the fields of a structure can be written; (specification; models no code.) -/
def writable (x : Ext) (v : Int) : (s : Sch) → s.Val → Prop
  | .nil, _ => True
  | .prim c ig p d rest, (a, b) =>
    fieldWritable c ig v (isDflt p d a) (primWritable x (within c.nlo c.nhi v) (within c.flo c.fhi v) p a) ∧
    writable x v rest b
  | .arr c ig p rest, (a, b) =>
    fieldWritable c ig v (noItems a)
      (arrayWritable (within c.nlo c.nhi v) (primWritable x (within c.nlo c.nhi v) (within c.flo c.fhi v) p) a) ∧
    writable x v rest b
  | .struct c ig flo fhi sub rest, (a, b) =>
    fieldWritable c ig v (decide (a.unknown = []) && allDflt sub a.fields)
      (structWritable flo fhi v (writable x v sub) (fields x v sub) a) ∧ writable x v rest b
  | .arrS c ig flo fhi sub rest, (a, b) =>
    fieldWritable c ig v (noItems a)
      (arrayWritable (within c.nlo c.nhi v) (structWritable flo fhi v (writable x v sub) (fields x v sub)) a) ∧
    writable x v rest b

/-- a message that can be written at version `v`; (specification; models no code.) -/
def messageWritable (x : Ext) (v : Int) (m : Msg) (s : m.Val) : Prop :=
  structWritable m.flo m.fhi v (writable x v m.fields) (fields x v m.fields) s

/-- the Go values the claim is about: records that fit their length field in batches not compressed with snappy (see C150), UUIDs of 16 bytes, byte strings not of exactly
2^31-1 bytes (see C08), tags that fit uint32; (specification; models no code.) -/
def acceptReq : Req where
  prim := fun p => match p with
    | .records => fun a => ∀ b ∈ a.items, (∀ r ∈ b.records.getD [], RecordFits r ∧ exactTs r.timestampDelta) ∧ clean b
    | .uuid => fun a => a.length = 16
    | .bytes => fun a => ∀ b, a = some b → b.length ≠ 2147483647
    | _ => fun _ => True
  isNil := fun _ => True
  unknown := fun _ a => a.tag < 2^32

/-- no record batches in the structure; (specification; models no code.) -/
def noRecords : Sch → Bool
  | .nil => true
  | .prim _ _ p _ rest => !decide (p = .records) && noRecords rest
  | .arr _ _ p rest => !decide (p = .records) && noRecords rest
  | .struct _ _ _ _ sub rest => noRecords sub && noRecords rest
  | .arrS _ _ _ _ sub rest => noRecords sub && noRecords rest

/-- schemas the claim is about: no record batches inside tagged fields, nested structures exist at the version; (specification; models no code.) -/
def plain (v : Int) : Sch → Bool
  | .nil => true
  | .prim c _ p _ rest => (!isTagged c v || !decide (p = .records)) && plain v rest
  | .arr c _ p rest => (!isTagged c v || !decide (p = .records)) && plain v rest
  | .struct c _ _ _ sub rest =>
    ((decide (c.tlo = c.lo) && decide (c.thi = c.hi)) || isTagged c v || within c.lo c.hi v) &&
    (!isTagged c v || noRecords sub) && plain v sub && plain v rest
  | .arrS c _ _ _ sub rest => (!isTagged c v || noRecords sub) && plain v sub && plain v rest

end Verif.Kafka.Wire
