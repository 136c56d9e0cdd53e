import Verif.Kafka.TagLemmas
/-
Model of the code the generator emits for a message structure:
components/kafka-protocol-go/assets/templates/struct_processor.tmpl (line numbers refer to it).
A message schema (`Sch`) is the list of fields of one generated struct; the values of a schema are typed by it.
Every generated struct (pkg/protocol/messages/**) is an instance; the table in Verif/Kafka/Gen/* is extracted from them.
-/
namespace Verif.Kafka
open Verif

/-- primitive field types (fields/*.go); `int k` is the signed integer of `k` bytes -/
inductive Prim where
  | bool | int (k : Nat) | u16 | f64 | uuid | str | bytes | records
deriving DecidableEq, Repr

/-- Go type of a primitive field; (the field types of components/kafka-protocol-go/pkg/protocol/types/fields) -/
@[reducible] def Prim.Val : Prim → Type
  | .bool => Bool
  | .int _ => Int
  | .u16 => Nat
  | .f64 => Nat            -- IEEE bit pattern
  | .uuid => Bytes
  | .str => NStr
  | .bytes => Option Bytes
  | .records => RecBatches

/-- Go zero value (state of a fresh variable); also the `SetDefault` value without custom default, lines 558-573 -/
def Prim.zero : (p : Prim) → p.Val
  | .bool => false
  | .int _ => (0 : Int)
  | .u16 => (0 : Nat)
  | .f64 => (0 : Nat)
  | .uuid => List.replicate 16 0
  | .str => ⟨[], false⟩
  | .bytes => none
  | .records => ⟨[], false⟩

/-- custom defaults the generator can emit (lines 36-42, 551-556): integers, floats (bits), booleans, strings -/
inductive Dflt where
  | none | int (i : Int) | bool (b : Bool) | str (s : Bytes)
deriving DecidableEq, Repr

/-- lines 551-573 `SetDefault` of a primitive field. A string default of "null" means null (string.go:53-54). -/
def primDflt : (p : Prim) → Dflt → p.Val
  | .bool, .bool b => b
  | .int _, .int i => i
  | .u16, .int i => (i.toNat : Nat)
  | .f64, .int i => (i.toNat : Nat)
  | .str, .str s => NStr.ofValue s
  | p, _ => p.zero

/-- `!=` on float64 given by bit patterns: NaN differs from everything, the two zeros are equal; the comparison with the default in the generated code (struct_processor.tmpl) -/
def f64Ne (a b : Nat) : Bool :=
  let isNaN (n : Nat) : Bool := decide (n % 2^63 > 0x7ff * 2^52)
  if isNaN a || isNaN b then true
  else if a % 2^63 = 0 ∧ b % 2^63 = 0 then false
  else decide (a ≠ b)

/-- The "is it non-default" test used for tagged fields: lines 371-395, 735-759, 850-874. -/
def tagNonDefault : (p : Prim) → Dflt → p.Val → Bool
  | .str, .str s, x => if s = nullBytes then !x.isNil else decide (x.value ≠ s)
  | .str, _, x => decide (x.value ≠ [])
  | .uuid, _, x => decide (x ≠ List.replicate 16 0)
  | .records, _, x => !x.isNil
  | .bytes, _, x => decide (x ≠ none)
  | .bool, .bool b, x => decide (x ≠ b)
  | .bool, _, x => x
  | .int _, .int i, x => decide (x ≠ i)
  | .int _, _, x => decide (x ≠ (0 : Int))
  | .u16, .int i, x => decide (x ≠ i.toNat)
  | .u16, _, x => decide (x ≠ (0 : Nat))
  | .f64, .int i, x => f64Ne x i.toNat
  | .f64, _, x => f64Ne x 0

/-- The test of `validateNonIgnorableFields`, lines 901-943. (`Bytes() != nil` for strings without custom default is
`value ≠ []` here, see `NStr`.) -/
def validNonDefault (p : Prim) (d : Dflt) (x : p.Val) : Bool := tagNonDefault p d x

/-- recordbatch.go:166-192 -/
def RecordBatch.equal (a b : RecordBatch) : Bool :=
  decide ({ a with records := none, isComplete := true } = { b with records := none, isComplete := true }) &&
  decide (a.recordList.length = b.recordList.length) &&
  (a.recordList.zip b.recordList).all fun (r, s) => r.equal s

/-- `Equal` on primitive fields: lines 611-631; strings compare by value only (string.go:63-65), bytes by content. -/
def primEqual : (p : Prim) → p.Val → p.Val → Bool
  | .bool, x, y => decide (x = y)
  | .int _, x, y => decide (x = y)
  | .u16, x, y => decide (x = y)
  | .f64, x, y => !f64Ne x y
  | .uuid, x, y => decide (x = y)
  | .str, x, y => decide (x.value = y.value)
  | .bytes, x, y => decide (x.getD [] = y.getD [])
  | .records, x, y => decide (x.items.length = y.items.length) &&
      (x.items.zip y.items).all fun (a, b) => a.equal b

/-- the field processors of fields/*.go for a primitive type -/
def primWrite (x : Ext) (c : Ctx) (v : Int) : (p : Prim) → p.Val → Res Bytes
  | .bool, a => writeFixed c v (putBool a)
  | .int k, a => writeFixed c v (putInt k a)
  | .u16, a => writeFixed c v (beBytes 2 a)
  | .f64, a => writeFixed c v (beBytes 8 a)
  | .uuid, a => writeFixed c v a
  | .str, a => writeStr c v a
  | .bytes, a => writeBytesF c v a
  | .records, a => writeRecordsF x c v a

/-- `SizeInBytes` of the field processors; components/kafka-protocol-go/pkg/protocol/types/fields: bool.go, int8.go … uuid.go, string.go, bytes.go, records.go, each `SizeInBytes` -/
def primSize (c : Ctx) (v : Int) : (p : Prim) → p.Val → Res Nat
  | .bool, _ => sizeFixed c v 1
  | .int k, _ => sizeFixed c v k
  | .u16, _ => sizeFixed c v 2
  | .f64, _ => sizeFixed c v 8
  | .uuid, _ => sizeFixed c v 16
  | .str, a => sizeStr c v a
  | .bytes, a => sizeBytesF c v a
  | .records, a => sizeRecordsF c v a

/-- `Read` of the field processors into a variable holding `cur`; the same files, each `Read` -/
def primRead (x : Ext) (c : Ctx) (v : Int) : (p : Prim) → p.Val → Dec p.Val
  | .bool, cur => readFixed c v readBool cur
  | .int k, cur => readFixed c v (readInt k) cur
  | .u16, cur => readFixed c v (readUInt 2) cur
  | .f64, cur => readFixed c v (readUInt 8) cur
  | .uuid, cur => readFixed c v readUuid cur
  | .str, cur => readStr c v cur
  | .bytes, cur => readBytesF c v cur
  | .records, cur => readRecordsF x c v cur

/-! ### Field and structure operations at a fixed version -/

/-- what the template needs to know about the type of one field; (assets/templates/struct_processor.tmpl) -/
structure FieldOps (α : Type) where
  dflt : α
  read : α → Dec α
  write : α → Res Bytes
  size : α → Res Nat
  /-- tagged-field "non-default" test -/
  nonDefault : α → Bool
  equal : α → α → Bool
  /-- a nested struct: the template itself guards untagged Read/Write (not SizeInBytes) with IsSupportedVersion -/
  isStruct : Bool

/-- the methods of a generated struct restricted to its field list; (assets/templates/struct_processor.tmpl) -/
structure FieldsOps (β : Type) where
  dflt : β
  readFields : Dec β
  /-- the `switch` on a known tag; `none`: the tag is not known -/
  applyTag : Nat → Bytes → β → Option (Res β)
  validate : β → Bool
  writeFields : β → Res Bytes
  sizeFields : β → Res Nat
  /-- serialized known tagged fields, in field order -/
  tagged : β → Res (List RawTag)
  taggedSize : β → Res Nat
  count : β → Nat
  equal : β → β → Bool

/-- a value of a generated struct: lines 60-70 -/
structure StructVal (β : Type) where
  isNil : Bool := false
  fields : β
  unknown : List RawTag := []

/-- typesbytes.NewSliceWriter(make([]byte, 0, size)) and a Write into it (lines 355-358, 366-369, 404-412):
fails if the bytes do not fit the announced size (slicewriter.go:25-40). -/
def inCap (size : Res Nat) (w : Res Bytes) : Res Bytes :=
  match size with
  | .error e => .error e
  | .ok n => match w with
    | .error e => .error e
    | .ok b => if b.length ≤ n then .ok b else .error .other

/-- One field in front of the others. Lines 99-162 (Read), 200-245 (tags), 261-323 and 347-419 (Write),
652-693 and 719-778 (SizeInBytes), 836-880 (count), 888-947 (validate), 586-633 (Equal), 535-576 (SetDefault). (assets/templates/struct_processor.tmpl) -/
def consField {α β : Type} (c : Ctx) (ignorable : Bool) (v : Int) (f : FieldOps α) (rest : FieldsOps β) :
    FieldsOps (α × β) where
  dflt := (f.dflt, rest.dflt)
  readFields :=
    (if c.onlyTagged || c.tagged v then Dec.ret f.dflt
     else if f.isStruct && !c.supported v then Dec.ret f.dflt
     else f.read f.dflt) ⟫= fun a => rest.readFields ⟫= fun b => Dec.ret (a, b)
  applyTag := fun t val (a, b) =>
    if c.tag = some t then
      some (if !c.tagged v then .error .other
            else match f.read a val with
              | .error e => .error e
              | .ok (a', _) => .ok (a', b))
    else match rest.applyTag t val b with
      | none => none
      | some (.error e) => some (.error e)
      | some (.ok b') => some (.ok (a, b'))
  validate := fun (a, b) =>
    (ignorable || decide (c.lo ≤ 0) || c.supported v || !f.nonDefault a) && rest.validate b
  writeFields := fun (a, b) =>
    (if c.onlyTagged || c.tagged v then .ok []
     else if f.isStruct && !c.supported v then .ok []
     else f.write a) +++ rest.writeFields b
  sizeFields := fun (a, b) =>
    sadd (if c.onlyTagged || c.tagged v then .ok 0 else f.size a) (rest.sizeFields b)
  tagged := fun (a, b) =>
    match c.tag with
    | some t =>
      if c.tagged v && f.nonDefault a then
        match inCap (f.size a) (f.write a) with
        | .error e => .error e
        | .ok w => match rest.tagged b with
          | .error e => .error e
          | .ok l => .ok (⟨t, w⟩ :: l)
      else rest.tagged b
    | none => rest.tagged b
  taggedSize := fun (a, b) =>
    match c.tag with
    | some t =>
      sadd (if c.tagged v && f.nonDefault a then
              match f.size a with
              | .error e => .error e
              | .ok n => if n > 0xffffffff then .error .other else .ok (n + uint32Size n + uint32Size t)
            else .ok 0) (rest.taggedSize b)
    | none => rest.taggedSize b
  count := fun (a, b) => (if c.tagged v && f.nonDefault a then 1 else 0) + rest.count b
  equal := fun (a, b) (a', b') => f.equal a a' && rest.equal b b'

/-- the empty field list; (struct_processor.tmpl without fields) -/
def nilFields : FieldsOps Unit where
  dflt := ()
  readFields := Dec.ret ()
  applyTag := fun _ _ _ => none
  validate := fun _ => true
  writeFields := fun _ => .ok []
  sizeFields := fun _ => .ok 0
  tagged := fun _ => .ok []
  taggedSize := fun _ => .ok 0
  count := fun _ => 0
  equal := fun _ _ => true

/-- lines 201-248: dispatch of the raw tagged fields that were read; unknown ones are kept in order -/
def applyTags {β : Type} (fs : FieldsOps β) : List RawTag → β × List RawTag → Res (β × List RawTag)
  | [], s => .ok s
  | a :: l, (b, u) =>
    match fs.applyTag a.tag a.value b with
    | none => applyTags fs l (b, u ++ [a])
    | some (.error e) => .error e
    | some (.ok b') => applyTags fs l (b', u)

/-- lines 97-252 `Read` of a generated struct whose flexible versions are `flo..fhi`. -/
def structRead {β : Type} (flo fhi v : Int) (fs : FieldsOps β) : Dec (StructVal β) :=
  fs.readFields ⟫= fun b => fun bs =>
    if !inRange flo fhi v then .ok (⟨false, b, []⟩, bs)
    else if bs.length = 0 then .ok (⟨false, b, []⟩, bs)
    else match readRawTags bs with
      | .error e => .error e
      | .ok (raw, r) =>
        match applyTags fs raw (b, []) with
        | .error e => .error e
        | .ok (b', u) => .ok (⟨false, b', u⟩, r)

/-- lines 254-427 `Write`. -/
def structWrite {β : Type} (flo fhi v : Int) (fs : FieldsOps β) (s : StructVal β) : Res Bytes :=
  if s.isNil then .ok []
  else if !fs.validate s.fields then .error .other
  else fs.writeFields s.fields +++
    (if !inRange flo fhi v then
       (if s.unknown.length + fs.count s.fields > 0 then .error .other else .ok [])
     else match fs.tagged s.fields with
       | .error e => .error e
       | .ok l => writeRawTags (s.unknown ++ l))

/-- lines 780-788 -/
def unknownSize : List RawTag → Res Nat
  | [] => .ok 0
  | a :: l =>
    if a.value.length > 0xffffffff then .error .other
    else sadd (.ok (uint32Size a.tag + uint32Size a.value.length + a.value.length)) (unknownSize l)

/-- lines 639-793 `SizeInBytes`. -/
def structSize {β : Type} (flo fhi v : Int) (fs : FieldsOps β) (s : StructVal β) : Res Nat :=
  if s.isNil then .ok 0
  else if !fs.validate s.fields then .error .other
  else sadd (fs.sizeFields s.fields)
    (let n := s.unknown.length + fs.count s.fields
     if n > 0xffffffff then .error .other
     else if !inRange flo fhi v then (if n > 0 then .error .other else .ok 0)
     else sadd (.ok (uint32Size n)) (sadd (fs.taggedSize s.fields) (unknownSize s.unknown)))

/-- a nested struct as a field; `Equal`: lines 581-636 (isNil is not compared) -/
def structOps {β : Type} (flo fhi v : Int) (fs : FieldsOps β) : FieldOps (StructVal β) where
  dflt := ⟨false, fs.dflt, []⟩
  read := fun _ => structRead flo fhi v fs          -- Read starts with SetDefault
  write := structWrite flo fhi v fs
  size := structSize flo fhi v fs
  nonDefault := fun s => !(decide (s.unknown = []) && fs.equal s.fields fs.dflt)
  equal := fun s t => decide (s.unknown = t.unknown) && fs.equal s.fields t.fields
  isStruct := true

/-- a primitive field; (struct_processor.tmpl, with the field processor of the type) -/
def primOps (x : Ext) (c : Ctx) (v : Int) (p : Prim) (d : Dflt) : FieldOps p.Val where
  dflt := primDflt p d
  read := primRead x c v p
  write := primWrite x c v p
  size := primSize c v p
  nonDefault := tagNonDefault p d
  equal := primEqual p
  isStruct := false

/-- an array field (of primitives or of structs); nil and empty are both default and `Equal` (lines 587-605) -/
def arrOps {α : Type} (c : Ctx) (v : Int) (zero : α) (el : FieldOps α) : FieldOps (Option (List α)) where
  dflt := none
  read := fun _ => readArr c v (el.read zero)
  write := writeArr c v el.write
  size := sizeArr c v el.size
  nonDefault := fun a => decide (0 < (a.getD []).length)
  equal := fun a b => decide ((a.getD []).length = (b.getD []).length) &&
    ((a.getD []).zip (b.getD [])).all fun (x, y) => el.equal x y
  isStruct := false

/-! ### Schemas -/

/-- field lists of generated structs; (what assets/templates/struct_processor.tmpl ranges over) -/
inductive Sch where
  | nil
  | prim (c : Ctx) (ignorable : Bool) (p : Prim) (d : Dflt) (rest : Sch)
  | arr (c : Ctx) (ignorable : Bool) (p : Prim) (rest : Sch)
  | struct (c : Ctx) (ignorable : Bool) (flo fhi : Int) (sub rest : Sch)
  | arrS (c : Ctx) (ignorable : Bool) (flo fhi : Int) (sub rest : Sch)

/-- Go type of the fields; (assets/templates/struct_processor.tmpl) -/
@[reducible] def Sch.Val : Sch → Type
  | .nil => Unit
  | .prim _ _ p _ rest => p.Val × rest.Val
  | .arr _ _ p rest => Option (List p.Val) × rest.Val
  | .struct _ _ _ _ sub rest => StructVal sub.Val × rest.Val
  | .arrS _ _ _ _ sub rest => Option (List (StructVal sub.Val)) × rest.Val

/-- the generated methods for a schema at version `v`; (assets/templates/struct_processor.tmpl instantiated) -/
def Sch.ops (x : Ext) (v : Int) : (s : Sch) → FieldsOps s.Val
  | .nil => nilFields
  | .prim c ig p d rest => consField c ig v (primOps x c v p d) (rest.ops x v)
  | .arr c ig p rest => consField c ig v (arrOps c v p.zero (primOps x c v p .none)) (rest.ops x v)
  | .struct c ig flo fhi sub rest => consField c ig v (structOps flo fhi v (sub.ops x v)) (rest.ops x v)
  | .arrS c ig flo fhi sub rest =>
    let el := structOps flo fhi v (sub.ops x v)
    consField c ig v (arrOps c v el.dflt el) (rest.ops x v)

/-- a generated message (or header) struct: field list and flexible versions; (components/kafka-protocol-go/pkg/protocol/messages/**) -/
structure Msg where
  flo : Int
  fhi : Int
  fields : Sch

/-- the Go struct of a message (components/kafka-protocol-go/pkg/protocol/messages/**) -/
abbrev Msg.Val (m : Msg) : Type := StructVal m.fields.Val
/-- `Read` of a message (struct_processor.tmpl) -/
def Msg.read (m : Msg) (x : Ext) (v : Int) : Dec m.Val := structRead m.flo m.fhi v (m.fields.ops x v)
/-- `Write` of a message (struct_processor.tmpl) -/
def Msg.write (m : Msg) (x : Ext) (v : Int) (s : m.Val) : Res Bytes := structWrite m.flo m.fhi v (m.fields.ops x v) s
/-- `SizeInBytes` of a message (struct_processor.tmpl) -/
def Msg.size (m : Msg) (x : Ext) (v : Int) (s : m.Val) : Res Nat := structSize m.flo m.fhi v (m.fields.ops x v) s
/-- `Equal` of a message (struct_processor.tmpl) -/
def Msg.equal (m : Msg) (x : Ext) (s t : m.Val) : Bool :=
  decide (s.unknown = t.unknown) && (m.fields.ops x 0).equal s.fields t.fields
/-- lines 975-980 `…Default()` -/
def Msg.dflt (m : Msg) (x : Ext) : m.Val := ⟨false, (m.fields.ops x 0).dflt, []⟩

end Verif.Kafka
