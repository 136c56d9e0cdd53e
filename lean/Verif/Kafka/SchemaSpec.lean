import Verif.Kafka.Schema
/-
Specification vocabulary for message round trips: which schemas are well formed, which values the claims cover
(`Sch.Ok`), and what a reader gets back (`Sch.norm`): fields the version does not carry come back as their defaults.
None of these mentions the read/write/size functions.
-/
namespace Verif.Kafka
open Verif

/-! ### values -/

/-- Values a Go variable of the type can hold (and, for records, batches covered by C16). (specification; models no code.) -/
def PrimOk : (p : Prim) → p.Val → Prop
  | .bool, _ => True
  | .int k, a => InS k a
  | .u16, a => a < 2^16
  | .f64, a => a < 2^64
  | .uuid, a => a.length = 16
  | .str, _ => True
  | .bytes, _ => True
  | .records, a => ∀ b ∈ a.items, b.Ok

/-- What a primitive value looks like after a round trip. Everything is unchanged except: the text "null" becomes null,
null strings lose stale content, and record batches carry the length and CRC found on the wire. (specification; models no code.) -/
def primNorm (x : Ext) : (p : Prim) → p.Val → p.Val
  | .str, a => a.norm
  | .records, a => a.norm x
  | .bool, a => a
  | .int _, a => a
  | .u16, a => a
  | .f64, a => a
  | .uuid, a => a
  | .bytes, a => a

/-- does the message at version `v` carry the field with this content?; (specification; models no code.) -/
def carried {α : Type} (c : Ctx) (v : Int) (nonDefault : α → Bool) (a : α) : Bool :=
  if c.tagged v then nonDefault a else !c.onlyTagged && c.supported v

/-- a field that is not carried comes back as its default; (specification; models no code.) -/
def fieldNorm {α : Type} (c : Ctx) (v : Int) (dflt : α) (nonDefault : α → Bool) (n : α → α) (a : α) : α :=
  if carried c v nonDefault a then n a else dflt

/-- tags of the known fields; (specification; models no code.) -/
def Sch.tags : Sch → List Nat
  | .nil => []
  | .prim c _ _ _ rest => c.tag.toList ++ rest.tags
  | .arr c _ _ rest => c.tag.toList ++ rest.tags
  | .struct c _ _ _ _ rest => c.tag.toList ++ rest.tags
  | .arrS c _ _ _ _ rest => c.tag.toList ++ rest.tags

/-- What a claim requires of the parts of a value: of primitive values, of the null flag of a struct, and of
unknown tagged fields (given the known tags). (specification; models no code.) -/
structure Cover where
  prim : (p : Prim) → p.Val → Prop
  isNil : Bool → Prop
  unknown : List Nat → RawTag → Prop

/-- Round-trip claims: primitive values in range, no null structs (they are written as nothing), unknown tagged fields
have unknown tags, fit uint32 and are not empty. (specification; models no code.) -/
def rtCover : Cover where
  prim := PrimOk
  isNil := fun b => b = false
  unknown := fun tags a => a.tag < 2^32 ∧ a.value ≠ [] ∧ a.tag ∉ tags

/-- Size claims: UUIDs have 16 bytes, bytes are not exactly MaxInt32 long, record batches have exact sizes
(see C13 for the records with inexact sizes), tags fit uint32. (specification; models no code.) -/
def sizeCover (x : Ext) : Cover where
  prim := fun p => match p with
    | .uuid => fun a => a.length = 16
    | .bytes => fun a => ∀ b, a = some b → b.length ≠ 2147483647
    | .records => fun a => ∀ b ∈ a.items, b.Ok ∧ b.size = (b.encWith (b.crcOf x)).length
    | _ => fun _ => True
  isNil := fun _ => True
  unknown := fun _ a => a.tag < 2^32

/-- Specification; models no code. -/
def StructOk {β : Type} (K : Cover) (tags : List Nat) (Ok : β → Prop) (s : StructVal β) : Prop :=
  K.isNil s.isNil ∧ Ok s.fields ∧ ∀ a ∈ s.unknown, K.unknown tags a

/-- a struct after a round trip: unknown tagged fields are in tag order; (specification; models no code.) -/
def structNorm {β : Type} (norm : β → β) (s : StructVal β) : StructVal β :=
  ⟨false, norm s.fields, sortTags s.unknown⟩

/-- array elements covered, and a length the length field can hold; (specification; models no code.) -/
def ArrOk {α : Type} (c : Ctx) (v : Int) (Ok : α → Prop) (a : Option (List α)) : Prop :=
  ∀ l, a = some l → ArrLenOk (c.flexible v) l.length ∧ ∀ b ∈ l, Ok b

/-- values covered by a claim: the requirements hold for every carried field; (specification; models no code.) -/
def Sch.Ok (K : Cover) (x : Ext) (v : Int) : (s : Sch) → s.Val → Prop
  | .nil, _ => True
  | .prim c _ p d rest, (a, b) => (carried c v (tagNonDefault p d) a → K.prim p a) ∧ rest.Ok K x v b
  | .arr c _ p rest, (a, b) =>
    (carried c v (fun a => decide (0 < (a.getD []).length)) a → ArrOk c v (K.prim p) a) ∧ rest.Ok K x v b
  | .struct c _ flo fhi sub rest, (a, b) =>
    (carried c v (structOps flo fhi v (sub.ops x v)).nonDefault a → StructOk K sub.tags (sub.Ok K x v) a) ∧
    rest.Ok K x v b
  | .arrS c _ _ _ sub rest, (a, b) =>
    (carried c v (fun a => decide (0 < (a.getD []).length)) a →
      ArrOk c v (StructOk K sub.tags (sub.Ok K x v)) a) ∧ rest.Ok K x v b

/-- what a reader gets back; (specification; models no code.) -/
def Sch.norm (x : Ext) (v : Int) : (s : Sch) → s.Val → s.Val
  | .nil, _ => ()
  | .prim c _ p d rest, (a, b) =>
    (fieldNorm c v (primDflt p d) (tagNonDefault p d) (primNorm x p) a, rest.norm x v b)
  | .arr c _ p rest, (a, b) =>
    (fieldNorm c v none (fun a => decide (0 < (a.getD []).length)) (fun a => a.map (·.map (primNorm x p))) a,
     rest.norm x v b)
  | .struct c _ flo fhi sub rest, (a, b) =>
    (fieldNorm c v ⟨false, (sub.ops x v).dflt, []⟩ (structOps flo fhi v (sub.ops x v)).nonDefault
      (structNorm (sub.norm x v)) a, rest.norm x v b)
  | .arrS c _ _ _ sub rest, (a, b) =>
    (fieldNorm c v none (fun a => decide (0 < (a.getD []).length)) (fun a => a.map (·.map (structNorm (sub.norm x v)))) a,
     rest.norm x v b)

/-! ### well-formed schemas -/

/-- A field context is sound at version `v` of a struct that is (not) flexible at `v`: tagged versions are supported and
only used where the struct is flexible, the tag fits uint32. (specification; models no code.) -/
def Ctx.wf (c : Ctx) (v : Int) (flex : Bool) : Bool :=
  (!c.tagged v || (flex && c.supported v)) &&
  (match c.tag with | none => !c.onlyTagged | some t => decide (t < 2^32))

/-- Specification; models no code. -/
def Prim.wf : Prim → Bool
  | .int k => decide (0 < k)
  | _ => true

/-- A schema is sound at version `v`: sound contexts, distinct tags, sound sub-structs (a tagged struct is flexible). (specification; models no code.) -/
def Sch.wf (v : Int) (flex : Bool) : Sch → Bool
  | .nil => true
  | .prim c _ p _ rest => c.wf v flex && p.wf && !c.tag.any (rest.tags.contains ·) && rest.wf v flex
  | .arr c _ p rest => c.wf v flex && p.wf && !c.tag.any (rest.tags.contains ·) && rest.wf v flex
  | .struct c _ flo fhi sub rest =>
    c.wf v flex && (!c.tagged v || inRange flo fhi v) && sub.wf v (inRange flo fhi v) && !c.tag.any (rest.tags.contains ·) && rest.wf v flex
  | .arrS c _ flo fhi sub rest =>
    c.wf v flex && sub.wf v (inRange flo fhi v) && !c.tag.any (rest.tags.contains ·) && rest.wf v flex

/-- every nested (non-array) struct field is supported at `v` unless it is tagged: then SizeInBytes agrees with Write; (specification; models no code.) -/
def Sch.structsSupported (v : Int) : Sch → Bool
  | .nil => true
  | .prim _ _ _ _ rest => rest.structsSupported v
  | .arr _ _ _ rest => rest.structsSupported v
  | .struct c _ _ _ sub rest =>
    (c.onlyTagged || c.tagged v || c.supported v) && sub.structsSupported v && rest.structsSupported v
  | .arrS _ _ _ _ sub rest => sub.structsSupported v && rest.structsSupported v

/-- Specification; models no code. -/
def Msg.wf (m : Msg) (v : Int) : Bool := m.fields.wf v (inRange m.flo m.fhi v)
/-- Specification; models no code. -/
def Msg.Ok (K : Cover) (m : Msg) (x : Ext) (v : Int) (s : m.Val) : Prop :=
  StructOk K m.fields.tags (m.fields.Ok K x v) s
/-- Specification; models no code. -/
def Msg.norm (m : Msg) (x : Ext) (v : Int) (s : m.Val) : m.Val := structNorm (m.fields.norm x v) s

/-- The default of every field is recognised as default: fails only for NaN defaults and for records (whose default, the
empty list, is taken for non-default), unless the records field is untagged and present since version 0. (specification; models no code.) -/
def Sch.dfltOk : Sch → Bool
  | .nil => true
  | .prim c _ p d rest =>
    (!tagNonDefault p d (primDflt p d) || (decide (p = .records) && c.tag.isNone && decide (c.lo ≤ 0))) && rest.dfltOk
  | .arr _ _ _ rest => rest.dfltOk
  | .struct _ _ _ _ sub rest => sub.dfltOk && rest.dfltOk
  | .arrS _ _ _ _ sub rest => sub.dfltOk && rest.dfltOk

/-! ### faithful values: the ones a round trip leaves exactly as they are -/

/-- Specification; models no code. -/
def StructFaithful {β : Type} (F : β → Prop) (s : StructVal β) : Prop :=
  s.isNil = false ∧ F s.fields ∧ s.unknown.Pairwise (·.tag < ·.tag)

/-- Carried fields hold values without the text "null" (and record batches with their wire length and CRC); fields
the version does not carry hold their defaults; unknown tagged fields are in tag order. (specification; models no code.) -/
def Sch.Faithful (x : Ext) (v : Int) : (s : Sch) → s.Val → Prop
  | .nil, _ => True
  | .prim c _ p d rest, (a, b) =>
    (if carried c v (tagNonDefault p d) a then primNorm x p a = a else a = primDflt p d) ∧ rest.Faithful x v b
  | .arr c _ p rest, (a, b) =>
    (if carried c v (fun a => decide (0 < (a.getD []).length)) a
     then ∀ l, a = some l → ∀ y ∈ l, primNorm x p y = y else a = none) ∧ rest.Faithful x v b
  | .struct c _ flo fhi sub rest, (a, b) =>
    (if carried c v (structOps flo fhi v (sub.ops x v)).nonDefault a
     then StructFaithful (sub.Faithful x v) a else a = ⟨false, (sub.ops x v).dflt, []⟩) ∧ rest.Faithful x v b
  | .arrS c _ _ _ sub rest, (a, b) =>
    (if carried c v (fun a => decide (0 < (a.getD []).length)) a
     then ∀ l, a = some l → ∀ y ∈ l, StructFaithful (sub.Faithful x v) y else a = none) ∧ rest.Faithful x v b

/-! ### offending fields -/

/-- Specification; models no code. -/
inductive Offence where
  | lost   -- a non-ignorable field introduced after version 0 holds a non-default value the version cannot carry
  | null   -- a carried field is null although it is not nullable at this version
deriving DecidableEq

/-- is a value of a primitive type null?; (specification; models no code.) -/
def Prim.null : (p : Prim) → p.Val → Bool
  | .str, a => a.isNil
  | .bytes, a => a.isNone
  | .records, a => a.isNil
  | .bool, _ => false | .int _, _ => false | .u16, _ => false | .f64, _ => false | .uuid, _ => false

/-- Specification; models no code. -/
def lostField {α : Type} (c : Ctx) (ignorable : Bool) (v : Int) (nonDefault : α → Bool) (a : α) : Prop :=
  ignorable = false ∧ 0 < c.lo ∧ c.supported v = false ∧ nonDefault a = true

/-- the fields of a struct (or of a carried struct or array element below it) hold an offence; (specification; models no code.) -/
def Sch.Has (o : Offence) (x : Ext) (v : Int) : (s : Sch) → s.Val → Prop
  | .nil, _ => False
  | .prim c ig p d rest, (a, b) =>
    (o = .lost ∧ lostField c ig v (tagNonDefault p d) a) ∨
    (o = .null ∧ carried c v (tagNonDefault p d) a = true ∧ c.nullable v = false ∧ p.null a = true) ∨
    rest.Has o x v b
  | .arr c ig p rest, (a, b) =>
    (o = .lost ∧ lostField c ig v (fun a => decide (0 < (a.getD []).length)) a) ∨
    (o = .null ∧ carried c v (fun a => decide (0 < (a.getD []).length)) a = true ∧ c.nullable v = false ∧
      (a = none ∨ ∃ l, a = some l ∧ ∃ y ∈ l, p.null y = true)) ∨
    rest.Has o x v b
  | .struct c ig flo fhi sub rest, (a, b) =>
    (o = .lost ∧ lostField c ig v (structOps flo fhi v (sub.ops x v)).nonDefault a) ∨
    (carried c v (structOps flo fhi v (sub.ops x v)).nonDefault a = true ∧ a.isNil = false ∧ sub.Has o x v a.fields) ∨
    rest.Has o x v b
  | .arrS c ig _ _ sub rest, (a, b) =>
    (o = .lost ∧ lostField c ig v (fun a => decide (0 < (a.getD []).length)) a) ∨
    (carried c v (fun a => decide (0 < (a.getD []).length)) a = true ∧
      ((o = .null ∧ c.nullable v = false ∧ a = none) ∨
       ∃ l, a = some l ∧ ∃ y ∈ l, y.isNil = false ∧ sub.Has o x v y.fields)) ∨
    rest.Has o x v b

/-- the fields the version does not carry replaced by their defaults (top level of the struct) (specification; models no code.) -/
def Sch.blank (x : Ext) (v : Int) : (s : Sch) → s.Val → s.Val
  | .nil, _ => ()
  | .prim c _ p d rest, (a, b) =>
    (if carried c v (tagNonDefault p d) a then a else primDflt p d, rest.blank x v b)
  | .arr c _ _ rest, (a, b) =>
    (if carried c v (fun a => decide (0 < (a.getD []).length)) a then a else none, rest.blank x v b)
  | .struct c _ flo fhi sub rest, (a, b) =>
    (if carried c v (structOps flo fhi v (sub.ops x v)).nonDefault a then a else ⟨false, (sub.ops x v).dflt, []⟩,
     rest.blank x v b)
  | .arrS c _ _ _ _ rest, (a, b) =>
    (if carried c v (fun a => decide (0 < (a.getD []).length)) a then a else none, rest.blank x v b)

end Verif.Kafka
