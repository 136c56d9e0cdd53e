import Verif.Kafka.Generator
import Verif.Kafka.WireSpec
import Verif.Props.VersionRange
/-
What a Kafka message specification (JSON) means, independently of the generator: which fields a message has at a version,
in which order, of which type, sent in place or as tagged fields, in compact form or not, and with which default.
Source: the README of Kafka's message specifications (clients/src/main/resources/common/message/README.md).

Only the data types of the model are used (`MSpec`, `FS`, `JVal`, `Prim`), and `Denotes` (what a version string means,
Props/VersionRange.lean).
-/
namespace Verif.Kafka.Layout
open Verif Verif.Kafka Verif.Props

/-- the default value of a field; `empty`: nothing (types without other defaults) (specification; models no code.) -/
inductive Default where
  | bool (b : Bool) | int (i : Int) | str (s : Bytes) | null | empty
deriving DecidableEq, Repr

/-- The fields of a structure at one version, in order. `tag`: `some n` if sent as tagged field `n`, `none` in place;
`compact`: lengths in compact form; `tags`: the structure ends with a tagged field section. (specification; models no code.) -/
inductive Lay where
  | nil
  | prim (tag : Option Nat) (compact : Bool) (p : Prim) (d : Default) (rest : Lay)
  | arr (tag : Option Nat) (compact : Bool) (p : Prim) (rest : Lay)
  | struct (tag : Option Nat) (tags : Bool) (sub rest : Lay)
  | arrS (tag : Option Nat) (compact tags : Bool) (sub rest : Lay)
deriving DecidableEq, Repr

/-! ### the meaning of the strings -/

/-- names of primitive types; (specification; models no code.) -/
inductive PrimName : List Char → Prim → Prop
  | bool : PrimName "bool".toList .bool
  | int8 : PrimName "int8".toList (.int 1)
  | int16 : PrimName "int16".toList (.int 2)
  | int32 : PrimName "int32".toList (.int 4)
  | int64 : PrimName "int64".toList (.int 8)
  | uint16 : PrimName "uint16".toList .u16
  | float64 : PrimName "float64".toList .f64
  | string : PrimName "string".toList .str
  | uuid : PrimName "uuid".toList .uuid
  | bytes : PrimName "bytes".toList .bytes
  | records : PrimName "records".toList .records

/-- names of structures begin with a capital letter; (specification; models no code.) -/
def StructName (n : List Char) : Prop := ∃ c r, n = c :: r ∧ 'A' ≤ c ∧ c ≤ 'Z'

/-- Specification; models no code. -/
def IsHex (c : Char) : Prop := ('0' ≤ c ∧ c ≤ '9') ∨ ('a' ≤ c ∧ c ≤ 'f') ∨ ('A' ≤ c ∧ c ≤ 'F')
/-- value of a hexadecimal digit; (specification; models no code.) -/
def hexOf (c : Char) : Nat := if c ≤ '9' then c.toNat - 48 else if c ≤ 'F' then c.toNat - 55 else c.toNat - 87
/-- Specification; models no code. -/
def hexVal (s : List Char) : Nat := s.foldl (fun n c => n * 16 + hexOf c) 0

/-- an integer literal: decimal or hexadecimal, possibly with a minus sign; (specification; models no code.) -/
inductive IntLit : List Char → Int → Prop
  | dec {s : List Char} : s ≠ [] → (∀ c ∈ s, IsDigit c) → IntLit s (decVal s)
  | hex {s : List Char} : s ≠ [] → (∀ c ∈ s, IsHex c) → IntLit ('0' :: 'x' :: s) (hexVal s)
  | neg {s : List Char} {i : Int} : IntLit s i → 0 ≤ i → IntLit ('-' :: s) (-i)

/-- the default of a field of a primitive type; (specification; models no code.) -/
inductive DefaultOf : Prim → Option JVal → Default → Prop
  | bool : DefaultOf .bool none (.bool false)
  | boolTrue : DefaultOf .bool (some (.str "true".toList)) (.bool true)
  | boolFalse : DefaultOf .bool (some (.str "false".toList)) (.bool false)
  | boolJson {b : Bool} : DefaultOf .bool (some (.bool b)) (.bool b)
  | int {k : Nat} : DefaultOf (.int k) none (.int 0)
  | intJson {k : Nat} {i : Int} : DefaultOf (.int k) (some (.num i)) (.int i)
  | intStr {k : Nat} {s : List Char} {i : Int} : IntLit s i → DefaultOf (.int k) (some (.str s)) (.int i)
  | u16 : DefaultOf .u16 none (.int 0)
  | u16Json {i : Int} : DefaultOf .u16 (some (.num i)) (.int i)
  | u16Str {s : List Char} {i : Int} : IntLit s i → DefaultOf .u16 (some (.str s)) (.int i)
  | f64 : DefaultOf .f64 none .empty
  | uuid : DefaultOf .uuid none .empty
  | str : DefaultOf .str none (.str [])
  | strNull : DefaultOf .str (some (.str "null".toList)) .null
  | strStr {s : List Char} : s ≠ "null".toList → (∀ c ∈ s, c.toNat < 128) →
      DefaultOf .str (some (.str s)) (.str (s.map fun c => UInt8.ofNat c.toNat))
  | bytes : DefaultOf .bytes none .empty
  | bytesNull : DefaultOf .bytes (some (.str "null".toList)) .empty
  | records : DefaultOf .records none .empty

/-- the field exists at version `v`; (specification; models no code.) -/
def Present (f : FInfo) (v : Int) : Prop := ∃ lo hi, Denotes f.versions lo hi ∧ lo ≤ v ∧ v ≤ hi
/-- Specification; models no code. -/
def Absent (f : FInfo) (v : Int) : Prop := ∃ lo hi, Denotes f.versions lo hi ∧ ¬ (lo ≤ v ∧ v ≤ hi)

/-- Is a flexible range (of a message or a field) in force? Absent: what surrounds it decides; "none": never. (specification; models no code.) -/
inductive Flexible (outer : Bool) (v : Int) : List Char → Bool → Prop
  | inherited : Flexible outer v [] outer
  | none : Flexible outer v "none".toList false
  | range {s : List Char} {lo hi : Int} {b : Bool} : Denotes s lo hi → (b = true ↔ lo ≤ v ∧ v ≤ hi) → Flexible outer v s b

/-- where a field is sent; (specification; models no code.) -/
inductive Place (f : FInfo) (v : Int) : Option Nat → Prop
  | untagged : f.tag = none → Place f v none
  | never {n : Nat} : f.tag = some n → f.tagged = [] → Place f v none
  | tagged {n : Nat} {lo hi : Int} : f.tag = some n → Denotes f.tagged lo hi → lo ≤ v → v ≤ hi → Place f v (some n)
  | notYet {n : Nat} {lo hi : Int} : f.tag = some n → Denotes f.tagged lo hi → ¬ (lo ≤ v ∧ v ≤ hi) → Place f v none

/-- an array may have the default null; (specification; models no code.) -/
def ArrayDefault : Option JVal → Prop
  | none => True
  | some (.str s) => s = "null".toList
  | some _ => False

/-! ### the meaning of a list of fields -/

/-- `Fields common top v flex fs l`: at version `v`, in a structure that is flexible (or not) there, the fields `fs` are
sent as `l`. `common`: the structures defined once for the message; `top`: the message itself is flexible at `v`. (specification; models no code.) -/
inductive Fields : List (List Char × FS) → Bool → Int → Bool → FS → Lay → Prop
  | nil {cm top v fl} : Fields cm top v fl .nil .nil
  | absent {cm top v fl f sub rest l} : Absent f v → Fields cm top v fl rest l → Fields cm top v fl (.cons f sub rest) l
  | prim {cm top v fl f rest l t b p d} : Present f v → Place f v t → Flexible fl v f.flex b → PrimName f.typ p →
      DefaultOf p f.dflt d → Fields cm top v fl rest l → Fields cm top v fl (.cons f .nil rest) (.prim t b p d l)
  | arr {cm top v fl f rest l t b p n} : Present f v → Place f v t → Flexible fl v f.flex b → f.typ = '[' :: ']' :: n →
      PrimName n p → ArrayDefault f.dflt → Fields cm top v fl rest l → Fields cm top v fl (.cons f .nil rest) (.arr t b p l)
  | struct {cm top v fl f g gs gr rest l ls t b} : Present f v → Place f v t → Flexible fl v f.flex b → StructName f.typ →
      f.dflt = none → Fields cm top v b (.cons g gs gr) ls → Fields cm top v fl rest l →
      Fields cm top v fl (.cons f (.cons g gs gr) rest) (.struct t b ls l)
  | arrS {cm top v fl f g gs gr rest l ls t b n} : Present f v → Place f v t → Flexible fl v f.flex b →
      f.typ = '[' :: ']' :: n → StructName n → ArrayDefault f.dflt → Fields cm top v b (.cons g gs gr) ls →
      Fields cm top v fl rest l → Fields cm top v fl (.cons f (.cons g gs gr) rest) (.arrS t b b ls l)
  | structCommon {cm top v fl f fs rest l ls t b} : Present f v → Place f v t → Flexible fl v f.flex b → StructName f.typ →
      f.dflt = none → (cm.find? fun p => p.1 == f.typ) = some (f.typ, fs) → Fields [] top v top fs ls →
      Fields cm top v fl rest l → Fields cm top v fl (.cons f .nil rest) (.struct t top ls l)
  | arrSCommon {cm top v fl f fs rest l ls t b n} : Present f v → Place f v t → Flexible fl v f.flex b →
      f.typ = '[' :: ']' :: n → StructName n → ArrayDefault f.dflt → (cm.find? fun p => p.1 == n) = some (n, fs) →
      Fields [] top v top fs ls → Fields cm top v fl rest l →
      Fields cm top v fl (.cons f .nil rest) (.arrS t b top ls l)

/-- A message at version `v`: whether it ends with a tagged field section, and its fields. A message without flexible
versions is never flexible. (specification; models no code.) -/
def Message (m : MSpec) (v : Int) (tags : Bool) (l : Lay) : Prop :=
  Flexible false v m.flex tags ∧ Fields m.common tags v tags m.fields l

/-! ### nullable fields -/

/-- Is null allowed for a field at version `v`? `otherwise`: the answer for a field that says nothing about it. (specification; models no code.) -/
inductive Nullable (otherwise : Bool) (v : Int) : List Char → Bool → Prop
  | unsaid : Nullable otherwise v [] otherwise
  | range {s : List Char} {lo hi : Int} {b : Bool} : Denotes s lo hi → (b = true ↔ lo ≤ v ∧ v ≤ hi) → Nullable otherwise v s b

/-- `Nulls pass cm top v o fs s`: the fields of the codec `s` allow null at version `v` as the specification `fs` says,
where a field that says nothing gets the answer `o`; inside a structure whose field got the answer `b` it is `pass b`,
inside a common structure `top`. According to Kafka's rules a field that says nothing is never nullable: `pass` and `o`
are constantly false. -/
inductive Nulls (pass : Bool → Bool) : List (List Char × FS) → Bool → Int → Bool → FS → Sch → Prop
  | nil {cm top v o} : Nulls pass cm top v o .nil .nil
  | prim {cm top v o f rest c ig p d r} : Nullable o v f.nullable (Wire.within c.nlo c.nhi v) → Nulls pass cm top v o rest r →
      Nulls pass cm top v o (.cons f .nil rest) (.prim c ig p d r)
  | arr {cm top v o f rest c ig p r} : Nullable o v f.nullable (Wire.within c.nlo c.nhi v) → Nulls pass cm top v o rest r →
      Nulls pass cm top v o (.cons f .nil rest) (.arr c ig p r)
  | struct {cm top v o f g gs gr rest c ig flo fhi s r} : Nullable o v f.nullable (Wire.within c.nlo c.nhi v) →
      Nulls pass cm top v (pass (Wire.within c.nlo c.nhi v)) (.cons g gs gr) s → Nulls pass cm top v o rest r →
      Nulls pass cm top v o (.cons f (.cons g gs gr) rest) (.struct c ig flo fhi s r)
  | arrS {cm top v o f g gs gr rest c ig flo fhi s r} : Nullable o v f.nullable (Wire.within c.nlo c.nhi v) →
      Nulls pass cm top v (pass (Wire.within c.nlo c.nhi v)) (.cons g gs gr) s → Nulls pass cm top v o rest r →
      Nulls pass cm top v o (.cons f (.cons g gs gr) rest) (.arrS c ig flo fhi s r)
  | structCommon {cm top v o f rest c ig flo fhi fs n s r} : Nullable o v f.nullable (Wire.within c.nlo c.nhi v) →
      (n, fs) ∈ cm → Nulls pass [] top v top fs s → Nulls pass cm top v o rest r →
      Nulls pass cm top v o (.cons f .nil rest) (.struct c ig flo fhi s r)
  | arrSCommon {cm top v o f rest c ig flo fhi fs n s r} : Nullable o v f.nullable (Wire.within c.nlo c.nhi v) →
      (n, fs) ∈ cm → Nulls pass [] top v top fs s → Nulls pass cm top v o rest r →
      Nulls pass cm top v o (.cons f .nil rest) (.arrS c ig flo fhi s r)

/-- the codec allows null exactly where the specification says so -/
def NullsAsSpecified (m : MSpec) (v : Int) (s : Sch) : Prop := Nulls (fun _ => false) m.common false v false m.fields s

/-- no field with fields of its own speaks about null; (specification; models no code.) -/
def flatNulls : FS → Bool
  | .nil => true
  | .cons f sub rest => (decide (f.nullable = []) || decide (sub = .nil)) && flatNulls sub && flatNulls rest

/-! ### the layout of a schema -/

/-- the default a field of the code has, as `Wire.dflt` (WireSpec.lean) gives it -/
def codeDefault (p : Prim) (d : Dflt) : Default :=
  match p with
  | .bool => .bool (Wire.dflt .bool d)
  | .int k => .int (Wire.dflt (.int k) d)
  | .u16 => .int ((Wire.dflt .u16 d : Nat) : Int)
  | .str => if (Wire.dflt .str d).isNil then .null else .str (Wire.dflt .str d).value
  | _ => .empty

/-- sent at all; (specification; models no code.) -/
def shown (c : Ctx) (v : Int) : Bool := Wire.inPlace c v || Wire.isTagged c v
/-- Specification; models no code. -/
def place (c : Ctx) (v : Int) : Option Nat := if Wire.isTagged c v then c.tag else none

/-- What the generated code sends at version `v` (`Wire.fields`, WireSpec.lean, without the values). -/
def ofSch (v : Int) : Sch → Lay
  | .nil => .nil
  | .prim c _ p d rest =>
    if shown c v then .prim (place c v) (Wire.within c.flo c.fhi v) p (codeDefault p d) (ofSch v rest) else ofSch v rest
  | .arr c _ p rest => if shown c v then .arr (place c v) (Wire.within c.flo c.fhi v) p (ofSch v rest) else ofSch v rest
  | .struct c _ flo fhi sub rest =>
    if shown c v then .struct (place c v) (Wire.within flo fhi v) (ofSch v sub) (ofSch v rest) else ofSch v rest
  | .arrS c _ flo fhi sub rest =>
    if shown c v then .arrS (place c v) (Wire.within c.flo c.fhi v) (Wire.within flo fhi v) (ofSch v sub) (ofSch v rest)
    else ofSch v rest

/-! ### specifications the theorem speaks about -/

/-- version strings with a plus sign only at the end; (specification; models no code.) -/
def plusLast (s : List Char) : Bool := !(s.dropLast.contains '+')

/-- Literals as Kafka writes them: no leading plus sign, booleans "true" and "false"; (specification; models no code.) -/
def plainDefault (typ : List Char) : Option JVal → Bool
  | some (.str s) => if typ = "bool".toList then s ∈ ["true".toList, "false".toList] else !(s.head? == some '+')
  | _ => true

/-- a field is tagged only at versions at which it exists; (specification; models no code.) -/
def taggedWithin (f : FInfo) : Bool :=
  f.tagged = [] || (match versionRange f.versions, versionRange f.tagged with
    | some (lo, hi), some (tlo, thi) => decide (lo ≤ tlo ∧ thi ≤ hi)
    | _, _ => false)

/-- The strings of a specification have the usual form: version strings with a plus sign only at the end, no blanks in types,
plain literals, tagged versions among the versions. -/
def usual : FS → Bool
  | .nil => true
  | .cons f sub rest =>
    plusLast f.versions && plusLast f.flex && plusLast f.nullable && plusLast f.tagged && !(f.typ.contains ' ') &&
    plainDefault f.typ f.dflt && taggedWithin f && usual sub && usual rest

/-- Specification; models no code. -/
def usualMessage (m : MSpec) : Bool :=
  plusLast m.valid && plusLast m.flex && m.common.all (fun p => usual p.2) && usual m.fields

end Verif.Kafka.Layout
