import Verif.Kafka.Schema
import Verif.Kafka.Generator
/-
Model of the JSON rendering of messages: struct_processor.tmpl:437-506 (`MarshalJSON` of every generated struct), fields/util.go:68-94, array.go:214-243,
arrayofstruct.go:227-259, bytes.go:227-235, taggedfields.go:178-193, string.go:87-98, recordheader.go:67-93, batchrecord.go:113-159, recordbatch.go:203-252,
recordbatches.go:92-119. `String()` of a message gives the same text.

Simplifications: the text of a float is a parameter (`strconv.FormatFloat`); a nil and an empty slice are not distinguished in `unknownTaggedFields` and in record
batches (see Schema.lean), so whether such a slice is nil is a parameter of the rendering. `bytes.Join` allocates and never aliases.
-/
namespace Verif.Kafka.Json
open Verif Verif.Kafka

/-- what the texts depend on besides the message: library functions of Go, and how nil slices are treated (models no code of its own) -/
structure Env where
  /-- strconv.FormatFloat(p, 'f', -1, 64) -/
  fmt : Nat → Bytes
  /-- empty slices are nil -/
  emptyNil : Bool
  /-- the capacity of the buffer in RecordHeader.MarshalJSON beyond its content -/
  spare : Nat

/-- ASCII texts; (Go string literals of struct_processor.tmpl) -/
def asc (s : List Char) : Bytes := s.map fun c => UInt8.ofNat c.toNat

/-- bytes.Join(l, ", ") as in MarshalJSON of struct_processor.tmpl -/
def joinC : List Bytes → Bytes
  | [] => []
  | [a] => a
  | a :: b :: l => a ++ 44 :: 32 :: joinC (b :: l)

/-- the literal `null` -/
def null : Bytes := [110, 117, 108, 108]
/-- a text between quotes, without escapes (struct_processor.tmpl, MarshalJSON) -/
def quoted (t : Bytes) : Bytes := 34 :: (t ++ [34])
/-- `"key": value`; (struct_processor.tmpl, MarshalJSON) -/
def member (k v : Bytes) : Bytes := quoted k ++ 58 :: 32 :: v
/-- (struct_processor.tmpl, MarshalJSON) -/
def array (l : List Bytes) : Bytes := 91 :: (joinC l ++ [93])
/-- (struct_processor.tmpl, MarshalJSON) -/
def object (l : List Bytes) : Bytes := 123 :: (joinC l ++ [125])

/-- strconv.FormatUint(n, 10) Go `strconv.FormatUint` -/
def fmtNat (n : Nat) : Bytes := if n < 10 then [UInt8.ofNat (48 + n)] else fmtNat (n / 10) ++ [UInt8.ofNat (48 + n % 10)]
/-- strconv.FormatInt(i, 10) Go `strconv.FormatInt` -/
def fmtInt (i : Int) : Bytes := if i < 0 then 45 :: fmtNat i.natAbs else fmtNat i.natAbs

/-- base64.StdEncoding; Go `base64.StdEncoding` -/
def b64Char (n : Nat) : UInt8 :=
  if n < 26 then UInt8.ofNat (65 + n) else if n < 52 then UInt8.ofNat (71 + n) else if n < 62 then UInt8.ofNat (n - 4) else if n = 62 then 43 else 47
/-- Go `base64.StdEncoding.EncodeToString` -/
def b64 : Bytes → Bytes
  | [] => []
  | [a] => [b64Char (a.toNat / 4), b64Char (a.toNat % 4 * 16), 61, 61]
  | [a, b] => [b64Char (a.toNat / 4), b64Char (a.toNat % 4 * 16 + b.toNat / 16), b64Char (b.toNat % 16 * 4), 61]
  | a :: b :: c :: r =>
    b64Char (a.toNat / 4) :: b64Char (a.toNat % 4 * 16 + b.toNat / 16) :: b64Char (b.toNat % 16 * 4 + c.toNat / 64) :: b64Char (c.toNat % 64) :: b64 r

/-- `null` or a quoted text: bytes.go:228-232, batchrecord.go:121-130 -/
def b64Text : Option Bytes → Bytes
  | none => null
  | some b => quoted (b64 b)

/-- string.go:87-98: the bytes as they are, between quotes -/
def strText (s : NStr) : Bytes := if s.isNil then null else quoted s.value

/-- Go `strconv.FormatBool` -/
def boolText (b : Bool) : Bytes := if b then [116, 114, 117, 101] else [102, 97, 108, 115, 101]

/-- a slice that is nil if it is empty and `emptyNil`; (struct_processor.tmpl, MarshalJSON) -/
def sliceText (e : Env) (l : List Bytes) : Bytes := if l = [] ∧ e.emptyNil then null else array l

/-! ### records -/

/-- a member name in fields/recordheader.go -/
def kKey : Bytes := asc ['k', 'e', 'y']
/-- a member name in fields/recordheader.go -/
def kValue : Bytes := asc ['v', 'a', 'l', 'u', 'e']

/-- recordheader.go:75-79: the first part -/
def headerFirst (h : RecordHeader) : Bytes := 123 :: member kKey (quoted (slice h.key))
/-- recordheader.go:82-90: the second part, as it is written: in up to three pieces -/
def headerPieces (h : RecordHeader) : List Bytes := match h.value with
  | none => [member kValue null ++ [125]]
  | some v => [quoted kValue ++ [58, 32, 34], b64 v, [34, 125]]

/-- bytes.Buffer: what of the pieces is written into the array of capacity `c` before the buffer has to move to a bigger one, and stays there; (Go `bytes.Buffer`) -/
def intoArray (c : Nat) : List Bytes → Bytes
  | [] => []
  | p :: l => if p.length ≤ c then p ++ intoArray (c - p.length) l else []

/-- recordheader.go:67-93: the slice of the first part and the buffer share their array (`b.Bytes()`, `b.Reset()`), so the second part overwrites the first. The
array holds at least 64 bytes (`smallBufferSize`). -/
def headerText (e : Env) (h : RecordHeader) : Bytes :=
  let first := headerFirst h
  let w := intoArray (max 64 first.length + e.spare) (headerPieces h)
  joinC [(w ++ first.drop w.length).take first.length, (headerPieces h).flatten]

/-- a member name in fields/batchrecord.go -/
def kTimestampDelta : Bytes := asc ['t','i','m','e','s','t','a','m','p','D','e','l','t','a']
/-- a member name in fields/batchrecord.go -/
def kOffsetDelta : Bytes := asc ['o','f','f','s','e','t','D','e','l','t','a']
/-- a member name in fields/batchrecord.go -/
def kHeaders : Bytes := asc ['h','e','a','d','e','r','s']

/-- batchrecord.go:113-159; braces are written with the first and the last part -/
def recordText (e : Env) (r : BatchRecord) : Bytes :=
  object [member kTimestampDelta (fmtInt r.timestampDelta), member kOffsetDelta (fmtInt r.offsetDelta), member kKey (b64Text r.key), member kValue (b64Text r.value),
    member kHeaders (match r.headers with | none => null | some hs => array (hs.map (headerText e)))]

/-- the member names in fields/recordbatch.go -/
def kBatch : List Bytes := [asc ['b','a','s','e','O','f','f','s','e','t'], asc ['b','a','t','c','h','L','e','n','g','t','h'],
  asc ['p','a','r','t','i','t','i','o','n','L','e','a','d','e','r','E','p','o','c','h'], asc ['m','a','g','i','c'], asc ['c','r','c'],
  asc ['a','t','t','r','i','b','u','t','e','s'], asc ['l','a','s','t','O','f','f','s','e','t','D','e','l','t','a'],
  asc ['b','a','s','e','T','i','m','e','s','t','a','m','p'], asc ['m','a','x','T','i','m','e','s','t','a','m','p'],
  asc ['p','r','o','d','u','c','e','r','I','d'], asc ['p','r','o','d','u','c','e','r','E','p','o','c','h'], asc ['b','a','s','e','S','e','q','u','e','n','c','e']]
/-- a member name in fields/recordbatch.go -/
def kRecords : Bytes := asc ['r','e','c','o','r','d','s']

/-- recordbatch.go:209-220 -/
def batchInts (b : RecordBatch) : List Int :=
  [b.baseOffset, b.batchLength, b.partitionLeaderEpoch, b.magic, b.crc, b.attributes, b.lastOffsetDelta, b.baseTimestamp, b.maxTimestamp, b.producerId, b.producerEpoch, b.baseSequence]

/-- recordbatch.go:203-252 -/
def batchText (e : Env) (b : RecordBatch) : Bytes :=
  if !b.isComplete then null
  else object ((kBatch.zip (batchInts b)).map (fun p => member p.1 (fmtInt p.2)) ++
    [member kRecords (match b.records with | none => null | some rs => array (rs.map (recordText e)))])

/-- recordbatches.go:92-119 -/
def batchesText (e : Env) (b : RecBatches) : Bytes := if b.isNil then null else sliceText e (b.items.map (batchText e))

/-! ### messages -/

/-- template 465-494, util.go:68-94 -/
def primText (e : Env) : (p : Prim) → p.Val → Bytes
  | .bool, a => boolText a
  | .int _, a => fmtInt a
  | .u16, a => fmtNat a
  | .f64, a => e.fmt a
  | .uuid, a => b64Text (some a)
  | .str, a => strText a
  | .bytes, a => b64Text a
  | .records, a => batchesText e a

/-- a member name in fields/taggedfields.go -/
def kTag : Bytes := asc ['t','a','g']
/-- a member name in struct_processor.tmpl -/
def kUnknown : Bytes := asc ['u','n','k','n','o','w','n','T','a','g','g','e','d','F','i','e','l','d','s']

/-- taggedfields.go:178-193 (a tag read or set always has a value) -/
def tagText (t : RawTag) : Bytes := object [member kTag (fmtNat t.tag), member kValue (b64Text (some t.value))]

/-- internal/util/util.go:19-27 `CamelCase` (ASCII) and 41-48 `EscapeGoReservedKeyword`: the Go name of a field, which is its key, from its accessor -/
def keyOf (name : List Char) : Bytes :=
  let c : List Char := match name with
    | [] => []
    | c :: r => (if 'A' ≤ c ∧ c ≤ 'Z' then Char.ofNat (c.toNat + 32) else c) :: r
  asc (if c = ['t', 'y', 'p', 'e'] then '_' :: c else c)

/-- template 437-506: an object with the fields and the unknown tagged fields, or null -/
def structText {β : Type} (e : Env) (fs : β → List Bytes) (s : StructVal β) : Bytes :=
  if s.isNil then null else object (fs s.fields ++ [member kUnknown (sliceText e (s.unknown.map tagText))])

/-- array.go:215-217, arrayofstruct.go:228-230: nil slices are null -/
def optText {α : Type} (f : α → Bytes) : Option (List α) → Bytes
  | none => null
  | some l => array (l.map f)

/-- template 443-495: the members of a struct in the order of its fields -/
def fieldTexts (e : Env) : (s : Sch) → NT → s.Val → List Bytes
  | .prim _ _ p _ rest, .cons n _ nt, (a, b) => member (keyOf n) (primText e p a) :: fieldTexts e rest nt b
  | .arr _ _ p rest, .cons n _ nt, (a, b) =>
    member (keyOf n) (optText (primText e p) a) :: fieldTexts e rest nt b
  | .struct _ _ _ _ sub rest, .cons n snt nt, (a, b) => member (keyOf n) (structText e (fieldTexts e sub snt) a) :: fieldTexts e rest nt b
  | .arrS _ _ _ _ sub rest, .cons n snt nt, (a, b) =>
    member (keyOf n) (optText (structText e (fieldTexts e sub snt)) a) :: fieldTexts e rest nt b
  | _, _, _ => []

/-- `MarshalJSON` of a message (struct_processor.tmpl 437-506) -/
def msgText (e : Env) (m : Msg) (nt : NT) (s : m.Val) : Bytes := structText e (fieldTexts e m.fields nt) s

end Verif.Kafka.Json
