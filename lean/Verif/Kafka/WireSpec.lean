import Verif.Kafka.Schema
/-
The Kafka wire format, written down independently of the code: arithmetic on bytes, no reader, writer or size function of
the model is used. Only the *types* of the model appear (message schemas `Sch`, values, field contexts `Ctx`).

Source: the Kafka protocol guide (big-endian integers, unsigned varints, zig-zag varints, (compact) strings, bytes,
arrays, tagged fields, record batches v2).
-/
namespace Verif.Kafka.Wire
open Verif Verif.Kafka

/-! ### numbers -/

/-- `n` bytes of the two's complement of `x`, most significant byte first: byte `i` is `⌊x / 256^(n-1-i)⌋ mod 256`. (specification; models no code.) -/
def be (n : Nat) (x : Int) : Bytes :=
  (List.range n).map fun i => UInt8.ofNat (x / (256 ^ (n - 1 - i) : Nat) % 256).toNat

/-- unsigned varint: groups of seven bits, least significant group first, 128 added to all but the last byte; (specification; models no code.) -/
def uvarint (v : Nat) : Bytes :=
  if v < 128 then [UInt8.ofNat v] else UInt8.ofNat (128 + v % 128) :: uvarint (v / 128)
termination_by v

/-- zig-zag: 0, -1, 1, -2, 2 … become 0, 1, 2, 3, 4 …; (specification; models no code.) -/
def zigzag (x : Int) : Nat := if 0 ≤ x then (2 * x).toNat else (-2 * x - 1).toNat

/-- Specification; models no code. -/
def varint (x : Int) : Bytes := uvarint (zigzag x)

/-- a version range, both ends included; (specification; models no code.) -/
def within (lo hi v : Int) : Bool := decide (lo ≤ v ∧ v ≤ hi)

/-! ### lengths -/

/-- length prefix: `n+1` as unsigned varint in flexible versions, `k` bytes big-endian otherwise; (specification; models no code.) -/
def len (flex : Bool) (k : Nat) (n : Nat) : Bytes := if flex then uvarint (n + 1) else be k n

/-- the length prefix of a null value: 0 in flexible versions, -1 otherwise; (specification; models no code.) -/
def null (flex : Bool) (k : Nat) : Bytes := if flex then [0] else be k (-1)

/-! ### record batches -/

/-- a nullable byte string inside a record: zig-zag length (-1 for null) and content; (specification; models no code.) -/
def rbytes : Option Bytes → Bytes
  | none => varint (-1)
  | some b => varint b.length ++ b

/-- a record header: key (never null) and nullable value; (specification; models no code.) -/
def header (h : RecordHeader) : Bytes := varint (h.key.getD []).length ++ h.key.getD [] ++ rbytes h.value

/-- a record without its length: attributes, timestamp delta, offset delta, key, value, headers; (specification; models no code.) -/
def recordBody (r : BatchRecord) : Bytes :=
  be 1 r.attributes ++ varint r.timestampDelta ++ varint r.offsetDelta ++ rbytes r.key ++ rbytes r.value ++
  varint (r.headers.getD []).length ++ ((r.headers.getD []).map header).flatten

/-- a record: its length and the rest; (specification; models no code.) -/
def record (r : BatchRecord) : Bytes := varint (recordBody r).length ++ recordBody r

/-- A record a Go program can build (integers in their Go ranges, headers set) whose length fits the int32 length field,
with one byte to spare (the code's length computation is one too large for some timestamps, see C13). (specification; models no code.) -/
structure RecordFits (r : BatchRecord) : Prop where
  attributes : -128 ≤ r.attributes ∧ r.attributes < 128
  timestampDelta : -2^63 ≤ r.timestampDelta ∧ r.timestampDelta < 2^63
  offsetDelta : -2^31 ≤ r.offsetDelta ∧ r.offsetDelta < 2^31
  headers : r.headers ≠ none
  length : (recordBody r).length + 1 < 2^31

/-- timestamp deltas the code computes the length of correctly: not those with a zig-zag value in [2^49, 2^56), see C02; (specification; models no code.) -/
def exactTs (t : Int) : Prop := zigzag t < 2^49 ∨ 2^56 ≤ zigzag t

/-- the compression codec: the three low bits of the attributes; (specification; models no code.) -/
def codec (b : RecordBatch) : Nat := (b.attributes % 8).toNat

/-- batches the code writes nothing behind: not compressed with snappy (codec 2), or without records; see C150; (specification; models no code.) -/
def clean (b : RecordBatch) : Prop := codec b ≠ 2 ∨ b.records.getD [] = []

/-- the records of a batch; a compressed batch holds what the compressor made of them (an empty batch is never
compressed) (specification; models no code.) -/
def payload (x : Ext) (b : RecordBatch) : Bytes :=
  let plain := ((b.records.getD []).map record).flatten
  if codec b = 0 ∨ b.records.getD [] = [] then plain
  else match x.compress (codec b) plain with
    | .ok z => z
    | .error _ => []      -- nothing is written in this case

/-- the part of a batch the CRC covers; (specification; models no code.) -/
def batchTail (x : Ext) (b : RecordBatch) : Bytes :=
  be 2 b.attributes ++ be 4 b.lastOffsetDelta ++ be 8 b.baseTimestamp ++ be 8 b.maxTimestamp ++ be 8 b.producerId ++
  be 2 b.producerEpoch ++ be 4 b.baseSequence ++ be 4 (b.records.getD []).length ++ payload x b

/-- a record batch (magic 2): base offset, length of what follows it, leader epoch, magic, CRC, the rest; (specification; models no code.) -/
def batch (x : Ext) (b : RecordBatch) : Bytes :=
  let tail := batchTail x b
  be 8 b.baseOffset ++ be 4 (4 + 1 + 4 + tail.length : Nat) ++
  be 4 b.partitionLeaderEpoch ++ [2] ++ be 4 (x.crc32c tail) ++ tail

/-! ### fields -/

/-- a value of a primitive type; (specification; models no code.) -/
def prim (x : Ext) (flex : Bool) : (p : Prim) → p.Val → Bytes
  | .bool, b => [if b then 1 else 0]
  | .int k, i => be k i
  | .u16, n => be 2 (n : Nat)
  | .f64, n => be 8 (n : Nat)
  | .uuid, b => b
  | .str, s => if s.isNil then null flex 2 else len flex 2 s.value.length ++ s.value
  | .bytes, none => null flex 4
  | .bytes, some b => len flex 4 b.length ++ b
  | .records, d =>
    if d.isNil then null flex 4
    else let bs := (d.items.map (batch x)).flatten
      len flex 4 bs.length ++ bs

/-- an array: its length and its elements in order; (specification; models no code.) -/
def array {α : Type} (flex : Bool) (enc : α → Bytes) : Option (List α) → Bytes
  | none => null flex 4
  | some l => len flex 4 l.length ++ (l.map enc).flatten

/-- one tagged field: tag, length, content; (specification; models no code.) -/
def tag (a : RawTag) : Bytes := uvarint a.tag ++ uvarint a.value.length ++ a.value

/-- the tagged fields of a structure: their number, then the fields by ascending tag; (specification; models no code.) -/
def tags (l : List RawTag) : Bytes :=
  uvarint l.length ++ ((l.mergeSort fun a b => decide (a.tag ≤ b.tag)).map tag).flatten

/-! ### defaults -/

/-- Specification; models no code. -/
def utf8Null : Bytes := [0x6e, 0x75, 0x6c, 0x6c]    -- "null"

/-- `==` on IEEE doubles given by their bits: not equal if one is a NaN; the two zeros are equal; (specification; models no code.) -/
def f64Eq (a b : Nat) : Bool :=
  decide (a % 2^63 ≤ 0x7ff * 2^52) && decide (b % 2^63 ≤ 0x7ff * 2^52) &&
  (decide (a = b) || (decide (a % 2^63 = 0) && decide (b % 2^63 = 0)))

/-- the default of a primitive field; (specification; models no code.) -/
def dflt : (p : Prim) → Dflt → p.Val
  | .bool, .bool b => b
  | .bool, _ => false
  | .int _, .int i => i
  | .int _, _ => (0 : Int)
  | .u16, .int i => i.toNat
  | .u16, _ => (0 : Nat)
  | .f64, .int i => i.toNat
  | .f64, _ => (0 : Nat)
  | .uuid, _ => List.replicate 16 0
  | .str, .str s => if s = utf8Null then ⟨[], true⟩ else ⟨s, false⟩
  | .str, _ => ⟨[], false⟩
  | .bytes, _ => none
  | .records, _ => ⟨[], false⟩

/-- Is the value taken for the default of its field (and hence left out as a tagged field)? Equality with the default,
except: strings whose default is not null are compared by content, so null counts as the empty string; records are only
left out when null. (specification; models no code.) -/
def isDflt : (p : Prim) → (d : Dflt) → p.Val → Bool
  | .bool, d, x => decide (x = dflt .bool d)
  | .int k, d, x => decide (x = dflt (.int k) d)
  | .u16, d, x => decide (x = dflt .u16 d)
  | .f64, d, x => f64Eq x (dflt .f64 d)
  | .uuid, d, x => decide (x = dflt .uuid d)
  | .str, d, x => if (dflt .str d).isNil then x.isNil else decide (x.value = (dflt .str d).value)
  | .bytes, d, x => decide (x = dflt .bytes d)
  | .records, _, x => x.isNil

/-- Comparison of a field with its default inside a nested structure (`Equal`): by content only, null is not
distinguished from empty. (specification; models no code.) -/
def looksDflt : (p : Prim) → (d : Dflt) → p.Val → Bool
  | .bool, d, x => decide (x = dflt .bool d)
  | .int k, d, x => decide (x = dflt (.int k) d)
  | .u16, d, x => decide (x = dflt .u16 d)
  | .f64, d, x => f64Eq x (dflt .f64 d)
  | .uuid, d, x => decide (x = dflt .uuid d)
  | .str, d, x => decide (x.value = (dflt .str d).value)
  | .bytes, _, x => decide (x.getD [] = [])
  | .records, _, x => decide (x.items = [])

/-- an array counts as default if it is null or empty; (specification; models no code.) -/
def noItems {α : Type} (a : Option (List α)) : Bool := decide (a = none) || decide ((a.getD []).length = 0)

/-- all fields of a structure look like their defaults; (specification; models no code.) -/
def allDflt : (s : Sch) → s.Val → Bool
  | .nil, _ => true
  | .prim _ _ p d rest, (a, b) => looksDflt p d a && allDflt rest b
  | .arr _ _ _ rest, (a, b) => noItems a && allDflt rest b
  | .struct _ _ _ _ sub rest, (a, b) => decide (a.unknown = []) && allDflt sub a.fields && allDflt rest b
  | .arrS _ _ _ _ _ rest, (a, b) => noItems a && allDflt rest b

/-! ### structures -/

/-- is the field sent as a tagged field at this version?; (specification; models no code.) -/
def isTagged (c : Ctx) (v : Int) : Bool := c.tag.isSome && within c.tlo c.thi v

/-- is the field sent in place at this version?; (specification; models no code.) -/
def inPlace (c : Ctx) (v : Int) : Bool := within c.lo c.hi v && !isTagged c v

/-- a field in front of others: either in place, or in the tagged list unless it has its default, or not at all; (specification; models no code.) -/
def field (c : Ctx) (v : Int) (isDefault : Bool) (enc : Bytes) (rest : Bytes × List RawTag) : Bytes × List RawTag :=
  (if inPlace c v then enc ++ rest.1 else rest.1,
   match c.tag with
   | some t => if isTagged c v && !isDefault then ⟨t, enc⟩ :: rest.2 else rest.2
   | none => rest.2)

/-- a structure: its fields in place, then (in flexible versions) the known and unknown tagged fields; null: nothing; (specification; models no code.) -/
def struct {β : Type} (flo fhi v : Int) (enc : β → Bytes × List RawTag) (s : StructVal β) : Bytes :=
  if s.isNil then []
  else (enc s.fields).1 ++ (if within flo fhi v then tags (s.unknown ++ (enc s.fields).2) else [])

/-- the fields of a structure: bytes in place, and known tagged fields; (specification; models no code.) -/
def fields (x : Ext) (v : Int) : (s : Sch) → s.Val → Bytes × List RawTag
  | .nil, _ => ([], [])
  | .prim c _ p d rest, (a, b) =>
    field c v (isDflt p d a) (prim x (within c.flo c.fhi v) p a) (fields x v rest b)
  | .arr c _ p rest, (a, b) =>
    field c v (noItems a) (array (within c.flo c.fhi v) (prim x (within c.flo c.fhi v) p) a) (fields x v rest b)
  | .struct c _ flo fhi sub rest, (a, b) =>
    field c v (decide (a.unknown = []) && allDflt sub a.fields) (struct flo fhi v (fields x v sub) a) (fields x v rest b)
  | .arrS c _ flo fhi sub rest, (a, b) =>
    field c v (noItems a) (array (within c.flo c.fhi v) (struct flo fhi v (fields x v sub)) a) (fields x v rest b)

/-- a message at version `v`; (specification; models no code.) -/
def message (x : Ext) (v : Int) (m : Msg) (s : m.Val) : Bytes := struct m.flo m.fhi v (fields x v m.fields) s

end Verif.Kafka.Wire
