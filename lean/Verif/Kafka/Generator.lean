import Verif.Kafka.Schema
import Verif.Kafka.VersionRange
/-
Model of the code generator: components/kafka-protocol-go/cmd/gen/{main,context}.go, internal/protocol/messagespec.go.
Input: a message specification (the JSON file, strings as lists of characters). Output: the schema of the generated struct
(`Sch`, the same type as the table extracted from the generated Go files).

Not modelled: the rendering of the template and the Go formatter, file and package names (so not the "type conflict" error
of main.go:391-393), the `about`, `entityType`, `mapKey`, `zeroCopy` entries (never used), the version string of a common
struct (parsed and then ignored, main.go:216-222), defaults of type float64 (none exists: treated as an error).
-/
namespace Verif.Kafka
open Verif

/-- a JSON default value: string, number, boolean; (the `default` of a field in assets/protocol_spec/*.json, components/kafka-protocol-go/internal/protocol) -/
inductive JVal where
  | str (s : List Char) | num (i : Int) | bool (b : Bool)
deriving DecidableEq, Repr

/-- messagespec.go:28-43 `MessageFieldSpec` without its sub-fields; absent strings are empty -/
structure FInfo where
  name : List Char
  typ : List Char
  versions : List Char
  flex : List Char := []
  nullable : List Char := []
  tagged : List Char := []
  dflt : Option JVal := none
  ignorable : Bool := false
  tag : Option Nat := none
deriving DecidableEq, Repr

/-- a list of field specifications, each with its sub-fields -/
inductive FS where
  | nil
  | cons (f : FInfo) (sub rest : FS)
deriving DecidableEq, Repr

/-- messagespec.go:17-26, 45-49 `MessageSpec`, `StructSpec` -/
structure MSpec where
  apiKey : Int
  typ : List Char
  name : List Char
  valid : List Char
  flex : List Char
  common : List (List Char × FS)
  fields : FS

/-! ### types (main.go:474-567) -/

/-- a parsed type name (components/kafka-protocol-go/cmd/gen: field types of the specification) -/
inductive Ty where
  | prim (p : Prim) | arr (p : Prim) | struct (n : List Char) | arrS (n : List Char)
deriving DecidableEq, Repr

/-- the names of the primitive types (context.go:31-42, main.go:474-497) -/
def primTy (t : List Char) : Option Prim :=
  if t = "bool".toList then some .bool
  else if t = "int8".toList then some (.int 1)
  else if t = "int16".toList then some (.int 2)
  else if t = "uint16".toList then some .u16
  else if t = "int32".toList then some (.int 4)
  else if t = "int64".toList then some (.int 8)
  else if t = "float64".toList then some .f64
  else if t = "string".toList then some .str
  else if t = "uuid".toList then some .uuid
  else if t = "bytes".toList then some .bytes
  else if t = "records".toList then some .records
  else none

/-- main.go:560-562 `isStruct` (ASCII) -/
def isStructTy : List Char → Bool
  | [] => false
  | c :: _ => decide ('A' ≤ c ∧ c ≤ 'Z')

/-- `strings.TrimSpace` (spaces only) -/
def trimSp (s : List Char) : List Char := ((s.dropWhile (· = ' ')).reverse.dropWhile (· = ' ')).reverse

/-- the class and Go type of a field (main.go:272-318, 474-567); `none`: the generator fails, or its output (an array
of arrays) does not compile -/
def parseTy : List Char → Option Ty
  | '[' :: ']' :: t =>
    let e := trimSp t
    if isStructTy e then some (.arrS e) else (primTy e).map .arr
  | t => match primTy t with
    | some p => some (.prim p)
    | none => if isStructTy t then some (.struct t) else none

/-! ### defaults (context.go:230-378) -/

/-- a digit in `strconv.ParseInt(s, 0, bits)` -/
def hexDigit (c : Char) : Option Nat :=
  if '0' ≤ c ∧ c ≤ '9' then some (c.toNat - '0'.toNat)
  else if 'a' ≤ c ∧ c ≤ 'f' then some (c.toNat - 'a'.toNat + 10)
  else if 'A' ≤ c ∧ c ≤ 'F' then some (c.toNat - 'A'.toNat + 10)
  else none

/-- hexadecimal digits in `strconv.ParseInt(s, 0, bits)` -/
def parseHex : List Char → Nat → Option Nat
  | [], acc => some acc
  | c :: s, acc => match hexDigit c with
    | some d => parseHex s (acc * 16 + d)
    | none => none

/-- the magnitude in `strconv.ParseInt(s, 0, bits)`: decimal, or hexadecimal after "0x"; the octal, binary and underscore
forms are not modelled (an error here) -/
def parseMag : List Char → Option Nat
  | [] => none
  | '0' :: 'x' :: h => if h = [] then none else parseHex h 0
  | ['0'] => some 0
  | '0' :: _ => none
  | d => parseDigits d 0

/-- the range check of `strconv.ParseInt(s, 0, bits)` -/
def chkBits (bits : Nat) (i : Int) : Option Int :=
  if -(2 ^ (bits - 1) : Int) ≤ i ∧ i < 2 ^ (bits - 1) then some i else none

/-- `strconv.ParseInt(s, 0, bits)` -/
def parseIntBase0 (bits : Nat) : List Char → Option Int
  | '-' :: d => (parseMag d).bind fun n => chkBits bits (-(n : Int))
  | '+' :: d => (parseMag d).bind fun n => chkBits bits n
  | d => (parseMag d).bind fun n => chkBits bits n

/-- context.go:260-297 `castInt`; a JSON number out of range is undefined in Go, an error here -/
def castInt (bits : Nat) : JVal → Option Int
  | .str s => parseIntBase0 bits s
  | .num i => chkBits bits i
  | .bool _ => none

/-- `strconv.ParseBool` -/
def parseBool (s : List Char) : Option Bool :=
  if s ∈ ["1".toList, "t".toList, "T".toList, "TRUE".toList, "true".toList, "True".toList] then some true
  else if s ∈ ["0".toList, "f".toList, "F".toList, "FALSE".toList, "false".toList, "False".toList] then some false
  else none

/-- ASCII only; the default text of a string field as Go string (components/kafka-protocol-go/cmd/gen) -/
def toBytes (s : List Char) : Option Bytes :=
  if s.all (fun c => decide (c.toNat < 128)) then some (s.map fun c => UInt8.ofNat c.toNat) else none

/-- the emitted default: a Go zero value is false for the template (struct_processor.tmpl:36, 551), so it counts as no
custom default -/
def emitInt (i : Int) : Dflt := if i = 0 then .none else .int i

/-- context.go:230-258 `cast`; the outer `none` is an error -/
def castDflt : Ty → JVal → Option Dflt
  | .prim .bool, .str s => (parseBool s).map fun b => if b then .bool true else .none
  | .prim .bool, .bool b => some (if b then .bool true else .none)
  | .prim (.int k), j => (castInt (8 * k) j).map emitInt
  | .prim .u16, j => (castInt 16 j).bind fun i => if 0 ≤ i then some (emitInt i) else none   -- T(i) of a negative number would wrap
  | .prim .str, .str s => if s = [] then some .none else (toBytes s).map .str
  | .prim .bytes, .str s => if s = "null".toList then some .none else none
  | .arr _, .str s => if s = "null".toList then some .none else none
  | .arrS _, .str s => if s = "null".toList then some .none else none
  | _, _ => none

/-- context.go:208-214 -/
def dfltOf (ty : Ty) : Option JVal → Option Dflt
  | none => some Dflt.none
  | some j => castDflt ty j

/-! ### contexts -/

/-- the parts of a context that sub-fields inherit (context.go:163-229) -/
structure PC where
  flo : Int
  fhi : Int
  nlo : Int
  nhi : Int

/-- the version string "none" (components/kafka-protocol-go/cmd/gen) -/
def isNone (s : List Char) : Bool := s = "none".toList

/-- an optional version range: empty means inherited; (components/kafka-protocol-go/cmd/gen) -/
def rangeOr (s : List Char) (d : Int × Int) : Option (Int × Int) :=
  if s = [] then some d else versionRange s

/-- flexible versions: "none" means never (context.go:186-198) -/
def flexOf (s : List Char) (d : Int × Int) : Option (Int × Int) := if isNone s then some (32767, 32767) else rangeOr s d

/-- context.go:155-229 `contextFromFieldSpec` (the same flexible range is computed by `structConstraintsFromFieldSpec`,
context.go:90-127). The tagged range is only emitted with a tag (struct_processor.tmpl:52-55). -/
def fieldCtx (pc : PC) (f : FInfo) : Option Ctx := do
  let (lo, hi) ← versionRange f.versions
  let (nlo, nhi) ← rangeOr f.nullable (pc.nlo, pc.nhi)
  let (flo, fhi) ← flexOf f.flex (pc.flo, pc.fhi)
  let (tlo, thi) ← rangeOr f.tagged (-1, -1)
  pure { lo := lo, hi := hi, flo := flo, fhi := fhi, nlo := nlo, nhi := nhi, tag := f.tag,
         tlo := if f.tag.isSome then tlo else -1, thi := if f.tag.isSome then thi else -1 }

/-- main.go:253-343 `generateStructProcessor`. `look`: the common struct of a name, with its flexible versions. -/
def genFields (look : List Char → Option (Int × Int × Sch)) (pc : PC) : FS → Option Sch
  | .nil => some .nil
  | .cons f sub rest => do
    let c ← fieldCtx pc f
    let ty ← parseTy f.typ
    let d ← dfltOf ty f.dflt
    let ig := f.ignorable && decide (0 < c.lo)
    let here ← (match ty with
      | .prim p => if sub = .nil then some (Sch.prim c ig p d) else none
      | .arr p => if sub = .nil then some (Sch.arr c ig p) else none
      | .struct n =>
        match sub with
        | .nil => (look n).map fun x => Sch.struct c ig x.1 x.2.1 x.2.2
        | sub => (genFields look ⟨c.flo, c.fhi, c.nlo, c.nhi⟩ sub).map fun s => Sch.struct c ig c.flo c.fhi s
      | .arrS n =>
        match sub with
        | .nil => (look n).map fun x => Sch.arrS c ig x.1 x.2.1 x.2.2
        | sub => (genFields look ⟨c.flo, c.fhi, c.nlo, c.nhi⟩ sub).map fun s => Sch.arrS c ig c.flo c.fhi s)
    (genFields look pc rest).map here

/-- the common structs of a message (main.go:212-231): generated in the context of the message, without access to other
common structs -/
def genCommon (pc : PC) : List (List Char × FS) → Option (List (List Char × Sch))
  | [] => some []
  | (n, fs) :: r => do
    let s ← genFields (fun _ => none) pc fs
    let r ← genCommon pc r
    pure ((n, s) :: r)

/-- a common structure by its name (`commonStructs` of the specification, components/kafka-protocol-go/cmd/gen) -/
def lookCommon (pc : PC) (l : List (List Char × Sch)) (n : List Char) : Option (Int × Int × Sch) :=
  (l.find? fun p => p.1 == n).map fun p => (pc.flo, pc.fhi, p.2)

/-- a generated message: supported versions and struct; (what components/kafka-protocol-go/cmd/gen writes for a message) -/
structure GMsg where
  lo : Int
  hi : Int
  msg : Msg

/-! ### accessor names -/

/-- the accessor names of a struct, each with those of the field's struct; (names in assets/templates/struct_processor.tmpl) -/
inductive NT where
  | nil
  | cons (name : List Char) (sub rest : NT)
deriving DecidableEq, Repr

/-- internal/util/util.go:31-39 `PascalCase` (ASCII) -/
def pascal : List Char → List Char
  | [] => []
  | c :: r => (if 'a' ≤ c ∧ c ≤ 'z' then Char.ofNat (c.toNat - 32) else c) :: r

/-- the structure a type name refers to; (components/kafka-protocol-go/cmd/gen) -/
def structOf : Ty → Option (List Char)
  | .struct n => some n
  | .arrS n => some n
  | _ => none

/-- main.go:283-284: an accessor per field. `look`: the names of a common struct -/
def genNames (look : List Char → NT) : FS → NT
  | .nil => .nil
  | .cons f sub rest =>
    .cons (pascal f.name)
      (match sub with
       | .nil => match (parseTy f.typ).bind structOf with
         | some n => look n
         | none => .nil
       | sub => genNames look sub)
      (genNames look rest)

/-- the accessor names of a message (components/kafka-protocol-go/cmd/gen) -/
def genMsgNames (m : MSpec) : NT :=
  genNames (fun n => match m.common.find? fun p => p.1 == n with
    | some p => genNames (fun _ => .nil) p.2
    | none => .nil) m.fields

/-- main.go:197-252 `generateMessageProcessors` -/
def genMsg (m : MSpec) : Option GMsg := do
  let (lo, hi) ← versionRange m.valid
  let (flo, fhi) ← flexOf m.flex (32767, 32767)
  -- `contextFromMessageSpec` leaves the nullable versions zero (context.go:146-152)
  let pc : PC := ⟨flo, fhi, 0, 0⟩
  let cs ← genCommon pc m.common
  let s ← genFields (lookCommon pc cs) pc m.fields
  pure ⟨lo, hi, ⟨flo, fhi, s⟩⟩

end Verif.Kafka
