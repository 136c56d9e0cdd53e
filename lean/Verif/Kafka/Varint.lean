import Verif.Base
/-
Model of components/kafka-protocol-go/pkg/protocol/types/varint/varint.go and of the parts of Go's
`encoding/binary` it calls (PutUvarint, PutVarint, ReadUvarint, ReadVarint; Go 1.20).
-/
namespace Verif.Kafka
open Verif

/-! ### encoding/binary -/

/-- Go `binary.PutUvarint` (`for x >= 0x80 { buf[i] = byte(x) | 0x80; x >>= 7 }; buf[i] = byte(x)`),
called from varint.go:111,123,147,170,263,307. -/
def putUvarint (x : Nat) : Bytes :=
  if x < 0x80 then [UInt8.ofNat x]
  else (UInt8.ofNat x ||| 0x80) :: putUvarint (x >>> 7)
termination_by x
decreasing_by simp [Nat.shiftRight_eq_div_pow]; omega

/-- Go `binary.ReadUvarint`: at most ten bytes; `fuel` counts the bytes still allowed (ten at the start),
`s` is the shift, `x` the value accumulated so far. uint64 wrap-around never matters: a tenth byte above 1
is rejected, and the accumulated value is discarded on every error path. -/
def readUvarintAux : (fuel : Nat) → (s : Nat) → (x : Nat) → Dec Nat
  | 0, _, _ => fun _ => .error .overflow
  | fuel + 1, s, x => fun bs =>
    match bs with
    | [] => .error (if s = 0 then .eof else .unexpectedEof)
    | b :: rest =>
      if b < 0x80 then
        if fuel = 0 ∧ b > 1 then .error .overflow
        else .ok (x ||| (b.toNat <<< s), rest)
      else readUvarintAux fuel (s + 7) (x ||| ((b &&& 0x7f).toNat <<< s)) rest

/-- Go `binary.ReadUvarint`. -/
def readUvarint : Dec Nat := readUvarintAux 10 0 0

/-- zig-zag step of Go `binary.PutVarint`: `ux := uint64(x) << 1; if x < 0 { ux = ^ux }`. -/
def zigzag64 (x : Int) : Nat :=
  let ux := (BitVec.ofInt 64 x) <<< 1
  (if x < 0 then ~~~ux else ux).toNat

/-- Go `binary.PutVarint`. -/
def putVarint (x : Int) : Bytes := putUvarint (zigzag64 x)

/-- un-zig-zag step of Go `binary.ReadVarint`: `x := int64(ux >> 1); if ux&1 != 0 { x = ^x }`. -/
def unzigzag64 (ux : Nat) : Int :=
  let u := BitVec.ofNat 64 ux
  let x := u >>> 1
  (if u &&& 1 ≠ 0 then ~~~x else x).toInt

/-! ### varint.go -/

/-- varint.go:30-48 `Uint32Size`. -/
def uint32Size (value : Nat) : Nat :=
  if value < 2^7 then 1
  else if value < 2^14 then 2
  else if value < 2^21 then 3
  else if value < 2^28 then 4
  else 5

/-- varint.go:50-54 `Int32Size`: `ux := (value << 1) ^ (value >> 31)` in 32-bit arithmetic. -/
def int32Size (value : Int) : Nat :=
  let v := BitVec.ofInt 32 value
  uint32Size ((v <<< 1) ^^^ (v.sshiftRight 31)).toNat

/-- varint.go:56-94 `Uint64Size`; the band below 2^56 returns 9, as in the code. -/
def uint64Size (value : Nat) : Nat :=
  if value < 2^7 then 1
  else if value < 2^14 then 2
  else if value < 2^21 then 3
  else if value < 2^28 then 4
  else if value < 2^35 then 5
  else if value < 2^42 then 6
  else if value < 2^49 then 7
  else if value < 2^56 then 9
  else if value < 2^63 then 9
  else 10

/-- varint.go:96-100 `Int64Size`: `ux := (value << 1) ^ (value >> 63)`. -/
def int64Size (value : Int) : Nat :=
  let v := BitVec.ofInt 64 value
  uint64Size ((v <<< 1) ^^^ (v.sshiftRight 63)).toNat

/-- varint.go:142-159 `WriteUint32` (bytes appended to the writer); the size guard is the code's
`Uint32Size(data) > binary.MaxVarintLen32`. The argument is the uint32 value. -/
def writeUvarint32 (data : Nat) : Res Bytes :=
  if uint32Size data > 5 then .error .other
  else .ok (putUvarint data)

/-- varint.go:164-181 `WriteInt32` / 131-137 `AppendInt32` / 105-113 `PutInt32`. -/
def writeVarint32 (data : Int) : Res Bytes :=
  if int32Size data > 5 then .error .other
  else .ok (putVarint data)

/-- varint.go:305-318 `WriteInt64` (270-276 `AppendInt64` adds a guard `Int64Size > 10` that never fires). -/
def writeVarint64 (data : Int) : Res Bytes := .ok (putVarint data)

/-- varint.go:186-196 `ReadUint32` (and :201-211 `ReadUint32_` over another reader type):
`bits.Len64(val) > 32` means `val ≥ 2^32`. -/
def readUvarint32 : Dec Nat := fun bs =>
  match readUvarint bs with
  | .error e => .error e
  | .ok (v, rest) => if v ≥ 2^32 then .error .other else .ok (v, rest)

/-- varint.go:216-232 `ReadInt32` (and :237-253): `val := int64(uval >> 1); if uval&1 != 0 { val = ^val };
return int32(val)`. -/
def readVarint32 : Dec Int := fun bs =>
  match readUvarint32 bs with
  | .error e => .error e
  | .ok (u, rest) =>
    let x := (BitVec.ofNat 64 u) >>> 1
    let val := if (BitVec.ofNat 64 u) &&& 1 ≠ 0 then ~~~x else x
    .ok ((val.truncate 32).toInt, rest)

/-- varint.go:281-288 `ReadInt64` (and :293-300). -/
def readVarint64 : Dec Int := fun bs =>
  match readUvarint bs with
  | .error e => .error e
  | .ok (u, rest) => .ok (unzigzag64 u, rest)

end Verif.Kafka
