import Verif.Kafka.Codec
/-
Model of components/kafka-protocol-go/pkg/protocol/types/fields/{recordheader,batchrecord,recordbatch,
recordbatches}.go.
-/
namespace Verif.Kafka
open Verif

/-- recordheader.go:33-36 `RecordHeader` (`none` is a nil slice). -/
structure RecordHeader where
  key : Option Bytes := none
  value : Option Bytes := none
deriving DecidableEq, Repr

/-- batchrecord.go:35-42 `BatchRecord`. -/
structure BatchRecord where
  attributes : Int := 0
  timestampDelta : Int := 0
  offsetDelta : Int := 0
  key : Option Bytes := none
  value : Option Bytes := none
  headers : Option (List RecordHeader) := none
deriving DecidableEq, Repr

/-- One call `r.Read(p)` with `len(p) = n > 0` on the records reader (serialization/reader.go:43-58 over
chunkreader.go:94-108): io.EOF if nothing is left, otherwise as many bytes as available, at most `n`.
(Decompressing readers may return fewer bytes per call; not modelled here.) -/
def readSome (n : Nat) : Dec Bytes := fun bs =>
  if bs = [] then .error .eof else .ok (bs.take n, bs.drop n)

/-- The read of a length-delimited slice of `n > 0` bytes in recordheader.go:107-114, :127-133 and
batchrecord.go:196-202, :216-222. `none` models the branch `n != int(length)`: there `err` is nil, so
`errors.WrapIf(err, …)` is nil and the caller returns nil *without* having filled its fields. -/
def readSliceOrShort (n : Nat) : Dec (Option Bytes) :=
  readSome n ⟫= fun k => Dec.ret (if k.length = n then some k else none)

/-- recordheader.go:124-135 / batchrecord.go:193-204, :213-224: negative length is nil, zero is an empty
slice, otherwise the bytes. Outer `none` = short read (see `readSliceOrShort`). -/
def readNullableSlice (len : Int) : Dec (Option (Option Bytes)) :=
  if len < 0 then Dec.ret (some none)
  else if len = 0 then Dec.ret (some (some []))
  else readSliceOrShort len.toNat ⟫= fun o => Dec.ret (o.map some)

/-- recordheader.go:105-115: the header key: length ≤ 0 gives a nil key. -/
def readHeaderKey (len : Int) : Dec (Option (Option Bytes)) :=
  if len > 0 then readSliceOrShort len.toNat ⟫= fun o => Dec.ret (o.map some)
  else Dec.ret (some none)

/-- recordheader.go:99-141 `RecordHeader.Read` into a zero header. -/
def RecordHeader.read : Dec RecordHeader :=
  readVarint32 ⟫= fun keyLength =>
  readHeaderKey keyLength ⟫= fun ko =>
  match ko with
  | none => Dec.ret {}
  | some key =>
    readVarint32 ⟫= fun valueLength =>
    readNullableSlice valueLength ⟫= fun vo =>
    match vo with
    | none => Dec.ret {}
    | some value => Dec.ret { key := key, value := value }

/-- Go `int32(len(b))`; as in components/kafka-protocol-go/pkg/protocol/types/fields/recordheader.go:143-178 -/
def len32 (b : Bytes) : Int := wrapS 4 b.length

/-- content of a possibly nil slice; as in components/kafka-protocol-go/pkg/protocol/types/fields/recordheader.go:143-178 -/
def slice (o : Option Bytes) : Bytes := o.getD []

/-- the length written for a nullable slice: -1 for nil, `int32(len)` otherwise; as in components/kafka-protocol-go/pkg/protocol/types/fields/batchrecord.go:254-327 -/
def nullableLen (o : Option Bytes) : Int :=
  match o with
  | none => -1
  | some b => len32 b

/-- recordheader.go:143-178 `RecordHeader.Write`. -/
def RecordHeader.write (h : RecordHeader) : Res Bytes :=
  writeVarint32 (len32 (slice h.key)) +++ .ok (slice h.key) +++
  writeVarint32 (nullableLen h.value) +++ .ok (slice h.value)

/-- recordheader.go:180-190 `RecordHeader.SizeInBytes`. -/
def RecordHeader.size (h : RecordHeader) : Nat :=
  int32Size (len32 (slice h.key)) + (slice h.key).length + int32Size (nullableLen h.value) + (slice h.value).length

/-- batchrecord.go:232-237: the loop reading `n` headers. -/
def readHeaders : Nat → Dec (List RecordHeader)
  | 0 => Dec.ret []
  | n + 1 => RecordHeader.read ⟫= fun h => readHeaders n ⟫= fun hs => Dec.ret (h :: hs)

/-- `make([]RecordHeader, n)` (batchrecord.go:231) and `make([]BatchRecord, n)` (recordbatch.go:412):
a negative count panics. (Allocation failure for huge counts is not modelled.) -/
def makeCount (n : Int) : Dec Nat :=
  if n < 0 then Dec.fail .panic else Dec.ret n.toNat

/-- headers as a list (a nil slice has no elements) as ranged over in components/kafka-protocol-go/pkg/protocol/types/fields/batchrecord.go:254-327 -/
def BatchRecord.headerList (r : BatchRecord) : List RecordHeader := r.headers.getD []

/-- batchrecord.go:350-376 `recordLength`. -/
def BatchRecord.recordLength (r : BatchRecord) : Nat :=
  1 + int64Size r.timestampDelta + int32Size r.offsetDelta +
  int32Size (nullableLen r.key) + (slice r.key).length +
  int32Size (nullableLen r.value) + (slice r.value).length +
  int32Size (wrapS 4 r.headerList.length) + (r.headerList.map RecordHeader.size).sum

/-- batchrecord.go:164-252 `BatchRecord.Read` into a zero record. -/
def BatchRecord.read : Dec BatchRecord :=
  readVarint32 ⟫= fun recordLength =>
  readInt 1 ⟫= fun attr =>
  readVarint64 ⟫= fun timestampDelta =>
  readVarint32 ⟫= fun offsetDelta =>
  readVarint32 ⟫= fun keyLength =>
  readNullableSlice keyLength ⟫= fun ko =>
  match ko with
  | none => Dec.ret {}
  | some key =>
    readVarint32 ⟫= fun valueLength =>
    readNullableSlice valueLength ⟫= fun vo =>
    match vo with
    | none => Dec.ret {}
    | some value =>
      readVarint32 ⟫= fun numHeaders =>
      makeCount numHeaders ⟫= fun n =>
      readHeaders n ⟫= fun headers =>
      let r : BatchRecord := { attributes := attr, timestampDelta, offsetDelta, key, value, headers := some headers }
      if (r.recordLength : Int) ≠ recordLength then Dec.fail .other else Dec.ret r

/-- batchrecord.go:319-324: the loop writing headers. -/
def writeHeaders : List RecordHeader → Res Bytes
  | [] => .ok []
  | h :: hs => h.write +++ writeHeaders hs

/-- batchrecord.go:254-327 `BatchRecord.Write`. -/
def BatchRecord.write (r : BatchRecord) : Res Bytes :=
  writeVarint32 (wrapS 4 r.recordLength) +++
  .ok (putInt 1 r.attributes) +++
  writeVarint64 r.timestampDelta +++
  writeVarint32 r.offsetDelta +++
  writeVarint32 (nullableLen r.key) +++ .ok (slice r.key) +++
  writeVarint32 (nullableLen r.value) +++ .ok (slice r.value) +++
  match r.headers with
  | none => .error .other
  | some hs => writeVarint32 (wrapS 4 hs.length) +++ writeHeaders hs

/-- batchrecord.go:329-335 `SizeInBytes`. -/
def BatchRecord.size (r : BatchRecord) : Nat := int32Size (wrapS 4 r.recordLength) + r.recordLength

/-- recordheader.go:95-97 `Equal` (bytes.Equal treats nil as empty). -/
def RecordHeader.equal (h g : RecordHeader) : Bool := slice h.key == slice g.key && slice h.value == slice g.value

/-- batchrecord.go `Equal`: attributes are not compared. -/
def BatchRecord.equal (r s : BatchRecord) : Bool :=
  r.timestampDelta == s.timestampDelta && r.offsetDelta == s.offsetDelta &&
  slice r.key == slice s.key && slice r.value == slice s.value &&
  r.headerList.length == s.headerList.length &&
  (r.headerList.zip s.headerList).all fun (h, g) => h.equal g

end Verif.Kafka
