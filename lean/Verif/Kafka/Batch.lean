import Verif.Kafka.Record
import Verif.Kafka.RecordVia
/-
Model of fields/recordbatch.go and fields/recordbatches.go.
Chunk readers (types/bytes/chunkreader.go) are represented by the list of bytes left in their window; that this is
what a ChunkReader does is proved separately (C22).
-/
namespace Verif.Kafka
open Verif

/-- recordbatch.go:52-67 `RecordBatch`. -/
structure RecordBatch where
  baseOffset : Int := 0
  batchLength : Int := 0
  partitionLeaderEpoch : Int := 0
  magic : Int := 0
  crc : Nat := 0
  attributes : Int := 0
  lastOffsetDelta : Int := 0
  baseTimestamp : Int := 0
  maxTimestamp : Int := 0
  producerId : Int := 0
  producerEpoch : Int := 0
  baseSequence : Int := 0
  records : Option (List BatchRecord) := none
  isComplete : Bool := false
deriving DecidableEq, Repr

/-- External functions used by record batches: the compressors/decompressors of pkg/compression/*, as functions on
whole byte strings, and crc32c.Compute (pkg/crc32c/crc32c.go). They are parameters: theorems hold for any.

`again` is what closing the snappy writer a second time appends behind a batch (recordbatch.go:504 defers a Close although
line 513 closes already, and snappy.go:66-82 writes `EncodeStream(nil, buf)` at every Close): the compressed empty string,
or nothing if that does not fit the capacity of the buffer any more (the deferred error is ignored). Closing the gzip, lz4
and zstd writers again writes nothing. Simplification: what fits is decided per batch, not per position; the exact rule
for a section of batches is modelled in Kafka/Section.lean.

`gunzip w` is the gzip reader over the window `w` (or the error of its header): what it decompresses to, in which pieces its `Read` hands that out, and
how it ends; `unread w n` is what is left of the window after reading `n` records (gzip.go reads ahead 16 KiB of decompressed data at a time and does not
look for the end of the stream when its buffer is full; trailing bytes of the window are never read). `unsnappy w` decompresses all of `w`
(snappy.go:28-32). -/
structure Ext where
  compress : Nat → Bytes → Res Bytes
  gunzip : Bytes → Res Gzip.Src
  unsnappy : Bytes → Res Bytes
  crc32c : Bytes → Nat
  crc_lt : ∀ b, crc32c b < 2^32
  again : RecordBatch → Bytes
  again_eq : ∀ b, again b = [] ∨ compress 2 [] = .ok (again b)
  unread : Bytes → Nat → Bytes
  unread_suffix : ∀ w n, unread w n <:+ w

/-- recordbatch.go:566-568 `GetCompressionType`: `attributes & 0x07`. -/
def compressionType (attributes : Int) : Nat := wrapU 2 attributes &&& 7

/-- recordbatch.go:554-556 `IsControlBatch`: `attributes & 0x20 != 0`. -/
def isControlBatch (attributes : Int) : Bool := wrapU 2 attributes &&& 0x20 != 0

/-- the records as a list (a nil slice has no elements), as ranged over in components/kafka-protocol-go/pkg/protocol/types/fields/recordbatch.go:275-288 -/
def RecordBatch.recordList (b : RecordBatch) : List BatchRecord := b.records.getD []

/-- recordbatch.go:507-511: the loop writing records. -/
def writeRecordItems : List BatchRecord → Res Bytes
  | [] => .ok []
  | r :: rs => r.write +++ writeRecordItems rs

/-- recordbatch.go:489-520: the records part; nothing for an empty batch, compressed if attributes say so
(recordbatch.go:603-630 `newCompressedRecordsWriter`: unknown compression ids are errors). -/
def RecordBatch.writePayload (x : Ext) (b : RecordBatch) : Res Bytes :=
  if b.recordList = [] then .ok []
  else if compressionType b.attributes = 0 then writeRecordItems b.recordList
  else if compressionType b.attributes > 4 then .error .other
  else match writeRecordItems b.recordList with
    | .error e => .error e
    | .ok bs => x.compress (compressionType b.attributes) bs

/-- recordbatch.go:470-477 and the records: everything after the CRC field. -/
def RecordBatch.afterCrc (b : RecordBatch) (payload : Bytes) : Bytes :=
  putInt 2 b.attributes ++ (putInt 4 b.lastOffsetDelta ++ (putInt 8 b.baseTimestamp ++ (putInt 8 b.maxTimestamp ++
  (putInt 8 b.producerId ++ (putInt 2 b.producerEpoch ++ (putInt 4 b.baseSequence ++
  (beBytes 4 (b.recordList.length % 2^32) ++ payload)))))))

/-- recordbatch.go:504: what the deferred second Close of the records writer appends after everything else. -/
def RecordBatch.trailer (x : Ext) (b : RecordBatch) : Bytes :=
  if b.recordList ≠ [] ∧ compressionType b.attributes = 2 then x.again b else []

/-- recordbatch.go:275-288 `Write` and 459-544 `write`. The code writes the overhead with zero length and CRC, then
patches both; the model assembles the final bytes directly. The length and the CRC are computed before the deferred
Close, so they do not cover the trailer. -/
def RecordBatch.write (x : Ext) (b : RecordBatch) : Res Bytes :=
  if b.magic ≠ 2 then .error .other
  else match b.writePayload x with
    | .error e => .error e
    | .ok payload =>
      let batchLength := 49 + payload.length
      if batchLength > 2^32 - 1 then .error .other
      else .ok (putInt 8 b.baseOffset ++ (beBytes 4 batchLength ++ (putInt 4 b.partitionLeaderEpoch ++
        (putInt 1 b.magic ++ (beBytes 4 (x.crc32c (b.afterCrc payload)) ++ (b.afterCrc payload ++ b.trailer x))))))

/-- recordbatch.go:291-295 `SizeInBytes` (uncompressed). -/
def RecordBatch.size (b : RecordBatch) : Nat := 61 + (b.recordList.map BatchRecord.size).sum

/-- recordbatch.go:429-434: the loop reading records. -/
def readRecordItems : Nat → Dec (List BatchRecord)
  | 0 => Dec.ret []
  | n + 1 => BatchRecord.read ⟫= fun r => readRecordItems n ⟫= fun rs => Dec.ret (r :: rs)

/-- recordbatch.go:414-434 and 570-601 `newCompressedRecordsReader`. gzip decodes while
reading (Verif/Kafka/RecordVia.lean), snappy the rest of the window at once; lz4 and zstd readers do not support ReadByte (serialization/reader.go:68-71), so
reading the first varint of the first record fails; unknown ids fail. -/
def readPayload (x : Ext) (attributes : Int) (n : Nat) : Dec (List BatchRecord) := fun w =>
  if compressionType attributes = 0 then readRecordItems n w
  else if compressionType attributes = 1 then
    match x.gunzip w with
    | .error e => .error e
    | .ok src =>
      match recordsVia Source.gzip n ⟨[], src⟩ with
      | .error e => .error e
      | .ok (rs, _) => .ok (rs, x.unread w n)
  else if compressionType attributes = 2 then
    match x.unsnappy w with
    | .error e => .error e
    | .ok plain =>
      match readRecordItems n plain with
      | .error e => .error e
      | .ok (rs, _) => .ok (rs, [])
  else if compressionType attributes ≤ 4 then
    if n = 0 then .ok ([], w) else .error .other
  else .error .other

/-- recordbatch.go:347-456: the fields inside the batch window, from partitionLeaderEpoch on. -/
def readBatchBody (x : Ext) (baseOffset batchLength : Int) : Dec RecordBatch :=
  readInt 4 ⟫= fun partitionLeaderEpoch =>
  readInt 1 ⟫= fun magic =>
  readUInt 4 ⟫= fun crc =>            -- read as int32, stored as uint32(crc)
  readInt 2 ⟫= fun attributes =>
  readInt 4 ⟫= fun lastOffsetDelta =>
  readInt 8 ⟫= fun baseTimestamp =>
  readInt 8 ⟫= fun maxTimestamp =>
  readInt 8 ⟫= fun producerId =>
  readInt 2 ⟫= fun producerEpoch =>
  readInt 4 ⟫= fun baseSequence =>
  readInt 4 ⟫= fun numRecords =>
  makeCount numRecords ⟫= fun n =>
  readPayload x attributes n ⟫= fun records =>
  if isControlBatch attributes ∧ records.length > 1 then Dec.fail .other
  else Dec.ret ({ baseOffset := baseOffset, batchLength := batchLength,
                  partitionLeaderEpoch := partitionLeaderEpoch, magic := magic, crc := crc,
                  attributes := attributes, lastOffsetDelta := lastOffsetDelta,
                  baseTimestamp := baseTimestamp, maxTimestamp := maxTimestamp, producerId := producerId,
                  producerEpoch := producerEpoch, baseSequence := baseSequence,
                  records := some records, isComplete := true } : RecordBatch)

/-- reading inside a sub-chunk of `n` bytes of the current window (chunkreader.go:44-54 `NewSubChunkReader`);
the sub-chunk advances the underlying reader, what it leaves unread stays unread. Negative `n` behaves as empty. -/
def inChunk {α : Type} (n : Int) (d : Dec α) : Dec α := fun bs =>
  match d (bs.take n.toNat) with
  | .error e => .error e
  | .ok (a, r) => .ok (a, r ++ bs.drop n.toNat)

/-- recordbatch.go:254-273 `Read`: peek at the magic byte (offset 16), only magic 2 is supported; then 323-457 `read`.
`bs` is the unread part of the chunk. -/
def RecordBatch.read (x : Ext) : Dec RecordBatch := fun bs =>
  match bs[16]? with
  | none => .error .eof
  | some m =>
    if m ≠ 2 then .error .other
    else
      (readInt 8 ⟫= fun baseOffset =>
       readInt 4 ⟫= fun batchLength => fun rest =>
       if (rest.length : Int) < batchLength then .error .other
       else inChunk batchLength (readBatchBody x baseOffset batchLength) rest) bs

/-- recordbatches.go:182-220 `nextBatchSize` on the unread part of the section. -/
def nextBatchSize (bs : Bytes) : Res Int :=
  if bs.length < 12 then .ok 0
  else
    let batchLength := wrapS 4 (beNat ((bs.drop 8).take 4) 0)
    if bs.length < 17 then .ok 0
    else
      let magic := wrapS 1 (beNat ((bs.drop 16).take 1) 0)
      if magic < 0 ∨ magic > 2 then .error .other
      else .ok (batchLength + 12)

/-- recordbatches.go:121-151 `RecordBatches.Read`; the endless loop is bounded by `fuel` (running out is reported as
`overflow`; `readBatches` starts with more fuel than the section has bytes, and each iteration consumes bytes). -/
def readBatchesAux (x : Ext) : Nat → Dec (List RecordBatch)
  | 0 => Dec.fail .overflow
  | fuel + 1 => fun bs =>
    match nextBatchSize bs with
    | .error e => .error e
    | .ok batchSize =>
      if batchSize = 0 ∨ (bs.length : Int) < batchSize then
        if (bs.length : Int) < batchSize then .ok ([], [])   -- Seek to the end of the section
        else .ok ([], bs)
      else
        match inChunk batchSize (RecordBatch.read x) bs with
        | .error e => .error e
        | .ok (b, rest) =>
          match readBatchesAux x fuel rest with
          | .error e => .error e
          | .ok (items, rest') => .ok (b :: items, rest')

/-- recordbatches.go:121-151. -/
def readBatches (x : Ext) : Dec (List RecordBatch) := fun bs => readBatchesAux x (bs.length + 1) bs

/-- recordbatches.go:153-166 `Write` (non-nil). -/
def writeBatches (x : Ext) : List RecordBatch → Res Bytes
  | [] => .ok []
  | b :: bs => b.write x +++ writeBatches x bs

/-- recordbatches.go:169-180 `SizeInBytes` (non-nil). -/
def batchesSize (l : List RecordBatch) : Nat := (l.map RecordBatch.size).sum

end Verif.Kafka
