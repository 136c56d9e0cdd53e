import Verif.Kafka.WriteLemmas
/-
The same writer as in Kafka/Batch.lean with the capacity of the buffer it writes to: fields/recordbatch.go, fields/recordbatches.go and
fields/records.go write into a `SliceWriter` (bytes/slicewriter.go) that never grows. `room` is the number of bytes that may still be written.
-/
namespace Verif.Kafka
open Verif

/-- recordbatch.go:504 (deferred) and snappy.go:66-82: what the second Close of the writer of compressed records appends if `room` bytes are left:
for snappy the compressed empty string if it fits (an error is ignored); closing a gzip, lz4 or zstd writer again writes nothing. -/
def RecordBatch.secondClose (x : Ext) (b : RecordBatch) (room : Nat) : Bytes :=
  if b.recordList ≠ [] ∧ compressionType b.attributes = 2 then
    match x.compress 2 [] with
    | .ok t => if t.length ≤ room then t else []
    | .error _ => []
  else []

/-- a batch with this payload and this CRC field: recordbatch.go:465-489, 519-541 -/
def RecordBatch.encP (b : RecordBatch) (payload : Bytes) (crc : Nat) : Bytes :=
  putInt 8 b.baseOffset ++ (beBytes 4 (49 + payload.length) ++ (putInt 4 b.partitionLeaderEpoch ++
    (putInt 1 b.magic ++ (beBytes 4 crc ++ b.afterCrc payload))))

/-- recordbatch.go:275-288 `Write` and 459-544 `write` with `room` bytes left. The overhead is written first (61 bytes), then the records, whose
writers (plain or compressing) report the error of the slice writer. Simplification: which of several errors is returned. -/
def RecordBatch.writeIn (x : Ext) (room : Nat) (b : RecordBatch) : Res Bytes :=
  if b.magic ≠ 2 then .error .other
  else if room < 61 then .error .other
  else match b.writePayload x with
    | .error e => .error e
    | .ok payload =>
      if room < 61 + payload.length then .error .other
      else if 49 + payload.length > 2^32 - 1 then .error .other
      else .ok (b.encP payload (x.crc32c (b.afterCrc payload)) ++ b.secondClose x (room - (61 + payload.length)))

/-- recordbatches.go:153-166 `Write` (non-nil) with `room` bytes left -/
def writeSectionIn (x : Ext) : Nat → List RecordBatch → Res Bytes
  | _, [] => .ok []
  | room, b :: l => match b.writeIn x room with
    | .error e => .error e
    | .ok e => match writeSectionIn x (room - e.length) l with
      | .error e' => .error e'
      | .ok e' => .ok (e ++ e')

/-- records.go:83-150 `Write` of non-null batches with `room` bytes left: the section is written first, then its length is inserted before it
(slicewriter.go:63-87 `InsertAt` fails if the length does not fit behind the section). -/
def writeRecordsIn (x : Ext) (flex : Bool) (room : Nat) (l : List RecordBatch) : Res Bytes :=
  match writeSectionIn x room l with
  | .error e => .error e
  | .ok sec =>
    if flex then
      if sec.length + 1 > 2^32 - 1 then .error .other
      else if sec.length + (putUvarint (sec.length + 1)).length > room then .error .other
      else .ok (putUvarint (sec.length + 1) ++ sec)
    else
      if sec.length > 2^31 - 1 then .error .other
      else if sec.length + 4 > room then .error .other
      else .ok (beBytes 4 sec.length ++ sec)

/-! ### lemmas -/

theorem RT.thenOn {α β : Type} {e bs : Bytes} {d : Dec α} {a : α} {f : α → Dec β} {r : Res (β × Bytes)} (h : RT e d a)
    (hf : f a bs = r) : (d ⟫= f) (e ++ bs) = r := by
  unfold Dec.andThen
  rw [h bs]
  exact hf

theorem RecordBatch.encP_length (b : RecordBatch) (p : Bytes) (crc : Nat) : (b.encP p crc).length = 61 + p.length := by
  simp [RecordBatch.encP, afterCrc_length]; omega

/-- header fields in the range of their Go types, magic 2, and a payload the reader understands, leaving `u` of it unread; specification, models no code -/
structure RecordBatch.OkU (x : Ext) (b : RecordBatch) (p : Bytes) (rs : List BatchRecord) (u : Bytes) : Prop where
  baseOffset : InS 8 b.baseOffset
  epoch : InS 4 b.partitionLeaderEpoch
  magic : b.magic = 2
  attributes : InS 2 b.attributes
  lastOffsetDelta : InS 4 b.lastOffsetDelta
  baseTimestamp : InS 8 b.baseTimestamp
  maxTimestamp : InS 8 b.maxTimestamp
  producerId : InS 8 b.producerId
  producerEpoch : InS 2 b.producerEpoch
  baseSequence : InS 4 b.baseSequence
  control : isControlBatch b.attributes → rs.length ≤ 1
  count : b.recordList.length < 2^31
  read : readPayload x b.attributes b.recordList.length p = .ok (rs, u)
  size : 49 + p.length < 2^31

/-- specification, models no code: a batch whose payload is read completely -/
abbrev RecordBatch.OkP (x : Ext) (b : RecordBatch) (p : Bytes) (rs : List BatchRecord) : Prop := b.OkU x p rs []

/-- what the reader returns for an encoded batch; specification, models no code -/
def RecordBatch.readBackP (b : RecordBatch) (p : Bytes) (rs : List BatchRecord) (crc : Nat) : RecordBatch :=
  { b with batchLength := ((49 + p.length : Nat) : Int), crc := crc, records := some rs, isComplete := true }

theorem readBatchBody_exact {x : Ext} {b : RecordBatch} {p : Bytes} {rs : List BatchRecord} {u : Bytes} (h : b.OkU x p rs u) (crc : Nat) (hcrc : crc < 2^32) :
    readBatchBody x b.baseOffset ((49 + p.length : Nat) : Int)
      (putInt 4 b.partitionLeaderEpoch ++ (putInt 1 b.magic ++ (beBytes 4 crc ++ b.afterCrc p))) = .ok (b.readBackP p rs crc, u) := by
  have hm : InS 1 b.magic := by rw [h.magic]; unfold InS; decide
  unfold readBatchBody RecordBatch.afterCrc
  apply RT.thenOn (RT.int 4 (by decide) _ h.epoch)
  apply RT.thenOn (RT.int 1 (by decide) _ hm)
  apply RT.thenOn (RT.uint 4 (by decide) crc hcrc)
  apply RT.thenOn (RT.int 2 (by decide) _ h.attributes)
  apply RT.thenOn (RT.int 4 (by decide) _ h.lastOffsetDelta)
  apply RT.thenOn (RT.int 8 (by decide) _ h.baseTimestamp)
  apply RT.thenOn (RT.int 8 (by decide) _ h.maxTimestamp)
  apply RT.thenOn (RT.int 8 (by decide) _ h.producerId)
  apply RT.thenOn (RT.int 2 (by decide) _ h.producerEpoch)
  apply RT.thenOn (RT.int 4 (by decide) _ h.baseSequence)
  rw [beBytes4_count h.count]
  apply RT.thenOn (RT.int 4 (by decide) _ (InS4_count h.count))
  refine RT.thenOn (e := []) (makeCount_rt _) ?_
  unfold Dec.andThen
  rw [h.read]
  simp only
  rw [if_neg]
  · rfl
  · rintro ⟨h1, h2⟩
    have := h.control h1
    omega

theorem RecordBatch.readU {x : Ext} {b : RecordBatch} {p : Bytes} {rs : List BatchRecord} {u : Bytes} (h : b.OkU x p rs u) (crc : Nat) (hcrc : crc < 2^32)
    (rest : Bytes) : RecordBatch.read x (b.encP p crc ++ rest) = .ok (b.readBackP p rs crc, u ++ rest) := by
  have hs := h.size
  have hm : (b.encP p crc ++ rest)[16]? = some 2 := by
    unfold RecordBatch.encP
    simp only [putInt_magic b h.magic, List.append_assoc]
    exact getElem?_magic _ _ _ _ _ (by simp) (by simp) (by simp)
  unfold RecordBatch.read
  rw [hm]
  simp only [ne_eq, not_true_eq_false, if_false]
  unfold RecordBatch.encP
  rw [List.append_assoc]
  apply RT.thenOn (RT.int 8 (by decide) _ h.baseOffset)
  rw [beBytes4_len hs, List.append_assoc]
  apply RT.thenOn (RT.int 4 (by decide) _ (InS4_count hs))
  have hl : (putInt 4 b.partitionLeaderEpoch ++ (putInt 1 b.magic ++ (beBytes 4 crc ++ b.afterCrc p))).length = 49 + p.length := by
    simp [afterCrc_length]; omega
  rw [if_neg (by rw [List.length_append, hl]; omega)]
  unfold inChunk
  rw [Int.toNat_natCast, List.take_left' hl, List.drop_left' hl, readBatchBody_exact h crc hcrc]

theorem RecordBatch.rtP {x : Ext} {b : RecordBatch} {p : Bytes} {rs : List BatchRecord} (h : b.OkP x p rs) (crc : Nat) (hcrc : crc < 2^32) :
    RT (b.encP p crc) (RecordBatch.read x) (b.readBackP p rs crc) := fun rest => RecordBatch.readU h crc hcrc rest

theorem nextBatchSize_encP {b : RecordBatch} (hm : b.magic = 2) (p : Bytes) (hs : 49 + p.length < 2^31) (crc : Nat) (rest : Bytes) :
    nextBatchSize (b.encP p crc ++ rest) = .ok ((b.encP p crc).length : Int) := by
  unfold nextBatchSize
  have hlen := b.encP_length p crc
  rw [if_neg (by rw [List.length_append]; omega)]
  simp only
  rw [if_neg (by rw [List.length_append]; omega)]
  have h8 : ((b.encP p crc ++ rest).drop 8).take 4 = beBytes 4 (49 + p.length) := by
    unfold RecordBatch.encP
    simp
  have h16 : ((b.encP p crc ++ rest).drop 16).take 1 = [2] := by
    unfold RecordBatch.encP
    rw [putInt_magic b hm]
    have := drop_take_mid (putInt 8 b.baseOffset ++ (beBytes 4 (49 + p.length) ++ putInt 4 b.partitionLeaderEpoch)) [2]
      (beBytes 4 crc ++ b.afterCrc p ++ rest)
    simpa using this
  rw [h8, h16, if_neg (by decide), beNat_beBytes, hlen]
  simp only [Nat.zero_mul, Nat.zero_add]
  rw [Nat.mod_eq_of_lt (by omega), wrapS4_of_lt hs]
  congr 1
  omega

/-- an encoded batch followed by anything -/
theorem readBatchesAux_encP {x : Ext} {b : RecordBatch} {p : Bytes} {rs : List BatchRecord} (h : b.OkP x p rs) (crc : Nat) (hcrc : crc < 2^32)
    (fuel : Nat) (rest : Bytes) :
    readBatchesAux x (fuel + 1) (b.encP p crc ++ rest) =
      (match readBatchesAux x fuel rest with
       | .error e => .error e
       | .ok (items, r) => .ok (b.readBackP p rs crc :: items, r)) := by
  have hlen := b.encP_length p crc
  rw [readBatchesAux]; dsimp only
  rw [nextBatchSize_encP h.magic p h.size crc rest]
  simp only
  rw [if_neg (by rw [List.length_append]; omega), inChunk_rt (RecordBatch.rtP h crc hcrc) rest]
  simp only
  cases readBatchesAux x fuel rest <;> rfl

end Verif.Kafka
