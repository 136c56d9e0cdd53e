import Verif.Kafka.Batch
import Verif.Kafka.RecordLemmas
namespace Verif.Kafka
open Verif

/-- Proof helper; models no code. -/
def encRecords (rs : List BatchRecord) : Bytes := (rs.map BatchRecord.enc).flatten

theorem encRecords_cons (r : BatchRecord) (rs : List BatchRecord) :
    encRecords (r :: rs) = r.enc ++ encRecords rs := by simp [encRecords]

theorem writeRecordItems_eq (rs : List BatchRecord) (h : ∀ r ∈ rs, r.headers ≠ none) :
    writeRecordItems rs = .ok (encRecords rs) := by
  induction rs with
  | nil => rfl
  | cons r rs ih =>
    rw [writeRecordItems, r.write_eq (h r (by simp)), ih (fun s hs => h s (by simp [hs])), encRecords_cons]
    rfl

theorem readRecordItems_rt (rs : List BatchRecord) (h : ∀ r ∈ rs, r.Ok) :
    RT (encRecords rs) (readRecordItems rs.length) (rs.map BatchRecord.norm) := by
  induction rs with
  | nil => exact fun rest => rfl
  | cons r rs ih =>
    rw [encRecords_cons]
    simp only [List.length_cons, readRecordItems]
    apply RT.bind (r.rt (h r (by simp)))
    apply RT.map (ih (fun s hs => h s (by simp [hs])))
    intro rest; rfl

/-- header fields in the range of their Go types, magic 2, uncompressed, readable records, fits int32; (proof helper; models no code.) -/
structure RecordBatch.Ok (b : RecordBatch) : Prop where
  baseOffset : InS 8 b.baseOffset
  epoch : InS 4 b.partitionLeaderEpoch
  magic : b.magic = 2
  attributes : InS 2 b.attributes
  lastOffsetDelta : InS 4 b.lastOffsetDelta
  baseTimestamp : InS 8 b.baseTimestamp
  maxTimestamp : InS 8 b.maxTimestamp
  producerId : InS 8 b.producerId
  producerEpoch : InS 2 b.producerEpoch
  baseSequence : InS 4 b.baseSequence
  plain : compressionType b.attributes = 0
  control : isControlBatch b.attributes → b.recordList.length ≤ 1
  records : ∀ r ∈ b.recordList, r.Ok
  size : 49 + (encRecords b.recordList).length < 2^31

theorem RecordBatch.Ok.payload {x : Ext} {b : RecordBatch} (h : b.Ok) :
    b.writePayload x = .ok (encRecords b.recordList) := by
  unfold RecordBatch.writePayload
  by_cases hn : b.recordList = []
  · rw [if_pos hn, hn]; rfl
  · rw [if_neg hn, if_pos h.plain]
    exact writeRecordItems_eq _ (fun r hr => (h.records r hr).hdr)

theorem BatchRecord.enc_length_pos (r : BatchRecord) : 0 < r.enc.length := by
  unfold BatchRecord.enc
  have := List.length_pos_iff.mpr (putVarint_ne_nil (wrapS 4 r.recordLength))
  simp; omega

theorem length_le_encRecords (rs : List BatchRecord) : rs.length ≤ (encRecords rs).length := by
  induction rs with
  | nil => simp
  | cons r rs ih =>
    rw [encRecords_cons]
    have := r.enc_length_pos
    simp; omega

theorem RecordBatch.Ok.count {b : RecordBatch} (h : b.Ok) : b.recordList.length < 2^31 := by
  have := h.size
  have := length_le_encRecords b.recordList
  omega

/-- the batch with a given CRC field; (proof helper; models no code.) -/
def RecordBatch.encWith (b : RecordBatch) (crc : Nat) : Bytes :=
  let payload := encRecords b.recordList
  putInt 8 b.baseOffset ++ (beBytes 4 (49 + payload.length) ++ (putInt 4 b.partitionLeaderEpoch ++
        (putInt 1 b.magic ++ (beBytes 4 crc ++ b.afterCrc payload))))

/-- Proof helper; models no code. -/
def RecordBatch.crcOf (x : Ext) (b : RecordBatch) : Nat := x.crc32c (b.afterCrc (encRecords b.recordList))

theorem RecordBatch.write_eq {x : Ext} {b : RecordBatch} (h : b.Ok) :
    b.write x = .ok (b.encWith (b.crcOf x)) := by
  unfold RecordBatch.write
  rw [if_neg (by simp [h.magic]), h.payload]
  have := h.size
  simp only
  have ht : b.trailer x = [] := by
    unfold RecordBatch.trailer
    rw [if_neg (by rw [h.plain]; simp)]
  rw [if_neg (by omega), ht, List.append_nil]
  rfl

/-- what the reader returns for an encoded batch; (proof helper; models no code.) -/
def RecordBatch.readBack (b : RecordBatch) (crc : Nat) : RecordBatch :=
  { b with batchLength := ((49 + (encRecords b.recordList).length : Nat) : Int), crc := crc,
           records := some (b.recordList.map BatchRecord.norm), isComplete := true }

theorem RT.plainPayload {x : Ext} {b : RecordBatch} (h : b.Ok) :
    RT (encRecords b.recordList) (readPayload x b.attributes b.recordList.length)
      (b.recordList.map BatchRecord.norm) := by
  intro rest
  unfold readPayload
  rw [if_pos h.plain]
  exact readRecordItems_rt _ h.records rest

theorem InS4_count {n : Nat} (h : n < 2^31) : InS 4 (n : Int) := by
  unfold InS; constructor <;> simp <;> omega

theorem beBytes4_count {n : Nat} (_h : n < 2^31) : beBytes 4 (n % 2^32) = putInt 4 (n : Int) := by
  unfold putInt
  congr 1

theorem beBytes4_len {n : Nat} (h : n < 2^31) : beBytes 4 n = putInt 4 (n : Int) := by
  rw [← beBytes4_count h]; congr 1; omega

theorem readBatchBody_rt {x : Ext} {b : RecordBatch} (h : b.Ok) (crc : Nat) (hcrc : crc < 2^32) :
    RT (putInt 4 b.partitionLeaderEpoch ++ (putInt 1 b.magic ++ (beBytes 4 crc ++
        b.afterCrc (encRecords b.recordList))))
      (readBatchBody x b.baseOffset ((49 + (encRecords b.recordList).length : Nat) : Int))
      (b.readBack crc) := by
  have hm : InS 1 b.magic := by rw [h.magic]; unfold InS; decide
  have hc := h.count
  unfold readBatchBody RecordBatch.afterCrc
  apply RT.bind (RT.int 4 (by decide) _ h.epoch)
  apply RT.bind (RT.int 1 (by decide) _ hm)
  apply RT.bind (RT.uint 4 (by decide) crc hcrc)
  apply RT.bind (RT.int 2 (by decide) _ h.attributes)
  apply RT.bind (RT.int 4 (by decide) _ h.lastOffsetDelta)
  apply RT.bind (RT.int 8 (by decide) _ h.baseTimestamp)
  apply RT.bind (RT.int 8 (by decide) _ h.maxTimestamp)
  apply RT.bind (RT.int 8 (by decide) _ h.producerId)
  apply RT.bind (RT.int 2 (by decide) _ h.producerEpoch)
  apply RT.bind (RT.int 4 (by decide) _ h.baseSequence)
  rw [beBytes4_count hc]
  apply RT.bind (RT.int 4 (by decide) _ (InS4_count hc))
  refine RT.bind (e1 := []) (makeCount_rt _) ?_
  apply RT.map (RT.plainPayload h)
  intro rest
  rw [if_neg]
  · rfl
  · rintro ⟨h1, h2⟩
    have := h.control h1
    simp at h2
    omega

theorem inChunk_rt {α : Type} {enc : Bytes} {d : Dec α} {a : α} (h : RT enc d a) :
    RT enc (inChunk enc.length d) a := by
  intro rest
  unfold inChunk
  have := h []
  simp only [List.append_nil] at this
  simp only [Int.toNat_natCast]
  simp [this]

theorem getElem?_magic (a b c : Bytes) (m : UInt8) (rest : Bytes) (ha : a.length = 8) (hb : b.length = 4)
    (hc : c.length = 4) : (a ++ (b ++ (c ++ (m :: rest))))[16]? = some m := by
  rw [List.getElem?_append_right (by omega), List.getElem?_append_right (by omega),
    List.getElem?_append_right (by omega)]
  simp [ha, hb, hc]

theorem putInt_magic (b : RecordBatch) (h : b.magic = 2) : putInt 1 b.magic = [2] := by
  rw [h]; decide

theorem afterCrc_length (b : RecordBatch) (p : Bytes) : (b.afterCrc p).length = 40 + p.length := by
  simp [RecordBatch.afterCrc]; omega

theorem RecordBatch.encWith_length (b : RecordBatch) (crc : Nat) :
    (b.encWith crc).length = 61 + (encRecords b.recordList).length := by
  simp [RecordBatch.encWith, afterCrc_length]; omega

theorem RecordBatch.rt {x : Ext} {b : RecordBatch} (h : b.Ok) (crc : Nat) (hcrc : crc < 2^32) :
    RT (b.encWith crc) (RecordBatch.read x) (b.readBack crc) := by
  have hs := h.size
  have hrt : RT (b.encWith crc) (readInt 8 ⟫= fun baseOffset =>
       readInt 4 ⟫= fun batchLength => fun rest =>
       if (rest.length : Int) < batchLength then .error .other
       else inChunk batchLength (readBatchBody x baseOffset batchLength) rest) (b.readBack crc) := by
    unfold RecordBatch.encWith
    apply RT.bind (RT.int 8 (by decide) _ h.baseOffset)
    rw [beBytes4_len hs]
    apply RT.bind (RT.int 4 (by decide) _ (InS4_count hs))
    intro rest
    simp only
    have hl : (putInt 4 b.partitionLeaderEpoch ++ (putInt 1 b.magic ++ (beBytes 4 crc ++
        b.afterCrc (encRecords b.recordList)))).length = 49 + (encRecords b.recordList).length := by
      simp [afterCrc_length]; omega
    rw [if_neg (by rw [List.length_append, hl]; omega)]
    have := inChunk_rt (readBatchBody_rt (x := x) h crc hcrc) rest
    rw [hl] at this
    exact this
  intro rest
  have hm : (b.encWith crc ++ rest)[16]? = some 2 := by
    unfold RecordBatch.encWith
    simp only [putInt_magic b h.magic, List.append_assoc]
    exact getElem?_magic _ _ _ _ _ (by simp) (by simp) (by simp)
  unfold RecordBatch.read
  rw [hm]
  simp only [ne_eq, not_true_eq_false, if_false]
  exact hrt rest

theorem drop_take_mid (a b c : Bytes) : ((a ++ (b ++ c)).drop a.length).take b.length = b := by simp

/-- the size peeked from an encoded batch (or a prefix of at least 17 bytes of it) -/
theorem nextBatchSize_prefix {b : RecordBatch} (h : b.Ok) (crc : Nat) (p s : Bytes)
    (hp : b.encWith crc = p ++ s) (hl : 17 ≤ p.length) (rest : Bytes) :
    nextBatchSize (p ++ rest) = .ok ((b.encWith crc).length : Int) := by
  have hs := h.size
  obtain ⟨t, ht⟩ : ∃ t, p = putInt 8 b.baseOffset ++ (beBytes 4 (49 + (encRecords b.recordList).length) ++
      (putInt 4 b.partitionLeaderEpoch ++ ([2] ++ t))) := by
    have h17 : (b.encWith crc).take 17 = p.take 17 := by
      rw [hp, List.take_append_of_le_length (by omega)]
    refine ⟨p.drop 17, ?_⟩
    conv => lhs; rw [← List.take_append_drop 17 p, ← h17]
    unfold RecordBatch.encWith
    simp only [putInt_magic b h.magic]
    have : ∀ (a b c : Bytes) (d : UInt8) (e : Bytes), a.length = 8 → b.length = 4 → c.length = 4 →
        (a ++ (b ++ (c ++ ([d] ++ e)))).take 17 = a ++ (b ++ (c ++ [d])) := by
      intro a b c d e ha hb hc
      rw [List.take_append, List.take_of_length_le (by omega), ha, List.take_append,
        List.take_of_length_le (by omega), hb, List.take_append, List.take_of_length_le (by omega), hc]
      simp
    rw [this _ _ _ _ _ (by simp) (by simp) (by simp)]
    simp
  unfold nextBatchSize
  rw [if_neg (by simp; omega)]
  simp only
  rw [if_neg (by simp; omega)]
  have h8 : ((p ++ rest).drop 8).take 4 = beBytes 4 (49 + (encRecords b.recordList).length) := by
    rw [ht]
    have := drop_take_mid (putInt 8 b.baseOffset) (beBytes 4 (49 + (encRecords b.recordList).length))
      (putInt 4 b.partitionLeaderEpoch ++ ([2] ++ t) ++ rest)
    simp
  have h16 : ((p ++ rest).drop 16).take 1 = [2] := by
    rw [ht]
    have := drop_take_mid (putInt 8 b.baseOffset ++ (beBytes 4 (49 + (encRecords b.recordList).length) ++
      putInt 4 b.partitionLeaderEpoch)) [2] (t ++ rest)
    simpa using this
  rw [h8, h16, if_neg (by decide), beNat_beBytes, RecordBatch.encWith_length]
  simp only [Nat.zero_mul, Nat.zero_add]
  rw [Nat.mod_eq_of_lt (by omega), wrapS4_of_lt hs]
  congr 1
  omega

/-- an encoded batch followed by anything -/
theorem readBatchesAux_step {x : Ext} {b : RecordBatch} (h : b.Ok) (crc : Nat) (hcrc : crc < 2^32) (fuel : Nat)
    (rest : Bytes) (items : List RecordBatch) (r : Bytes)
    (hrec : readBatchesAux x fuel rest = .ok (items, r)) :
    readBatchesAux x (fuel + 1) (b.encWith crc ++ rest) = .ok (b.readBack crc :: items, r) := by
  have hlen := b.encWith_length crc
  rw [readBatchesAux]; dsimp only
  rw [nextBatchSize_prefix h crc (b.encWith crc) [] (by simp) (by omega) rest]
  simp only
  rw [if_neg (by rw [List.length_append]; omega), inChunk_rt (RecordBatch.rt h crc hcrc) rest]
  simp only [hrec]

/-- Proof helper; models no code. -/
def encBatches (x : Ext) (l : List RecordBatch) : Bytes := (l.map fun b => b.encWith (b.crcOf x)).flatten

theorem encBatches_cons (x : Ext) (b : RecordBatch) (l : List RecordBatch) :
    encBatches x (b :: l) = b.encWith (b.crcOf x) ++ encBatches x l := by simp [encBatches]

theorem writeBatches_eq (x : Ext) (l : List RecordBatch) (h : ∀ b ∈ l, b.Ok) :
    writeBatches x l = .ok (encBatches x l) := by
  induction l with
  | nil => rfl
  | cons b l ih =>
    rw [writeBatches, RecordBatch.write_eq (h b (by simp)), ih (fun c hc => h c (by simp [hc])), encBatches_cons]
    rfl

theorem crcOf_lt (x : Ext) (b : RecordBatch) : b.crcOf x < 2^32 := x.crc_lt _

theorem readBatchesAux_list {x : Ext} (l : List RecordBatch) (h : ∀ b ∈ l, b.Ok) (fuel : Nat)
    (rest r : Bytes) (hrec : ∀ fuel', 0 < fuel' → readBatchesAux x fuel' rest = .ok ([], r))
    (hf : l.length < fuel) :
    readBatchesAux x fuel (encBatches x l ++ rest) = .ok (l.map (fun b => b.readBack (b.crcOf x)), r) := by
  induction l generalizing fuel with
  | nil => simpa [encBatches] using hrec fuel (by simpa using hf)
  | cons b l ih =>
    cases fuel with
    | zero => simp at hf
    | succ fuel =>
      rw [encBatches_cons, List.append_assoc]
      simp only [List.length_cons] at hf
      rw [readBatchesAux_step (h b (by simp)) _ (crcOf_lt x b) fuel _ _ _
        (ih (fun c hc => h c (by simp [hc])) fuel (by omega))]
      simp

theorem length_le_encBatches (x : Ext) (l : List RecordBatch) : l.length ≤ (encBatches x l).length := by
  induction l with
  | nil => simp
  | cons b l ih =>
    rw [encBatches_cons, List.length_append, RecordBatch.encWith_length, List.length_cons]; omega

theorem readBatches_list {x : Ext} (l : List RecordBatch) (h : ∀ b ∈ l, b.Ok)
    (rest r : Bytes) (hrec : ∀ fuel', 0 < fuel' → readBatchesAux x fuel' rest = .ok ([], r)) :
    readBatches x (encBatches x l ++ rest) = .ok (l.map (fun b => b.readBack (b.crcOf x)), r) := by
  unfold readBatches
  apply readBatchesAux_list l h _ rest r hrec
  have := length_le_encBatches x l
  simp; omega

theorem readBatchesAux_nil {x : Ext} (fuel : Nat) (h : 0 < fuel) : readBatchesAux x fuel [] = .ok ([], []) := by
  cases fuel with
  | zero => omega
  | succ n => rfl

/-- fewer than 17 bytes: no batch, and the bytes stay unread -/
theorem readBatchesAux_short {x : Ext} (p : Bytes) (hp : p.length < 17) (fuel : Nat) (h : 0 < fuel) :
    readBatchesAux x fuel p = .ok ([], p) := by
  cases fuel with
  | zero => omega
  | succ n =>
    rw [readBatchesAux]; dsimp only
    have : nextBatchSize p = .ok 0 := by
      unfold nextBatchSize
      split
      · rfl
      · rfl
    rw [this]
    simp only [true_or, if_true]
    rw [if_neg (by omega)]

/-- a proper prefix of at least 17 bytes of a batch: skipped -/
theorem readBatchesAux_partial {x : Ext} {b : RecordBatch} (hb : b.Ok) (crc : Nat) (p s : Bytes)
    (hp : b.encWith crc = p ++ s) (hs : s ≠ []) (hl : 17 ≤ p.length) (fuel : Nat) (h : 0 < fuel) :
    readBatchesAux x fuel p = .ok ([], []) := by
  cases fuel with
  | zero => omega
  | succ n =>
    rw [readBatchesAux]; dsimp only
    have := nextBatchSize_prefix hb crc p s hp hl []
    rw [List.append_nil] at this
    rw [this]
    have hlen := congrArg List.length hp
    have hs' := List.length_pos_iff.mpr hs
    simp only [List.length_append] at hlen
    have hlt : (p.length : Int) < ((b.encWith crc).length : Int) := by omega
    simp [hlt]

end Verif.Kafka
