import Verif.Kafka.Section
import Verif.Props.Wire
/-
C150: a section of record batches, compressed or not, written by the library is read back by it.
-/
namespace Verif.Props
open Verif Verif.Kafka

/-- The records of a batch before compression. -/
def plainRecords (b : RecordBatch) : Bytes := ((b.records.getD []).map Wire.record).flatten

/-- A batch one may want to send: header values in their Go ranges, magic 2, at most one record in a control batch, records that fit, a codec whose
compressor succeeds, total length fits int32. -/
structure Sendable (x : Ext) (b : RecordBatch) : Prop where
  baseOffset : -2^63 ≤ b.baseOffset ∧ b.baseOffset < 2^63
  partitionLeaderEpoch : -2^31 ≤ b.partitionLeaderEpoch ∧ b.partitionLeaderEpoch < 2^31
  magic : b.magic = 2
  attributes : -2^15 ≤ b.attributes ∧ b.attributes < 2^15
  lastOffsetDelta : -2^31 ≤ b.lastOffsetDelta ∧ b.lastOffsetDelta < 2^31
  baseTimestamp : -2^63 ≤ b.baseTimestamp ∧ b.baseTimestamp < 2^63
  maxTimestamp : -2^63 ≤ b.maxTimestamp ∧ b.maxTimestamp < 2^63
  producerId : -2^63 ≤ b.producerId ∧ b.producerId < 2^63
  producerEpoch : -2^15 ≤ b.producerEpoch ∧ b.producerEpoch < 2^15
  baseSequence : -2^31 ≤ b.baseSequence ∧ b.baseSequence < 2^31
  control : Wire.isControl b = true → (b.records.getD []).length ≤ 1
  records : ∀ r ∈ b.records.getD [], Wire.RecordFits r ∧ Wire.exactTs r.timestampDelta
  compressed : Wire.codec b ≠ 0 → ∃ z, x.compress (Wire.codec b) (plainRecords b) = .ok z
  length : 49 + (Wire.payload x b).length < 2^31
  count : (b.records.getD []).length < 2^31

/-- Decompressing what was compressed with gzip gives it back, and the decompressor reads its input to the end. -/
structure GzipWorks (x : Ext) : Prop where
  inverse : Gunzips x
  toEnd : ∀ p z n, x.compress 1 p = .ok z → x.unread z n = []

/-- the batch is compressed with gzip, has records and only small ones, or with snappy and has records -/
def Readable (x : Ext) (b : RecordBatch) : Prop := b.records.getD [] ≠ [] ∧
  (Wire.codec b = 1 ∧ GzipWorks x ∧ (∀ r ∈ b.records.getD [], SmallRecord r) ∨ Wire.codec b = 2 ∧ Unsnaps x)

/-- the bytes a section needs -/
def sectionLength (x : Ext) (l : List RecordBatch) : Nat := ((l.map (Wire.batch x)).flatten).length

/-! ### one batch -/

theorem Sendable.write {x : Ext} {b : RecordBatch} (h : Sendable x b) (hc : Wire.codec b ≤ 4) :
    b.writePayload x = .ok (Wire.payload x b) := by
  have hr : ∀ r ∈ b.recordList, r.Ok ∧ Wire.exactTs r.timestampDelta := fun r hr => ⟨(h.records r hr).1.ok, (h.records r hr).2⟩
  obtain ⟨p, hp⟩ : ∃ p, b.writePayload x = .ok p := by
    rw [payload_ex x b hr]
    by_cases h0 : Wire.codec b = 0
    · exact .inr (.inl h0)
    · exact .inr (.inr ⟨hc, h.compressed h0⟩)
  rw [hp, payload_eq x b hr p hp]

theorem Sendable.okU {x : Ext} {b : RecordBatch} (h : Sendable x b) (rs : List BatchRecord) (u : Bytes) (hl : rs.length = b.recordList.length)
    (hr : readPayload x b.attributes b.recordList.length (Wire.payload x b) = .ok (rs, u)) : b.OkU x (Wire.payload x b) rs u where
  baseOffset := by have := h.baseOffset; unfold InS; constructor <;> simp <;> omega
  epoch := by have := h.partitionLeaderEpoch; unfold InS; constructor <;> simp <;> omega
  magic := h.magic
  attributes := by have := h.attributes; unfold InS; constructor <;> simp <;> omega
  lastOffsetDelta := by have := h.lastOffsetDelta; unfold InS; constructor <;> simp <;> omega
  baseTimestamp := by have := h.baseTimestamp; unfold InS; constructor <;> simp <;> omega
  maxTimestamp := by have := h.maxTimestamp; unfold InS; constructor <;> simp <;> omega
  producerId := by have := h.producerId; unfold InS; constructor <;> simp <;> omega
  producerEpoch := by have := h.producerEpoch; unfold InS; constructor <;> simp <;> omega
  baseSequence := by have := h.baseSequence; unfold InS; constructor <;> simp <;> omega
  control := fun hc => by rw [hl]; exact h.control (control_eq b hc)
  count := h.count
  size := h.length
  read := hr

theorem Sendable.okP {x : Ext} {b : RecordBatch} (h : Sendable x b)
    (hc : Wire.codec b = 0 ∨ Readable x b) :
    b.OkP x (Wire.payload x b) (b.recordList.map BatchRecord.norm) := h.okU _ _ (by simp) (by
    have hr : ∀ r ∈ b.recordList, r.Ok ∧ Wire.exactTs r.timestampDelta := fun r hr => ⟨(h.records r hr).1.ok, (h.records r hr).2⟩
    have hrt := readRecordItems_rt b.recordList (fun r hr' => (hr r hr').1) []
    rw [encRecords_eqW _ hr, List.append_nil] at hrt
    unfold readPayload
    rw [codec_eq]
    rcases hc with hc | ⟨hne, hc⟩
    · rw [if_pos hc]
      unfold Wire.payload
      simp only [hc, true_or, if_true]
      exact hrt
    · obtain ⟨z, hz⟩ := h.compressed (by rcases hc with hc | hc <;> omega)
      have hp : Wire.payload x b = z := by
        unfold Wire.payload
        simp only
        rw [if_neg (by rintro (h' | h'); (rcases hc with hc | hc <;> omega); exact hne h')]
        unfold plainRecords at hz
        rw [hz]
      rw [hp]
      rcases hc with ⟨hc, hw, hsm⟩ | ⟨hc, hw⟩
      · rw [hc] at hz
        obtain ⟨sizes, tog, hg⟩ := hw.inverse _ _ hz
        obtain ⟨st, h1, -⟩ := gzip_records b.recordList (fun r hr' => ⟨(hr r hr').1, (hsm r hr').below⟩) sizes tog []
        rw [List.append_nil, encRecords_eqW _ hr] at h1
        have hq : recordsVia Source.gzip b.recordList.length ⟨[], ⟨plainRecords b, sizes, .eof, tog⟩⟩ = .ok (b.recordList.map BatchRecord.norm, st) := h1
        rw [if_neg (by omega), if_pos hc, hg]
        simp only [hq, hw.toEnd _ _ _ hz]
      · rw [hc] at hz
        rw [if_neg (by omega), if_neg (by omega), if_pos hc, hw _ _ hz]
        have hq : readRecordItems b.recordList.length (plainRecords b) = .ok (b.recordList.map BatchRecord.norm, []) := hrt
        simp only [hq])

theorem encP_batch {x : Ext} {b : RecordBatch} (hm : b.magic = 2) :
    b.encP (Wire.payload x b) (x.crc32c (b.afterCrc (Wire.payload x b))) = Wire.batch x b := by
  unfold RecordBatch.encP
  rw [afterCrc_eq, hm]
  have hl : (Wire.batchTail x b).length = 40 + (Wire.payload x b).length := by
    unfold Wire.batchTail Wire.be; simp; omega
  unfold Wire.batch
  simp only [putInt_eq, beBytes_eq]
  rw [hl]
  have h2 : Wire.be 1 2 = [2] := by decide
  rw [h2, show 4 + 1 + 4 + (40 + (Wire.payload x b).length) = 49 + (Wire.payload x b).length by omega]
  simp only [List.append_assoc]

theorem batch_length {x : Ext} {b : RecordBatch} (hm : b.magic = 2) : (Wire.batch x b).length = 61 + (Wire.payload x b).length := by
  rw [← encP_batch hm, RecordBatch.encP_length]

theorem readBackP_back {x : Ext} {b : RecordBatch} :
    b.readBackP (Wire.payload x b) (b.recordList.map BatchRecord.norm) (x.crc32c (b.afterCrc (Wire.payload x b))) = Wire.backBatch x b := by
  unfold RecordBatch.readBackP Wire.backBatch
  rw [afterCrc_eq]
  rfl

theorem Sendable.writeIn {x : Ext} {b : RecordBatch} (h : Sendable x b) (hc : Wire.codec b ≤ 4) (room : Nat) (hr : (Wire.batch x b).length ≤ room) :
    b.writeIn x room = .ok (Wire.batch x b ++ b.secondClose x (room - (Wire.batch x b).length)) := by
  rw [batch_length h.magic] at hr ⊢
  unfold RecordBatch.writeIn
  have := h.length
  rw [if_neg (by simp [h.magic]), if_neg (by omega), h.write hc]
  simp only
  rw [if_neg (by omega), if_neg (by omega), encP_batch h.magic]

theorem secondClose_clean {x : Ext} {b : RecordBatch} (h : Wire.clean b) (room : Nat) : b.secondClose x room = [] := by
  unfold RecordBatch.secondClose
  rw [if_neg]
  rw [codec_eq]
  rintro ⟨h1, h2⟩
  rcases h with h | h
  · exact h h2
  · exact h1 h

/-! ### sections of batches that are not compressed with snappy -/

theorem write_clean {x : Ext} (l : List RecordBatch) (h : ∀ b ∈ l, Sendable x b ∧ Wire.codec b ≤ 4 ∧ Wire.clean b) (room : Nat)
    (hr : sectionLength x l ≤ room) : writeSectionIn x room l = .ok (l.map (Wire.batch x)).flatten := by
  induction l generalizing room with
  | nil => rfl
  | cons b l ih =>
    obtain ⟨hs, hc, hcl⟩ := h b (by simp)
    unfold sectionLength at hr
    rw [List.map_cons, List.flatten_cons, List.length_append] at hr
    rw [writeSectionIn, hs.writeIn hc room (by omega), secondClose_clean hcl, List.append_nil]
    simp only
    rw [ih (fun c hc => h c (by simp [hc])) _ (by unfold sectionLength; omega)]
    rfl

theorem read_list {x : Ext} (l : List RecordBatch)
    (h : ∀ b ∈ l, Sendable x b ∧ (Wire.codec b = 0 ∨ Readable x b))
    (rest : Bytes) (fuel : Nat) (hf : l.length ≤ fuel) :
    readBatchesAux x fuel ((l.map (Wire.batch x)).flatten ++ rest) =
      match readBatchesAux x (fuel - l.length) rest with
      | .error e => .error e
      | .ok (items, r) => .ok (l.map (Wire.backBatch x) ++ items, r) := by
  induction l generalizing fuel with
  | nil => simp only [List.map_nil, List.flatten_nil, List.nil_append, List.length_nil, Nat.sub_zero]; cases readBatchesAux x fuel rest <;> rfl
  | cons b l ih =>
    obtain ⟨hs, hc⟩ := h b (by simp)
    cases fuel with
    | zero => simp at hf
    | succ fuel =>
      simp only [List.length_cons] at hf
      rw [List.map_cons, List.flatten_cons, List.append_assoc, ← encP_batch hs.magic,
        readBatchesAux_encP (hs.okP hc) _ (x.crc_lt _), ih (fun c hc => h c (by simp [hc])) fuel (by omega), readBackP_back, List.length_cons,
        Nat.add_sub_add_right]
      cases readBatchesAux x (fuel - l.length) rest <;> rfl

theorem length_flatten {x : Ext} (l : List RecordBatch) (h : ∀ b ∈ l, b.magic = 2) : l.length ≤ ((l.map (Wire.batch x)).flatten).length := by
  induction l with
  | nil => simp
  | cons b l ih =>
    have := ih (fun c hc => h c (by simp [hc]))
    rw [List.map_cons, List.flatten_cons, List.length_append, batch_length (h b (by simp)), List.length_cons]
    omega

/-- **C150** (partial) Batches that are not compressed, or compressed with gzip, not empty and with small records only, are written one after the other in the Kafka format if
they fit, and reading the section gives the same batches back, with nothing left. -/
theorem C150_roundtrip_partial (x : Ext) (hx : GzipWorks x) (l : List RecordBatch)
    (h : ∀ b ∈ l, Sendable x b ∧ (Wire.codec b = 0 ∨ Wire.codec b = 1 ∧ b.records.getD [] ≠ [] ∧ ∀ r ∈ b.records.getD [], SmallRecord r)) (room : Nat) (hr : sectionLength x l ≤ room) :
    ∃ enc, writeSectionIn x room l = .ok enc ∧ enc = (l.map (Wire.batch x)).flatten ∧
      readBatches x enc = .ok (l.map (Wire.backBatch x), []) := by
  refine ⟨_, write_clean l (fun b hb => ⟨(h b hb).1, ?_, ?_⟩) room hr, rfl, ?_⟩
  · rcases (h b hb).2 with h | h <;> omega
  · left; rcases (h b hb).2 with h | h <;> omega
  · unfold readBatches
    have hl := length_flatten (x := x) l (fun b hb => (h b hb).1.magic)
    have := read_list l (x := x) (fun b hb => ⟨(h b hb).1, ?_⟩) [] (((l.map (Wire.batch x)).flatten).length + 1) (by omega)
    · rw [List.append_nil] at this
      rw [this, readBatchesAux_nil _ (by omega)]
      simp
    · rcases (h b hb).2 with h | ⟨h, hn, hs⟩
      · exact .inl h
      · exact .inr ⟨hn, .inl ⟨h, hx, hs⟩⟩

/-- **C150** (partial) A section that does not fit its buffer is refused, not cut off: what is written never exceeds the room. -/
theorem C150_room_partial (x : Ext) (room : Nat) (l : List RecordBatch) (enc : Bytes) (h : writeSectionIn x room l = .ok enc) :
    enc.length ≤ room := by
  induction l generalizing room enc with
  | nil => cases h; simp
  | cons b l ih =>
    rw [writeSectionIn] at h
    cases hb : b.writeIn x room with
    | error e => rw [hb] at h; simp at h
    | ok e =>
      rw [hb] at h
      simp only at h
      have he : e.length ≤ room := by
        unfold RecordBatch.writeIn at hb
        by_cases h1 : b.magic ≠ 2
        · rw [if_pos h1] at hb; simp at hb
        · rw [if_neg h1] at hb
          by_cases h2 : room < 61
          · rw [if_pos h2] at hb; simp at hb
          · rw [if_neg h2] at hb
            cases hp : b.writePayload x with
            | error e => rw [hp] at hb; simp at hb
            | ok p =>
              rw [hp] at hb
              simp only at hb
              by_cases h3 : room < 61 + p.length
              · rw [if_pos h3] at hb; simp at hb
              · rw [if_neg h3] at hb
                by_cases h4 : 49 + p.length > 2^32 - 1
                · rw [if_pos h4] at hb; simp at hb
                · rw [if_neg h4] at hb
                  injection hb with hb
                  have hsc : (b.secondClose x (room - (61 + p.length))).length ≤ room - (61 + p.length) := by
                    unfold RecordBatch.secondClose
                    split
                    · cases x.compress 2 [] with
                      | error _ => simp
                      | ok t =>
                        simp only
                        split
                        · assumption
                        · simp
                    · simp
                  rw [← hb, List.length_append, RecordBatch.encP_length]
                  omega
      cases hl : writeSectionIn x (room - e.length) l with
      | error e' => rw [hl] at h; simp at h
      | ok e' =>
        rw [hl] at h
        injection h with h
        have := ih _ _ hl
        rw [← h, List.length_append]
        omega

/-- **C150** (partial) Each batch of a section is one of the writer of Verif/Kafka/Batch.lean, the trailer being there exactly if it fits. -/
theorem C150_model_partial (x : Ext) (room : Nat) (b : RecordBatch) (e : Bytes) (h : b.writeIn x room = .ok e) :
    ∃ (t : Bytes) (ht : t = [] ∨ x.compress 2 [] = .ok t), RecordBatch.write { x with again := fun _ => t, again_eq := fun _ => ht } b = .ok e := by
  unfold RecordBatch.writeIn at h
  by_cases h1 : b.magic ≠ 2
  · rw [if_pos h1] at h; simp at h
  · rw [if_neg h1] at h
    by_cases h2 : room < 61
    · rw [if_pos h2] at h; simp at h
    · rw [if_neg h2] at h
      cases hp : b.writePayload x with
      | error e => rw [hp] at h; simp at h
      | ok p =>
        rw [hp] at h
        simp only at h
        by_cases h3 : room < 61 + p.length
        · rw [if_pos h3] at h; simp at h
        · rw [if_neg h3] at h
          by_cases h4 : 49 + p.length > 2^32 - 1
          · rw [if_pos h4] at h; simp at h
          · rw [if_neg h4] at h
            injection h with h
            have hsc : b.secondClose x (room - (61 + p.length)) = [] ∨ x.compress 2 [] = .ok (b.secondClose x (room - (61 + p.length))) := by
              unfold RecordBatch.secondClose
              split
              · cases hc : x.compress 2 [] with
                | error _ => simp
                | ok t =>
                  simp only
                  split
                  · exact .inr rfl
                  · exact .inl rfl
              · exact .inl rfl
            refine ⟨b.secondClose x (room - (61 + p.length)), hsc, ?_⟩
            unfold RecordBatch.write
            have hp' : RecordBatch.writePayload { x with again := fun _ => b.secondClose x (room - (61 + p.length)), again_eq := fun _ => hsc } b = .ok p := hp
            rw [if_neg h1, hp']
            simp only
            rw [if_neg h4, ← h]
            congr 1
            unfold RecordBatch.encP
            simp only [List.append_assoc]
            have : RecordBatch.trailer { x with again := fun _ => b.secondClose x (room - (61 + p.length)), again_eq := fun _ => hsc } b =
                b.secondClose x (room - (61 + p.length)) := by
              unfold RecordBatch.trailer
              split
              · rfl
              · rename_i hn
                unfold RecordBatch.secondClose
                rw [if_neg hn]
            rw [this]

/-! ### snappy -/

theorem snappy_trailer {x : Ext} {b : RecordBatch} (hx : x.compress 2 [] = .ok xerialHeader) (hc : Wire.codec b = 2) (hn : b.records.getD [] ≠ [])
    (room : Nat) (hr : 16 ≤ room) : b.secondClose x room = xerialHeader := by
  unfold RecordBatch.secondClose
  rw [if_pos ⟨hn, by rw [codec_eq]; exact hc⟩, hx]
  exact if_pos hr

theorem xerial_unreadable (x : Ext) (fuel : Nat) (m : UInt8) (rest : Bytes) : ∃ e, readBatchesAux x fuel (xerialHeader ++ m :: rest) = .error e := by
  cases fuel with
  | zero => exact ⟨_, rfl⟩
  | succ fuel =>
    rw [readBatchesAux]; dsimp only
    unfold nextBatchSize
    rw [if_neg (by simp [xerialHeader])]
    simp only
    rw [if_neg (by simp [xerialHeader])]
    by_cases hm : wrapS 1 (beNat (((xerialHeader ++ m :: rest).drop 16).take 1) 0) < 0 ∨ wrapS 1 (beNat (((xerialHeader ++ m :: rest).drop 16).take 1) 0) > 2
    · rw [if_pos hm]; exact ⟨_, rfl⟩
    · rw [if_neg hm]
      have h1 : wrapS 4 (beNat (((xerialHeader ++ m :: rest).drop 8).take 4) 0) = 1 := by
        have : ((xerialHeader ++ m :: rest).drop 8).take 4 = [0, 0, 0, 1] := rfl
        rw [this]; decide
      rw [h1]
      simp only
      rw [if_neg (by simp [xerialHeader]; omega)]
      refine ⟨.eof, ?_⟩
      have : inChunk (1 + 12) (RecordBatch.read x) (xerialHeader ++ m :: rest) = .error .eof := rfl
      rw [this]

/-- **C150 is false of the code** for snappy: whenever a batch compressed with snappy is followed by another batch and there is room for it, 16 bytes
are written between them, and the section cannot be read any more, by this library or any other reader of the format. -/
theorem C150_snappy_false (x : Ext) (hx : x.compress 2 [] = .ok xerialHeader) (hw : Unsnaps x) (b c : RecordBatch) (l : List RecordBatch)
    (hb : Sendable x b) (h2 : Wire.codec b = 2) (hn : b.records.getD [] ≠ []) (room : Nat) (hr : (Wire.batch x b).length + 16 ≤ room) (enc : Bytes)
    (h : writeSectionIn x room (b :: c :: l) = .ok enc) : ∃ e, readBatches x enc = .error e := by
  rw [writeSectionIn, hb.writeIn (by omega) room (by omega), snappy_trailer hx h2 hn _ (by omega)] at h
  simp only at h
  cases hs : writeSectionIn x (room - (Wire.batch x b ++ xerialHeader).length) (c :: l) with
  | error e => rw [hs] at h; simp at h
  | ok e2 =>
    rw [hs] at h
    injection h with h
    have hne : e2 ≠ [] := by
      intro h0
      subst h0
      rw [writeSectionIn] at hs
      cases hc : c.writeIn x (room - (Wire.batch x b ++ xerialHeader).length) with
      | error e => rw [hc] at hs; simp at hs
      | ok e =>
        rw [hc] at hs
        simp only at hs
        cases hl : writeSectionIn x (room - (Wire.batch x b ++ xerialHeader).length - e.length) l with
        | error e' => rw [hl] at hs; simp at hs
        | ok e' =>
          rw [hl] at hs
          injection hs with hs
          have hz : e = [] := (List.append_eq_nil_iff.mp hs).1
          subst hz
          unfold RecordBatch.writeIn at hc
          split at hc
          · simp at hc
          · split at hc
            · simp at hc
            · split at hc
              · simp at hc
              · split at hc
                · simp at hc
                · split at hc
                  · simp at hc
                  · injection hc with hc
                    have := congrArg List.length hc
                    rw [List.length_append, RecordBatch.encP_length] at this
                    simp at this
    obtain ⟨m, rest, rfl⟩ := List.exists_cons_of_ne_nil hne
    subst h
    unfold readBatches
    have hl := read_list [b] (x := x) (fun b' hb' => by
      rw [List.mem_singleton] at hb'; subst hb'
      exact ⟨hb, .inr ⟨hn, .inr ⟨h2, hw⟩⟩⟩) (xerialHeader ++ m :: rest) ((Wire.batch x b ++ xerialHeader ++ m :: rest).length + 1) (by simp)
    simp only [List.map_cons, List.map_nil, List.flatten_cons, List.flatten_nil, List.append_nil] at hl
    have heq : Wire.batch x b ++ xerialHeader ++ m :: rest = Wire.batch x b ++ (xerialHeader ++ m :: rest) := List.append_assoc _ _ _
    rw [heq] at hl ⊢
    obtain ⟨e, he⟩ := xerial_unreadable x ((Wire.batch x b ++ (xerialHeader ++ m :: rest)).length + 1 - [b].length) m rest
    rw [he] at hl
    exact ⟨e, hl⟩

/-- **C150 is false of the code** for snappy: behind a last batch compressed with snappy 16 bytes stay in the reader, where the next field of the message is
looked for. -/
theorem C150_snappy_rest_false (x : Ext) (hx : x.compress 2 [] = .ok xerialHeader) (hw : Unsnaps x) (b : RecordBatch) (hb : Sendable x b)
    (h2 : Wire.codec b = 2) (hn : b.records.getD [] ≠ []) (room : Nat) (hr : (Wire.batch x b).length + 16 ≤ room) :
    ∃ enc, writeSectionIn x room [b] = .ok enc ∧ readBatches x enc = .ok ([Wire.backBatch x b], xerialHeader) := by
  refine ⟨Wire.batch x b ++ xerialHeader, ?_, ?_⟩
  · rw [writeSectionIn, hb.writeIn (by omega) room (by omega), snappy_trailer hx h2 hn _ (by omega)]
    simp [writeSectionIn]
  · unfold readBatches
    have hl := read_list [b] (x := x) (fun b' hb' => by
      rw [List.mem_singleton] at hb'; subst hb'
      exact ⟨hb, .inr ⟨hn, .inr ⟨h2, hw⟩⟩⟩) xerialHeader ((Wire.batch x b ++ xerialHeader).length + 1) (by simp)
    simp only [List.map_cons, List.map_nil, List.flatten_cons, List.flatten_nil, List.append_nil] at hl
    rw [hl, readBatchesAux_short _ (by decide) _ (by rw [List.length_append, batch_length hb.magic]; simp only [List.length_cons, List.length_nil]; omega)]
    rfl

/-- **C150 is false of the code** for snappy: the 16 bytes may take the room of the length of the section, so that a value that fits cannot be written. -/
theorem C150_snappy_length_false (x : Ext) (hx : x.compress 2 [] = .ok xerialHeader) (b : RecordBatch) (hb : Sendable x b)
    (h2 : Wire.codec b = 2) (hn : b.records.getD [] ≠ []) (room : Nat) (hr : (Wire.batch x b).length + 16 ≤ room)
    (hl : room < (Wire.batch x b).length + 20) : ∃ e, writeRecordsIn x false room [b] = .error e := by
  unfold writeRecordsIn
  rw [writeSectionIn, hb.writeIn (by omega) room (by omega), snappy_trailer hx h2 hn _ (by omega)]
  simp only [writeSectionIn, List.append_nil]
  simp only [Bool.false_eq_true, if_false]
  split
  · exact ⟨_, rfl⟩
  · rw [if_pos (by rw [List.length_append]; simp [xerialHeader]; omega)]; exact ⟨_, rfl⟩

/-- **C150 is false of the code** for records that do not shrink: the buffer has the size of the uncompressed batch (here of a field with just this batch), so a
batch whose compressed records are longer cannot be written, although the value is valid. -/
theorem C150_grows_false (x : Ext) (b : RecordBatch) (hb : Sendable x b) (hc : Wire.codec b ≤ 4)
    (hlong : (plainRecords b).length < (Wire.payload x b).length) :
    ∃ e, writeRecordsIn x false (4 + (61 + (plainRecords b).length)) [b] = .error e := by
  unfold writeRecordsIn
  cases hs : writeSectionIn x (4 + (61 + (plainRecords b).length)) [b] with
  | error e => exact ⟨e, rfl⟩
  | ok sec =>
    simp only [Bool.false_eq_true, if_false]
    split
    · exact ⟨_, rfl⟩
    · refine ⟨.other, if_pos ?_⟩
      have hfit : (Wire.batch x b).length ≤ sec.length := by
        rw [writeSectionIn] at hs
        cases hw : b.writeIn x (4 + (61 + (plainRecords b).length)) with
        | error e => rw [hw] at hs; simp at hs
        | ok e =>
          rw [hw] at hs
          simp only [writeSectionIn, List.append_nil] at hs
          injection hs with hs
          subst hs
          unfold RecordBatch.writeIn at hw
          rw [if_neg (by simp [hb.magic]), if_neg (by omega), hb.write hc] at hw
          simp only at hw
          split at hw
          · simp at hw
          · split at hw
            · simp at hw
            · injection hw with hw
              rw [← hw, encP_batch hb.magic, List.length_append]
              omega
      rw [batch_length hb.magic] at hfit
      omega

/-- **C150 is false of the code** for batches without records whose attributes name gzip: nothing is compressed when they are written, but the reader
wants a compressed stream. -/
theorem C150_empty_false (x : Ext) (err : Err) (hx : x.gunzip [] = .error err) (b : RecordBatch) (h1 : Wire.codec b = 1)
    (hn : b.records.getD [] = []) : ∃ e, readPayload x b.attributes b.recordList.length (Wire.payload x b) = .error e := by
  have hp : Wire.payload x b = [] := by
    unfold Wire.payload
    simp [hn]
  refine ⟨err, ?_⟩
  unfold readPayload
  rw [codec_eq, if_neg (by omega), if_pos (by omega), hp, hx]

/-! ### non-vacuity -/

def exSection : RecordBatch := { magic := 2, attributes := 1, records := some [exRecord] }
def exSnappy : RecordBatch := { magic := 2, attributes := 2, records := some [exRecord] }

theorem exRecord_fits : Wire.RecordFits exRecord ∧ Wire.exactTs exRecord.timestampDelta :=
  ⟨⟨by decide, by decide, by decide, by decide, by decide +kernel⟩, .inl (by decide +kernel)⟩

theorem exSection_sendable : Sendable xerialExt exSection where
  baseOffset := by decide
  partitionLeaderEpoch := by decide
  magic := rfl
  attributes := by decide
  lastOffsetDelta := by decide
  baseTimestamp := by decide
  maxTimestamp := by decide
  producerId := by decide
  producerEpoch := by decide
  baseSequence := by decide
  control := by decide
  records := by
    intro r hr
    simp only [exSection, Option.getD_some, List.mem_singleton] at hr
    subst hr; exact exRecord_fits
  compressed := fun _ => ⟨_, rfl⟩
  length := by decide +kernel
  count := by decide

theorem exSnappy_sendable : Sendable xerialExt exSnappy where
  baseOffset := by decide
  partitionLeaderEpoch := by decide
  magic := rfl
  attributes := by decide
  lastOffsetDelta := by decide
  baseTimestamp := by decide
  maxTimestamp := by decide
  producerId := by decide
  producerEpoch := by decide
  baseSequence := by decide
  control := by decide
  records := by
    intro r hr
    simp only [exSnappy, Option.getD_some, List.mem_singleton] at hr
    subst hr; exact exRecord_fits
  compressed := fun _ => ⟨_, rfl⟩
  length := by decide +kernel
  count := by decide

theorem xerial_gzip : GzipWorks xerialExt where
  inverse := fun p z h => ⟨[], false, by
    have : z = p := by simp only [xerialExt] at h; injection h with h; exact h.symm
    rw [this]; rfl⟩
  toEnd := fun _ _ _ _ => rfl

theorem xerial_snappy : Unsnaps xerialExt := fun p z h => by
  have : z = xerialHeader ++ p := by simp only [xerialExt] at h; injection h with h; exact h.symm
  rw [this]
  show Except.ok ((xerialHeader ++ p).drop 16) = _
  rw [List.drop_left' (by decide)]

example : ∃ enc, writeSectionIn xerialExt 1000 [exSection, exSection] = .ok enc ∧ readBatches xerialExt enc = .ok ([exSection, exSection].map (Wire.backBatch xerialExt), []) := by
  obtain ⟨enc, h1, _, h3⟩ := C150_roundtrip_partial xerialExt xerial_gzip [exSection, exSection] (by
    intro b hb
    simp only [List.mem_cons, List.not_mem_nil, or_false, or_self] at hb
    subst hb
    exact ⟨exSection_sendable, .inr ⟨by decide, by decide, by unfold SmallRecord; decide +kernel⟩⟩) 1000 (by decide +kernel)
  exact ⟨enc, h1, h3⟩

example : ∃ enc, writeSectionIn xerialExt 1000 [exSnappy, exSection] = .ok enc ∧ ∃ e, readBatches xerialExt enc = .error e := by
  obtain ⟨enc, h, _⟩ := okWith_iff (r := writeSectionIn xerialExt 1000 [exSnappy, exSection]) (P := fun _ => true) (by decide +kernel)
  exact ⟨enc, h, C150_snappy_false xerialExt rfl xerial_snappy exSnappy exSection [] exSnappy_sendable (by decide) (by decide) 1000 (by decide +kernel) enc h⟩

end Verif.Props
