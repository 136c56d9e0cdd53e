import Verif.Props.Section
/-
C151: the records of a batch compressed with gzip are read as they were written.
-/
namespace Verif.Props
open Verif Verif.Kafka

/-! ### The decompressor hands out its data in pieces -/

/-- The decompressor returns at most 32 KiB per call (compress/flate hands out its window, 1 << 15 bytes), and `sizes` says how many each time. -/
def Paced (s : Gzip.Src) : Prop := s.data.length ≤ s.sizes.length ∧ ∀ k ∈ s.sizes, k ≤ 32768

theorem Paced.read {s : Gzip.Src} (h : Paced s) (n : Nat) : Paced (s.read n).2.2 := by
  unfold Gzip.Src.read
  by_cases hd : s.data = []
  · rw [if_pos hd]; exact h
  · rw [if_neg hd]
    have h1 : 1 ≤ s.count n := Nat.le_max_left ..
    refine ⟨?_, fun k hk => h.2 k (List.mem_of_mem_drop hk)⟩
    show (s.data.drop _).length ≤ (s.sizes.drop 1).length
    have := h.1
    rw [List.length_drop, List.length_drop]
    omega

theorem count_le (s : Gzip.Src) {n : Nat} (hn : 0 < n) : s.count n ≤ n := by
  unfold Gzip.Src.count; omega

theorem paced_fill (buf : Bytes) (s : Gzip.Src) (h : Paced s) (hb : buf.length ≤ Gzip.bufLen) :
    Paced (Gzip.fill buf s).2.1 ∧ (Gzip.fill buf s).1.length ≤ Gzip.bufLen := by
  rw [Gzip.fill]
  by_cases hf : Gzip.bufLen ≤ buf.length
  · rw [if_pos hf]; exact ⟨h, hb⟩
  · rw [if_neg hf]
    have hp := h.read (Gzip.bufLen - buf.length)
    have hl : (s.read (Gzip.bufLen - buf.length)).1.length ≤ Gzip.bufLen - buf.length := by
      unfold Gzip.Src.read
      split
      · simp
      · simp only [List.length_take]
        have := count_le s (n := Gzip.bufLen - buf.length) (by omega)
        omega
    split
    · rename_i out s' hr
      rw [hr] at hp hl
      exact paced_fill (buf ++ out) s' hp (by rw [List.length_append]; simp only at hl; omega)
    · rename_i out s' hr
      rw [hr] at hp hl
      exact ⟨hp, by rw [List.length_append]; simp only at hl; omega⟩
    · rename_i out s' hr
      rw [hr] at hp hl
      exact ⟨hp, by rw [List.length_append]; simp only at hl; omega⟩
termination_by s.data.length
decreasing_by exact Gzip.read_shorter (by assumption)

/-- the state of a reader of a paced stream that ends properly -/
structure Going (st : Gzip.St) : Prop where
  fin : st.src.fin = .eof
  buf : st.buf.length ≤ Gzip.bufLen
  paced : Paced st.src

theorem going_afterFill {st : Gzip.St} (h : Going st) (c : Bytes) (p : Nat) :
    (Gzip.afterFill c p (Gzip.fill [] st.src)).2.2.buf.length ≤ Gzip.bufLen ∧ Paced (Gzip.afterFill c p (Gzip.fill [] st.src)).2.2.src := by
  have hf := paced_fill [] st.src h.paced (by decide)
  cases he : Gzip.fill [] st.src with
  | mk b r =>
    obtain ⟨s', e⟩ := r
    rw [he] at hf
    cases e with
    | true => exact ⟨hf.2, hf.1⟩
    | false =>
      unfold Gzip.afterFill
      by_cases hb : b = []
      · simp only [hb, if_true]; exact ⟨by decide, hf.1⟩
      · simp only [hb, if_false]; exact ⟨by rw [List.length_drop]; have := hf.2; simp only at this; omega, hf.1⟩

theorem going_byte {st : Gzip.St} (h : Going st) : (Gzip.readByte st).2.2.buf.length ≤ Gzip.bufLen ∧ Paced (Gzip.readByte st).2.2.src := by
  unfold Gzip.readByte
  by_cases hb : st.buf ≠ []
  · rw [if_pos hb]; exact ⟨by rw [List.length_drop]; have := h.buf; omega, h.paced⟩
  · rw [if_neg hb]; exact going_afterFill h _ _

theorem going_read {st : Gzip.St} (h : Going st) (n : Nat) : (Gzip.gread st n).2.2.buf.length ≤ Gzip.bufLen ∧ Paced (Gzip.gread st n).2.2.src := by
  unfold Gzip.gread
  by_cases h0 : n = 0
  · rw [if_pos h0]; exact ⟨h.buf, h.paced⟩
  · rw [if_neg h0]
    by_cases hc : st.buf ≠ [] ∧ n ≤ st.buf.length
    · rw [if_pos hc]; exact ⟨by rw [List.length_drop]; have := h.buf; omega, h.paced⟩
    · rw [if_neg hc]
      by_cases hl : Gzip.bufLen ≤ n - st.buf.length
      · rw [if_pos hl]; exact ⟨Nat.zero_le _, h.paced.read _⟩
      · rw [if_neg hl]; exact going_afterFill h _ _

theorem faithful_going : Faithful Source.gzip Gzip.St.data Going Gzip.bufLen where
  byte := by
    intro st b rest ho hd
    obtain ⟨st', h1, h2, h3⟩ := Gzip.faithful.byte st b rest ho.fin hd
    have hg := going_byte ho
    refine ⟨st', h1, h2, h3, ?_, ?_⟩ <;> (
      unfold Source.gzip at h1
      simp only at h1
      generalize Gzip.readByte st = q at h1 hg
      obtain ⟨o, e, s'⟩ := q
      cases o with
      | nil => cases e with
        | none => cases h1
        | some e => cases e <;> cases h1
      | cons c l => cases e with
        | none => cases h1; first | exact hg.1 | exact hg.2
        | some e => cases e <;> cases h1)
  read := by
    intro st a rest ho ha hl hd
    obtain ⟨st', h1, h2, h3⟩ := Gzip.faithful.read st a rest ho.fin ha hl hd
    have hg := going_read ho a.length
    refine ⟨st', h1, h2, h3, ?_, ?_⟩ <;> (
      unfold Source.gzip at h1
      simp only at h1
      generalize Gzip.gread st a.length = q at h1 hg
      obtain ⟨o, e, s'⟩ := q
      cases e with
      | none => cases h1; first | exact hg.1 | exact hg.2
      | some e => cases e <;> cases h1)

/-- a value of more than 48 KiB is never read completely -/
theorem large_short {st : Gzip.St} (h : Going st) (v rest : Bytes) (hv : 49152 < v.length) (hd : st.data = v ++ rest) :
    ∃ st', sliceVia Source.gzip v.length st = .ok (none, st') := by
  have hb := h.buf
  have hbl : Gzip.bufLen = 16384 := rfl
  have hlen := congrArg List.length hd
  unfold Gzip.St.data at hlen
  rw [List.length_append, List.length_append] at hlen
  have hsl : 32768 < st.src.data.length := by omega
  have hne : st.src.data ≠ [] := by intro h0; rw [h0] at hsl; simp at hsl
  have hcount : st.src.count (v.length - st.buf.length) ≤ 32768 := by
    unfold Gzip.Src.count
    have h1 := h.paced.1
    cases hs : st.src.sizes with
    | nil => rw [hs] at h1; simp only [List.length_nil] at h1; omega
    | cons k l =>
      have := h.paced.2 k (by rw [hs]; simp)
      simp only [List.headD_cons]
      omega
  have hdrop : st.src.data.drop (st.src.count (v.length - st.buf.length)) ≠ [] := by
    intro h0
    have := congrArg List.length h0
    rw [List.length_drop, List.length_nil] at this
    omega
  have hr : Gzip.gread st v.length = (st.buf ++ st.src.data.take (st.src.count (v.length - st.buf.length)), none,
      ⟨[], { st.src with data := st.src.data.drop (st.src.count (v.length - st.buf.length)), sizes := st.src.sizes.drop 1 }⟩) := by
    unfold Gzip.gread
    rw [if_neg (by omega), if_neg (by rintro ⟨_, h2⟩; omega), if_pos (by omega)]
    unfold Gzip.Src.read
    rw [if_neg hne]
    simp [hdrop]
  refine ⟨⟨[], { st.src with data := st.src.data.drop (st.src.count (v.length - st.buf.length)), sizes := st.src.sizes.drop 1 }⟩, ?_⟩
  unfold sliceVia Source.gzip
  simp only [hr]
  rw [if_neg]
  rw [List.length_append, List.length_take]
  omega

theorem GRT.next {σ α β : Type} {data : σ → Bytes} {ok : σ → Prop} {e : Bytes} {d : Rd σ α} {a : α} (h : GRT data ok e d a) {s : σ} {rest : Bytes}
    (ho : ok s) (hd : data s = e ++ rest) (f : α → Rd σ β) {r : β} (hf : ∀ s', ok s' → data s' = rest → ∃ s2, f a s' = .ok (r, s2)) :
    ∃ s2, d.andThen f s = .ok (r, s2) := by
  obtain ⟨s', h1, h2, h3⟩ := h s rest ho hd
  obtain ⟨s2, h4⟩ := hf s' h3 h2
  refine ⟨s2, ?_⟩
  unfold Rd.andThen
  rw [h1]
  exact h4

theorem large_record (r : BatchRecord) (h : r.Ok) (hk : (slice r.key).length < Gzip.bufLen) (hv : 49152 < (slice r.value).length) (st : Gzip.St) (hg : Going st)
    (rest : Bytes) (hd : st.data = r.enc ++ rest) : ∃ st', recordVia Source.gzip st = .ok ({}, st') := by
  have hlen := wrapS4_of_lt h.len
  have hkl := nullableLen_range _ h.klen
  have hvl := nullableLen_range _ h.vlen
  have hlr := h.len
  have hq := faithful_going
  unfold BatchRecord.enc BatchRecord.body at hd
  simp only [List.append_assoc] at hd
  unfold recordVia
  refine GRT.next (varint32_grt hq _ (by rw [hlen]; omega) (by rw [hlen]; omega)) hg hd _ fun s1 g1 d1 => ?_
  refine GRT.next (int8_grt hq (by decide) _ h.attr) g1 d1 _ fun s2 g2 d2 => ?_
  refine GRT.next (varint64_grt hq _ h.ts.1 h.ts.2) g2 d2 _ fun s3 g3 d3 => ?_
  refine GRT.next (varint32_grt hq _ h.off.1 h.off.2) g3 d3 _ fun s4 g4 d4 => ?_
  refine GRT.next (varint32_grt hq _ hkl.1 hkl.2) g4 d4 _ fun s5 g5 d5 => ?_
  refine GRT.next (nullable_grt hq _ h.klen hk) g5 d5 _ fun s6 g6 d6 => ?_
  refine GRT.next (varint32_grt hq _ hvl.1 hvl.2) g6 d6 _ fun s7 g7 d7 => ?_
  have hnl : nullableLen r.value = (slice r.value).length := by
    have hvl := h.vlen
    cases hval : r.value with
    | none =>
      have e : (slice r.value).length = 0 := by rw [hval]; rfl
      omega
    | some b =>
      have e : slice r.value = b := by rw [hval]; rfl
      rw [e] at hvl
      have e2 : slice (some b) = b := rfl
      rw [e2]
      show len32 b = b.length
      unfold len32
      exact wrapS4_of_lt hvl
  obtain ⟨st', hs⟩ := large_short g7 (slice r.value) _ hv d7
  have hn : nullableVia Source.gzip (nullableLen r.value) s7 = .ok (none, st') := by
    rw [hnl]
    unfold nullableVia
    rw [if_neg (by omega), if_neg (by omega), Int.toNat_natCast]
    unfold Rd.andThen
    rw [hs]
    rfl
  refine ⟨st', ?_⟩
  unfold Rd.andThen
  rw [hn]
  rfl

/-! ### C151 -/

/-- **C151** Records in which every key, value, header key and header value is shorter than 16 KiB are read from a gzip stream as they were
written, whatever the sizes of the pieces in which the decompressor delivers the stream, and what follows them is still there. -/
theorem C151_records (rs : List BatchRecord) (h : ∀ r ∈ rs, ValidRecord r ∧ SmallRecord r) (enc : Bytes) (hw : writeRecordItems rs = .ok enc)
    (sizes : List Nat) (together : Bool) (rest : Bytes) :
    ∃ rs' st, recordsVia Source.gzip rs.length ⟨[], ⟨enc ++ rest, sizes, .eof, together⟩⟩ = .ok (rs', st) ∧ st.buf ++ st.src.data = rest ∧
      rs'.length = rs.length ∧ ∀ (i : Nat) r s, rs[i]? = some r → rs'[i]? = some s → SameRecord r s := by
  rw [writeRecordItems_eq rs (fun r hr => (h r hr).1.headers)] at hw
  injection hw with hw
  subst hw
  obtain ⟨st, h1, h2⟩ := gzip_records rs (fun r hr => ⟨(h r hr).1.ok, (h r hr).2.below⟩) sizes together rest
  exact ⟨_, st, h1, h2, by simp, sameRecords_norm rs⟩

/-- **C151** Uncompressed records, and those compressed with snappy, are read as they were written whatever their size. -/
theorem C151_plain (rs : List BatchRecord) (h : ∀ r ∈ rs, ValidRecord r) (enc rest : Bytes) (hw : writeRecordItems rs = .ok enc) :
    ∃ rs', recordsVia Source.plain rs.length (enc ++ rest) = .ok (rs', rest) ∧
      rs'.length = rs.length ∧ ∀ (i : Nat) r s, rs[i]? = some r → rs'[i]? = some s → SameRecord r s := by
  rw [writeRecordItems_eq rs (fun r hr => (h r hr).headers)] at hw
  injection hw with hw
  subst hw
  have hr : ∀ n, recordsVia Source.plain n = readRecordItems n := by
    intro n
    induction n with
    | zero => rfl
    | succ n ih =>
      unfold recordsVia readRecordItems
      exact andThen_plain record_plain fun r => andThen_plain ih fun rs => rfl
  exact ⟨_, by rw [hr]; exact readRecordItems_rt rs (fun r hr => (h r hr).ok) rest, by simp, sameRecords_norm rs⟩

/-- **C226 is false of the code**: a record whose value has more than 48 KiB is read from a gzip stream as a record without key, value and headers, and no
error is reported. -/
theorem C226_large_false (r : BatchRecord) (h : ValidRecord r) (hk : (r.key.getD []).length < 16384) (hv : 49152 < (r.value.getD []).length) (enc : Bytes)
    (hw : r.write = .ok enc) (sizes : List Nat) (together : Bool) (rest : Bytes) (hs : Paced ⟨enc ++ rest, sizes, .eof, together⟩) :
    ∃ st, recordVia Source.gzip ⟨[], ⟨enc ++ rest, sizes, .eof, together⟩⟩ = .ok (({} : BatchRecord), st) := by
  rw [BatchRecord.write_eq r h.headers] at hw
  injection hw with hw
  subst hw
  have e1 : slice r.key = r.key.getD [] := rfl
  have e2 : slice r.value = r.value.getD [] := rfl
  have hbl : Gzip.bufLen = 16384 := rfl
  exact large_record r h.ok (by rw [e1, hbl]; exact hk) (by rw [e2]; exact hv) _ ⟨rfl, Nat.zero_le _, hs⟩ rest (List.nil_append _)

/-- **C226 is false of the code**: the batch with that single record is written and read without an error, but the record it had is gone. -/
theorem C226_batch_false (x : Ext) (hx : ∀ p z, x.compress 1 p = .ok z → ∃ sizes together, x.gunzip z = .ok ⟨p, sizes, .eof, together⟩ ∧ Paced ⟨p, sizes, .eof, together⟩)
    (b : RecordBatch) (r : BatchRecord) (hb : Sendable x b) (h1 : Wire.codec b = 1) (hr : b.records = some [r])
    (hk : (r.key.getD []).length < 16384) (hv : 49152 < (r.value.getD []).length) (room : Nat) (hroom : (Wire.batch x b).length ≤ room) (rest : Bytes) :
    ∃ enc b' rest', b.writeIn x room = .ok enc ∧ RecordBatch.read x (enc ++ rest) = .ok (b', rest') ∧ b'.records = some [{}] := by
  have hl : b.recordList = [r] := by unfold RecordBatch.recordList; rw [hr]; rfl
  have hro : ∀ r ∈ b.recordList, r.Ok ∧ Wire.exactTs r.timestampDelta := fun r hr => ⟨(hb.records r hr).1.ok, (hb.records r hr).2⟩
  obtain ⟨z, hz⟩ := hb.compressed (by omega)
  have hp : Wire.payload x b = z := by
    unfold Wire.payload
    simp only
    rw [if_neg (by rintro (h' | h'); omega; rw [hr] at h'; simp at h')]
    unfold plainRecords at hz
    rw [hz]
  rw [h1] at hz
  obtain ⟨sizes, tog, hg, hpc⟩ := hx _ _ hz
  have hpl : plainRecords b = r.enc := by
    have := encRecords_eqW _ hro
    rw [hl] at this
    unfold plainRecords
    rw [hr, Option.getD_some, ← this]
    simp [encRecords]
  have hok : r.Ok := (hro r (by rw [hl]; simp)).1
  obtain ⟨st, hst⟩ := large_record r hok hk hv ⟨[], ⟨plainRecords b, sizes, .eof, tog⟩⟩ ⟨rfl, Nat.zero_le _, hpc⟩ [] (by
    rw [List.append_nil, ← hpl]; rfl)
  have hread : readPayload x b.attributes b.recordList.length (Wire.payload x b) = .ok ([{}], x.unread z 1) := by
    unfold readPayload
    rw [codec_eq, if_neg (by omega), if_pos h1, hp, hg, hl]
    have hrv : recordsVia Source.gzip [r].length ⟨[], ⟨plainRecords b, sizes, .eof, tog⟩⟩ = .ok ([{}], st) := by
      show ((recordVia Source.gzip).andThen _) _ = _
      unfold Rd.andThen
      rw [hst]
      rfl
    simp only [hrv]
    rfl
  have hoku := hb.okU [{}] _ (by rw [hl]; rfl) hread
  refine ⟨_, b.readBackP (Wire.payload x b) [{}] (x.crc32c (b.afterCrc (Wire.payload x b))), x.unread z 1 ++ rest, hb.writeIn (by omega) room hroom, ?_, rfl⟩
  rw [secondClose_clean (.inl (by omega)), List.append_nil, ← encP_batch hb.magic]
  exact RecordBatch.readU hoku _ (x.crc_lt _) rest

/-- **C226 is false of the code**: if the decompressor reports the end together with its last bytes, a slice of 32 KiB or more that ends the stream (the
value of the last header of the last record) is refused although all its bytes have been delivered. -/
theorem C226_last_false (v : Bytes) (st : Gzip.St) (hb : st.buf.length ≤ 16384) (hv : 32768 ≤ v.length) (hd : st.buf ++ st.src.data = v)
    (hs : st.src.sizes.headD v.length = v.length) (ht : st.src.together = true) (hf : st.src.fin = .eof) :
    Source.gzip.read v.length st = .error .eof ∧ (Gzip.gread st v.length).1 = v := by
  have hlen := congrArg List.length hd
  rw [List.length_append] at hlen
  have hbl : Gzip.bufLen = 16384 := rfl
  have hne : st.src.data ≠ [] := by intro h0; rw [h0] at hlen; simp at hlen; omega
  have hcount : st.src.data.length ≤ st.src.count (v.length - st.buf.length) := by
    unfold Gzip.Src.count
    cases h : st.src.sizes with
    | nil => simp only [List.headD_nil]; omega
    | cons k l => rw [h] at hs; simp only [List.headD_cons] at hs ⊢; omega
  have hr : Gzip.gread st v.length = (v, some .eof, ⟨[], { st.src with data := [], sizes := st.src.sizes.drop 1 }⟩) := by
    unfold Gzip.gread
    rw [if_neg (by omega), if_neg (by rintro ⟨_, h2⟩; omega), if_pos (by omega)]
    unfold Gzip.Src.read
    rw [if_neg hne]
    simp only [List.drop_of_length_le hcount, List.take_of_length_le hcount, ht, hd]
    simp [hf]
  constructor
  · unfold Source.gzip
    simp only [hr]
  · rw [hr]

/-! ### non-vacuity -/

/-- a record with a value of 50000 bytes -/
def exLarge : BatchRecord := { value := some (List.replicate 50000 7), headers := some [] }

theorem exLarge_valid : ValidRecord exLarge where
  attributes := by decide
  timestampDelta := by decide
  offsetDelta := by decide
  headers := by decide
  length := by
    have h1 : (slice exLarge.value).length = 50000 := List.length_replicate
    have h2 : (slice exLarge.key).length = 0 := rfl
    unfold BatchRecord.recordLength
    rw [h1, h2]
    have h3 : ∀ v : Int, int32Size v ≤ 5 := by
      intro v
      unfold int32Size
      simp only
      generalize ((BitVec.ofInt 32 v <<< 1) ^^^ (BitVec.ofInt 32 v).sshiftRight 31).toNat = n
      unfold uint32Size
      repeat' split
      all_goals omega
    have h4 : int64Size exLarge.timestampDelta ≤ 10 := by decide
    have h5 := h3 exLarge.offsetDelta
    have h6 := h3 (nullableLen exLarge.key)
    have h7 := h3 (nullableLen exLarge.value)
    have h8 := h3 (wrapS 4 exLarge.headerList.length)
    have h9 : (exLarge.headerList.map RecordHeader.size).sum = 0 := rfl
    omega

example : ∃ enc st, exLarge.write = .ok enc ∧
    recordVia Source.gzip ⟨[], ⟨enc, List.replicate enc.length 32768, .eof, false⟩⟩ = .ok (({} : BatchRecord), st) := by
  have hw := BatchRecord.write_eq exLarge exLarge_valid.headers
  obtain ⟨st, h⟩ := C226_large_false exLarge exLarge_valid (by decide) (by
    show 49152 < (List.replicate 50000 (7 : UInt8)).length
    rw [List.length_replicate]; decide) _ hw (List.replicate exLarge.enc.length 32768) false [] ⟨by simp, fun k hk => by
      rw [List.mem_replicate] at hk; omega⟩
  rw [List.append_nil] at h
  exact ⟨_, st, hw, h⟩

example : ∃ rs' st, recordsVia Source.gzip 1 ⟨[], ⟨exRecord.enc ++ [9, 9], [3, 1, 1], .eof, false⟩⟩ = .ok (rs', st) ∧ st.buf ++ st.src.data = [9, 9] := by
  obtain ⟨rs', st, h1, h2, -⟩ := C151_records [exRecord] (by
    intro r hr
    rw [List.mem_singleton] at hr; subst hr
    exact ⟨exRecord_valid, by unfold SmallRecord; decide +kernel⟩) _ (writeRecordItems_eq [exRecord] (by decide)) [3, 1, 1] false [9, 9]
  exact ⟨rs', st, by simpa [encRecords] using h1, h2⟩

end Verif.Props
