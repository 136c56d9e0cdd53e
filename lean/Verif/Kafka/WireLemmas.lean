import Verif.Kafka.WireSpec
import Verif.Kafka.SchemaLemmas
/- The model writes the format of Verif/Kafka/WireSpec.lean. -/
namespace Verif.Kafka
open Verif

/-! ### numbers -/

theorem byte_shift (x : Int) (j k : Nat) (h : j < k) :
    ((x % (256 ^ k : Nat)) / (256 ^ j : Nat)) % 256 = (x / (256 ^ j : Nat)) % 256 := by
  obtain ⟨d, rfl⟩ : ∃ d, k = j + (d + 1) := ⟨k - j - 1, by omega⟩
  have hp := pow256_pos j
  have hx : x = x % (256 ^ (j + (d + 1)) : Nat) + (256 ^ j : Nat) * ((256 ^ d : Nat) * 256 * (x / (256 ^ (j + (d + 1)) : Nat))) := by
    have h1 := Int.emod_add_mul_ediv x (256 ^ (j + (d + 1)) : Nat)
    have h2 : ((256 ^ (j + (d + 1)) : Nat) : Int) = (256 ^ j : Nat) * ((256 ^ d : Nat) * 256) := by
      rw [Nat.pow_add, Nat.pow_succ, Int.natCast_mul, Int.natCast_mul]; rfl
    rw [← Int.mul_assoc, ← h2]; exact h1.symm
  conv => rhs; rw [hx]
  rw [Int.add_mul_ediv_left _ _ (by omega)]
  rw [Int.mul_comm ((256 ^ d : Nat) : Int) 256, Int.mul_assoc, Int.add_mul_emod_self_left]

theorem UInt8_ofNat_mod (n : Nat) : UInt8.ofNat (n % 256) = UInt8.ofNat n := by
  apply UInt8.toNat_inj.mp; simp

theorem beBytes_eq (k : Nat) (v : Nat) : beBytes k v = Wire.be k v := by
  induction k with
  | zero => rfl
  | succ k ih =>
    unfold Wire.be
    rw [beBytes, ih, List.range_succ_eq_map, List.map_cons, List.map_map]
    congr 1
    · rw [← UInt8_ofNat_mod]
      congr 1
      have hp : (2:Nat) ^ (8 * k) = 256 ^ k := by rw [Nat.pow_mul]
      rw [Nat.shiftRight_eq_div_pow, hp]
      simp only [Nat.add_sub_cancel, Nat.sub_zero]
      rw [← Int.natCast_ediv]
      omega
    · unfold Wire.be
      apply List.map_congr_left
      intro i hi
      have hi := List.mem_range.mp hi
      simp only [Function.comp]
      rw [show k + 1 - 1 - (i + 1) = k - 1 - i by omega]

theorem be_mod (k : Nat) (x : Int) : Wire.be k (x % (256 ^ k : Nat)) = Wire.be k x := by
  unfold Wire.be
  apply List.map_congr_left
  intro i hi
  have hi := List.mem_range.mp hi
  rw [byte_shift x _ k (by omega)]

theorem putInt_eq (k : Nat) (x : Int) : putInt k x = Wire.be k x := by
  have hp := pow256_pos k
  have h2 := Int.emod_nonneg x (b := ((256 ^ k : Nat) : Int)) (by omega)
  unfold putInt wrapU
  rw [beBytes_eq, Int.toNat_of_nonneg h2, be_mod]

theorem or80 : ∀ n : Fin 256, (UInt8.ofNat n.val ||| 0x80) = UInt8.ofNat (128 + n.val % 128) := by decide +kernel

theorem putUvarint_eq (v : Nat) : putUvarint v = Wire.uvarint v := by
  induction v using Nat.strongRecOn with
  | ind v ih =>
    rw [putUvarint, Wire.uvarint]
    split
    · rfl
    · rename_i h
      have hd : v >>> 7 = v / 128 := by simp [Nat.shiftRight_eq_div_pow]
      rw [hd, ih (v / 128) (by omega)]
      congr 1
      have := or80 ⟨v % 256, by omega⟩
      simp only at this
      rw [UInt8_ofNat_mod] at this
      rw [this]
      congr 2
      omega

theorem zz_eq (x : Int) : zz x = Wire.zigzag x := by
  unfold zz Wire.zigzag
  split <;> split <;> first | rfl | omega

theorem putVarint_eq (x : Int) (h : -2^63 ≤ x ∧ x < 2^63) : putVarint x = Wire.varint x := by
  unfold putVarint Wire.varint
  rw [zigzag64_eq x h.1 h.2, zz_eq, putUvarint_eq]

theorem uvarint_zero : Wire.uvarint 0 = [0] := by rw [Wire.uvarint]; rfl

theorem within_eq (lo hi v : Int) : Wire.within lo hi v = inRange lo hi v := by
  unfold Wire.within inRange
  exact Bool.decide_and _ _

/-! ### lengths -/

theorem lenW (f : Bool) (k n : Nat) (h : f = true → n + 1 < 2^32) :
    (if f then putUvarint (wrapU 4 ((n : Int) + 1)) else putInt k n) = Wire.len f k n := by
  cases f with
  | false => simp only [Bool.false_eq_true, ↓reduceIte, Wire.len]; exact putInt_eq k n
  | true =>
    have := h rfl
    simp only [↓reduceIte, Wire.len, putUvarint_eq]
    congr 1
    unfold wrapU; omega

theorem nullW (f : Bool) (k : Nat) :
    (if f then putUvarint (wrapU 4 ((-1 : Int) + 1)) else putInt k (-1)) = Wire.null f k := by
  cases f with
  | false => simp only [Bool.false_eq_true, ↓reduceIte, Wire.null]; exact putInt_eq k _
  | true =>
    simp only [↓reduceIte, Wire.null, putUvarint_eq]
    exact uvarint_zero

/-! ### records -/

theorem nullable_eq (o : Option Bytes) (h : (slice o).length < 2^31) :
    putVarint (nullableLen o) ++ slice o = Wire.rbytes o := by
  cases o with
  | none => simp [nullableLen, slice, Wire.rbytes, putVarint_eq]
  | some b =>
    simp only [slice, Option.getD_some] at h
    simp only [nullableLen, len32, slice, Option.getD_some, Wire.rbytes]
    rw [wrapS4_of_lt h, putVarint_eq _ (by omega)]

theorem header_eq (h : RecordHeader) (hk : h.Ok) : h.enc = Wire.header h := by
  unfold RecordHeader.enc Wire.header
  rw [← nullable_eq _ hk.2, ← List.append_assoc, ← List.append_assoc, ← List.append_assoc]
  have h1 := hk.1
  have : len32 (slice h.key) = (slice h.key).length := wrapS4_of_lt h1
  rw [this, putVarint_eq _ (by omega)]
  rfl

theorem encHeaders_eq (hs : List RecordHeader) (hk : ∀ h ∈ hs, h.Ok) : encHeaders hs = (hs.map Wire.header).flatten := by
  unfold encHeaders
  congr 1
  exact List.map_congr_left fun h hh => header_eq h (hk h hh)

theorem body_eq (r : BatchRecord) (h : r.Ok) : r.body = Wire.recordBody r := by
  have hc := wrapS4_of_lt h.hcount
  have hcr := h.hcount
  have := h.off
  unfold BatchRecord.body Wire.recordBody
  rw [encHeaders_eq _ h.hlen, hc, putVarint_eq _ h.ts, putVarint_eq r.offsetDelta (by omega), putInt_eq,
    ← nullable_eq _ h.klen, ← nullable_eq _ h.vlen, putVarint_eq (r.headerList.length : Int) (by omega)]
  simp only [List.append_assoc, BatchRecord.headerList]

theorem record_eq (r : BatchRecord) (h : r.Ok) (ht : Wire.exactTs r.timestampDelta) : r.enc = Wire.record r := by
  have h1 := r.body_length h
  have hl := h.len
  unfold Wire.exactTs at ht
  rw [if_pos (by rw [zz_eq]; exact ht)] at h1
  unfold BatchRecord.enc Wire.record
  rw [wrapS4_of_lt h.len, ← body_eq r h, putVarint_eq _ (by omega)]
  simp only [Nat.add_zero] at h1
  rw [h1]

theorem slice_le_rbytes (o : Option Bytes) : (slice o).length ≤ (Wire.rbytes o).length := by
  cases o <;> simp [slice, Wire.rbytes]

theorem mem_flatten_length {α : Type} (l : List α) (f : α → Bytes) (a : α) (h : a ∈ l) :
    (f a).length ≤ ((l.map f).flatten).length := by
  induction l with
  | nil => simp at h
  | cons b l ih =>
    simp only [List.map_cons, List.flatten_cons, List.length_append]
    rcases List.mem_cons.mp h with rfl | h
    · omega
    · have := ih h; omega

theorem uvarint_ne (v : Nat) : 0 < (Wire.uvarint v).length := by
  rw [Wire.uvarint]; split <;> simp

theorem count_le_flatten (l : List RecordHeader) : l.length ≤ ((l.map Wire.header).flatten).length := by
  induction l with
  | nil => simp
  | cons b l ih =>
    have : 0 < (Wire.header b).length := by
      unfold Wire.header Wire.varint
      have := uvarint_ne (Wire.zigzag ((b.key.getD []).length : Int))
      simp only [List.length_append]; omega
    simp only [List.map_cons, List.flatten_cons, List.length_append, List.length_cons]
    omega

theorem Wire.RecordFits.ok {r : BatchRecord} (h : Wire.RecordFits r) : r.Ok := by
  have hl := h.length
  have hb : (Wire.rbytes r.key).length + (Wire.rbytes r.value).length +
      (((r.headers.getD []).map Wire.header).flatten).length ≤ (Wire.recordBody r).length := by
    unfold Wire.recordBody; simp only [List.length_append]; omega
  have hk := slice_le_rbytes r.key
  have hv := slice_le_rbytes r.value
  have hh : ∀ g ∈ r.headerList, g.Ok := by
    intro g hg
    have h1 := mem_flatten_length _ Wire.header g hg
    have h2 := slice_le_rbytes g.value
    have h3 : (slice g.key).length + (Wire.rbytes g.value).length ≤ (Wire.header g).length := by
      unfold Wire.header slice; simp only [List.length_append]; omega
    have h4 : (((r.headerList).map Wire.header).flatten).length = (((r.headers.getD []).map Wire.header).flatten).length := rfl
    constructor <;> omega
  have hc := count_le_flatten r.headerList
  have h4 : (((r.headerList).map Wire.header).flatten).length = (((r.headers.getD []).map Wire.header).flatten).length := rfl
  have hcn : r.headerList.length < 2^31 := by omega
  have kr := nullableLen_range r.key (by omega)
  have vr := nullableLen_range r.value (by omega)
  have heq : r.body = Wire.recordBody r := by
    unfold BatchRecord.body Wire.recordBody
    have := h.offsetDelta
    rw [encHeaders_eq _ hh, wrapS4_of_lt hcn, putVarint_eq _ h.timestampDelta, putVarint_eq r.offsetDelta (by omega), putInt_eq,
      ← nullable_eq r.key (by omega), ← nullable_eq r.value (by omega), putVarint_eq (r.headerList.length : Int) (by omega)]
    simp only [List.append_assoc, BatchRecord.headerList]
  refine ⟨?_, h.timestampDelta, h.offsetDelta, h.headers, ?_⟩
  · unfold InS; have := h.attributes; constructor <;> simp <;> omega
  · have hlen : r.recordLength ≤ r.body.length + 1 := by
      unfold BatchRecord.recordLength BatchRecord.body
      simp only [List.length_append, length_encHeaders _ hh, int32Size_eq _ kr.1 kr.2,
        int32Size_eq _ vr.1 vr.2, int32Size_eq _ h.offsetDelta.1 h.offsetDelta.2,
        int64Size_cases _ h.timestampDelta.1 h.timestampDelta.2,
        length_putInt, wrapS4_of_lt hcn, int32Size_eq (r.headerList.length : Int) (by omega) (by omega)]
      split <;> omega
    rw [heq] at hlen; omega

theorem encRecords_eqW (rs : List BatchRecord) (h : ∀ r ∈ rs, r.Ok ∧ Wire.exactTs r.timestampDelta) :
    encRecords rs = (rs.map Wire.record).flatten := by
  unfold encRecords
  congr 1
  exact List.map_congr_left fun r hr => record_eq r (h r hr).1 (h r hr).2

theorem codec_eq (b : RecordBatch) : compressionType b.attributes = Wire.codec b := by
  unfold compressionType Wire.codec wrapU
  rw [show (7 : Nat) = 2^3 - 1 from rfl, Nat.and_two_pow_sub_one_eq_mod]
  omega

theorem payload_eq (x : Ext) (b : RecordBatch) (h : ∀ r ∈ b.recordList, r.Ok ∧ Wire.exactTs r.timestampDelta) (p : Bytes)
    (hp : b.writePayload x = .ok p) : p = Wire.payload x b := by
  have hw := writeRecordItems_eq b.recordList (fun r hr => (h r hr).1.hdr)
  rw [encRecords_eqW _ h] at hw
  unfold RecordBatch.writePayload at hp
  unfold Wire.payload
  by_cases he : b.recordList = []
  · rw [if_pos he] at hp
    have he' : b.records.getD [] = [] := he
    injection hp with hp
    rw [← hp]
    simp only [he', or_true, if_true]; rfl
  · rw [if_neg he, codec_eq] at hp
    have he' : ¬ b.records.getD [] = [] := he
    simp only [he', or_false]
    by_cases hc : Wire.codec b = 0
    · rw [if_pos hc, hw] at hp
      rw [if_pos hc]; injection hp with hp; exact hp.symm
    · rw [if_neg hc, hw] at hp
      rw [if_neg hc]
      split at hp
      · simp at hp
      · simp only at hp
        have e : (b.recordList.map Wire.record).flatten = ((b.records.getD []).map Wire.record).flatten := rfl
        rw [e] at hp
        rw [hp]

theorem afterCrc_eq (x : Ext) (b : RecordBatch) : b.afterCrc (Wire.payload x b) = Wire.batchTail x b := by
  unfold RecordBatch.afterCrc Wire.batchTail
  have : beBytes 4 (b.recordList.length % 2^32) = Wire.be 4 ((b.records.getD []).length : Int) := by
    rw [beBytes_eq, ← be_mod 4 ((b.records.getD []).length : Int)]
    rfl
  simp only [putInt_eq, this, List.append_assoc]

theorem batch_eq (x : Ext) (b : RecordBatch) (h : ∀ r ∈ b.recordList, r.Ok ∧ Wire.exactTs r.timestampDelta) (e : Bytes)
    (hw : b.write x = .ok e) : e = Wire.batch x b ++ b.trailer x := by
  unfold RecordBatch.write at hw
  split at hw
  · simp at hw
  · rename_i hm
    simp only [Decidable.not_not] at hm
    split at hw
    · simp at hw
    · rename_i p hp
      have hp := payload_eq x b h p hp
      subst hp
      simp only at hw
      split at hw
      · simp at hw
      · injection hw with hw
        rw [← hw, afterCrc_eq, hm]
        have hl : (Wire.batchTail x b).length = 40 + (Wire.payload x b).length := by
          unfold Wire.batchTail Wire.be; simp; omega
        unfold Wire.batch
        simp only [putInt_eq, beBytes_eq]
        rw [hl]
        have h2 : Wire.be 1 2 = [2] := by decide
        rw [h2, show 4 + 1 + 4 + (40 + (Wire.payload x b).length) = 49 + (Wire.payload x b).length by omega]
        simp only [List.append_assoc]

theorem clean_trailer (x : Ext) (b : RecordBatch) (h : Wire.clean b) : b.trailer x = [] := by
  unfold RecordBatch.trailer
  rw [if_neg]
  rw [codec_eq]
  rintro ⟨h1, h2⟩
  rcases h with h | h
  · exact h h2
  · exact h1 h

theorem batches_eq (x : Ext) (l : List RecordBatch)
    (h : ∀ b ∈ l, (∀ r ∈ b.recordList, r.Ok ∧ Wire.exactTs r.timestampDelta) ∧ Wire.clean b) (e : Bytes)
    (hw : writeBatches x l = .ok e) : e = (l.map (Wire.batch x)).flatten := by
  induction l generalizing e with
  | nil => injection hw with hw; rw [← hw]; rfl
  | cons b l ih =>
    rw [writeBatches] at hw
    obtain ⟨e1, e2, h1, h2, rfl⟩ := wseq_eq_ok.mp hw
    rw [batch_eq x b (h b (by simp)).1 e1 h1, clean_trailer x b (h b (by simp)).2, List.append_nil, ih (fun c hc => h c (by simp [hc])) e2 h2]
    rfl

/-! ### defaults -/

theorem utf8Null_eq : Wire.utf8Null = nullBytes := by decide

theorem f64Eq_eq (a b : Nat) : f64Ne a b = !Wire.f64Eq a b := by
  unfold f64Ne Wire.f64Eq
  by_cases h1 : a % 2^63 > 0x7ff * 2^52
  · have : ¬ a % 2^63 ≤ 0x7ff * 2^52 := by omega
    simp [h1, this]
  · have h1' : a % 2^63 ≤ 0x7ff * 2^52 := by omega
    by_cases h2 : b % 2^63 > 0x7ff * 2^52
    · have : ¬ b % 2^63 ≤ 0x7ff * 2^52 := by omega
      simp [h2, this]
    · have h2' : b % 2^63 ≤ 0x7ff * 2^52 := by omega
      simp only [h1, h2, h1', h2', decide_false, Bool.or_self, Bool.false_eq_true, if_false, decide_true, Bool.true_and,
        Bool.and_true]
      by_cases h3 : a % 2^63 = 0 ∧ b % 2^63 = 0
      · simp [h3]
      · rw [if_neg h3]
        have : (decide (a % 2^63 = 0) && decide (b % 2^63 = 0)) = false := by
          rw [← Bool.decide_and]; exact decide_eq_false h3
        rw [this, Bool.or_false, decide_not]

theorem dflt_eq (p : Prim) (d : Dflt) : primDflt p d = Wire.dflt p d := by
  cases p <;> cases d <;> first | rfl | (simp only [primDflt, Wire.dflt, NStr.ofValue, utf8Null_eq])

theorem nonDefault_eq (p : Prim) (d : Dflt) (a : p.Val) : tagNonDefault p d a = !Wire.isDflt p d a := by
  cases p
  case str =>
    cases d with
    | str s =>
      simp only [tagNonDefault, Wire.isDflt, Wire.dflt, utf8Null_eq]
      by_cases h : s = nullBytes
      · rw [if_pos h, if_pos h]; rfl
      · rw [if_neg h, if_neg h]; simp
    | _ => simp only [tagNonDefault, Wire.isDflt, Wire.dflt, Bool.false_eq_true, if_false, decide_not, ne_eq]; try congr
  case bool => cases d <;> cases a <;> first | rfl | (rename_i b; cases b <;> rfl)
  case records => cases d <;> rfl
  case bytes => cases d <;> cases a <;> rfl
  all_goals cases d <;> (simp only [tagNonDefault, Wire.isDflt, Wire.dflt, f64Eq_eq, decide_not, ne_eq]; try congr)

theorem noItems_eq {α : Type} (a : Option (List α)) : decide (0 < (a.getD []).length) = !Wire.noItems a := by
  unfold Wire.noItems
  cases a with
  | none => simp
  | some l => cases l <;> simp

theorem looksDflt_eq (p : Prim) (d : Dflt) (a : p.Val) : primEqual p a (primDflt p d) = Wire.looksDflt p d a := by
  rw [dflt_eq]
  cases p
  case bytes => cases d <;> rfl
  case records =>
    have : Wire.dflt .records d = ⟨[], false⟩ := by cases d <;> rfl
    rw [this]
    simp only [primEqual, Wire.looksDflt]
    cases a.items <;> simp
  case f64 => simp [primEqual, Wire.looksDflt, f64Eq_eq]
  all_goals simp [primEqual, Wire.looksDflt]

theorem allDflt_eq (x : Ext) (v : Int) (s : Sch) (b : s.Val) :
    (s.ops x v).equal b (s.ops x v).dflt = Wire.allDflt s b := by
  induction s with
  | nil => rfl
  | prim c ig p d rest ih =>
    obtain ⟨a, b⟩ := b
    simp only [Sch.ops, consField, primOps, Wire.allDflt, looksDflt_eq, ih]
  | arr c ig p rest ih =>
    obtain ⟨a, b⟩ := b
    simp only [Sch.ops, consField, arrOps, Wire.allDflt, ih]
    congr 1
    unfold Wire.noItems
    cases a with
    | none => rfl
    | some l => cases l <;> simp
  | struct c ig flo fhi sub rest ihs ih =>
    obtain ⟨a, b⟩ := b
    simp only [Sch.ops, consField, structOps, Wire.allDflt, ih, ihs]
  | arrS c ig flo fhi sub rest ihs ih =>
    obtain ⟨a, b⟩ := b
    simp only [Sch.ops, consField, arrOps, Wire.allDflt, ih]
    congr 1
    unfold Wire.noItems
    cases a with
    | none => rfl
    | some l => cases l <;> simp

/-! ### fields -/

/-- what the wire claim requires: records that fit, with exactly computed lengths; tags of unknown fields fit uint32; (proof helper; models no code.) -/
def wireCover : Cover where
  prim := fun p => match p with
    | .records => fun a => ∀ b ∈ a.items, (∀ r ∈ b.recordList, Wire.RecordFits r ∧ Wire.exactTs r.timestampDelta) ∧ Wire.clean b
    | _ => fun _ => True
  isNil := fun _ => True
  unknown := fun _ a => a.tag < 2^32

theorem primW (x : Ext) (c : Ctx) (v : Int) (p : Prim) (a : p.Val) (hs : c.supported v = true)
    (hOk : wireCover.prim p a) (e : Bytes) (hw : primWrite x c v p a = .ok e) :
    e = Wire.prim x (Wire.within c.flo c.fhi v) p a := by
  have hf : c.flexible v = Wire.within c.flo c.fhi v := (within_eq _ _ _).symm
  cases p with
  | bool => simp only [primWrite, writeFixed_sup hs, Except.ok.injEq] at hw; subst hw; rfl
  | int k => simp only [primWrite, writeFixed_sup hs, Except.ok.injEq] at hw; subst hw; exact putInt_eq k a
  | u16 => simp only [primWrite, writeFixed_sup hs, Except.ok.injEq] at hw; subst hw; exact beBytes_eq 2 a
  | f64 => simp only [primWrite, writeFixed_sup hs, Except.ok.injEq] at hw; subst hw; exact beBytes_eq 8 a
  | uuid => simp only [primWrite, writeFixed_sup hs, Except.ok.injEq] at hw; subst hw; rfl
  | str =>
    simp only [primWrite, writeStr, hs, hf, Bool.not_true, Bool.false_eq_true, ↓reduceIte] at hw
    simp only [Wire.prim]
    by_cases hn : a.isNil = true
    · rw [if_pos hn] at hw ⊢
      split at hw
      · simp at hw
      · rw [← nullW]
        split at hw
        · rename_i h; rw [if_pos h]; rw [writeUvarint32_ok] at hw; injection hw with hw; rw [← hw]; rfl
        · rename_i h; rw [if_neg h]; injection hw with hw; exact hw.symm
    · rw [if_neg hn] at hw ⊢
      split at hw
      · simp at hw
      · rw [writeLen_ok, wseq_ok] at hw
        injection hw with hw
        rw [← hw, lenW _ _ _ (fun _ => by omega)]
  | bytes =>
    simp only [primWrite, writeBytesF, hs, hf, Bool.not_true, Bool.false_eq_true, ↓reduceIte] at hw
    cases a with
    | none =>
      simp only at hw
      split at hw
      · simp at hw
      · rw [writeLen_ok] at hw
        injection hw with hw
        rw [← hw, nullW]; rfl
    | some b =>
      simp only at hw
      simp only [Wire.prim]
      split at hw
      · rename_i h; subst h
        rw [writeLen_ok] at hw; injection hw with hw
        have := lenW (Wire.within c.flo c.fhi v) 4 0 (fun _ => by omega)
        simp only [List.length_nil, List.append_nil]
        rw [← hw, ← this]; rfl
      · split at hw
        · simp at hw
        · rw [writeLen_ok, wseq_ok] at hw
          injection hw with hw
          rw [← hw, lenW _ _ _ (fun _ => by omega)]
  | records =>
    simp only [primWrite, writeRecordsF, hs, hf, Bool.not_true, Bool.false_eq_true, ↓reduceIte] at hw
    simp only [Wire.prim]
    by_cases hn : a.isNil = true
    · rw [if_pos hn] at hw ⊢
      split at hw
      · simp at hw
      · rw [← nullW]
        split at hw
        · rename_i h; rw [if_pos h]; rw [writeUvarint32_ok] at hw; injection hw with hw; rw [← hw]; rfl
        · rename_i h; rw [if_neg h]; injection hw with hw; exact hw.symm
    · rw [if_neg hn] at hw ⊢
      split at hw
      · simp at hw
      · rename_i bs hbs
        have hb := batches_eq x a.items (fun b hb => ⟨fun r hr => ⟨((hOk b hb).1 r hr).1.ok, ((hOk b hb).1 r hr).2⟩, (hOk b hb).2⟩) bs hbs
        rw [← hb]
        split at hw
        · rename_i hfl
          split at hw
          · simp at hw
          · rw [writeLen_ok, wseq_ok] at hw
            injection hw with hw
            rw [← hw, hfl, lenW _ _ _ (fun _ => by omega)]
        · rename_i hfl
          simp only [Bool.not_eq_true] at hfl
          split at hw
          · simp at hw
          · rw [writeLen_ok, wseq_ok] at hw
            injection hw with hw
            rw [← hw, hfl, lenW _ _ _ (fun h => absurd h (by simp))]

theorem writeItemsW {α : Type} (w : α → Res Bytes) (enc : α → Bytes) (l : List α)
    (h : ∀ a ∈ l, ∀ e, w a = .ok e → e = enc a) (e : Bytes) (hw : writeItems w l = .ok e) : e = (l.map enc).flatten := by
  induction l generalizing e with
  | nil => injection hw with hw; rw [← hw]; rfl
  | cons a l ih =>
    rw [writeItems] at hw
    obtain ⟨e1, e2, h1, h2, rfl⟩ := wseq_eq_ok.mp hw
    rw [h a (by simp) e1 h1, ih (fun b hb => h b (by simp [hb])) e2 h2]
    rfl

theorem arrW {α : Type} (c : Ctx) (v : Int) (w : α → Res Bytes) (enc : α → Bytes) (d : Option (List α))
    (hs : c.supported v = true) (hl : ∀ l, d = some l → ArrLenOk (c.flexible v) l.length)
    (h : ∀ l, d = some l → ∀ a ∈ l, ∀ e, w a = .ok e → e = enc a) (e : Bytes) (hw : writeArr c v w d = .ok e) :
    e = Wire.array (Wire.within c.flo c.fhi v) enc d := by
  have hf : c.flexible v = Wire.within c.flo c.fhi v := (within_eq _ _ _).symm
  simp only [writeArr, hs, hf, Bool.not_true, Bool.false_eq_true, ↓reduceIte] at hw hl
  cases d with
  | none =>
    simp only at hw
    split at hw
    · simp at hw
    · rw [writeLen_ok] at hw
      injection hw with hw
      rw [← hw, nullW]; rfl
  | some l =>
    simp only at hw
    simp only [Wire.array]
    have hll := hl l rfl
    split at hw
    · rename_i h0
      rw [writeLen_ok] at hw; injection hw with hw
      have hnil : l = [] := List.length_eq_zero_iff.mp h0
      subst hnil
      have := lenW (Wire.within c.flo c.fhi v) 4 0 (fun _ => by omega)
      simp only [List.length_nil, List.map_nil, List.flatten_nil, List.append_nil]
      rw [← hw, ← this]; rfl
    · obtain ⟨e1, e2, h1, h2, rfl⟩ := wseq_eq_ok.mp hw
      rw [writeLen_ok] at h1; injection h1 with h1
      rw [← writeItemsW w enc l (h l rfl) e2 h2, ← h1, lenW]
      intro hfl; rw [hfl] at hll; simpa [ArrLenOk] using hll

/-! ### structures -/

theorem tag_eq (a : RawTag) : a.enc = Wire.tag a := by
  simp [RawTag.enc, Wire.tag, putUvarint_eq]

theorem insert_skip (a : RawTag) (l1 l2 : List RawTag) (h1 : ∀ b ∈ l1, ¬ a.tag ≤ b.tag) (h2 : ∀ b ∈ l2, a.tag ≤ b.tag) :
    insertTag a (l1 ++ l2) = l1 ++ a :: l2 := by
  induction l1 with
  | nil =>
    cases l2 with
    | nil => rfl
    | cons b l2 => simp [insertTag, h2 b (by simp)]
  | cons b l1 ih =>
    simp only [List.cons_append, insertTag]
    rw [if_neg (h1 b (by simp)), ih (fun c hc => h1 c (by simp [hc]))]

/-- both are stable sorts -/
theorem sort_eq (l : List RawTag) : sortTags l = l.mergeSort fun a b => decide (a.tag ≤ b.tag) := by
  induction l with
  | nil => simp [sortTags]
  | cons a l ih =>
    have htr : ∀ a b c : RawTag, decide (a.tag ≤ b.tag) = true → decide (b.tag ≤ c.tag) = true →
        decide (a.tag ≤ c.tag) = true := fun a b c h1 h2 => by simp only [decide_eq_true_eq] at *; omega
    have hto : ∀ a b : RawTag, (decide (a.tag ≤ b.tag) || decide (b.tag ≤ a.tag)) = true :=
      fun a b => by simp only [Bool.or_eq_true, decide_eq_true_eq]; omega
    obtain ⟨l1, l2, h1, h2, h3⟩ := List.mergeSort_cons (le := fun (a b : RawTag) => decide (a.tag ≤ b.tag)) htr hto a l
    have hs := List.pairwise_mergeSort (le := fun (a b : RawTag) => decide (a.tag ≤ b.tag)) htr hto (a :: l)
    rw [h1] at hs ⊢
    rw [sortTags, ih, h2]
    apply insert_skip
    · intro b hb; have := h3 b hb; simpa using this
    · intro b hb
      have := (List.pairwise_append.mp hs).2.1
      have := List.rel_of_pairwise_cons this hb
      simpa using this

theorem tagsW {l : List RawTag} {e : Bytes} (ht : ∀ a ∈ l, a.tag < 2^32) (hw : writeRawTags l = .ok e) :
    e = Wire.tags l := by
  obtain ⟨_, h2, _, h4⟩ := (writeRawTags_ok ht).mp hw
  unfold Wire.tags
  rw [← sort_eq, h4, putUvarint_eq]
  unfold encTags
  congr 2
  exact List.map_congr_left fun a _ => tag_eq a

/-- a field type writes `enc`, and `isD` tells the values taken for default; (proof helper; models no code.) -/
structure FieldW {α : Type} (f : FieldOps α) (sup : Bool) (Ok : α → Prop) (isD : α → Bool) (enc : α → Bytes) : Prop where
  w : sup = true → ∀ a e, Ok a → f.write a = .ok e → e = enc a
  unsup : f.isStruct = false → sup = false → ∀ a, f.write a = .ok []
  nd : ∀ a, f.nonDefault a = !isD a

/-- a field list writes `enc`; (proof helper; models no code.) -/
structure FieldsW {β : Type} (fs : FieldsOps β) (Ok : β → Prop) (enc : β → Bytes × List RawTag) : Prop where
  w : ∀ b e, Ok b → fs.writeFields b = .ok e → e = (enc b).1
  t : ∀ b l, Ok b → fs.tagged b = .ok l → l = (enc b).2
  tlt : ∀ b l, fs.tagged b = .ok l → ∀ a ∈ l, a.tag < 2^32

theorem isTagged_eq (c : Ctx) (v : Int) : Wire.isTagged c v = c.tagged v := by
  simp [Wire.isTagged, Ctx.tagged, within_eq]

theorem inPlace_eq (c : Ctx) (v : Int) (flex : Bool) (hc : c.wf v flex = true) :
    Wire.inPlace c v = (!(c.onlyTagged || c.tagged v) && c.supported v) := by
  unfold Wire.inPlace
  rw [isTagged_eq, within_eq]
  change (c.supported v && !c.tagged v) = _
  by_cases ho : c.onlyTagged = true
  · have htag : c.tag ≠ none := by
      intro h0
      simp only [Ctx.wf, h0, ho, Bool.not_true, Bool.and_false, Bool.false_eq_true] at hc
    have : c.supported v = c.tagged v := by
      simp only [Ctx.onlyTagged, Bool.and_eq_true, decide_eq_true_eq] at ho
      unfold Ctx.supported Ctx.tagged
      rw [ho.1, ho.2, Option.isSome_iff_ne_none.mpr htag, Bool.true_and]
    rw [this, ho]; simp
  · simp only [Bool.not_eq_true] at ho
    rw [ho]; cases c.tagged v <;> simp

theorem consField_w {α β : Type} {c : Ctx} {ig : Bool} {v : Int} {flex : Bool} {f : FieldOps α} {rest : FieldsOps β}
    {OkF : α → Prop} {Ok : β → Prop} {isD : α → Bool} {enc : α → Bytes} {encR : β → Bytes × List RawTag}
    (hf : FieldW f (c.supported v) OkF isD enc) (hr : FieldsW rest Ok encR)
    (hc : c.wf v flex = true) :
    FieldsW (consField c ig v f rest) (fun p => (carried c v f.nonDefault p.1 → OkF p.1) ∧ Ok p.2)
      (fun p => Wire.field c v (isD p.1) (enc p.1) (encR p.2)) where
  w := by
    rintro ⟨a, b⟩ e ⟨hOk, hOkr⟩ hw
    simp only [consField] at hw
    obtain ⟨e1, e2, h1, h2, rfl⟩ := wseq_eq_ok.mp hw
    have hrest := hr.w b e2 hOkr h2
    simp only [Wire.field, inPlace_eq c v flex hc]
    unfold carried at hOk
    rw [← hrest]
    by_cases ht : (c.onlyTagged || c.tagged v) = true
    · rw [if_pos ht] at h1
      injection h1 with h1
      rw [← h1, ht]; simp
    · rw [if_neg ht] at h1
      simp only [Bool.not_eq_true] at ht
      have ht2 := ht
      simp only [Bool.or_eq_false_iff] at ht2
      by_cases hs : c.supported v = true
      · rw [if_neg (by simp [hs])] at h1
        have := hf.w hs a e1 (hOk (by simp [ht2.1, ht2.2, hs])) h1
        rw [ht, hs, this]; simp
      · simp only [Bool.not_eq_true] at hs
        have he : e1 = [] := by
          cases hi : f.isStruct with
          | true =>
            rw [if_pos (by simp [hi, hs])] at h1; injection h1 with h1; exact h1.symm
          | false =>
            rw [if_neg (by simp [hi]), hf.unsup hi hs a] at h1; injection h1 with h1; exact h1.symm
        rw [he, hs]; simp
  t := by
    rintro ⟨a, b⟩ l ⟨hOk, hOkr⟩ hl
    simp only [Wire.field, isTagged_eq]
    rcases consField_tagged hl with ⟨t, w, l', htag, htv, hnd, hw, hl', rfl, _⟩ | ⟨hn, hl'⟩
    · have hsup : c.supported v = true := by
        simp only [Ctx.wf, Bool.and_eq_true, Bool.or_eq_true, Bool.not_eq_true'] at hc
        rcases hc.1 with h' | h'
        · rw [htv] at h'; simp at h'
        · exact h'.2
      have := hf.w hsup a w (hOk (by simp [carried, htv, hnd])) hw
      rw [hf.nd a] at hnd
      simp only [htag, htv, hnd, Bool.and_self, if_true]
      rw [this, hr.t b l' hOkr hl']
    · rw [hf.nd a] at hn
      have := hr.t b l hOkr hl'
      simp only [hn, Bool.false_eq_true, if_false]
      cases c.tag <;> exact this
  tlt := by
    rintro ⟨a, b⟩ l hl y hy
    rcases consField_tagged hl with ⟨t, w, l', htag, htv, hnd, hw, hl', rfl, _⟩ | ⟨hn, hl'⟩
    · rcases List.mem_cons.mp hy with rfl | hy
      · simp only [Ctx.wf, htag, Bool.and_eq_true, decide_eq_true_eq] at hc
        exact hc.2
      · exact hr.tlt b l' hl' y hy
    · exact hr.tlt b l hl' y hy

theorem nilFields_w : FieldsW nilFields (fun _ => True) (fun _ => ([], [])) where
  w := by intro b e _ h; injection h with h; exact h.symm
  t := by intro b l _ h; injection h with h; exact h.symm
  tlt := by intro b l h a ha; injection h with h; subst h; simp at ha

theorem structW {β : Type} {fs : FieldsOps β} {tags : List Nat} {Ok : β → Prop} {enc : β → Bytes × List RawTag}
    (hr : FieldsW fs Ok enc) (flo fhi v : Int) (s : StructVal β) (hOk : StructOk wireCover tags Ok s) (e : Bytes)
    (hw : structWrite flo fhi v fs s = .ok e) : e = Wire.struct flo fhi v enc s := by
  unfold structWrite at hw
  unfold Wire.struct
  by_cases hn : s.isNil = true
  · rw [if_pos hn] at hw ⊢; injection hw with hw; exact hw.symm
  · rw [if_neg hn] at hw ⊢
    split at hw
    · simp at hw
    · obtain ⟨e1, e2, h1, h2, rfl⟩ := wseq_eq_ok.mp hw
      rw [hr.w _ e1 hOk.2.1 h1, within_eq]
      congr 1
      by_cases hf : inRange flo fhi v = true
      · rw [if_neg (by simp [hf])] at h2
        rw [if_pos hf]
        split at h2
        · simp at h2
        · rename_i l hl
          rw [← hr.t _ l hOk.2.1 hl]
          refine tagsW (fun a ha => ?_) h2
          rcases List.mem_append.mp ha with ha | ha
          · exact hOk.2.2 a ha
          · exact hr.tlt _ l hl a ha
      · rw [if_pos (by simp [hf])] at h2
        rw [if_neg hf]
        split at h2
        · simp at h2
        · injection h2 with h2; exact h2.symm

theorem FieldsW.of_eq {β : Type} {fs : FieldsOps β} {Ok Ok' : β → Prop} {enc enc' : β → Bytes × List RawTag}
    (h : FieldsW fs Ok enc) (h1 : Ok' = Ok) (h2 : enc' = enc) : FieldsW fs Ok' enc' := by subst h1 h2; exact h

/-- every well-formed schema writes the wire format -/
theorem Sch.w (x : Ext) (v : Int) (s : Sch) (flex : Bool) (h : s.wf v flex = true) :
    FieldsW (s.ops x v) (s.Ok wireCover x v) (Wire.fields x v s) := by
  induction s generalizing flex with
  | nil => exact nilFields_w
  | prim c ig p d rest ih =>
    simp only [Sch.wf, Bool.and_eq_true, Bool.not_eq_true'] at h
    have hf : FieldW (primOps x c v p d) (c.supported v) (wireCover.prim p) (Wire.isDflt p d)
        (Wire.prim x (Wire.within c.flo c.fhi v) p) :=
      ⟨fun hs a e hOk hw => primW x c v p a hs hOk e hw,
        fun _ hs a => by
          cases p <;> simp [primOps, primWrite, writeFixed, writeStr, writeBytesF, writeRecordsF, hs],
        nonDefault_eq p d⟩
    exact (consField_w (ig := ig) hf (ih flex h.2) h.1.1.1).of_eq rfl rfl
  | arr c ig p rest ih =>
    simp only [Sch.wf, Bool.and_eq_true, Bool.not_eq_true'] at h
    have hf : FieldW (arrOps c v p.zero (primOps x c v p .none)) (c.supported v) (ArrOk c v (wireCover.prim p))
        Wire.noItems (Wire.array (Wire.within c.flo c.fhi v) (Wire.prim x (Wire.within c.flo c.fhi v) p)) :=
      ⟨fun hs a e hOk hw => arrW c v _ _ a hs (fun l hl => (hOk l hl).1)
          (fun l hl y hy e he => primW x c v p y hs ((hOk l hl).2 y hy) e he) e hw,
        fun _ hs a => by simp [arrOps, writeArr, hs], noItems_eq⟩
    exact (consField_w (ig := ig) hf (ih flex h.2) h.1.1.1).of_eq rfl rfl
  | struct c ig flo fhi sub rest ihs ih =>
    simp only [Sch.wf, Bool.and_eq_true, Bool.not_eq_true', Bool.or_eq_true] at h
    have hf : FieldW (structOps flo fhi v (sub.ops x v)) (c.supported v) (StructOk wireCover sub.tags (sub.Ok wireCover x v))
        (fun a => decide (a.unknown = []) && Wire.allDflt sub a.fields) (Wire.struct flo fhi v (Wire.fields x v sub)) :=
      ⟨fun _ a e hOk hw => structW (ihs _ h.1.1.2) flo fhi v a hOk e hw,
        fun hst => absurd hst (by simp [structOps]),
        fun a => by simp only [structOps, allDflt_eq]⟩
    exact (consField_w (ig := ig) hf (ih flex h.2) h.1.1.1.1).of_eq rfl rfl
  | arrS c ig flo fhi sub rest ihs ih =>
    simp only [Sch.wf, Bool.and_eq_true, Bool.not_eq_true'] at h
    have hf : FieldW (arrOps c v (structOps flo fhi v (sub.ops x v)).dflt (structOps flo fhi v (sub.ops x v))) (c.supported v)
        (ArrOk c v (StructOk wireCover sub.tags (sub.Ok wireCover x v))) Wire.noItems
        (Wire.array (Wire.within c.flo c.fhi v) (Wire.struct flo fhi v (Wire.fields x v sub))) :=
      ⟨fun hs a e hOk hw => arrW c v _ _ a hs (fun l hl => (hOk l hl).1)
          (fun l hl y hy e he => structW (ihs _ h.1.1.2) flo fhi v y ((hOk l hl).2 y hy) e he) e hw,
        fun _ hs a => by simp [arrOps, writeArr, hs], noItems_eq⟩
    exact (consField_w (ig := ig) hf (ih flex h.2) h.1.1.1).of_eq rfl rfl

/-- every message is written in the wire format -/
theorem Msg.wire (m : Msg) (x : Ext) (v : Int) (hwf : m.wf v = true) (s : m.Val) (hOk : m.Ok wireCover x v s) (e : Bytes)
    (hw : m.write x v s = .ok e) : e = Wire.message x v m s :=
  structW (m.fields.w x v _ hwf) m.flo m.fhi v s hOk e hw

end Verif.Kafka
