import Verif.Kafka.Fields
/- Lemmas about the field processors: reading back what was written, and sizes. -/
namespace Verif.Kafka
open Verif

theorem writeLen_ok (f : Bool) (k : Nat) (n : Int) :
    writeLen f k n = .ok (if f then putUvarint (wrapU 4 (n + 1)) else putInt k n) := by
  unfold writeLen; cases f <;> simp [writeUvarint32_ok]

/-- lengths that survive the encoding; (proof helper; models no code.) -/
def LenOk (f : Bool) (k : Nat) (n : Int) : Prop := if f then -1 ≤ n ∧ n + 1 < 2^32 else InS k n

theorem RT.len {f : Bool} {k : Nat} {n : Int} (hk : 0 < k) (h : LenOk f k n) :
    RT (if f then putUvarint (wrapU 4 (n + 1)) else putInt k n) (readLen f k) n := by
  cases f with
  | false => exact RT.int k hk n h
  | true =>
    unfold LenOk at h
    simp only [↓reduceIte] at h
    have e : wrapU 4 (n + 1) = (n + 1).toNat := by
      unfold wrapU
      rw [Int.emod_eq_of_lt (by omega) (by simp; omega)]
    simp only [↓reduceIte, readLen, e]
    apply RT.map (RT.uvarint32 _ (by omega))
    intro rest
    have : ((n + 1).toNat : Int) - 1 = n := by omega
    simp only [this]; rfl

theorem len_size {f : Bool} {k : Nat} {n : Int} (h : LenOk f k n) :
    (if f then putUvarint (wrapU 4 (n + 1)) else putInt k n).length =
      if f then uint32Size (n + 1).toNat else k := by
  cases f with
  | false => simp
  | true =>
    unfold LenOk at h
    simp only [↓reduceIte] at h
    have e : wrapU 4 (n + 1) = (n + 1).toNat := by
      unfold wrapU
      rw [Int.emod_eq_of_lt (by omega) (by simp; omega)]
    simp only [↓reduceIte, e]
    exact uint32Size_eq _ (by omega)

theorem LenOk.of_small {f : Bool} {n : Nat} (h : n < 2^15) : LenOk f 2 n := by
  unfold LenOk InS; cases f <;> simp <;> omega

theorem LenOk.of_int32 {f : Bool} {n : Nat} (h : n < 2^31) : LenOk f 4 n := by
  unfold LenOk InS; cases f <;> simp <;> omega

theorem LenOk.neg1 {f : Bool} {k : Nat} (h : 0 < k) : LenOk f k (-1) := by
  have : 1 ≤ 256 ^ k / 2 := by
    rw [Nat.le_div_iff_mul_le (by omega)]
    calc 1 * 2 ≤ 256 ^ 1 := by decide
      _ ≤ 256 ^ k := Nat.pow_le_pow_right (by decide) h
  unfold LenOk InS; cases f <;> simp only [Bool.false_eq_true, ↓reduceIte] <;> omega

/-! ### strings -/

/-- What reading a written string yields: null has no content, and the text "null" is taken for null. (proof helper; models no code.) -/
def NStr.norm (s : NStr) : NStr :=
  if s.isNil then ⟨[], true⟩ else ⟨s.value, decide (s.value = nullBytes)⟩

theorem RT.str {c : Ctx} {v : Int} {s : NStr} {e : Bytes} (cur : NStr) (hs : c.supported v = true)
    (h : writeStr c v s = .ok e) : RT e (readStr c v cur) s.norm := by
  unfold writeStr at h
  unfold readStr NStr.norm
  simp only [hs, Bool.not_true, Bool.false_eq_true, ↓reduceIte] at h ⊢
  by_cases hn : s.isNil = true
  · simp only [hn, ↓reduceIte] at h ⊢
    by_cases hc : c.nullable v = true
    · have he : e = if c.flexible v then putUvarint (wrapU 4 (-1 + 1)) else putInt 2 (-1) := by
        simp only [hc, Bool.not_true, Bool.false_eq_true, ↓reduceIte] at h
        split at h
        · rw [writeUvarint32_ok] at h; injection h with h; rw [← h, if_pos (by assumption)]; rfl
        · injection h with h; rw [← h, if_neg (by assumption)]
      rw [he]
      apply RT.map (RT.len (by decide) (LenOk.neg1 (by decide)))
      intro rest
      simp [readStrValue, hc, Dec.ret]
    · simp [hc] at h
  · simp only [hn, Bool.false_eq_true, ↓reduceIte] at h ⊢
    split at h
    · simp at h
    · rename_i hl
      rw [writeLen_ok] at h
      simp only [wseq_ok, Except.ok.injEq] at h
      rw [← h]
      apply RT.bind (RT.len (by decide) (LenOk.of_small (by omega)))
      unfold readStrValue
      rw [if_neg (by omega), if_neg (by omega)]
      by_cases h0 : s.value = []
      · simp only [h0, List.length_nil]
        rw [if_pos (by rfl)]
        intro rest; rfl
      · have : 0 < s.value.length := List.length_pos_iff.mpr h0
        rw [if_neg (by omega)]
        apply RT.map (RT.exact s.value (by simp) (by simpa using this))
        intro rest; rfl

theorem sizeStr_eq {c : Ctx} {v : Int} {s : NStr} {e : Bytes}
    (h : writeStr c v s = .ok e) : sizeStr c v s = .ok e.length := by
  unfold writeStr at h
  unfold sizeStr
  by_cases hs : c.supported v = true
  · simp only [hs, Bool.not_true, Bool.false_eq_true, ↓reduceIte] at h ⊢
    by_cases hn : s.isNil = true
    · simp only [hn, ↓reduceIte] at h ⊢
      by_cases hc : c.nullable v = true
      · simp only [hc, Bool.not_true, Bool.false_eq_true, ↓reduceIte] at h ⊢
        split at h
        · rename_i hf
          rw [writeUvarint32_ok] at h; injection h with h
          rw [if_pos hf, ← h, uint32Size_eq _ (by decide)]
        · rename_i hf; injection h with h; rw [if_neg hf, ← h]; simp
      · simp [hc] at h
    · simp only [hn, Bool.false_eq_true, ↓reduceIte] at h ⊢
      split at h
      · simp at h
      · rename_i hl
        rw [if_neg hl]
        rw [writeLen_ok] at h
        simp only [wseq_ok, Except.ok.injEq] at h
        rw [← h, List.length_append, len_size (LenOk.of_small (by omega))]
        have : ((s.value.length : Int) + 1).toNat = s.value.length + 1 := by omega
        rw [this]
        cases c.flexible v <;> simp only [Bool.false_eq_true, ↓reduceIte] <;> rw [Nat.add_comm]
  · simp only [hs] at h ⊢
    simp at h; simp [h]

/-! ### bytes -/

theorem RT.bytesF {c : Ctx} {v : Int} {d : Option Bytes} {e : Bytes} (hs : c.supported v = true)
    (h : writeBytesF c v d = .ok e) : RT e (readBytesF c v none) d := by
  unfold writeBytesF at h
  unfold readBytesF
  simp only [hs, Bool.not_true, Bool.false_eq_true, ↓reduceIte, writeLen_ok] at h ⊢
  cases d with
  | none =>
    simp only at h
    by_cases hc : c.nullable v = true
    · simp only [hc, Bool.not_true, Bool.false_eq_true, ↓reduceIte, Except.ok.injEq] at h
      rw [← h]
      apply RT.map (RT.len (by decide) (LenOk.neg1 (by decide)))
      intro rest; simp [readBytesValue, hc, Dec.ret]
    · simp [hc] at h
  | some b =>
    simp only at h
    by_cases h0 : b = []
    · simp only [h0, ↓reduceIte, Except.ok.injEq] at h
      rw [← h, h0]
      apply RT.map (RT.len (by decide) (LenOk.of_int32 (n := 0) (by decide)))
      intro rest; simp [readBytesValue, Dec.ret]
    · rw [if_neg h0] at h
      split at h
      · simp at h
      · rename_i hl
        simp only [wseq_ok, Except.ok.injEq] at h
        rw [← h]
        apply RT.bind (RT.len (by decide) (LenOk.of_int32 (by omega)))
        unfold readBytesValue
        have : 0 < b.length := List.length_pos_iff.mpr h0
        rw [if_neg (by omega), if_neg (by omega), if_neg (by omega)]
        apply RT.map (RT.exact b (by simp) (by simpa using this))
        intro rest; rfl

theorem sizeBytesF_eq {c : Ctx} {v : Int} {d : Option Bytes} {e : Bytes}
    (hl : ∀ b, d = some b → b.length ≠ 2147483647)
    (h : writeBytesF c v d = .ok e) : sizeBytesF c v d = .ok e.length := by
  unfold writeBytesF at h
  unfold sizeBytesF
  by_cases hs : c.supported v = true
  · simp only [hs, Bool.not_true, Bool.false_eq_true, ↓reduceIte, writeLen_ok] at h ⊢
    cases d with
    | none =>
      simp only at h ⊢
      by_cases hc : c.nullable v = true
      · simp only [hc, Bool.not_true, Bool.false_eq_true, ↓reduceIte, Except.ok.injEq] at h ⊢
        rw [← h, len_size (LenOk.neg1 (by decide))]
        cases c.flexible v <;> simp
      · simp [hc] at h
    | some b =>
      simp only at h ⊢
      by_cases h0 : b = []
      · simp only [h0, ↓reduceIte, Except.ok.injEq] at h ⊢
        rw [← h, len_size (n := 0) (LenOk.of_int32 (n := 0) (by decide))]
        cases c.flexible v <;> rfl
      · rw [if_neg h0] at h ⊢
        split at h
        · simp at h
        · have := hl b rfl
          simp only [wseq_ok, Except.ok.injEq] at h
          rw [← h, List.length_append, len_size (LenOk.of_int32 (by omega))]
          have e1 : ((b.length : Int) + 1).toNat = b.length + 1 := by omega
          rw [e1]
          cases c.flexible v <;> simp only [Bool.false_eq_true, ↓reduceIte] <;> rw [if_neg (by omega), Nat.add_comm]
  · simp only [hs] at h ⊢
    simp at h; simp [h]

/-! ### records -/

theorem inChunk_rt' {α : Type} {enc : Bytes} {d : Dec α} {a : α} (h : d enc = .ok (a, [])) :
    RT enc (inChunk enc.length d) a := by
  intro rest
  unfold inChunk
  simp only [Int.toNat_natCast, List.take_left, h, List.nil_append, List.drop_left]

/-- What reading written record batches yields: batch length and CRC as on the wire, records normalized as in C16. (proof helper; models no code.) -/
def RecBatches.norm (x : Ext) (d : RecBatches) : RecBatches :=
  if d.isNil then ⟨[], true⟩ else ⟨d.items.map (fun b => b.readBack (b.crcOf x)), false⟩

theorem RT.recordsF {x : Ext} {c : Ctx} {v : Int} {d : RecBatches} {e : Bytes} (hs : c.supported v = true)
    (hb : ∀ b ∈ d.items, b.Ok)
    (h : writeRecordsF x c v d = .ok e) : RT e (readRecordsF x c v ⟨[], false⟩) (d.norm x) := by
  unfold writeRecordsF at h
  unfold readRecordsF RecBatches.norm
  simp only [hs, Bool.not_true, Bool.false_eq_true, ↓reduceIte, writeBatches_eq x d.items hb] at h ⊢
  by_cases hn : d.isNil = true
  · simp only [hn, ↓reduceIte] at h ⊢
    by_cases hc : c.nullable v = true
    · have he : e = if c.flexible v then putUvarint (wrapU 4 (-1 + 1)) else putInt 4 (-1) := by
        simp only [hc, Bool.not_true, Bool.false_eq_true, ↓reduceIte] at h
        split at h
        · rw [writeUvarint32_ok] at h; injection h with h; rw [← h, if_pos (by assumption)]; rfl
        · injection h with h; rw [← h, if_neg (by assumption)]
      rw [he]
      apply RT.map (RT.len (by decide) (LenOk.neg1 (by decide)))
      intro rest
      simp [readRecordsValue, hc, Dec.ret]
    · simp [hc] at h
  · simp only [hn, Bool.false_eq_true, ↓reduceIte] at h ⊢
    have hlen : LenOk (c.flexible v) 4 (encBatches x d.items).length := by
      unfold LenOk InS
      cases hf : c.flexible v <;> simp only [hf, Bool.false_eq_true, ↓reduceIte] at h ⊢ <;> split at h
      · simp at h
      · simp; omega
      · simp at h
      · omega
    have he : e = (if c.flexible v then putUvarint (wrapU 4 ((encBatches x d.items).length + 1))
        else putInt 4 (encBatches x d.items).length) ++ encBatches x d.items := by
      simp only [writeLen_ok] at h
      cases hf : c.flexible v <;> simp only [hf, Bool.false_eq_true, ↓reduceIte] at h ⊢ <;> split at h
      · simp at h
      · injection h with h; exact h.symm
      · simp at h
      · injection h with h; exact h.symm
    rw [he]
    apply RT.bind (RT.len (by decide) hlen)
    unfold readRecordsValue
    by_cases h0 : d.items = []
    · rw [h0]
      intro rest; rfl
    · have hp : 0 < (encBatches x d.items).length := by
        have := length_le_encBatches x d.items
        have := List.length_pos_iff.mpr h0
        omega
      rw [if_neg (by omega), if_neg (by omega)]
      intro rest
      simp only
      rw [if_neg (by rw [List.length_append]; omega)]
      have hr : readBatches x (encBatches x d.items) = .ok (d.items.map (fun b => b.readBack (b.crcOf x)), []) := by
        have := readBatches_list (x := x) d.items hb [] [] (fun f hf => readBatchesAux_nil f hf)
        simpa using this
      exact RT.map (inChunk_rt' hr) (fun rest => rfl) rest

theorem batchesSize_eq (x : Ext) (l : List RecordBatch)
    (h : ∀ b ∈ l, b.size = (b.encWith (b.crcOf x)).length) : batchesSize l = (encBatches x l).length := by
  induction l with
  | nil => rfl
  | cons b l ih =>
    rw [encBatches_cons, List.length_append, ← h b (by simp), ← ih (fun c hc => h c (by simp [hc]))]
    simp [batchesSize]

theorem sizeRecordsF_eq {x : Ext} {c : Ctx} {v : Int} {d : RecBatches} {e : Bytes}
    (hb : ∀ b ∈ d.items, b.Ok) (hz : ∀ b ∈ d.items, b.size = (b.encWith (b.crcOf x)).length)
    (h : writeRecordsF x c v d = .ok e) : sizeRecordsF c v d = .ok e.length := by
  unfold writeRecordsF at h
  unfold sizeRecordsF
  by_cases hs : c.supported v = true
  · simp only [hs, Bool.not_true, Bool.false_eq_true, ↓reduceIte, writeBatches_eq x d.items hb] at h ⊢
    by_cases hn : d.isNil = true
    · simp only [hn, ↓reduceIte] at h ⊢
      by_cases hc : c.nullable v = true
      · simp only [hc, Bool.not_true, Bool.false_eq_true, ↓reduceIte] at h ⊢
        split at h
        · rename_i hf
          rw [writeUvarint32_ok] at h; injection h with h
          rw [if_pos hf, ← h, uint32Size_eq _ (by decide)]
        · rename_i hf; injection h with h; rw [if_neg hf, ← h]; simp
      · simp [hc] at h
    · simp only [hn, Bool.false_eq_true, ↓reduceIte, batchesSize_eq x _ hz, writeLen_ok] at h ⊢
      generalize encBatches x d.items = y at h ⊢
      have e1 : ((y.length : Int) + 1).toNat = y.length + 1 := by omega
      generalize c.flexible v = f at h ⊢
      cases f <;> simp only [Bool.false_eq_true, ↓reduceIte] at h ⊢ <;> split at h
      · simp at h
      · injection h with h
        rw [if_neg (by assumption), ← h]; simp
      · simp at h
      · have hl : LenOk true 4 y.length := by unfold LenOk; simp only [↓reduceIte]; omega
        have := len_size hl
        simp only [↓reduceIte, e1] at this
        injection h with h
        rw [if_neg (by assumption), ← h, List.length_append, this]
  · simp only [hs] at h ⊢
    simp at h; simp [h]

/-! ### fixed width -/

theorem RT.bool (b : Bool) : RT (putBool b) readBool b := by
  apply RT.map (RT.exact _ (by simp [putBool]) (by decide))
  intro rest; cases b <;> rfl

theorem Cut.bool (b : Bool) : Cut (putBool b) readBool :=
  Cut.map (RT.exact _ (by simp [putBool]) (by decide)) (Cut.exact _ (by simp [putBool]))

theorem RT.uuid (u : Bytes) (h : u.length = 16) : RT u readUuid u := by
  have e : u = u.take 8 ++ u.drop 8 := (List.take_append_drop 8 u).symm
  have : RT (u.take 8 ++ u.drop 8) readUuid (u.take 8 ++ u.drop 8) := by
    apply RT.bind (RT.exact _ (by simp; omega) (by decide))
    apply RT.map (RT.exact _ (by simp; omega) (by decide))
    intro rest; rfl
  rwa [← e] at this

theorem Cut.uuid (u : Bytes) (h : u.length = 16) : Cut u readUuid := by
  have e : u = u.take 8 ++ u.drop 8 := (List.take_append_drop 8 u).symm
  have : Cut (u.take 8 ++ u.drop 8) readUuid := by
    apply Cut.bind (RT.exact _ (by simp; omega) (by decide)) (Cut.exact _ (by simp; omega))
    exact Cut.map (RT.exact _ (by simp; omega) (by decide)) (Cut.exact _ (by simp; omega))
  rwa [← e] at this

/-! ### arrays -/

theorem RT.items {α : Type} (w : α → Res Bytes) (d : Dec α) (g : α → α) (l : List α)
    (h : ∀ a ∈ l, ∀ e, w a = .ok e → RT e d (g a)) (e : Bytes) (hw : writeItems w l = .ok e) :
    RT e (readItems d l.length) (l.map g) := by
  induction l generalizing e with
  | nil => simp only [writeItems, Except.ok.injEq] at hw; rw [← hw]; exact fun rest => rfl
  | cons a l ih =>
    obtain ⟨e1, e2, h1, h2, rfl⟩ := wseq_eq_ok.mp hw
    simp only [List.length_cons, readItems, List.map_cons]
    apply RT.bind (h a (by simp) e1 h1)
    apply RT.map (ih (fun b hb => h b (by simp [hb])) e2 h2)
    intro rest; rfl

theorem sizeItems_eq {α : Type} (w : α → Res Bytes) (s : α → Res Nat) (l : List α)
    (h : ∀ a ∈ l, ∀ e, w a = .ok e → s a = .ok e.length) (e : Bytes) (hw : writeItems w l = .ok e) :
    sizeItems s l = .ok e.length := by
  induction l generalizing e with
  | nil => simp only [writeItems, Except.ok.injEq] at hw; rw [← hw]; rfl
  | cons a l ih =>
    obtain ⟨e1, e2, h1, h2, rfl⟩ := wseq_eq_ok.mp hw
    simp only [sizeItems, h a (by simp) e1 h1, ih (fun b hb => h b (by simp [hb])) e2 h2, sadd, List.length_append]

/-- array lengths the length field can hold; (proof helper; models no code.) -/
def ArrLenOk (f : Bool) (n : Nat) : Prop := if f then n + 1 < 2^32 else n < 2^31

theorem ArrLenOk.len {f : Bool} {n : Nat} (h : ArrLenOk f n) : LenOk f 4 n := by
  unfold ArrLenOk at h
  unfold LenOk InS
  cases f <;> simp only [Bool.false_eq_true, ↓reduceIte] at h ⊢
  · simp; omega
  · omega

theorem RT.arr {α : Type} {c : Ctx} {v : Int} (w : α → Res Bytes) (d : Dec α) (g : α → α)
    (a : Option (List α)) (hs : c.supported v = true)
    (hl : ∀ l, a = some l → ArrLenOk (c.flexible v) l.length)
    (h : ∀ l, a = some l → ∀ b ∈ l, ∀ e, w b = .ok e → RT e d (g b)) (e : Bytes) (hw : writeArr c v w a = .ok e) :
    RT e (readArr c v d) (a.map (·.map g)) := by
  unfold writeArr at hw
  unfold readArr
  simp only [hs, Bool.not_true, Bool.false_eq_true, ↓reduceIte, writeLen_ok] at hw ⊢
  cases a with
  | none =>
    simp only at hw
    by_cases hc : c.nullable v = true
    · simp only [hc, Bool.not_true, Bool.false_eq_true, ↓reduceIte, Except.ok.injEq] at hw
      rw [← hw]
      apply RT.map (RT.len (by decide) (LenOk.neg1 (by decide)))
      intro rest; simp [readArrValue, hc, Dec.ret]
    · simp [hc] at hw
  | some l =>
    simp only at hw
    by_cases h0 : l.length = 0
    · have : l = [] := List.length_eq_zero_iff.mp h0
      simp only [h0, ↓reduceIte, Except.ok.injEq] at hw
      rw [← hw, this]
      apply RT.map (RT.len (by decide) (LenOk.of_int32 (n := 0) (by decide)))
      intro rest; rfl
    · rw [if_neg h0] at hw
      obtain ⟨e1, e2, h1, h2, rfl⟩ := wseq_eq_ok.mp hw
      injection h1 with h1
      rw [← h1]
      apply RT.bind (RT.len (by decide) (hl l rfl).len)
      unfold readArrValue
      rw [if_neg (by omega), Int.toNat_natCast]
      apply RT.map (RT.items w d g l (h l rfl) e2 h2)
      intro rest; rfl

theorem sizeArr_eq {α : Type} {c : Ctx} {v : Int} (w : α → Res Bytes) (s : α → Res Nat)
    (a : Option (List α)) (hl : c.supported v = true → ∀ l, a = some l → ArrLenOk (c.flexible v) l.length)
    (h : c.supported v = true → ∀ l, a = some l → ∀ b ∈ l, ∀ e, w b = .ok e → s b = .ok e.length)
    (e : Bytes) (hw : writeArr c v w a = .ok e) :
    sizeArr c v s a = .ok e.length := by
  unfold writeArr at hw
  unfold sizeArr
  by_cases hs : c.supported v = true
  · have hl := hl hs
    have h := h hs
    simp only [hs, Bool.not_true, Bool.false_eq_true, ↓reduceIte, writeLen_ok] at hw ⊢
    cases a with
    | none =>
      simp only at hw ⊢
      by_cases hc : c.nullable v = true
      · simp only [hc, Bool.not_true, Bool.false_eq_true, ↓reduceIte, Except.ok.injEq] at hw ⊢
        rw [← hw, len_size (LenOk.neg1 (by decide))]
        cases c.flexible v <;> rfl
      · simp [hc] at hw
    | some l =>
      simp only at hw ⊢
      by_cases h0 : l.length = 0
      · simp only [h0, ↓reduceIte, Except.ok.injEq] at hw ⊢
        rw [← hw, len_size (n := 0) (LenOk.of_int32 (n := 0) (by decide))]
        cases c.flexible v <;> rfl
      · rw [if_neg h0] at hw ⊢
        have hl := hl l rfl
        obtain ⟨e1, e2, h1, h2, rfl⟩ := wseq_eq_ok.mp hw
        injection h1 with h1
        rw [sizeItems_eq w s l (h l rfl) e2 h2, ← h1, List.length_append, len_size hl.len]
        have e1 : ((l.length : Int) + 1).toNat = l.length + 1 := by omega
        rw [e1]
        unfold ArrLenOk at hl
        generalize c.flexible v = f at hl ⊢
        cases f <;> simp only [Bool.false_eq_true, ↓reduceIte] at hl ⊢ <;> rw [if_neg (by omega)] <;> rfl
  · simp only [hs] at hw ⊢
    simp at hw; simp [hw]

end Verif.Kafka
