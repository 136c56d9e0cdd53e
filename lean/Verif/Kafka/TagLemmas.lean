import Verif.Kafka.FieldLemmas
/- Lemmas about raw tagged field sections. -/
namespace Verif.Kafka
open Verif

theorem insertTag_perm (a : RawTag) (l : List RawTag) : (insertTag a l).Perm (a :: l) := by
  induction l with
  | nil => exact .refl _
  | cons b l ih =>
    unfold insertTag
    split
    · exact .refl _
    · exact (ih.cons b).trans (.swap a b l)

theorem sortTags_perm (l : List RawTag) : (sortTags l).Perm l := by
  induction l with
  | nil => exact .refl _
  | cons a l ih => exact (insertTag_perm a _).trans (ih.cons a)

theorem mem_insertTag {a b : RawTag} {l : List RawTag} : b ∈ insertTag a l ↔ b = a ∨ b ∈ l := by
  rw [(insertTag_perm a l).mem_iff]; simp

theorem insertTag_sorted (a : RawTag) (l : List RawTag) (h : l.Pairwise (·.tag ≤ ·.tag)) :
    (insertTag a l).Pairwise (·.tag ≤ ·.tag) := by
  induction l with
  | nil => simp [insertTag]
  | cons b l ih =>
    unfold insertTag
    obtain ⟨h1, h2⟩ := List.pairwise_cons.mp h
    split
    · rename_i hab
      refine List.pairwise_cons.mpr ⟨?_, h⟩
      intro c hc
      rcases List.mem_cons.mp hc with rfl | hc
      · exact hab
      · have := h1 c hc; omega
    · refine List.pairwise_cons.mpr ⟨?_, ih h2⟩
      intro c hc
      rcases mem_insertTag.mp hc with rfl | hc
      · omega
      · exact h1 c hc

theorem sortTags_sorted (l : List RawTag) : (sortTags l).Pairwise (·.tag ≤ ·.tag) := by
  induction l with
  | nil => simp [sortTags]
  | cons a l ih => exact insertTag_sorted a _ ih

theorem hasAdjDup_false {l : List RawTag} (h : l.Pairwise (·.tag ≤ ·.tag)) :
    hasAdjDup l = false ↔ l.Pairwise (·.tag < ·.tag) := by
  induction l with
  | nil => simp [hasAdjDup]
  | cons a l ih =>
    obtain ⟨h1, h2⟩ := List.pairwise_cons.mp h
    cases l with
    | nil => simp [hasAdjDup]
    | cons b l =>
      have ih := ih h2
      simp only [hasAdjDup, Bool.or_eq_false_iff, decide_eq_false_iff_not, ih]
      constructor
      · rintro ⟨hab, hs⟩
        refine List.pairwise_cons.mpr ⟨?_, hs⟩
        intro c hc
        have hb := h1 b (by simp)
        rcases List.mem_cons.mp hc with rfl | hc
        · omega
        · have := (List.pairwise_cons.mp hs).1 c hc; omega
      · intro hs
        obtain ⟨g1, g2⟩ := List.pairwise_cons.mp hs
        exact ⟨by have := g1 b (by simp); omega, g2⟩

/-- no tag occurs twice; (proof helper; models no code.) -/
def TagsNodup (l : List RawTag) : Prop := (l.map RawTag.tag).Nodup

theorem sorted_nodup {l : List RawTag} (h : l.Pairwise (·.tag ≤ ·.tag)) :
    l.Pairwise (·.tag < ·.tag) ↔ TagsNodup l := by
  unfold TagsNodup List.Nodup
  rw [List.pairwise_map]
  constructor
  · intro g; exact g.imp (fun {a b} hh => by omega)
  · intro g; exact (h.and g).imp (fun {a b} hh => by omega)

theorem TagsNodup.perm {l m : List RawTag} (h : l.Perm m) : TagsNodup l ↔ TagsNodup m := by
  unfold TagsNodup; exact (h.map _).nodup_iff

theorem hasAdjDup_sort (l : List RawTag) : hasAdjDup (sortTags l) = false ↔ TagsNodup l := by
  rw [hasAdjDup_false (sortTags_sorted l), sorted_nodup (sortTags_sorted l), TagsNodup.perm (sortTags_perm l)]

/-- a list sorted strictly by tag is determined by its elements -/
theorem eq_of_perm_sorted {l m : List RawTag} (h : l.Perm m) (hl : l.Pairwise (·.tag < ·.tag))
    (hm : m.Pairwise (·.tag < ·.tag)) : l = m := by
  induction l generalizing m with
  | nil => exact h.nil_eq
  | cons a l ih =>
    cases m with
    | nil => exact absurd h.symm.nil_eq (by simp)
    | cons b m =>
      obtain ⟨l1, l2⟩ := List.pairwise_cons.mp hl
      obtain ⟨m1, m2⟩ := List.pairwise_cons.mp hm
      have hab : a = b := by
        have ha : a ∈ b :: m := h.mem_iff.mp (by simp)
        have hb : b ∈ a :: l := h.mem_iff.mpr (by simp)
        rcases List.mem_cons.mp ha with e | ha
        · exact e
        · rcases List.mem_cons.mp hb with e | hb
          · exact e.symm
          · have := l1 b hb; have := m1 a ha; omega
      subst hab
      rw [ih (h.cons_inv) l2 m2]

theorem sort_strict {l : List RawTag} (h : TagsNodup l) : (sortTags l).Pairwise (·.tag < ·.tag) :=
  (sorted_nodup (sortTags_sorted l)).mpr ((TagsNodup.perm (sortTags_perm l)).mpr h)

theorem filter_sort {l : List RawTag} (p : RawTag → Bool) (h : TagsNodup l) :
    (sortTags l).filter p = sortTags (l.filter p) := by
  apply eq_of_perm_sorted
  · exact ((sortTags_perm l).filter p).trans (sortTags_perm _).symm
  · exact (sort_strict h).filter p
  · apply sort_strict
    unfold TagsNodup at *
    exact h.sublist ((List.filter_sublist).map _)

/-! ### encoding -/

/-- Proof helper; models no code. -/
def RawTag.enc (a : RawTag) : Bytes := putUvarint a.tag ++ (putUvarint a.value.length ++ a.value)
/-- Proof helper; models no code. -/
def encTags (l : List RawTag) : Bytes := (l.map RawTag.enc).flatten

/-- tag and value length fit uint32; (proof helper; models no code.) -/
def RawTag.Fits (a : RawTag) : Prop := a.tag < 2^32 ∧ a.value.length < 2^32

theorem writeTag_eq (a : RawTag) (h : a.Fits) : writeTag a = .ok a.enc := by
  unfold writeTag
  have := h.2
  rw [if_neg (by omega), writeUvarint32_ok, writeUvarint32_ok]; rfl

theorem writeTagList_eq (l : List RawTag) (h : ∀ a ∈ l, a.Fits) : writeTagList l = .ok (encTags l) := by
  induction l with
  | nil => rfl
  | cons a l ih =>
    rw [writeTagList, writeTag_eq a (h a (by simp)), ih (fun b hb => h b (by simp [hb]))]
    simp [encTags]

theorem writeTagList_fits (l : List RawTag) (e : Bytes) (h : writeTagList l = .ok e) :
    ∀ a ∈ l, a.value.length < 2^32 := by
  induction l generalizing e with
  | nil => simp
  | cons a l ih =>
    obtain ⟨e1, e2, h1, h2, _⟩ := wseq_eq_ok.mp h
    intro b hb
    rcases List.mem_cons.mp hb with rfl | hb
    · unfold writeTag at h1
      split at h1
      · simp at h1
      · omega
    · exact ih e2 h2 b hb

/-- `WriteRawTaggedFields` succeeds exactly on duplicate-free lists, and writes them sorted. -/
theorem writeRawTags_ok {l : List RawTag} {e : Bytes} (ht : ∀ a ∈ l, a.tag < 2^32) :
    writeRawTags l = .ok e ↔
      l.length < 2^32 ∧ TagsNodup l ∧ (∀ a ∈ l, a.Fits) ∧ e = putUvarint l.length ++ encTags (sortTags l) := by
  unfold writeRawTags
  rw [writeUvarint32_ok]
  constructor
  · intro h
    split at h
    · simp at h
    · obtain ⟨e1, e2, h1, h2, rfl⟩ := wseq_eq_ok.mp h
      injection h1 with h1
      split at h2
      · simp at h2
      · rename_i hd
        have hfit : ∀ a ∈ l, a.Fits := fun a ha =>
          ⟨ht a ha, writeTagList_fits _ _ h2 a ((sortTags_perm l).mem_iff.mpr ha)⟩
        rw [writeTagList_eq _ (fun a ha => hfit a ((sortTags_perm l).mem_iff.mp ha))] at h2
        injection h2 with h2
        exact ⟨by omega, (hasAdjDup_sort l).mp (by simpa using hd), hfit, by rw [← h1, ← h2]⟩
  · rintro ⟨h1, h2, h3, rfl⟩
    rw [if_neg (by omega), (hasAdjDup_sort l).mpr h2,
      writeTagList_eq _ (fun a ha => h3 a ((sortTags_perm l).mem_iff.mp ha))]
    rfl

theorem readTag_enc (a : RawTag) (h : a.Fits) (rest : Bytes) (hr : a.value ≠ [] ∨ rest ≠ []) :
    readTag (a.enc ++ rest) = .ok (a, rest) := by
  unfold readTag RawTag.enc Dec.andThen
  rw [List.append_assoc, RT.uvarint32 _ h.1]
  simp only
  rw [List.append_assoc, RT.uvarint32 _ h.2]
  simp only
  have : readExact a.value.length (a.value ++ rest) = .ok (a.value, rest) := by
    unfold readExact
    have : a.value ++ rest ≠ [] := by
      rcases hr with h | h <;> simp [h]
    rw [if_neg this, if_neg (by simp)]
    simp
  rw [this]; rfl

theorem RawTag.enc_ne_nil (a : RawTag) : a.enc ≠ [] := by
  unfold RawTag.enc
  have := putUvarint_ne_nil a.tag
  simp [this]

theorem readTags_enc (l : List RawTag) (h : ∀ a ∈ l, a.Fits) (rest : Bytes)
    (hr : rest ≠ [] ∨ ∀ a ∈ l, a.value ≠ []) :
    readItems readTag l.length (encTags l ++ rest) = .ok (l, rest) := by
  induction l with
  | nil => rfl
  | cons a l ih =>
    have e : encTags (a :: l) ++ rest = a.enc ++ (encTags l ++ rest) := by simp [encTags]
    simp only [List.length_cons, readItems, Dec.andThen]
    rw [e, readTag_enc a (h a (by simp))]
    · simp only
      rw [ih (fun b hb => h b (by simp [hb])) (hr.imp id (fun hh b hb => hh b (by simp [hb])))]
      rfl
    · rcases hr with hr | hr
      · exact .inr (by simp [hr])
      · exact .inl (hr a (by simp))

theorem readRawTags_enc (l : List RawTag) (hn : l.length < 2^32) (h : ∀ a ∈ l, a.Fits) (rest : Bytes)
    (hr : rest ≠ [] ∨ ∀ a ∈ l, a.value ≠ []) :
    readRawTags (putUvarint l.length ++ encTags l ++ rest) = .ok (l, rest) := by
  unfold readRawTags
  rw [List.append_assoc, RT.uvarint32 _ hn]
  simp only
  split
  · rename_i h0
    have : l = [] := List.length_eq_zero_iff.mp h0
    subst this; rfl
  · exact readTags_enc l h rest hr

theorem encTags_length (l : List RawTag) (h : ∀ a ∈ l, a.Fits) :
    (encTags l).length = (l.map fun a => uint32Size a.tag + uint32Size a.value.length + a.value.length).sum := by
  induction l with
  | nil => rfl
  | cons a l ih =>
    have ha := h a (by simp)
    have e : (encTags (a :: l)).length = a.enc.length + (encTags l).length := by simp [encTags]
    rw [e, ih (fun b hb => h b (by simp [hb]))]
    simp only [RawTag.enc, List.length_append, List.map_cons, List.sum_cons, uint32Size_eq _ ha.1, uint32Size_eq _ ha.2]
    omega

theorem perm_sum_nat {l m : List Nat} (h : l.Perm m) : l.sum = m.sum := by
  induction h with
  | nil => rfl
  | cons x _ ih => simp [ih]
  | swap x y l => simp; omega
  | trans _ _ ih1 ih2 => rw [ih1, ih2]

theorem encTags_sort_length (l : List RawTag) (h : ∀ a ∈ l, a.Fits) :
    (encTags (sortTags l)).length =
      (l.map fun a => uint32Size a.tag + uint32Size a.value.length + a.value.length).sum := by
  rw [encTags_length _ (fun a ha => h a ((sortTags_perm l).mem_iff.mp ha))]
  exact perm_sum_nat ((sortTags_perm l).map _)

end Verif.Kafka
