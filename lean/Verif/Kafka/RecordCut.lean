import Verif.Kafka.RecordLemmas
/- Behaviour of the record readers on truncated input (used by C14). -/
namespace Verif.Kafka
open Verif

/-- reading a proper prefix of `enc` fails or gives `P`-results with nothing left; (proof helper; models no code.) -/
def CutOr {α : Type} (enc : Bytes) (d : Dec α) (P : α → Prop) : Prop :=
  ∀ p s, enc = p ++ s → s ≠ [] → (∃ e, d p = .error e) ∨ (∃ a, d p = .ok (a, []) ∧ P a)

theorem Cut.or {α : Type} {enc : Bytes} {d : Dec α} {P : α → Prop} (h : Cut enc d) : CutOr enc d P :=
  fun p s h1 h2 => Or.inl (h p s h1 h2)

/-- first part complete: the cut falls into the second part -/
theorem CutOr.bind {α β : Type} {e1 e2 : Bytes} {d : Dec α} {f : α → Dec β} {a : α} {P : α → Prop} {Q : β → Prop}
    (h1 : RT e1 d a) (c1 : CutOr e1 d P) (c2 : CutOr e2 (f a) Q)
    (c3 : ∀ a', P a' → (∃ e, f a' [] = .error e) ∨ (∃ b, f a' [] = .ok (b, []) ∧ Q b)) :
    CutOr (e1 ++ e2) (d ⟫= f) Q := by
  intro p s h hs
  unfold Dec.andThen
  rcases List.append_eq_append_iff.mp h with ⟨t, rfl, h2⟩ | ⟨t, h1', h2⟩
  · rw [h1]; exact c2 t s h2 hs
  · by_cases ht : t = []
    · subst ht
      simp only [List.append_nil] at h1'
      subst h1'
      have := h1 []
      simp only [List.append_nil] at this
      rw [this]
      exact c2 [] s (by simpa using h2.symm) hs
    · rcases c1 p t h1' ht with ⟨e, he⟩ | ⟨a', ha, hp⟩
      · rw [he]; exact Or.inl ⟨e, rfl⟩
      · rw [ha]; exact c3 a' hp

theorem CutOr.bindCut {α β : Type} {e1 e2 : Bytes} {d : Dec α} {f : α → Dec β} {a : α} {Q : β → Prop}
    (h1 : RT e1 d a) (c1 : Cut e1 d) (c2 : CutOr e2 (f a) Q) : CutOr (e1 ++ e2) (d ⟫= f) Q :=
  CutOr.bind (P := fun _ => False) h1 c1.or c2 (fun _ h => h.elim)

theorem CutOr.nil {α : Type} {d : Dec α} {P : α → Prop} : CutOr [] d P := (Cut.nil d).or

theorem CutOr.end {α β : Type} {e1 : Bytes} {d : Dec α} {f : α → Dec β} {a : α} {P : α → Prop} {Q : β → Prop}
    (h1 : RT e1 d a) (c1 : CutOr e1 d P)
    (c3 : ∀ a', P a' → (∃ e, f a' [] = .error e) ∨ (∃ b, f a' [] = .ok (b, []) ∧ Q b)) :
    CutOr e1 (d ⟫= f) Q := by
  have := CutOr.bind (e2 := []) (f := f) h1 c1 CutOr.nil c3
  simpa using this

theorem readSliceOrShort_cut (b : Bytes) :
    CutOr b (readSliceOrShort b.length) (fun o => o = none ∧ b ≠ []) := by
  intro p s h hs
  have hl := congrArg List.length h
  have hs' := List.length_pos_iff.mpr hs
  simp only [List.length_append] at hl
  unfold readSliceOrShort Dec.andThen readSome
  by_cases hp : p = []
  · left; exact ⟨.eof, by simp [hp]⟩
  · right
    refine ⟨none, ?_, rfl, ?_⟩
    · rw [if_neg hp]
      simp only [Dec.ret]
      rw [if_neg (by simp; omega), List.drop_eq_nil_iff.mpr (by omega)]
    · intro hb; subst hb; simp at h; exact hp h.1

theorem readNullableSlice_cut (o : Option Bytes) (h : (slice o).length < 2^31) :
    CutOr (slice o) (readNullableSlice (nullableLen o)) (fun x => x = none ∧ slice o ≠ []) := by
  by_cases hb : slice o = []
  · rw [hb]; exact CutOr.nil
  · have hp := List.length_pos_iff.mpr hb
    cases o with
    | none => simp [slice] at hb
    | some b =>
      simp only [slice, Option.getD_some] at *
      have hl : len32 b = b.length := wrapS4_of_lt h
      unfold readNullableSlice nullableLen
      simp only [hl]
      rw [if_neg (by omega), if_neg (by omega)]
      simp only [Int.toNat_natCast]
      apply CutOr.end (readSliceOrShort_rt b hb) (readSliceOrShort_cut b)
      rintro a' ⟨rfl, hne⟩
      exact Or.inr ⟨none, rfl, rfl, hne⟩

theorem readHeaderKey_cut (o : Option Bytes) (h : (slice o).length < 2^31) :
    CutOr (slice o) (readHeaderKey (len32 (slice o))) (fun x => x = none ∧ slice o ≠ []) := by
  by_cases hb : slice o = []
  · rw [hb]; exact CutOr.nil
  · have hp := List.length_pos_iff.mpr hb
    have hl : len32 (slice o) = (slice o).length := wrapS4_of_lt h
    unfold readHeaderKey
    rw [hl, if_pos (by omega)]
    simp only [Int.toNat_natCast]
    apply CutOr.end (readSliceOrShort_rt _ hb) (readSliceOrShort_cut _)
    rintro a' ⟨rfl, hne⟩
    exact Or.inr ⟨none, rfl, rfl, hne⟩

theorem RecordHeader.cut (h : RecordHeader) (hk : h.Ok) :
    CutOr h.enc RecordHeader.read (fun g => g = {} ∧ (2 : Nat) < h.size) := by
  have h1 := len32_range _ hk.1
  have h2 := nullableLen_range _ hk.2
  have p1 := int32Size_pos (len32 (slice h.key))
  have p2 := int32Size_pos (nullableLen h.value)
  unfold RecordHeader.enc RecordHeader.read
  apply CutOr.bindCut (RT.varint32 _ h1.1 h1.2) (Cut.varint32 _)
  apply CutOr.bind (readHeaderKey_rt _ hk.1) (readHeaderKey_cut _ hk.1)
  · apply CutOr.bindCut (RT.varint32 _ h2.1 h2.2) (Cut.varint32 _)
    apply CutOr.end (readNullableSlice_rt _ hk.2) (readNullableSlice_cut _ hk.2)
    rintro a' ⟨rfl, hne⟩
    refine Or.inr ⟨{}, rfl, rfl, ?_⟩
    have := List.length_pos_iff.mpr hne
    unfold RecordHeader.size; omega
  · rintro a' ⟨rfl, hne⟩
    refine Or.inr ⟨{}, rfl, rfl, ?_⟩
    have := List.length_pos_iff.mpr hne
    unfold RecordHeader.size; omega

theorem RecordHeader.enc_ne_nil (h : RecordHeader) : h.enc ≠ [] := by
  unfold RecordHeader.enc
  have := putVarint_ne_nil (len32 (slice h.key))
  simp [this]

theorem RecordHeader.read_nil : ∃ e, RecordHeader.read [] = .error e :=
  ⟨.eof, by decide⟩

theorem readHeaders_nil (n : Nat) (h : 0 < n) : ∃ e, readHeaders n [] = .error e := by
  cases n with
  | zero => omega
  | succ n =>
    obtain ⟨e, he⟩ := RecordHeader.read_nil
    exact ⟨e, by simp [readHeaders, Dec.andThen, he]⟩

theorem readHeaders_cut (hs : List RecordHeader) (hk : ∀ h ∈ hs, h.Ok) :
    CutOr (encHeaders hs) (readHeaders hs.length)
      (fun gs => gs.length = hs.length ∧ (gs.map RecordHeader.size).sum < (hs.map RecordHeader.size).sum) := by
  induction hs with
  | nil => exact CutOr.nil
  | cons h hs ih =>
    have he : encHeaders (h :: hs) = h.enc ++ encHeaders hs := by simp [encHeaders]
    rw [he]
    simp only [List.length_cons, readHeaders]
    have hk' : ∀ g ∈ hs, g.Ok := fun g hg => hk g (by simp [hg])
    apply CutOr.bind (h.rt (hk h (by simp))) (h.cut (hk h (by simp)))
    · apply CutOr.end (readHeaders_rt hs hk') (ih hk')
      rintro gs ⟨hl, hsum⟩
      refine Or.inr ⟨h.norm :: gs, rfl, by simp [hl], ?_⟩
      simp only [List.map_cons, List.sum_cons, h.norm_size]
      omega
    · rintro g ⟨rfl, hg⟩
      by_cases hz : hs = []
      · subst hz
        refine Or.inr ⟨[{}], rfl, rfl, ?_⟩
        have : RecordHeader.size {} = 2 := by decide
        simp [this, hg]
      · obtain ⟨e, he⟩ := readHeaders_nil hs.length (List.length_pos_iff.mpr hz)
        exact Or.inl ⟨e, by simp [Dec.andThen, he]⟩

theorem Cut.int1 (x : Int) : Cut (putInt 1 x) (readInt 1) := Cut.int 1 (by decide) x

/-- On a truncated record the reader fails, or silently returns the zero record; the latter only if
its key or value is non-empty (the cut is then inside those bytes). -/
theorem BatchRecord.cut (r : BatchRecord) (h : r.Ok) :
    CutOr r.enc BatchRecord.read (fun g => g = {} ∧ (slice r.key ≠ [] ∨ slice r.value ≠ [])) := by
  have hl := wrapS4_of_lt h.len
  have hk := nullableLen_range _ h.klen
  have hv := nullableLen_range _ h.vlen
  have hc := wrapS4_of_lt h.hcount
  have hcr := h.hcount
  have hlr := h.len
  unfold BatchRecord.enc BatchRecord.body BatchRecord.read
  apply CutOr.bindCut (RT.varint32 _ (by rw [hl]; omega) (by rw [hl]; omega)) (Cut.varint32 _)
  apply CutOr.bindCut (RT.int 1 (by decide) _ h.attr) (Cut.int1 _)
  apply CutOr.bindCut (RT.varint64 _ h.ts.1 h.ts.2) (Cut.varint64 _)
  apply CutOr.bindCut (RT.varint32 _ h.off.1 h.off.2) (Cut.varint32 _)
  apply CutOr.bindCut (RT.varint32 _ hk.1 hk.2) (Cut.varint32 _)
  apply CutOr.bind (readNullableSlice_rt _ h.klen) (readNullableSlice_cut _ h.klen)
  rotate_left
  · rintro a' ⟨rfl, hne⟩; exact Or.inr ⟨{}, rfl, rfl, Or.inl hne⟩
  apply CutOr.bindCut (RT.varint32 _ hv.1 hv.2) (Cut.varint32 _)
  apply CutOr.bind (readNullableSlice_rt _ h.vlen) (readNullableSlice_cut _ h.vlen)
  rotate_left
  · rintro a' ⟨rfl, hne⟩; exact Or.inr ⟨{}, rfl, rfl, Or.inr hne⟩
  apply CutOr.bindCut (RT.varint32 _ (by rw [hc]; omega) (by rw [hc]; omega)) (Cut.varint32 _)
  rw [hc]
  refine CutOr.bindCut (e1 := []) (makeCount_rt _) (Cut.nil _) ?_
  apply CutOr.end (readHeaders_rt _ h.hlen) (readHeaders_cut _ h.hlen)
  rintro gs ⟨hgl, hsum⟩
  left
  refine ⟨.other, ?_⟩
  simp only
  rw [if_pos]
  · rfl
  · rw [hl]
    unfold BatchRecord.recordLength
    have : ∀ a b c d e f, (BatchRecord.mk a b c d e (some f)).headerList = f := fun _ _ _ _ _ _ => rfl
    simp only [this, hgl]
    omega

end Verif.Kafka
