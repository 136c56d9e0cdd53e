import Verif.Props.Pii
/-
C240, C241: what DetectPII finds.

Specification: `M t re i j` says that the bytes of `t` from index `i` up to `j` match the expression `re`; the languages of the patterns are
given as sets of words.
-/
namespace Verif.Props.PiiPat
open Verif Verif.Pii Verif.Pii.Re

/-! ### specification -/

/-- a word character: letter, digit or underscore -/
def Word (c : UInt8) : Prop := (48 ≤ c.toNat ∧ c.toNat ≤ 57) ∨ (97 ≤ c.toNat ∧ c.toNat ≤ 122) ∨ (65 ≤ c.toNat ∧ c.toNat ≤ 90) ∨ c.toNat = 95

/-- the byte at index `i` is a word character -/
def wordAt (t : Bytes) (i : Nat) : Prop := ∃ c, t[i]? = some c ∧ Word c

/-- between index `i - 1` and `i` a word begins or ends -/
def Boundary (t : Bytes) (i : Nat) : Prop := ¬ ((0 < i ∧ wordAt t (i - 1)) ↔ wordAt t i)

/-- the bytes of `t` from `i` up to `j` match -/
inductive M (t : Bytes) : Re → Nat → Nat → Prop
  | cls {f : UInt8 → Bool} {i : Nat} {c : UInt8} : t[i]? = some c → f c = true → M t (.cls f) i (i + 1)
  | eps {i : Nat} : M t .eps i i
  | wb {i : Nat} : Boundary t i → M t .wb i i
  | seq {a b : Re} {i j k : Nat} : M t a i j → M t b j k → M t (.seq a b) i k
  | altL {a b : Re} {i j : Nat} : M t a i j → M t (.alt a b) i j
  | altR {a b : Re} {i j : Nat} : M t b i j → M t (.alt a b) i j
  | nil {a : Re} {i : Nat} : M t (.star a) i i
  | cons {a : Re} {i j k : Nat} : M t a i j → M t (.star a) j k → M t (.star a) i k

/-! ### the matcher is sound and complete -/

/-- the position at index `i` -/
def pos (t : Bytes) (i : Nat) : In := ⟨if i = 0 then none else t[i - 1]?, t.drop i, i⟩

theorem start_eq (t : Bytes) : In.start t = pos t 0 := by simp [In.start, pos]

theorem word_iff (c : UInt8) : isWord c = true ↔ Word c := by
  have h : ch "_" c = true ↔ c.toNat = 95 := by
    simp only [ch]
    constructor
    · intro h; simp at h; subst h; decide
    · intro h
      have : c = 95 := UInt8.toNat_inj.1 (by simpa using h)
      subst this; decide
  have e1 : '0'.toNat = 48 := by decide
  have e2 : '9'.toNat = 57 := by decide
  have e3 : 'a'.toNat = 97 := by decide
  have e4 : 'z'.toNat = 122 := by decide
  have e5 : 'A'.toNat = 65 := by decide
  have e6 : 'Z'.toNat = 90 := by decide
  simp only [isWord, rng, Bool.or_eq_true, decide_eq_true_eq, h, Word, e1, e2, e3, e4, e5, e6, or_assoc]

theorem drop_head (t : Bytes) (i : Nat) : (match t.drop i with | c :: _ => isWord c | [] => false) = true ↔ wordAt t i := by
  have h : (t.drop i)[0]? = t[i]? := by simp
  cases hd : t.drop i with
  | nil => rw [hd] at h; simp [wordAt, ← h]
  | cons c r => rw [hd] at h; simp [wordAt, ← h, word_iff]

theorem boundary_iff (t : Bytes) (i : Nat) : atBoundary (pos t i) = true ↔ Boundary t i := by
  have hp : (match (pos t i).prev with | some c => isWord c | none => false) = true ↔ (0 < i ∧ wordAt t (i - 1)) := by
    simp only [pos]
    by_cases h0 : i = 0
    · simp [h0]
    · rw [if_neg h0]
      cases hc : t[i - 1]? with
      | none => simp [wordAt, hc]
      | some c => simp [wordAt, hc, word_iff]; omega
  have hr : (match (pos t i).rest with | c :: _ => isWord c | [] => false) = true ↔ wordAt t i := drop_head t i
  unfold Boundary atBoundary
  rw [← hp, ← hr, bne_iff_ne, ne_eq, Bool.eq_iff_iff]
  exact Iff.rfl

theorem M_le {t : Bytes} {re : Re} {i j : Nat} (h : M t re i j) : i ≤ t.length → i ≤ j ∧ j ≤ t.length := by
  induction h with
  | cls h _ => intro _; have := (List.getElem?_eq_some_iff.1 h).1; omega
  | eps => intro h; omega
  | wb _ => intro h; omega
  | nil => intro h; omega
  | altL _ ih => exact ih
  | altR _ ih => exact ih
  | seq _ _ ih1 ih2 => intro h; have h1 := ih1 h; have h2 := ih2 h1.2; omega
  | cons _ _ ih1 ih2 => intro h; have h1 := ih1 h; have h2 := ih2 h1.2; omega

theorem pos_succ {t : Bytes} {i : Nat} {c : UInt8} {r : Bytes} (h : t.drop i = c :: r) : t[i]? = some c ∧ (⟨some c, r, i + 1⟩ : In) = pos t (i + 1) := by
  have h0 : (t.drop i)[0]? = t[i]? := by simp
  rw [h] at h0
  simp only [List.getElem?_cons_zero] at h0
  refine ⟨h0.symm, ?_⟩
  have h1 : t.drop (i + 1) = r := by rw [← List.drop_drop, h]; rfl
  simp [pos, h1, ← h0]

/-- what the matcher finds matches -/
theorem run_sound (t : Bytes) : ∀ (re : Re) (i : Nat) (k : Cont) (e : Nat), re.run (pos t i) k = some e → ∃ j, M t re i j ∧ k (pos t j) = some e := by
  intro re
  induction re with
  | cls f =>
    intro i k e h
    simp only [Re.run] at h
    cases hd : t.drop i with
    | nil => simp only [pos, hd] at h; cases h
    | cons c r =>
      obtain ⟨h1, h2⟩ := pos_succ hd
      have hr : (pos t i).rest = c :: r := hd
      rw [hr] at h
      simp only at h
      split at h
      · rename_i hf
        have : (pos t i).pos = i := rfl
        rw [this, h2] at h
        exact ⟨i + 1, .cls h1 hf, h⟩
      · cases h
  | eps => intro i k e h; exact ⟨i, .eps, h⟩
  | wb =>
    intro i k e h
    simp only [Re.run] at h
    split at h
    · rename_i hb; exact ⟨i, .wb ((boundary_iff t i).1 hb), h⟩
    · cases h
  | seq a b iha ihb =>
    intro i k e h
    simp only [Re.run] at h
    obtain ⟨j, h1, h2⟩ := iha _ _ _ h
    obtain ⟨l, h3, h4⟩ := ihb _ _ _ h2
    exact ⟨l, .seq h1 h3, h4⟩
  | alt a b iha ihb =>
    intro i k e h
    simp only [Re.run, Option.or_eq_some_iff] at h
    rcases h with h | ⟨_, h⟩
    · obtain ⟨j, h1, h2⟩ := iha _ _ _ h; exact ⟨j, .altL h1, h2⟩
    · obtain ⟨j, h1, h2⟩ := ihb _ _ _ h; exact ⟨j, .altR h1, h2⟩
  | star a iha =>
    intro i k e h
    simp only [Re.run] at h
    have key : ∀ n i, starLoop a.run n (pos t i) k = some e → ∃ j, M t (.star a) i j ∧ k (pos t j) = some e := by
      intro n
      induction n with
      | zero => intro i h; exact ⟨i, .nil, h⟩
      | succ n ih =>
        intro i h
        simp only [starLoop, Option.or_eq_some_iff] at h
        rcases h with h | ⟨_, h⟩
        · obtain ⟨j, h1, h2⟩ := iha _ _ _ h
          split at h2
          · cases h2
          · obtain ⟨l, h3, h4⟩ := ih j h2
            exact ⟨l, .cons h1 h3, h4⟩
        · exact ⟨i, .nil, h⟩
    exact key _ _ h

theorem star_complete {t : Bytes} {a : Re}
    (iha : ∀ i j k, M t a i j → i ≤ t.length → (k (pos t j)).isSome = true → (a.run (pos t i) k).isSome = true) {r : Re} {i l : Nat}
    (h : M t r i l) : r = .star a → i ≤ t.length → ∀ (n : Nat) (k : Cont), t.length - i < n → (k (pos t l)).isSome = true →
      (starLoop a.run n (pos t i) k).isSome = true := by
  induction h with
  | cls => intro h; cases h
  | eps => intro h; cases h
  | wb => intro h; cases h
  | seq => intro h; cases h
  | altL => intro h; cases h
  | altR => intro h; cases h
  | nil =>
    intro _ _ n k hn hk
    cases n with
    | zero => omega
    | succ n => simp [starLoop, hk]
  | @cons a' i j l h1 h2 _ ih2 =>
    intro he hi n k hn hk
    injection he with he
    subst he
    have hl := M_le h1 hi
    by_cases hij : j = i
    · subst hij; exact ih2 rfl hi n k hn hk
    · cases n with
      | zero => omega
      | succ n =>
        simp only [starLoop]
        have := iha i j (fun s' => if s'.pos = (pos t i).pos then none else starLoop a'.run n s' k) h1 hi (by
          have : (pos t j).pos ≠ (pos t i).pos := hij
          rw [if_neg this]
          exact ih2 rfl hl.2 n k (by omega) hk)
        simp [Option.isSome_or, this]

/-- if there is a match the matcher finds one -/
theorem run_complete (t : Bytes) : ∀ (re : Re) (i j : Nat) (k : Cont), M t re i j → i ≤ t.length → (k (pos t j)).isSome = true →
    (re.run (pos t i) k).isSome = true := by
  intro re
  induction re with
  | cls f =>
    intro i j k h hi hk
    cases h with
    | cls h1 h2 =>
      rename_i c
      have hd : t.drop i = c :: t.drop (i + 1) := by
        obtain ⟨hlt, hg⟩ := List.getElem?_eq_some_iff.1 h1
        rw [List.drop_eq_getElem_cons hlt, hg]
      have hr : (pos t i).rest = c :: t.drop (i + 1) := hd
      have hp : (pos t i).pos = i := rfl
      simp only [Re.run, hr, h2, if_true, hp]
      rw [(pos_succ hd).2]
      exact hk
  | eps => intro i j k h _ hk; cases h; exact hk
  | wb =>
    intro i j k h _ hk
    cases h with
    | wb hb => simp only [Re.run, (boundary_iff t i).2 hb, if_true]; exact hk
  | seq a b iha ihb =>
    intro i l k h hi hk
    cases h with
    | seq h1 h2 =>
      simp only [Re.run]
      exact iha _ _ _ h1 hi (ihb _ _ _ h2 (M_le h1 hi).2 hk)
  | alt a b iha ihb =>
    intro i j k h hi hk
    cases h with
    | altL h => simp [Re.run, Option.isSome_or, iha _ _ _ h hi hk]
    | altR h => simp [Re.run, Option.isSome_or, ihb _ _ _ h hi hk]
  | star a iha =>
    intro i j k h hi hk
    simp only [Re.run]
    have hlen : (pos t i).rest.length = t.length - i := by simp [pos]
    exact star_complete (fun i j k => iha i j k) h rfl hi _ k (by omega) hk

theorem skip_pos (t : Bytes) : ∀ n i, i + n ≤ t.length → (pos t i).skip n = pos t (i + n) := by
  intro n
  induction n with
  | zero => intro i _; rfl
  | succ n ih =>
    intro i h
    have hlt : i < t.length := by omega
    have hd : t.drop i = t[i] :: t.drop (i + 1) := List.drop_eq_getElem_cons hlt
    have hr : (pos t i).rest = t[i] :: t.drop (i + 1) := hd
    have hp : (pos t i).pos = i := rfl
    simp only [In.skip, hr, hp]
    rw [(pos_succ hd).2, ih (i + 1) (by omega)]
    congr 1; omega

/-- what is accepted by the search for a nonempty match -/
theorem found {t : Bytes} {re : Re} {i e : Nat}
    (h : re.run (pos t i) (fun s' => if (pos t i).pos < s'.pos then some s'.pos else none) = some e) : M t re i e ∧ i < e := by
  obtain ⟨j, h1, h2⟩ := run_sound t _ _ _ _ h
  have hp : (pos t i).pos = i := rfl
  have hq : (pos t j).pos = j := rfl
  rw [hp, hq] at h2
  split at h2
  · rename_i hlt
    injection h2 with h2
    subst h2
    exact ⟨h1, hlt⟩
  · cases h2

theorem find_sound {t : Bytes} {re : Re} : ∀ n i, i ≤ t.length → ∀ m ∈ findFrom re n (pos t i), M t re m.1 m.2 ∧ m.1 < m.2 ∧ i ≤ m.1 := by
  intro n
  induction n with
  | zero => intro i _ m hm; cases hm
  | succ n ih =>
    intro i hi m hm
    simp only [findFrom] at hm
    cases hr : re.run (pos t i) (fun s' => if (pos t i).pos < s'.pos then some s'.pos else none) with
    | some e =>
      rw [hr] at hm
      have hf := found hr
      have hle := (M_le hf.1 hi).2
      rcases List.mem_cons.1 hm with rfl | hm
      · exact ⟨hf.1, hf.2, Nat.le_refl _⟩
      · have hp : (pos t i).pos = i := rfl
        rw [hp, skip_pos t _ _ (by omega), Nat.add_sub_cancel' (by omega)] at hm
        have := ih e hle m hm
        exact ⟨this.1, this.2.1, by omega⟩
    | none =>
      rw [hr] at hm
      cases hd : t.drop i with
      | nil => simp only [pos, hd] at hm; cases hm
      | cons c r =>
        have hre : (pos t i).rest = c :: r := hd
        have hp : (pos t i).pos = i := rfl
        rw [hre] at hm
        simp only [hp] at hm
        rw [(pos_succ hd).2] at hm
        have hlt := (List.getElem?_eq_some_iff.1 (pos_succ hd).1).1
        have := ih (i + 1) (by omega) m hm
        exact ⟨this.1, this.2.1, by omega⟩

theorem find_covers {t : Bytes} {re : Re} {a b : Nat} (hm : M t re a b) (hab : a < b) (ha : a ≤ t.length) : ∀ n i, i ≤ a → t.length - i < n →
    ∃ m ∈ findFrom re n (pos t i), m.1 < b ∧ a < m.2 := by
  intro n
  induction n with
  | zero => intro i _ h; omega
  | succ n ih =>
    intro i hi hn
    simp only [findFrom]
    have hp : (pos t i).pos = i := rfl
    cases hr : re.run (pos t i) (fun s' => if (pos t i).pos < s'.pos then some s'.pos else none) with
    | some e =>
      have hf := found hr
      have hle := (M_le hf.1 (by omega)).2
      by_cases hae : a < e
      · exact ⟨(i, e), by simp [hp], by simp only; omega, hae⟩
      · obtain ⟨m, h1, h2⟩ := ih e (by omega) (by omega)
        refine ⟨m, ?_, h2⟩
        show m ∈ ((pos t i).pos, e) :: findFrom re n ((pos t i).skip (e - (pos t i).pos))
        rw [hp, skip_pos t _ _ (by omega), Nat.add_sub_cancel' (by omega)]
        exact List.mem_cons_of_mem _ h1
    | none =>
      have hne : i ≠ a := by
        rintro rfl
        have := run_complete t re i b (fun s' => if (pos t i).pos < s'.pos then some s'.pos else none) hm ha (by
          have hq : (pos t b).pos = b := rfl
          rw [hp, hq, if_pos hab]; rfl)
        rw [hr] at this
        cases this
      cases hd : t.drop i with
      | nil => simp at hd; omega
      | cons c r =>
        have hre : (pos t i).rest = c :: r := hd
        rw [hre]
        simp only [hp]
        rw [(pos_succ hd).2]
        exact ih (i + 1) (by omega) (by omega)

/-- **C240** What a pattern finds is a nonempty piece of the text that matches it. -/
theorem C240_sound {re : Re} {t : Bytes} {m : Nat × Nat} (h : m ∈ findAll re t) : M t re m.1 m.2 ∧ m.1 < m.2 := by
  rw [findAll, start_eq] at h
  have := find_sound _ 0 (Nat.zero_le _) m h
  exact ⟨this.1, this.2.1⟩

/-- **C240** Nothing is overlooked: every nonempty piece of the text that matches a pattern overlaps with a match that is found (and hidden). -/
theorem C240_covers {re : Re} {t : Bytes} {i j : Nat} (h : M t re i j) (hij : i < j) (hi : i ≤ t.length) :
    ∃ m ∈ findAll re t, m.1 < j ∧ i < m.2 := by
  rw [findAll, start_eq]
  exact find_covers h hij hi _ 0 (Nat.zero_le _) (by omega)

/-- **C240** A pattern finds something exactly if some nonempty piece of the text matches it. -/
theorem C240_found {re : Re} {t : Bytes} : findAll re t ≠ [] ↔ ∃ i j, i < j ∧ j ≤ t.length ∧ M t re i j := by
  constructor
  · intro h
    cases hf : findAll re t with
    | nil => exact absurd hf h
    | cons m l =>
      have hm : m ∈ findAll re t := by rw [hf]; simp
      have := C240_sound hm
      rw [findAll, start_eq] at hm
      have h2 : m.1 ≤ t.length := by
        have := (findFrom_ok re (t.length + 1) (.start t)).1 m (by rw [start_eq]; exact hm)
        simp [In.start] at this
        omega
      exact ⟨m.1, m.2, this.2, (M_le this.1 h2).2, this.1⟩
  · rintro ⟨i, j, hij, hj, hm⟩ hf
    obtain ⟨m, h1, _⟩ := C240_covers hm hij (by omega)
    rw [hf] at h1
    cases h1

/-! ### the languages of expressions without boundaries -/

/-- the words of an expression without boundaries -/
def lang : Re → Bytes → Prop
  | .cls f, w => ∃ c, w = [c] ∧ f c = true
  | .eps, w => w = []
  | .wb, _ => False
  | .seq a b, w => ∃ u v, w = u ++ v ∧ lang a u ∧ lang b v
  | .alt a b, w => lang a w ∨ lang b w
  | .star a, w => ∃ l : List Bytes, w = l.flatten ∧ ∀ u ∈ l, lang a u

/-- no word boundaries -/
def NoWb : Re → Prop
  | .wb => False
  | .seq a b => NoWb a ∧ NoWb b
  | .alt a b => NoWb a ∧ NoWb b
  | .star a => NoWb a
  | _ => True

/-- the word `w` stands at index `i` of the text and ends before index `j` -/
def At (t : Bytes) (i : Nat) (w : Bytes) (j : Nat) : Prop := j = i + w.length ∧ ∀ k, k < w.length → t[i + k]? = w[k]?

theorem at_append {t : Bytes} {i k : Nat} {u v : Bytes} : At t i (u ++ v) k ↔ ∃ j, At t i u j ∧ At t j v k := by
  constructor
  · rintro ⟨h1, h2⟩
    refine ⟨i + u.length, ⟨rfl, fun l hl => ?_⟩, by rw [h1, List.length_append]; omega, fun l hl => ?_⟩
    · have := h2 l (by rw [List.length_append]; omega)
      rw [this, List.getElem?_append_left hl]
    · have := h2 (u.length + l) (by rw [List.length_append]; omega)
      rw [Nat.add_assoc, this, List.getElem?_append_right (by omega)]
      congr 1; omega
  · rintro ⟨j, ⟨rfl, h2⟩, rfl, h4⟩
    refine ⟨by rw [List.length_append]; omega, fun l hl => ?_⟩
    by_cases h : l < u.length
    · rw [List.getElem?_append_left h]; exact h2 l h
    · rw [List.getElem?_append_right (by omega), ← h4 (l - u.length) (by rw [List.length_append] at hl; omega)]
      congr 1; omega

theorem at_nil {t : Bytes} {i j : Nat} : At t i [] j ↔ j = i := by simp [At]

theorem at_one {t : Bytes} {i j : Nat} {c : UInt8} : At t i [c] j ↔ j = i + 1 ∧ t[i]? = some c := by
  simp only [At, List.length_cons, List.length_nil]
  constructor
  · rintro ⟨h1, h2⟩; exact ⟨h1, by simpa using h2 0 (by omega)⟩
  · rintro ⟨h1, h2⟩; exact ⟨h1, fun k hk => by have : k = 0 := by omega
                                               subst this; simpa using h2⟩

/-- a word at a place, as a part of the text -/
theorem at_iff {t : Bytes} {i j : Nat} {w : Bytes} (hi : i ≤ t.length) : At t i w j ↔ ∃ pre post, t = pre ++ w ++ post ∧ pre.length = i ∧ j = i + w.length := by
  constructor
  · rintro ⟨h1, h2⟩
    refine ⟨t.take i, t.drop j, ?_, by simp; omega, h1⟩
    apply List.ext_getElem?
    intro k
    by_cases h : k < i
    · rw [List.append_assoc, List.getElem?_append_left (by simp; omega), List.getElem?_take_of_lt h]
    · by_cases h' : k < j
      · rw [List.getElem?_append_left (by simp; omega), List.getElem?_append_right (by simp; omega)]
        have := h2 (k - i) (by omega)
        rw [Nat.add_sub_cancel' (by omega)] at this
        rw [this]
        congr 1; simp; omega
      · have hjl : (t.take i ++ w).length = j := by simp; omega
        rw [List.getElem?_append_right (by omega), hjl, List.getElem?_drop]
        congr 1; omega
  · rintro ⟨pre, post, rfl, rfl, rfl⟩
    refine ⟨rfl, fun k hk => ?_⟩
    rw [List.append_assoc, List.getElem?_append_right (by omega), Nat.add_sub_cancel_left, List.getElem?_append_left hk]

theorem star_words {t : Bytes} {a : Re} (iha : ∀ i j, M t a i j ↔ ∃ w, lang a w ∧ At t i w j) {i j : Nat} :
    M t (.star a) i j ↔ ∃ w, lang (.star a) w ∧ At t i w j := by
  constructor
  · intro h
    have key : ∀ r i j, M t r i j → r = .star a → ∃ l : List Bytes, (∀ u ∈ l, lang a u) ∧ At t i l.flatten j := by
      clear h
      intro r i j hr
      induction hr with
      | cls => intro h; cases h
      | eps => intro h; cases h
      | wb => intro h; cases h
      | seq => intro h; cases h
      | altL => intro h; cases h
      | altR => intro h; cases h
      | nil => intro _; exact ⟨[], by simp, by simp [at_nil]⟩
      | @cons a' i j k h1 _ _ ih2 =>
        intro he
        injection he with he
        subst he
        obtain ⟨l, hl, hat⟩ := ih2 rfl
        obtain ⟨w, hw, hwa⟩ := (iha i j).1 h1
        refine ⟨w :: l, ?_, ?_⟩
        · intro u hu
          rcases List.mem_cons.1 hu with rfl | hu
          · exact hw
          · exact hl u hu
        · rw [List.flatten_cons]; exact at_append.2 ⟨j, hwa, hat⟩
    obtain ⟨l, h1, h2⟩ := key _ _ _ h rfl
    exact ⟨l.flatten, ⟨l, rfl, h1⟩, h2⟩
  · rintro ⟨w, ⟨l, rfl, hl⟩, hat⟩
    induction l generalizing i with
    | nil => simp only [List.flatten_nil, at_nil] at hat; subst hat; exact .nil
    | cons u l ih =>
      rw [List.flatten_cons] at hat
      obtain ⟨k, h1, h2⟩ := at_append.1 hat
      exact .cons ((iha i k).2 ⟨u, hl u (by simp), h1⟩) (ih (fun v hv => hl v (by simp [hv])) h2)

/-- **C240** Matching an expression without boundaries is finding one of its words. -/
theorem C240_words {t : Bytes} : ∀ {re : Re}, NoWb re → ∀ i j, M t re i j ↔ ∃ w, lang re w ∧ At t i w j := by
  intro re
  induction re with
  | cls f =>
    intro _ i j
    constructor
    · intro h
      cases h with
      | cls h1 h2 => exact ⟨_, ⟨_, rfl, h2⟩, at_one.2 ⟨rfl, h1⟩⟩
    · rintro ⟨w, ⟨c, rfl, hf⟩, hat⟩
      obtain ⟨rfl, h⟩ := at_one.1 hat
      exact .cls h hf
  | eps =>
    intro _ i j
    constructor
    · intro h; cases h; exact ⟨[], rfl, at_nil.2 rfl⟩
    · rintro ⟨w, hw, hat⟩
      rw [show w = [] from hw] at hat
      rw [at_nil.1 hat]; exact .eps
  | wb => intro h; cases h
  | seq a b iha ihb =>
    intro h i k
    constructor
    · intro hm
      cases hm with
      | seq h1 h2 =>
        obtain ⟨u, hu, ha⟩ := (iha h.1 _ _).1 h1
        obtain ⟨v, hv, hb⟩ := (ihb h.2 _ _).1 h2
        exact ⟨u ++ v, ⟨u, v, rfl, hu, hv⟩, at_append.2 ⟨_, ha, hb⟩⟩
    · rintro ⟨w, ⟨u, v, rfl, hu, hv⟩, hat⟩
      obtain ⟨j, ha, hb⟩ := at_append.1 hat
      exact .seq ((iha h.1 _ _).2 ⟨u, hu, ha⟩) ((ihb h.2 _ _).2 ⟨v, hv, hb⟩)
  | alt a b iha ihb =>
    intro h i j
    constructor
    · intro hm
      cases hm with
      | altL hm => obtain ⟨w, hw, ha⟩ := (iha h.1 _ _).1 hm; exact ⟨w, .inl hw, ha⟩
      | altR hm => obtain ⟨w, hw, ha⟩ := (ihb h.2 _ _).1 hm; exact ⟨w, .inr hw, ha⟩
    · rintro ⟨w, hw | hw, hat⟩
      · exact .altL ((iha h.1 _ _).2 ⟨w, hw, hat⟩)
      · exact .altR ((ihb h.2 _ _).2 ⟨w, hw, hat⟩)
  | star a iha =>
    intro h i j
    exact star_words (fun i j => iha h i j)

/-! ### C241: the languages of the patterns -/

/-- the bytes of a text in ASCII -/
def bytes (s : String) : Bytes := s.toList.map fun c => UInt8.ofNat c.toNat

/-- a byte between two characters -/
def Btw (a b : Char) (c : UInt8) : Prop := a.toNat ≤ c.toNat ∧ c.toNat ≤ b.toNat

theorem rng_iff {a b : Char} {c : UInt8} : rng a b c = true ↔ Btw a b c := by simp [rng, Btw]
theorem ch_iff {s : String} {c : UInt8} : ch s c = true ↔ c ∈ bytes s := by simp [ch, bytes]

theorem lang_cons {a : Re} {r : List Re} {w : Bytes} : lang (seqs (a :: r)) w ↔ ∃ u v, w = u ++ v ∧ lang a u ∧ lang (seqs r) v := by
  cases r with
  | nil =>
    simp only [seqs, lang]
    constructor
    · intro h; exact ⟨w, [], by simp, h, rfl⟩
    · rintro ⟨u, v, rfl, h, rfl⟩; simpa using h
  | cons b r => simp only [seqs, lang]

theorem lang_nil {w : Bytes} : lang (seqs []) w ↔ w = [] := by simp [seqs, lang]

theorem lang_chars {w : Bytes} : ∀ (l : Bytes), lang (seqs (l.map fun c => .cls fun d => decide (d = c))) w ↔ w = l := by
  intro l
  induction l generalizing w with
  | nil => exact lang_nil
  | cons c l ih =>
    rw [List.map_cons, lang_cons]
    constructor
    · rintro ⟨u, v, rfl, ⟨d, rfl, hd⟩, hv⟩
      rw [ih] at hv
      simp at hd
      simp [hv, hd]
    · rintro rfl
      exact ⟨[c], l, rfl, ⟨c, rfl, by simp⟩, ih.2 rfl⟩

theorem lang_lit {s : String} {w : Bytes} : lang (lit s) w ↔ w = bytes s := by
  rw [← lang_chars (bytes s)]
  simp only [lit, bytes, List.map_map]
  exact Iff.rfl

theorem lang_cls {f : UInt8 → Bool} {w : Bytes} : lang (.cls f) w ↔ ∃ c, w = [c] ∧ f c = true := Iff.rfl

theorem lang_rep {f : UInt8 → Bool} {n : Nat} {w : Bytes} : lang (rep n (.cls f)) w ↔ w.length = n ∧ ∀ c ∈ w, f c = true := by
  unfold rep
  induction n generalizing w with
  | zero => simp only [List.replicate_zero, lang_nil]; constructor <;> intro h <;> simp_all
  | succ n ih =>
    rw [List.replicate_succ, lang_cons]
    constructor
    · rintro ⟨u, v, rfl, ⟨c, rfl, hc⟩, hv⟩
      rw [ih] at hv
      simp [hc, hv.1]
      exact hv.2
    · rintro ⟨h1, h2⟩
      cases w with
      | nil => simp at h1
      | cons c w =>
        exact ⟨[c], w, rfl, ⟨c, rfl, h2 c (by simp)⟩, ih.2 ⟨by simpa using h1, fun d hd => h2 d (by simp [hd])⟩⟩

theorem lang_star {f : UInt8 → Bool} {w : Bytes} : lang (.star (.cls f)) w ↔ ∀ c ∈ w, f c = true := by
  constructor
  · rintro ⟨l, rfl, hl⟩ c hc
    obtain ⟨u, hu, hcu⟩ := List.mem_flatten.1 hc
    obtain ⟨d, rfl, hd⟩ := hl u hu
    simp at hcu
    rw [hcu]; exact hd
  · intro h
    refine ⟨w.map fun c => [c], ?_, ?_⟩
    · clear h
      induction w with
      | nil => rfl
      | cons c w ih => rw [List.map_cons, List.flatten_cons, ← ih]; rfl
    · intro u hu
      obtain ⟨c, hc, rfl⟩ := List.mem_map.1 hu
      exact ⟨c, rfl, h c hc⟩

theorem lang_plus {f : UInt8 → Bool} {w : Bytes} : lang (plus (.cls f)) w ↔ w ≠ [] ∧ ∀ c ∈ w, f c = true := by
  constructor
  · rintro ⟨u, v, rfl, ⟨c, rfl, hc⟩, hv⟩
    rw [lang_star] at hv
    simp [hc]
    exact hv
  · rintro ⟨h1, h2⟩
    cases w with
    | nil => exact absurd rfl h1
    | cons c w => exact ⟨[c], w, rfl, ⟨c, rfl, h2 c (by simp)⟩, lang_star.2 fun d hd => h2 d (by simp [hd])⟩

theorem lang_atLeast {f : UInt8 → Bool} {n : Nat} {w : Bytes} : lang (atLeast n (.cls f)) w ↔ n ≤ w.length ∧ ∀ c ∈ w, f c = true := by
  constructor
  · rintro ⟨u, v, rfl, hu, hv⟩
    rw [lang_rep] at hu
    rw [lang_star] at hv
    refine ⟨by rw [List.length_append]; omega, fun c hc => ?_⟩
    rcases List.mem_append.1 hc with hc | hc
    · exact hu.2 c hc
    · exact hv c hc
  · rintro ⟨h1, h2⟩
    refine ⟨w.take n, w.drop n, by simp, lang_rep.2 ⟨by simp; omega, fun c hc => h2 c (List.mem_of_mem_take hc)⟩,
      lang_star.2 fun c hc => h2 c (List.mem_of_mem_drop hc)⟩

theorem lang_upTo {f : UInt8 → Bool} {n : Nat} {w : Bytes} : lang (upTo n (.cls f)) w ↔ w.length ≤ n ∧ ∀ c ∈ w, f c = true := by
  induction n generalizing w with
  | zero => simp only [upTo, lang]; constructor <;> intro h <;> simp_all
  | succ n ih =>
    simp only [upTo, lang]
    constructor
    · rintro (⟨u, v, rfl, ⟨c, rfl, hc⟩, hv⟩ | rfl)
      · rw [ih] at hv
        simp [hc]
        exact hv
      · simp
    · rintro ⟨h1, h2⟩
      cases w with
      | nil => exact .inr rfl
      | cons c w =>
        exact .inl ⟨[c], w, rfl, ⟨c, rfl, h2 c (by simp)⟩, ih.2 ⟨by simpa using h1, fun d hd => h2 d (by simp [hd])⟩⟩

theorem lang_between {f : UInt8 → Bool} {n m : Nat} (hnm : n ≤ m) {w : Bytes} :
    lang (between n m (.cls f)) w ↔ n ≤ w.length ∧ w.length ≤ m ∧ ∀ c ∈ w, f c = true := by
  constructor
  · rintro ⟨u, v, rfl, hu, hv⟩
    rw [lang_rep] at hu
    rw [lang_upTo] at hv
    refine ⟨by rw [List.length_append]; omega, by rw [List.length_append]; omega, fun c hc => ?_⟩
    rcases List.mem_append.1 hc with hc | hc
    · exact hu.2 c hc
    · exact hv.2 c hc
  · rintro ⟨h1, h2, h3⟩
    refine ⟨w.take n, w.drop n, by simp, lang_rep.2 ⟨by simp; omega, fun c hc => h3 c (List.mem_of_mem_take hc)⟩,
      lang_upTo.2 ⟨by simp; omega, fun c hc => h3 c (List.mem_of_mem_drop hc)⟩⟩

theorem lang_alts {l : List Re} {w : Bytes} : lang (alts l) w ↔ ∃ a ∈ l, lang a w := by
  induction l with
  | nil => simp [alts, lang]
  | cons a l ih =>
    cases l with
    | nil => simp [alts]
    | cons b l =>
      simp only [alts, lang]
      rw [ih]
      simp

/-! boundaries around an expression -/

theorem M_cons {t : Bytes} {a : Re} {r : List Re} {i k : Nat} : M t (seqs (a :: r)) i k ↔ ∃ j, M t a i j ∧ M t (seqs r) j k := by
  cases r with
  | nil =>
    simp only [seqs]
    constructor
    · intro h; exact ⟨k, h, .eps⟩
    · rintro ⟨j, h, he⟩; cases he; exact h
  | cons b r =>
    simp only [seqs]
    constructor
    · intro h; cases h with | seq h1 h2 => exact ⟨_, h1, h2⟩
    · rintro ⟨j, h1, h2⟩; exact .seq h1 h2

theorem M_append {t : Bytes} : ∀ {l l' : List Re} {i k : Nat}, M t (seqs (l ++ l')) i k ↔ ∃ j, M t (seqs l) i j ∧ M t (seqs l') j k := by
  intro l
  induction l with
  | nil =>
    intro l' i k
    constructor
    · intro h; exact ⟨i, .eps, h⟩
    · rintro ⟨j, h, h'⟩; cases h; exact h'
  | cons a l ih =>
    intro l' i k
    rw [List.cons_append, M_cons]
    constructor
    · rintro ⟨j, h1, h2⟩
      obtain ⟨j', h3, h4⟩ := ih.1 h2
      exact ⟨j', M_cons.2 ⟨j, h1, h3⟩, h4⟩
    · rintro ⟨j, h1, h2⟩
      obtain ⟨j', h3, h4⟩ := M_cons.1 h1
      exact ⟨j', h3, ih.2 ⟨j, h4, h2⟩⟩

theorem M_wb {t : Bytes} {i j : Nat} : M t .wb i j ↔ j = i ∧ Boundary t i := by
  constructor
  · intro h; cases h with | wb h => exact ⟨rfl, h⟩
  · rintro ⟨rfl, h⟩; exact .wb h

/-- matches of an expression without boundaries, as parts of the text -/
theorem found_words {re : Re} (hw : NoWb re) {t : Bytes} :
    findAll re t ≠ [] ↔ ∃ pre w post, t = pre ++ w ++ post ∧ w ≠ [] ∧ lang re w := by
  rw [C240_found]
  constructor
  · rintro ⟨i, j, hij, hj, hm⟩
    obtain ⟨w, hl, hat⟩ := (C240_words hw i j).1 hm
    obtain ⟨pre, post, ht, hi, hje⟩ := (at_iff (by omega)).1 hat
    exact ⟨pre, w, post, ht, by rintro rfl; simp at hje; omega, hl⟩
  · rintro ⟨pre, w, post, rfl, hne, hl⟩
    have := List.length_pos_iff.2 hne
    refine ⟨pre.length, pre.length + w.length, by omega, by simp, (C240_words hw _ _).2 ⟨w, hl, ?_⟩⟩
    exact (at_iff (by simp)).2 ⟨pre, post, rfl, rfl, rfl⟩

/-- matches of an expression between boundaries, as parts of the text -/
theorem found_bounded {l : List Re} (hw : NoWb (seqs l)) {t : Bytes} :
    findAll (seqs (.wb :: (l ++ [.wb]))) t ≠ [] ↔ ∃ pre w post, t = pre ++ w ++ post ∧ w ≠ [] ∧ lang (seqs l) w ∧
      Boundary t pre.length ∧ Boundary t (pre.length + w.length) := by
  have hM : ∀ i j, M t (seqs (.wb :: (l ++ [.wb]))) i j ↔ Boundary t i ∧ M t (seqs l) i j ∧ Boundary t j := by
    intro i j
    rw [M_cons]
    constructor
    · rintro ⟨k, h1, h2⟩
      obtain ⟨rfl, h1⟩ := M_wb.1 h1
      obtain ⟨k', h3, h4⟩ := M_append.1 h2
      obtain ⟨rfl, h4⟩ := M_wb.1 h4
      exact ⟨h1, h3, h4⟩
    · rintro ⟨h1, h2, h3⟩
      exact ⟨i, M_wb.2 ⟨rfl, h1⟩, M_append.2 ⟨j, h2, M_wb.2 ⟨rfl, h3⟩⟩⟩
  rw [C240_found]
  constructor
  · rintro ⟨i, j, hij, hj, hm⟩
    obtain ⟨hb, hm, hb'⟩ := (hM i j).1 hm
    obtain ⟨w, hl, hat⟩ := (C240_words hw i j).1 hm
    obtain ⟨pre, post, ht, hi, hje⟩ := (at_iff (by omega)).1 hat
    subst hi hje
    exact ⟨pre, w, post, ht, by rintro rfl; simp at hij, hl, hb, hb'⟩
  · rintro ⟨pre, w, post, rfl, hne, hl, hb, hb'⟩
    have := List.length_pos_iff.2 hne
    refine ⟨pre.length, pre.length + w.length, by omega, by simp, (hM _ _).2 ⟨hb, (C240_words hw _ _).2 ⟨w, hl, ?_⟩, hb'⟩⟩
    exact (at_iff (by simp)).2 ⟨pre, post, rfl, rfl, rfl⟩

/-- a word between `pre` and `post` is not a part of a longer word -/
def Alone (pre post : Bytes) : Prop := (∀ c, pre.getLast? = some c → ¬ Word c) ∧ ∀ c, post.head? = some c → ¬ Word c

theorem boundary_left {pre w post : Bytes} {c : UInt8} (h : w.head? = some c) (hc : Word c) :
    Boundary (pre ++ w ++ post) pre.length ↔ ∀ c, pre.getLast? = some c → ¬ Word c := by
  have h1 : wordAt (pre ++ w ++ post) pre.length := by
    refine ⟨c, ?_, hc⟩
    cases w with
    | nil => cases h
    | cons d w => simp only [List.head?_cons, Option.some.injEq] at h; subst h; simp
  have h2 : (0 < pre.length ∧ wordAt (pre ++ w ++ post) (pre.length - 1)) ↔ ∃ c, pre.getLast? = some c ∧ Word c := by
    rw [List.getLast?_eq_getElem?]
    by_cases h0 : pre.length = 0
    · have : pre = [] := List.length_eq_zero_iff.1 h0
      subst this; simp
    · have : (pre ++ w ++ post)[pre.length - 1]? = pre[pre.length - 1]? := by
        rw [List.append_assoc, List.getElem?_append_left (by omega)]
      simp only [wordAt, this]
      exact ⟨fun h => h.2, fun h => ⟨by omega, h⟩⟩
  unfold Boundary
  rw [h2]
  constructor
  · intro hb d hd hw; exact hb ⟨fun _ => h1, fun _ => ⟨d, hd, hw⟩⟩
  · intro hf hb; obtain ⟨d, hd, hw⟩ := hb.2 h1; exact hf d hd hw

theorem boundary_right {pre w post : Bytes} {c : UInt8} (h : w.getLast? = some c) (hc : Word c) :
    Boundary (pre ++ w ++ post) (pre.length + w.length) ↔ ∀ c, post.head? = some c → ¬ Word c := by
  have hne : w ≠ [] := by rintro rfl; cases h
  have hlen := List.length_pos_iff.2 hne
  have h1 : 0 < pre.length + w.length ∧ wordAt (pre ++ w ++ post) (pre.length + w.length - 1) := by
    refine ⟨by omega, c, ?_, hc⟩
    rw [List.getElem?_append_left (by simp; omega), List.getElem?_append_right (by omega), ← h, List.getLast?_eq_getElem?]
    congr 1; omega
  have h2 : wordAt (pre ++ w ++ post) (pre.length + w.length) ↔ ∃ c, post.head? = some c ∧ Word c := by
    have : (pre ++ w ++ post)[pre.length + w.length]? = post.head? := by
      rw [List.getElem?_append_right (by simp), List.head?_eq_getElem?]
      congr 1; simp
    simp only [wordAt, this]
  unfold Boundary
  rw [h2]
  constructor
  · intro hb d hd hw; exact hb ⟨fun _ => ⟨d, hd, hw⟩, fun _ => h1⟩
  · intro hf hb; obtain ⟨d, hd, hw⟩ := hb.1 h1; exact hf d hd hw

theorem alone_iff {pre w post : Bytes} {c d : UInt8} (h : w.head? = some c) (hc : Word c) (h' : w.getLast? = some d) (hd : Word d) :
    (Boundary (pre ++ w ++ post) pre.length ∧ Boundary (pre ++ w ++ post) (pre.length + w.length)) ↔ Alone pre post :=
  and_congr (boundary_left h hc) (boundary_right h' hd)

theorem first_word {a r : Bytes} (hne : a ≠ []) (h : ∀ c ∈ a, Word c) : ∃ c, (a ++ r).head? = some c ∧ Word c := by
  cases a with
  | nil => exact absurd rfl hne
  | cons c a => exact ⟨c, rfl, h c (by simp)⟩

theorem last_word {a r : Bytes} (hne : a ≠ []) (h : ∀ c ∈ a, Word c) : ∃ c, (r ++ a).getLast? = some c ∧ Word c := by
  refine ⟨a.getLast hne, ?_, h _ (List.getLast_mem hne)⟩
  rw [List.getLast?_append, List.getLast?_eq_some_getLast hne]; rfl

/-- patterns between boundaries whose words begin and end with word characters -/
theorem found_alone {l : List Re} (hw : NoWb (seqs l)) {P : Bytes → Prop} (hl : ∀ w, lang (seqs l) w ↔ P w)
    (hf : ∀ w, P w → ∃ c, w.head? = some c ∧ Word c) (he : ∀ w, P w → ∃ c, w.getLast? = some c ∧ Word c) {t : Bytes} :
    findAll (seqs (.wb :: (l ++ [.wb]))) t ≠ [] ↔ ∃ pre w post, t = pre ++ w ++ post ∧ P w ∧ Alone pre post := by
  rw [found_bounded hw]
  constructor
  · rintro ⟨pre, w, post, rfl, _, hlw, hb⟩
    rw [hl] at hlw
    obtain ⟨c, h1, h2⟩ := hf w hlw
    obtain ⟨d, h3, h4⟩ := he w hlw
    exact ⟨pre, w, post, rfl, hlw, (alone_iff h1 h2 h3 h4).1 hb⟩
  · rintro ⟨pre, w, post, rfl, hp, ha⟩
    obtain ⟨c, h1, h2⟩ := hf w hp
    obtain ⟨d, h3, h4⟩ := he w hp
    refine ⟨pre, w, post, rfl, ?_, (hl w).2 hp, (alone_iff h1 h2 h3 h4).2 ha⟩
    rintro rfl; cases h1

/-- a decimal digit -/
abbrev Digit (c : UInt8) : Prop := Btw '0' '9' c
/-- a letter or digit -/
def Alnum (c : UInt8) : Prop := Btw '0' '9' c ∨ Btw 'a' 'z' c ∨ Btw 'A' 'Z' c
/-- a hexadecimal digit -/
def Hex (c : UInt8) : Prop := Btw '0' '9' c ∨ Btw 'A' 'F' c ∨ Btw 'a' 'f' c

theorem digit_word {c : UInt8} (h : Digit c) : Word c := by
  have e1 : '0'.toNat = 48 := by decide
  have e2 : '9'.toNat = 57 := by decide
  simp only [Digit, Btw, e1, e2] at h
  exact .inl h

theorem alnum_word {c : UInt8} (h : Alnum c) : Word c := by
  have e1 : '0'.toNat = 48 := by decide
  have e2 : '9'.toNat = 57 := by decide
  have e3 : 'a'.toNat = 97 := by decide
  have e4 : 'z'.toNat = 122 := by decide
  have e5 : 'A'.toNat = 65 := by decide
  have e6 : 'Z'.toNat = 90 := by decide
  simp only [Alnum, Btw, e1, e2, e3, e4, e5, e6] at h
  simp only [Word]
  omega

theorem hex_word {c : UInt8} (h : Hex c) : Word c := by
  have e1 : '0'.toNat = 48 := by decide
  have e2 : '9'.toNat = 57 := by decide
  have e3 : 'a'.toNat = 97 := by decide
  have e4 : 'f'.toNat = 102 := by decide
  have e5 : 'A'.toNat = 65 := by decide
  have e6 : 'F'.toNat = 70 := by decide
  simp only [Hex, Btw, e1, e2, e3, e4, e5, e6] at h
  simp only [Word]
  omega

theorem alnum_iff {c : UInt8} : alnum c = true ↔ Alnum c := by simp [alnum, Alnum, rng_iff, or_assoc]
theorem hex_iff {c : UInt8} : (rng '0' '9' c || rng 'A' 'F' c || rng 'a' 'f' c) = true ↔ Hex c := by simp [Hex, rng_iff, or_assoc]

/-! ### the languages of the patterns -/

/-- no word boundaries, as a check -/
def noWb : Re → Bool
  | .wb => false
  | .seq a b => noWb a && noWb b
  | .alt a b => noWb a && noWb b
  | .star a => noWb a
  | _ => true

theorem noWb_iff {re : Re} : noWb re = true ↔ NoWb re := by
  induction re with
  | cls => simp [noWb, NoWb]
  | eps => simp [noWb, NoWb]
  | wb => simp [noWb, NoWb]
  | seq a b iha ihb => simp [noWb, NoWb, iha, ihb]
  | alt a b iha ihb => simp [noWb, NoWb, iha, ihb]
  | star a ih => simp [noWb, NoWb, ih]

/-- a word made of parts of the given kinds, in this order -/
def Cat : List (Bytes → Prop) → Bytes → Prop
  | [], w => w = []
  | P :: Ps, w => ∃ u v, w = u ++ v ∧ P u ∧ Cat Ps v
/-- exactly this text -/
def Lit (s : String) (w : Bytes) : Prop := w = bytes s
/-- one of these texts -/
def OneOf (l : List String) (w : Bytes) : Prop := ∃ s ∈ l, w = bytes s
/-- exactly `n` characters of this kind -/
def Exactly (n : Nat) (C : UInt8 → Prop) (w : Bytes) : Prop := w.length = n ∧ ∀ c ∈ w, C c
/-- `n` or more characters of this kind -/
def AtLeast (n : Nat) (C : UInt8 → Prop) (w : Bytes) : Prop := n ≤ w.length ∧ ∀ c ∈ w, C c
/-- `n` to `m` characters of this kind -/
def FromTo (n m : Nat) (C : UInt8 → Prop) (w : Bytes) : Prop := n ≤ w.length ∧ w.length ≤ m ∧ ∀ c ∈ w, C c

/-- the expressions have these languages, one by one -/
inductive Zip : List Re → List (Bytes → Prop) → Prop
  | nil : Zip [] []
  | cons {a : Re} {P : Bytes → Prop} {l : List Re} {Ps : List (Bytes → Prop)} : (∀ w, lang a w ↔ P w) → Zip l Ps → Zip (a :: l) (P :: Ps)

theorem lang_congr {l : List Re} {Ps : List (Bytes → Prop)} (h : Zip l Ps) {w : Bytes} :
    lang (seqs l) w ↔ Cat Ps w := by
  induction h generalizing w with
  | nil => exact lang_nil
  | cons h _ ih =>
    rw [lang_cons]
    simp only [Cat]
    constructor
    · rintro ⟨u, v, rfl, h1, h2⟩; exact ⟨u, v, rfl, (h u).1 h1, ih.1 h2⟩
    · rintro ⟨u, v, rfl, h1, h2⟩; exact ⟨u, v, rfl, (h u).2 h1, ih.2 h2⟩

theorem L_lit {s : String} (w : Bytes) : lang (lit s) w ↔ Lit s w := lang_lit
theorem L_rep {f : UInt8 → Bool} {C : UInt8 → Prop} (h : ∀ c, f c = true ↔ C c) {n : Nat} (w : Bytes) : lang (rep n (.cls f)) w ↔ Exactly n C w := by
  rw [lang_rep]; simp only [h]; exact Iff.rfl
theorem L_plus {f : UInt8 → Bool} {C : UInt8 → Prop} (h : ∀ c, f c = true ↔ C c) (w : Bytes) : lang (plus (.cls f)) w ↔ AtLeast 1 C w := by
  rw [lang_plus]; simp only [h]
  exact and_congr_left' (by rw [← List.length_pos_iff]; exact Iff.rfl)
theorem L_atLeast {f : UInt8 → Bool} {C : UInt8 → Prop} (h : ∀ c, f c = true ↔ C c) {n : Nat} (w : Bytes) : lang (atLeast n (.cls f)) w ↔ AtLeast n C w := by
  rw [lang_atLeast]; simp only [h]; exact Iff.rfl
theorem L_between {f : UInt8 → Bool} {C : UInt8 → Prop} (h : ∀ c, f c = true ↔ C c) {n m : Nat} (hnm : n ≤ m) (w : Bytes) :
    lang (between n m (.cls f)) w ↔ FromTo n m C w := by
  rw [lang_between hnm]; simp only [h]; exact Iff.rfl
theorem L_alts {l : List String} (w : Bytes) : lang (alts (l.map lit)) w ↔ OneOf l w := by
  rw [lang_alts]
  constructor
  · rintro ⟨a, ha, hw⟩
    obtain ⟨s, hs, rfl⟩ := List.mem_map.1 ha
    exact ⟨s, hs, lang_lit.1 hw⟩
  · rintro ⟨s, hs, rfl⟩
    exact ⟨lit s, List.mem_map_of_mem hs, lang_lit.2 rfl⟩

/-- nonempty and made of word characters only -/
def Solid (P : Bytes → Prop) : Prop := ∀ w, P w → w ≠ [] ∧ ∀ c ∈ w, Word c

theorem solid_exactly {n : Nat} {C : UInt8 → Prop} (hn : 0 < n) (h : ∀ c, C c → Word c) : Solid (Exactly n C) := by
  rintro w ⟨h1, h2⟩
  exact ⟨by rintro rfl; simp at h1; omega, fun c hc => h c (h2 c hc)⟩
theorem solid_atLeast {n : Nat} {C : UInt8 → Prop} (hn : 0 < n) (h : ∀ c, C c → Word c) : Solid (AtLeast n C) := by
  rintro w ⟨h1, h2⟩
  exact ⟨by rintro rfl; simp at h1; omega, fun c hc => h c (h2 c hc)⟩
theorem solid_bytes {w : Bytes} (h : (!w.isEmpty && w.all isWord) = true) : w ≠ [] ∧ ∀ c ∈ w, Word c := by
  simp only [Bool.and_eq_true, Bool.not_eq_true', List.isEmpty_eq_false_iff, List.all_eq_true] at h
  exact ⟨h.1, fun c hc => (word_iff c).1 (h.2 c hc)⟩
theorem solid_lit {s : String} (h : (!(bytes s).isEmpty && (bytes s).all isWord) = true) : Solid (Lit s) := by
  rintro w rfl; exact solid_bytes h
theorem solid_oneOf {l : List String} (h : (l.all fun s => !(bytes s).isEmpty && (bytes s).all isWord) = true) : Solid (OneOf l) := by
  rintro w ⟨s, hs, rfl⟩
  exact solid_bytes (List.all_eq_true.1 h s hs)

theorem cat_first {P : Bytes → Prop} {Ps : List (Bytes → Prop)} (h : Solid P) {w : Bytes} (hw : Cat (P :: Ps) w) : ∃ c, w.head? = some c ∧ Word c := by
  obtain ⟨u, v, rfl, h1, _⟩ := hw
  exact first_word (h u h1).1 (h u h1).2

/-- ends with a word character -/
def EndsWord (P : Bytes → Prop) : Prop := ∀ w, P w → ∃ c, w.getLast? = some c ∧ Word c

theorem solid_ends {P : Bytes → Prop} (h : Solid P) : EndsWord P := by
  intro w hw
  have := last_word (r := []) (h w hw).1 (h w hw).2
  simpa using this

theorem ends_lit {s : String} (h : ((bytes s).getLast?.any isWord) = true) : EndsWord (Lit s) := by
  rintro w rfl
  cases hl : (bytes s).getLast? with
  | none => rw [hl] at h; cases h
  | some c => rw [hl] at h; exact ⟨c, rfl, (word_iff c).1 h⟩

theorem cat_last {P : Bytes → Prop} (h : EndsWord P) : ∀ {Ps : List (Bytes → Prop)} {w : Bytes}, Cat (Ps ++ [P]) w → ∃ c, w.getLast? = some c ∧ Word c := by
  intro Ps
  induction Ps with
  | nil =>
    rintro w ⟨u, v, rfl, h1, rfl⟩
    simpa using h u h1
  | cons Q Ps ih =>
    rintro w ⟨u, v, rfl, _, h2⟩
    obtain ⟨c, hc, hw⟩ := ih h2
    exact ⟨c, by rw [List.getLast?_append, hc]; rfl, hw⟩

/-- a word of the language `P` stands alone in the text -/
def StandsAlone (P : Bytes → Prop) (t : Bytes) : Prop := ∃ pre w post, t = pre ++ w ++ post ∧ P w ∧ Alone pre post
/-- a word of the language `P` is a part of the text -/
def Occurs (P : Bytes → Prop) (t : Bytes) : Prop := ∃ pre w post, t = pre ++ w ++ post ∧ P w

theorem bounded_cat {l : List Re} {P Q : Bytes → Prop} {Ps Qs : List (Bytes → Prop)} (hw : noWb (seqs l) = true)
    (h : Zip l (P :: Ps)) (hP : Solid P) (hq : P :: Ps = Qs ++ [Q]) (hQ : EndsWord Q) {t : Bytes} :
    findAll (seqs (.wb :: (l ++ [.wb]))) t ≠ [] ↔ StandsAlone (Cat (P :: Ps)) t :=
  found_alone (noWb_iff.1 hw) (fun _ => lang_congr h) (fun _ => cat_first hP) (fun _ h => cat_last hQ (hq ▸ h))

theorem free_cat {l : List Re} {P : Bytes → Prop} {Ps : List (Bytes → Prop)} (hw : noWb (seqs l) = true)
    (h : Zip l (P :: Ps)) (hP : ¬ P []) {t : Bytes} :
    findAll (seqs l) t ≠ [] ↔ Occurs (Cat (P :: Ps)) t := by
  rw [found_words (noWb_iff.1 hw)]
  constructor
  · rintro ⟨pre, w, post, rfl, _, h1⟩; exact ⟨pre, w, post, rfl, (lang_congr h).1 h1⟩
  · rintro ⟨pre, w, post, rfl, h1⟩
    refine ⟨pre, w, post, rfl, ?_, (lang_congr h).2 h1⟩
    rintro rfl
    obtain ⟨u, v, hu, hp, _⟩ := h1
    have : u = [] := (List.append_eq_nil_iff.1 hu.symm).1
    exact hP (this ▸ hp)

theorem digit_iff (c : UInt8) : rng '0' '9' c = true ↔ Digit c := rng_iff

theorem hex_iff' (c : UInt8) : (rng '0' '9' c || rng 'A' 'F' c || rng 'a' 'f' c) = true ↔ Hex c := hex_iff
theorem alnum_iff' (c : UInt8) : alnum c = true ↔ Alnum c := alnum_iff
/-- a capital letter or digit -/
def UpDigit (c : UInt8) : Prop := Btw 'A' 'Z' c ∨ Digit c
theorem upDigit_iff (c : UInt8) : (rng 'A' 'Z' c || rng '0' '9' c) = true ↔ UpDigit c := by simp [UpDigit, rng_iff]
theorem upDigit_word {c : UInt8} (h : UpDigit c) : Word c := alnum_word (h.elim (fun h => .inr (.inr h)) .inl)
/-- a small letter `a` to `f` or a digit -/
def LowHex (c : UInt8) : Prop := Btw 'a' 'f' c ∨ Digit c
theorem lowHex_iff (c : UInt8) : (rng 'a' 'f' c || rng '0' '9' c) = true ↔ LowHex c := by simp [LowHex, rng_iff]
theorem lowHex_word {c : UInt8} (h : LowHex c) : Word c := hex_word (h.elim (fun h => .inr (.inr h)) .inl)
/-- a letter or digit or one of the given characters -/
def AlnumOr (s : String) (c : UInt8) : Prop := Alnum c ∨ c ∈ bytes s
theorem alnumOr_iff {s : String} (c : UInt8) : (alnum c || ch s c) = true ↔ AlnumOr s c := by simp [AlnumOr, alnum_iff, ch_iff]
/-- a letter -/
def Letter (c : UInt8) : Prop := Btw 'a' 'z' c ∨ Btw 'A' 'Z' c
theorem letter_iff (c : UInt8) : (rng 'a' 'z' c || rng 'A' 'Z' c) = true ↔ Letter c := by simp [Letter, rng_iff]

open Zip in
/-- **C241** US social security numbers: reported exactly where `ddd-dd-dddd` stands alone. -/
theorem C241_ssn {t : Bytes} : findAll ssn t ≠ [] ↔ StandsAlone (Cat [Exactly 3 Digit, Lit "-", Exactly 2 Digit, Lit "-", Exactly 4 Digit]) t :=
  bounded_cat (l := [_, _, _, _, _]) rfl
    (cons (L_rep digit_iff) (cons L_lit (cons (L_rep digit_iff) (cons L_lit (cons (L_rep digit_iff) nil)))))
    (solid_exactly (by decide) fun _ => digit_word) (Qs := [_, _, _, _]) rfl (solid_ends (solid_exactly (by decide) fun _ => digit_word))

open Zip in
/-- **C241** credit card numbers: `dddd-dddd-dddd-dddd` standing alone. -/
theorem C241_card {t : Bytes} : findAll creditCard t ≠ [] ↔ StandsAlone (Cat [Exactly 4 Digit, Lit "-", Exactly 4 Digit, Lit "-", Exactly 4 Digit, Lit "-", Exactly 4 Digit]) t :=
  bounded_cat (l := [_, _, _, _, _, _, _]) rfl
    (cons (L_rep digit_iff) (cons L_lit (cons (L_rep digit_iff) (cons L_lit (cons (L_rep digit_iff) (cons L_lit (cons (L_rep digit_iff) nil)))))))
    (solid_exactly (by decide) fun _ => digit_word) (Qs := [_, _, _, _, _, _]) rfl (solid_ends (solid_exactly (by decide) fun _ => digit_word))

open Zip in
/-- **C241** AWS access identifiers: one of the nine prefixes and at least twelve capital letters or digits, standing alone. -/
theorem C241_aws_id {t : Bytes} : findAll awsId t ≠ [] ↔ StandsAlone (Cat [OneOf ["AKIA", "A3T", "AGPA", "AIDA", "AROA", "AIPA", "ANPA", "ANVA", "ASIA"], AtLeast 12 UpDigit]) t :=
  bounded_cat (l := [_, _]) rfl
    (cons (L_alts (l := [_, _, _, _, _, _, _, _, _])) (cons (L_atLeast upDigit_iff) nil))
    (solid_oneOf (by decide +kernel)) (Qs := [_]) rfl (solid_ends (solid_atLeast (by decide) fun _ => upDigit_word))

open Zip in
/-- **C241** Google OAuth identifiers: digits, a dash, 32 word characters and the domain, standing alone. -/
theorem C241_google_oauth {t : Bytes} : findAll googleOauth t ≠ [] ↔ StandsAlone (Cat [AtLeast 1 Digit, Lit "-", Exactly 32 Word, Lit ".apps.googleusercontent.com"]) t :=
  bounded_cat (l := [_, _, _, _]) rfl
    (cons (L_plus digit_iff) (cons L_lit (cons (L_rep word_iff) (cons L_lit nil))))
    (solid_atLeast (by decide) fun _ => digit_word) (Qs := [_, _, _]) rfl (ends_lit (by decide +kernel))

open Zip in
/-- **C241** Github tokens: `ghp_`, `gho_`, `ghu_` or `ghs_` and 36 word characters, standing alone. -/
theorem C241_github {t : Bytes} : findAll githubToken t ≠ [] ↔ StandsAlone (Cat [OneOf ["ghp", "gho", "ghu", "ghs"], Lit "_", Exactly 36 Word]) t :=
  bounded_cat (l := [_, _, _]) rfl
    (cons (L_alts (l := [_, _, _, _])) (cons L_lit (cons (L_rep word_iff) nil)))
    (solid_oneOf (by decide +kernel)) (Qs := [_, _]) rfl (solid_ends (solid_exactly (by decide) fun _ => id))

open Zip in
/-- **C241** Heroku API keys: hexadecimal digits in groups of 8, 4, 4, 4 and 12, standing alone. -/
theorem C241_heroku {t : Bytes} : findAll heroku t ≠ [] ↔ StandsAlone (Cat [Exactly 8 Hex, Lit "-", Exactly 4 Hex, Lit "-", Exactly 4 Hex, Lit "-", Exactly 4 Hex, Lit "-", Exactly 12 Hex]) t :=
  bounded_cat (l := [_, _, _, _, _, _, _, _, _]) rfl
    (cons (L_rep hex_iff') (cons L_lit (cons (L_rep hex_iff') (cons L_lit (cons (L_rep hex_iff') (cons L_lit (cons (L_rep hex_iff') (cons L_lit (cons (L_rep hex_iff') nil)))))))))
    (solid_exactly (by decide) fun _ => hex_word) (Qs := [_, _, _, _, _, _, _, _]) rfl (solid_ends (solid_exactly (by decide) fun _ => hex_word))

open Zip in
/-- **C241** Stripe keys: `rk_` or `sk_`, `test_` or `live_` and 24 letters or digits, standing alone. -/
theorem C241_stripe {t : Bytes} : findAll stripe t ≠ [] ↔ StandsAlone (Cat [OneOf ["r", "s"], Lit "k_", OneOf ["test", "live"], Lit "_", Exactly 24 Alnum]) t :=
  bounded_cat (l := [_, _, _, _, _]) rfl
    (cons (L_alts (l := [_, _])) (cons L_lit (cons (L_alts (l := [_, _])) (cons L_lit (cons (L_rep alnum_iff') nil)))))
    (solid_oneOf (by decide +kernel)) (Qs := [_, _, _, _]) rfl (solid_ends (solid_exactly (by decide) fun _ => alnum_word))

open Zip in
/-- **C241** Github fine grained tokens: `github_pat_` and 82 word characters, standing alone. -/
theorem C241_github_pat {t : Bytes} : findAll githubPat t ≠ [] ↔ StandsAlone (Cat [Lit "github_pat_", Exactly 82 Word]) t :=
  bounded_cat (l := [_, _]) rfl
    (cons L_lit (cons (L_rep word_iff) nil))
    (solid_lit (by decide +kernel)) (Qs := [_]) rfl (solid_ends (solid_exactly (by decide) fun _ => id))

open Zip in
/-- **C241** Email addresses: a name, `@`, a domain, a dot and at least two letters, anywhere in the text. -/
theorem C241_email {t : Bytes} : findAll email t ≠ [] ↔ Occurs (Cat [AtLeast 1 (AlnumOr "._%+-"), Lit "@", AtLeast 1 (AlnumOr ".-"), Lit ".", AtLeast 2 Letter]) t :=
  free_cat (l := [_, _, _, _, _]) rfl
    (cons (L_plus alnumOr_iff) (cons L_lit (cons (L_plus alnumOr_iff) (cons L_lit (cons (L_atLeast letter_iff) nil)))))
    (fun h => absurd h.1 (by decide))

open Zip in
/-- **C241** AWS secrets: the assignment to the environment variable with a nonempty value. -/
theorem C241_aws_env {t : Bytes} : findAll awsEnv t ≠ [] ↔ Occurs (Cat [Lit "AWS_SECRET_ACCESS_KEY=", AtLeast 1 (AlnumOr "/+=")]) t :=
  free_cat (l := [_, _]) rfl
    (cons L_lit (cons (L_plus alnumOr_iff) nil))
    (by intro h; exact absurd (congrArg List.length h) (by decide +kernel))

open Zip in
/-- **C241** GCP credentials: the assignment to the environment variable with a nonempty value. -/
theorem C241_gcp_env {t : Bytes} : findAll gcpEnv t ≠ [] ↔ Occurs (Cat [Lit "GOOGLE_APPLICATION_CREDENTIALS=", AtLeast 1 (AlnumOr "/+=")]) t :=
  free_cat (l := [_, _]) rfl
    (cons L_lit (cons (L_plus alnumOr_iff) nil))
    (by intro h; exact absurd (congrArg List.length h) (by decide +kernel))

open Zip in
/-- **C241** Azure secrets: the assignment to the environment variable with a nonempty value. -/
theorem C241_azure_env {t : Bytes} : findAll azureEnv t ≠ [] ↔ Occurs (Cat [Lit "AZURE_CLIENT_SECRET=", AtLeast 1 (AlnumOr "/+=")]) t :=
  free_cat (l := [_, _]) rfl
    (cons L_lit (cons (L_plus alnumOr_iff) nil))
    (by intro h; exact absurd (congrArg List.length h) (by decide +kernel))

open Zip in
/-- **C241** database passwords: the assignment of a postgres or mysql address with user, password and host. -/
theorem C241_db {t : Bytes} : findAll dbUrl t ≠ [] ↔ Occurs (Cat [Lit "DATABASE_URL=", OneOf ["postgres", "mysql"], Lit "://", AtLeast 1 Word, Lit ":", AtLeast 1 Word, Lit "@", AtLeast 1 Word]) t :=
  free_cat (l := [_, _, _, _, _, _, _, _]) rfl
    (cons L_lit (cons (L_alts (l := [_, _])) (cons L_lit (cons (L_plus word_iff) (cons L_lit (cons (L_plus word_iff) (cons L_lit (cons (L_plus word_iff) nil))))))))
    (by intro h; exact absurd (congrArg List.length h) (by decide +kernel))

/-- a word of the language `P` stands between word boundaries of the text -/
def Bounded (P : Bytes → Prop) (t : Bytes) : Prop := ∃ pre w post, t = pre ++ w ++ post ∧ P w ∧ Boundary t pre.length ∧ Boundary t (pre.length + w.length)
/-- either of two kinds -/
def Either (P Q : Bytes → Prop) (w : Bytes) : Prop := P w ∨ Q w
/-- possibly nothing -/
def Maybe (P : Bytes → Prop) (w : Bytes) : Prop := P w ∨ w = []
/-- `n` parts of the same kind -/
def Times (n : Nat) (P : Bytes → Prop) : Bytes → Prop := Cat (List.replicate n P)
/-- `n` to `m` parts of the same kind -/
def TimesFT (n m : Nat) (P : Bytes → Prop) (w : Bytes) : Prop := ∃ k, n ≤ k ∧ k ≤ m ∧ Times k P w

theorem L_opt {a : Re} {P : Bytes → Prop} (h : ∀ w, lang a w ↔ P w) (w : Bytes) : lang (opt a) w ↔ Maybe P w := by
  simp only [opt, lang, h, Maybe]
theorem L_alt2 {a b : Re} {P Q : Bytes → Prop} (h : ∀ w, lang a w ↔ P w) (h' : ∀ w, lang b w ↔ Q w) (w : Bytes) : lang (alts [a, b]) w ↔ Either P Q w := by
  simp only [alts, lang, h, h', Either]
theorem L_times {a : Re} {P : Bytes → Prop} (h : ∀ w, lang a w ↔ P w) {n : Nat} (w : Bytes) : lang (rep n a) w ↔ Times n P w := by
  refine lang_congr (l := List.replicate n a) ?_
  induction n with
  | zero => exact .nil
  | succ n ih => rw [List.replicate_succ, List.replicate_succ]; exact .cons h ih
theorem L_one {f : UInt8 → Bool} {C : UInt8 → Prop} (h : ∀ c, f c = true ↔ C c) (w : Bytes) : lang (.cls f) w ↔ Exactly 1 C w := by
  rw [← L_rep h]; exact Iff.rfl

theorem lang_upTo_seq {a : Re} {n : Nat} {w : Bytes} : lang (upTo n a) w ↔ ∃ k, k ≤ n ∧ lang (rep k a) w := by
  induction n generalizing w with
  | zero =>
    simp only [upTo, lang]
    constructor
    · rintro rfl; exact ⟨0, Nat.le_refl _, rfl⟩
    · rintro ⟨k, hk, h⟩
      have : k = 0 := by omega
      subst this; exact h
  | succ n ih =>
    simp only [upTo, lang]
    constructor
    · rintro (⟨u, v, rfl, h1, h2⟩ | rfl)
      · obtain ⟨k, hk, h⟩ := ih.1 h2
        refine ⟨k + 1, by omega, ?_⟩
        show lang (seqs (List.replicate (k + 1) a)) _
        rw [List.replicate_succ, lang_cons]
        exact ⟨u, v, rfl, h1, h⟩
      · exact ⟨0, by omega, rfl⟩
    · rintro ⟨k, hk, h⟩
      cases k with
      | zero => exact .inr h
      | succ k =>
        have h' : lang (seqs (List.replicate (k + 1) a)) w := h
        rw [List.replicate_succ, lang_cons] at h'
        obtain ⟨u, v, rfl, h1, h2⟩ := h'
        exact .inl ⟨u, v, rfl, h1, ih.2 ⟨k, by omega, h2⟩⟩

theorem lang_append {l l' : List Re} {w : Bytes} : lang (seqs (l ++ l')) w ↔ ∃ u v, w = u ++ v ∧ lang (seqs l) u ∧ lang (seqs l') v := by
  induction l generalizing w with
  | nil =>
    constructor
    · intro h; exact ⟨[], w, rfl, lang_nil.2 rfl, h⟩
    · rintro ⟨u, v, rfl, h1, h2⟩
      rw [lang_nil.1 h1]; exact h2
  | cons a l ih =>
    rw [List.cons_append, lang_cons]
    constructor
    · rintro ⟨u, v, rfl, h1, h2⟩
      obtain ⟨u', v', rfl, h3, h4⟩ := ih.1 h2
      exact ⟨u ++ u', v', by simp, lang_cons.2 ⟨u, u', rfl, h1, h3⟩, h4⟩
    · rintro ⟨u, v, rfl, h1, h2⟩
      obtain ⟨u', v', rfl, h3, h4⟩ := lang_cons.1 h1
      exact ⟨u', v' ++ v, by simp, h3, ih.2 ⟨v', v, rfl, h4, h2⟩⟩

theorem L_timesFT {a : Re} {P : Bytes → Prop} (h : ∀ w, lang a w ↔ P w) {n m : Nat} (hnm : n ≤ m) (w : Bytes) : lang (between n m a) w ↔ TimesFT n m P w := by
  have happ : ∀ k v u, lang (rep n a) u → lang (rep k a) v → lang (rep (n + k) a) (u ++ v) := by
    intro k v u h1 h2
    show lang (seqs (List.replicate (n + k) a)) _
    rw [← List.replicate_append_replicate, lang_append]
    exact ⟨u, v, rfl, h1, h2⟩
  simp only [between, lang]
  constructor
  · rintro ⟨u, v, rfl, h1, h2⟩
    obtain ⟨k, hk, h3⟩ := lang_upTo_seq.1 h2
    exact ⟨n + k, by omega, by omega, (L_times h _).1 (happ k v u h1 h3)⟩
  · rintro ⟨k, h1, h2, h3⟩
    have h4 : lang (seqs (List.replicate k a)) w := (L_times h w).2 h3
    rw [show k = n + (k - n) by omega, ← List.replicate_append_replicate, lang_append] at h4
    obtain ⟨u, v, rfl, h5, h6⟩ := h4
    exact ⟨u, v, rfl, h5, lang_upTo_seq.2 ⟨k - n, by omega, h6⟩⟩

theorem between_cat {l : List Re} {Ps : List (Bytes → Prop)} (hw : noWb (seqs l) = true) (h : Zip l Ps) (hne : ¬ Cat Ps []) {t : Bytes} :
    findAll (seqs (.wb :: (l ++ [.wb]))) t ≠ [] ↔ Bounded (Cat Ps) t := by
  rw [found_bounded (noWb_iff.1 hw)]
  constructor
  · rintro ⟨pre, w, post, rfl, _, h1, h2⟩; exact ⟨pre, w, post, rfl, (lang_congr h).1 h1, h2⟩
  · rintro ⟨pre, w, post, rfl, h1, h2⟩
    exact ⟨pre, w, post, rfl, by rintro rfl; exact hne h1, (lang_congr h).2 h1, h2⟩

/-- a part that is not empty -/
def Full (P : Bytes → Prop) : Prop := ¬ P []
theorem cat_full {P : Bytes → Prop} (h : Full P) : ∀ {Ps : List (Bytes → Prop)}, P ∈ Ps → ¬ Cat Ps [] := by
  intro Ps
  induction Ps with
  | nil => intro h; cases h
  | cons Q Ps ih =>
    rintro hm ⟨u, v, he, hq, hv⟩
    obtain ⟨rfl, rfl⟩ := List.append_eq_nil_iff.1 he.symm
    rcases List.mem_cons.1 hm with rfl | hm
    · exact h hq
    · exact ih hm hv
theorem full_lit {s : String} (h : (bytes s).length ≠ 0) : Full (Lit s) := fun he => h (by rw [← (he : [] = bytes s)]; rfl)
theorem full_exactly {n : Nat} {C : UInt8 → Prop} (h : n ≠ 0) : Full (Exactly n C) := fun he => h he.1.symm
theorem full_fromTo {n m : Nat} {C : UInt8 → Prop} (h : n ≠ 0) : Full (FromTo n m C) := fun he => h (Nat.le_zero.1 he.1)

/-- a small letter, a digit or a dash -/
def HostCh (c : UInt8) : Prop := Btw 'a' 'z' c ∨ Digit c ∨ c ∈ bytes "-"
theorem hostCh_iff (c : UInt8) : (rng 'a' 'z' c || rng '0' '9' c || ch "-" c) = true ↔ HostCh c := by simp [HostCh, rng_iff, ch_iff, or_assoc]
/-- a blank, tab, line feed, form feed or carriage return -/
def Space (c : UInt8) : Prop := c ∈ bytes " \t\n" ∨ c = 12 ∨ c = 13
theorem space_iff (c : UInt8) : (ch " \t\n" c || decide (c = 12) || decide (c = 13)) = true ↔ Space c := by simp [Space, ch_iff, or_assoc]
/-- white space, a dot or a dash -/
def Sep (c : UInt8) : Prop := c ∈ bytes " \t\n.-" ∨ c = 12 ∨ c = 13
theorem sep_iff (c : UInt8) : (ch " \t\n.-" c || decide (c = 12) || decide (c = 13)) = true ↔ Sep c := by simp [Sep, ch_iff, or_assoc]
/-- a character between `A` and `z` of the ASCII table (letters and six more) or a digit -/
def MacCh (c : UInt8) : Prop := Btw 'a' 'z' c ∨ Btw 'A' 'z' c ∨ Digit c
theorem macCh_iff (c : UInt8) : (rng 'a' 'z' c || rng 'A' 'z' c || rng '0' '9' c) = true ↔ MacCh c := by simp [MacCh, rng_iff, or_assoc]
theorem ch_iff' {s : String} (c : UInt8) : ch s c = true ↔ c ∈ bytes s := ch_iff

open Zip in
/-- **C241** Firebase domains: 1 to 30 small letters, digits or dashes and the domain, between word boundaries. -/
theorem C241_firebase {t : Bytes} : findAll firebase t ≠ [] ↔ Bounded (Cat [FromTo 1 30 HostCh, Lit ".firebaseapp.com"]) t :=
  between_cat (l := [_, _]) rfl (cons (L_between hostCh_iff (by decide)) (cons L_lit nil)) (cat_full (full_fromTo (by decide)) (List.mem_cons_self ..))

open Zip in
/-- **C241** Google API keys: `AIza` and 35 letters, digits, dashes or underscores, between word boundaries. -/
theorem C241_google_key {t : Bytes} : findAll googleKey t ≠ [] ↔ Bounded (Cat [Lit "AIza", Exactly 35 (AlnumOr "-_")]) t :=
  between_cat (l := [_, _]) rfl (cons L_lit (cons (L_rep alnumOr_iff) nil)) (cat_full (full_lit (by decide +kernel)) (List.mem_cons_self ..))

open Zip in
/-- **C241** Slack app tokens: `xapp-`, digits, word characters, digits and hexadecimal digits in small letters, separated by dashes. -/
theorem C241_slack {t : Bytes} : findAll slack t ≠ [] ↔
    Bounded (Cat [Lit "xapp-", AtLeast 1 Digit, Lit "-", AtLeast 1 Word, Lit "-", AtLeast 1 Digit, Lit "-", AtLeast 1 LowHex]) t :=
  between_cat (l := [_, _, _, _, _, _, _, _]) rfl
    (cons L_lit (cons (L_plus digit_iff) (cons L_lit (cons (L_plus word_iff) (cons L_lit (cons (L_plus digit_iff) (cons L_lit (cons (L_plus lowHex_iff) nil))))))))
    (cat_full (full_lit (by decide +kernel)) (List.mem_cons_self ..))

open Zip in
/-- **C241** Phone numbers: possibly a country code, possibly parentheses, then 3, 3 and 4 digits with separators, between word boundaries. -/
theorem C241_phone {t : Bytes} : findAll phone t ≠ [] ↔
    Bounded (Cat [Maybe (Cat [Lit "+", FromTo 1 2 Digit, Exactly 1 Space]), Maybe (Lit "("), Exactly 3 Digit, Maybe (Lit ")"), Exactly 1 Sep, Exactly 3 Digit, Exactly 1 Sep, Exactly 4 Digit]) t :=
  between_cat (l := [_, _, _, _, _, _, _, _]) rfl
    (cons (L_opt fun _ => lang_congr (l := [_, _, _]) (cons L_lit (cons (L_between digit_iff (by decide)) (cons (L_one space_iff) nil))))
      (cons (L_opt L_lit) (cons (L_rep digit_iff) (cons (L_opt L_lit) (cons (L_one sep_iff) (cons (L_rep digit_iff) (cons (L_one sep_iff) (cons (L_rep digit_iff) nil))))))))
    (cat_full (full_exactly (n := 3) (C := Digit) (by decide)) (by simp))

open Zip in
/-- **C241** MAC addresses: six pairs of characters, separated by dashes or colons, between word boundaries. -/
theorem C241_mac {t : Bytes} : findAll mac t ≠ [] ↔
    Bounded (Cat [Times 5 (Cat [Exactly 2 MacCh, Exactly 1 (· ∈ bytes "-:")]), Exactly 2 MacCh]) t := by
  have h := between_cat (t := t) (l := [_]) (Ps := [Either (Cat [Times 5 (Cat [Exactly 2 MacCh, Exactly 1 (· ∈ bytes "-:")]), Exactly 2 MacCh])
      (Cat [Times 5 (Cat [Exactly 2 MacCh, Lit ":"]), Exactly 2 MacCh])]) rfl
    (cons (L_alt2 (fun _ => lang_congr (l := [_, _]) (cons (L_times fun _ => lang_congr (l := [_, _]) (cons (L_rep macCh_iff) (cons (L_one ch_iff') nil))) (cons (L_rep macCh_iff) nil)))
      (fun _ => lang_congr (l := [_, _]) (cons (L_times fun _ => lang_congr (l := [_, _]) (cons (L_rep macCh_iff) (cons L_lit nil))) (cons (L_rep macCh_iff) nil)))) nil)
    (cat_full (P := Either _ _) (fun h => h.elim (cat_full (full_exactly (n := 2) (C := MacCh) (by decide)) (by simp)) (cat_full (full_exactly (n := 2) (C := MacCh) (by decide)) (by simp))) (List.mem_cons_self ..))
  refine h.trans ?_
  have hin : ∀ w, Cat [Exactly 2 MacCh, Lit ":"] w → Cat [Exactly 2 MacCh, Exactly 1 (· ∈ bytes "-:")] w := by
    rintro w ⟨u, v, rfl, h1, v', x, rfl, h2, h3⟩
    exact ⟨u, _, rfl, h1, v', x, rfl, by rw [(h2 : v' = bytes ":")]; exact ⟨by decide +kernel, by decide +kernel⟩, h3⟩
  have hrep : ∀ n w, Times n (Cat [Exactly 2 MacCh, Lit ":"]) w → Times n (Cat [Exactly 2 MacCh, Exactly 1 (· ∈ bytes "-:")]) w := by
    intro n
    induction n with
    | zero => intro w h; exact h
    | succ n ih =>
      intro w h
      obtain ⟨u, v, rfl, h1, h2⟩ := (h : Cat (List.replicate (n + 1) _) w)
      exact ⟨u, v, rfl, hin u h1, ih v h2⟩
  have hall : ∀ w, Cat [Either (Cat [Times 5 (Cat [Exactly 2 MacCh, Exactly 1 (· ∈ bytes "-:")]), Exactly 2 MacCh])
      (Cat [Times 5 (Cat [Exactly 2 MacCh, Lit ":"]), Exactly 2 MacCh])] w ↔ Cat [Times 5 (Cat [Exactly 2 MacCh, Exactly 1 (· ∈ bytes "-:")]), Exactly 2 MacCh] w := by
    intro w
    constructor
    · rintro ⟨u, v, rfl, h1, rfl⟩
      rw [List.append_nil]
      rcases h1 with h1 | ⟨x, y, rfl, h1, h2⟩
      · exact h1
      · exact ⟨x, y, rfl, hrep _ _ h1, h2⟩
    · intro h; exact ⟨w, [], by simp, .inl h, rfl⟩
  simp only [Bounded, hall]

open Zip in
/-- **C241** IP V6 addresses: one to six groups of up to four hexadecimal digits and a double colon, or seven groups, and a last group; between
word boundaries. -/
theorem C241_ipv6 {t : Bytes} : findAll ipV6 t ≠ [] ↔ Bounded (Cat [Either (Cat [TimesFT 1 6 (Cat [FromTo 1 4 Hex, Lit ":"]), Lit ":"])
    (Times 7 (Cat [FromTo 1 4 Hex, Lit ":"])), FromTo 1 4 Hex]) t :=
  between_cat (l := [_, _]) rfl
    (cons (L_alt2 (fun _ => lang_congr (l := [_, _]) (cons (L_timesFT (fun _ => lang_congr (l := [_, _]) (cons (L_between hex_iff' (by decide)) (cons L_lit nil))) (by decide)) (cons L_lit nil)))
      (L_times fun _ => lang_congr (l := [_, _]) (cons (L_between hex_iff' (by decide)) (cons L_lit nil))))
      (cons (L_between hex_iff' (by decide)) nil))
    (cat_full (full_fromTo (n := 1) (m := 4) (C := Hex) (by decide)) (by simp))

/-! IP V4 addresses -/

/-- the decimal text of a number from 0 to 255 -/
def Octet (w : Bytes) : Prop := ∃ n, n < 256 ∧ w = bytes (toString n)

/-- one number of an address, as in the pattern -/
def oct : Re := alts [seqs [lit "25", .cls (rng '0' '5')], seqs [alts [seqs [lit "2", .cls (rng '0' '4')], seqs [lit "1", digit], opt (.cls (rng '1' '9'))], digit]]

theorem btw_nat {a b : Char} {c : UInt8} (h : Btw a b c) : ∃ k, a.toNat ≤ k ∧ k ≤ b.toNat ∧ c = UInt8.ofNat k :=
  ⟨c.toNat, h.1, h.2, by simp⟩

/-- the decimal digits of a number below 1000 -/
def dec (n : Nat) : Bytes :=
  if n < 10 then [UInt8.ofNat (48 + n)]
  else if n < 100 then [UInt8.ofNat (48 + n / 10), UInt8.ofNat (48 + n % 10)]
  else [UInt8.ofNat (48 + n / 100), UInt8.ofNat (48 + n / 10 % 10), UInt8.ofNat (48 + n % 10)]

theorem dec_eq : ∀ n, n < 256 → bytes (toString n) = dec n := by decide +kernel

theorem btw_digits {a b : Nat} (ha : 48 ≤ a) (hb : b ≤ 57 ∧ 48 ≤ b) {x y : Char} (hx : x.toNat = a) (hy : y.toNat = b) {c : UInt8} :
    Btw x y c ↔ ∃ k, a - 48 ≤ k ∧ k ≤ b - 48 ∧ c = UInt8.ofNat (48 + k) := by
  simp only [Btw, hx, hy]
  constructor
  · intro h
    exact ⟨c.toNat - 48, by omega, by omega, by rw [show 48 + (c.toNat - 48) = c.toNat by omega]; simp⟩
  · rintro ⟨k, h1, h2, rfl⟩
    have : (UInt8.ofNat (48 + k)).toNat = 48 + k := by simp; omega
    omega

theorem d09 {c : UInt8} : Btw '0' '9' c ↔ ∃ k, 0 ≤ k ∧ k ≤ 9 ∧ c = UInt8.ofNat (48 + k) := btw_digits (a := 48) (b := 57) (by decide) (by decide) (by decide) (by decide)
theorem d05 {c : UInt8} : Btw '0' '5' c ↔ ∃ k, 0 ≤ k ∧ k ≤ 5 ∧ c = UInt8.ofNat (48 + k) := btw_digits (a := 48) (b := 53) (by decide) (by decide) (by decide) (by decide)
theorem d04 {c : UInt8} : Btw '0' '4' c ↔ ∃ k, 0 ≤ k ∧ k ≤ 4 ∧ c = UInt8.ofNat (48 + k) := btw_digits (a := 48) (b := 52) (by decide) (by decide) (by decide) (by decide)
theorem d19 {c : UInt8} : Btw '1' '9' c ↔ ∃ k, 1 ≤ k ∧ k ≤ 9 ∧ c = UInt8.ofNat (48 + k) := btw_digits (a := 49) (b := 57) (by decide) (by decide) (by decide) (by decide)

theorem oct_iff {w : Bytes} : lang oct w ↔ Octet w := by
  have b25 : bytes "25" = [50, 53] := by decide +kernel
  have b2 : bytes "2" = [50] := by decide +kernel
  have b1 : bytes "1" = [49] := by decide +kernel
  have key : lang oct w ↔ (∃ k, k ≤ 5 ∧ w = [50, 53, UInt8.ofNat (48 + k)]) ∨ (∃ k l, k ≤ 4 ∧ l ≤ 9 ∧ w = [50, UInt8.ofNat (48 + k), UInt8.ofNat (48 + l)]) ∨
      (∃ k l, k ≤ 9 ∧ l ≤ 9 ∧ w = [49, UInt8.ofNat (48 + k), UInt8.ofNat (48 + l)]) ∨
      (∃ k l, 1 ≤ k ∧ k ≤ 9 ∧ l ≤ 9 ∧ w = [UInt8.ofNat (48 + k), UInt8.ofNat (48 + l)]) ∨ ∃ l, l ≤ 9 ∧ w = [UInt8.ofNat (48 + l)] := by
    have hd : ∀ {v}, lang (seqs [digit]) v ↔ ∃ l, l ≤ 9 ∧ v = [UInt8.ofNat (48 + l)] := by
      intro v
      show (∃ c, v = [c] ∧ rng '0' '9' c = true) ↔ _
      simp only [rng_iff, d09]
      constructor
      · rintro ⟨c, rfl, k, _, h, rfl⟩; exact ⟨k, h, rfl⟩
      · rintro ⟨k, h, rfl⟩; exact ⟨_, rfl, k, Nat.zero_le _, h, rfl⟩
    have h1 : ∀ {v}, lang (seqs [lit "25", .cls (rng '0' '5')]) v ↔ ∃ k, k ≤ 5 ∧ v = [50, 53, UInt8.ofNat (48 + k)] := by
      intro v
      simp only [lang_cons, lang_nil, lang_lit, lang_cls, rng_iff, b25, d05]
      constructor
      · rintro ⟨_, _, rfl, rfl, _, _, rfl, ⟨c, rfl, k, _, h, rfl⟩, rfl⟩; exact ⟨k, h, rfl⟩
      · rintro ⟨k, h, rfl⟩; exact ⟨_, [_], rfl, rfl, [_], [], rfl, ⟨_, rfl, k, Nat.zero_le _, h, rfl⟩, rfl⟩
    have h2 : ∀ {v}, lang (seqs [lit "2", .cls (rng '0' '4')]) v ↔ ∃ k, k ≤ 4 ∧ v = [50, UInt8.ofNat (48 + k)] := by
      intro v
      simp only [lang_cons, lang_nil, lang_lit, lang_cls, rng_iff, b2, d04]
      constructor
      · rintro ⟨_, _, rfl, rfl, _, _, rfl, ⟨c, rfl, k, _, h, rfl⟩, rfl⟩; exact ⟨k, h, rfl⟩
      · rintro ⟨k, h, rfl⟩; exact ⟨_, [_], rfl, rfl, [_], [], rfl, ⟨_, rfl, k, Nat.zero_le _, h, rfl⟩, rfl⟩
    have h3 : ∀ {v}, lang (seqs [lit "1", digit]) v ↔ ∃ k, k ≤ 9 ∧ v = [49, UInt8.ofNat (48 + k)] := by
      intro v
      simp only [lang_cons (a := lit "1"), hd, lang_lit, b1]
      constructor
      · rintro ⟨_, _, rfl, rfl, k, h, rfl⟩; exact ⟨k, h, rfl⟩
      · rintro ⟨k, h, rfl⟩; exact ⟨_, [_], rfl, rfl, k, h, rfl⟩
    have h4 : ∀ {v}, lang (opt (.cls (rng '1' '9'))) v ↔ (∃ k, 1 ≤ k ∧ k ≤ 9 ∧ v = [UInt8.ofNat (48 + k)]) ∨ v = [] := by
      intro v
      simp only [opt, lang, rng_iff, d19]
      constructor
      · rintro (⟨c, rfl, k, h1, h2, rfl⟩ | rfl)
        · exact .inl ⟨k, h1, h2, rfl⟩
        · exact .inr rfl
      · rintro (⟨k, h1, h2, rfl⟩ | rfl)
        · exact .inl ⟨_, rfl, k, h1, h2, rfl⟩
        · exact .inr rfl
    unfold oct
    rw [lang_alts]
    simp only [List.mem_cons, List.not_mem_nil, or_false, exists_eq_or_imp, exists_eq_left, h1]
    rw [lang_cons]
    simp only [lang_alts, List.mem_cons, List.not_mem_nil, or_false, exists_eq_or_imp, exists_eq_left, h2, h3, h4, hd]
    refine or_congr_right ?_
    constructor
    · rintro ⟨u, v, rfl, h, l, hl, rfl⟩
      rcases h with ⟨k, hk, rfl⟩ | ⟨k, hk, rfl⟩ | ⟨k, hk1, hk2, rfl⟩ | rfl
      · exact .inl ⟨k, l, hk, hl, rfl⟩
      · exact .inr (.inl ⟨k, l, hk, hl, rfl⟩)
      · exact .inr (.inr (.inl ⟨k, l, hk1, hk2, hl, rfl⟩))
      · exact .inr (.inr (.inr ⟨l, hl, rfl⟩))
    · rintro (⟨k, l, hk, hl, rfl⟩ | ⟨k, l, hk, hl, rfl⟩ | ⟨k, l, hk1, hk2, hl, rfl⟩ | ⟨l, hl, rfl⟩)
      · exact ⟨[_, _], [_], rfl, .inl ⟨k, hk, rfl⟩, l, hl, rfl⟩
      · exact ⟨[_, _], [_], rfl, .inr (.inl ⟨k, hk, rfl⟩), l, hl, rfl⟩
      · exact ⟨[_], [_], rfl, .inr (.inr (.inl ⟨k, hk1, hk2, rfl⟩)), l, hl, rfl⟩
      · exact ⟨[], [_], rfl, .inr (.inr (.inr rfl)), l, hl, rfl⟩
  rw [key]
  constructor
  · rintro (⟨k, h, rfl⟩ | ⟨k, l, h, h', rfl⟩ | ⟨k, l, h, h', rfl⟩ | ⟨k, l, h0, h, h', rfl⟩ | ⟨l, h', rfl⟩)
    · refine ⟨250 + k, by omega, ?_⟩
      rw [dec_eq _ (by omega), dec, if_neg (by omega), if_neg (by omega)]
      rw [show (250 + k) / 100 = 2 by omega, show (250 + k) / 10 % 10 = 5 by omega, show (250 + k) % 10 = k by omega]; rfl
    · refine ⟨200 + 10 * k + l, by omega, ?_⟩
      rw [dec_eq _ (by omega), dec, if_neg (by omega), if_neg (by omega)]
      rw [show (200 + 10 * k + l) / 100 = 2 by omega, show (200 + 10 * k + l) / 10 % 10 = k by omega, show (200 + 10 * k + l) % 10 = l by omega]; rfl
    · refine ⟨100 + 10 * k + l, by omega, ?_⟩
      rw [dec_eq _ (by omega), dec, if_neg (by omega), if_neg (by omega)]
      rw [show (100 + 10 * k + l) / 100 = 1 by omega, show (100 + 10 * k + l) / 10 % 10 = k by omega, show (100 + 10 * k + l) % 10 = l by omega]; rfl
    · refine ⟨10 * k + l, by omega, ?_⟩
      rw [dec_eq _ (by omega), dec, if_neg (by omega), if_pos (by omega)]
      rw [show (10 * k + l) / 10 = k by omega, show (10 * k + l) % 10 = l by omega]
    · refine ⟨l, by omega, ?_⟩
      rw [dec_eq _ (by omega), dec, if_pos (by omega)]
  · rintro ⟨n, hn, rfl⟩
    rw [dec_eq n hn]
    unfold dec
    by_cases h1 : n < 10
    · rw [if_pos h1]; exact .inr (.inr (.inr (.inr ⟨n, by omega, rfl⟩)))
    rw [if_neg h1]
    by_cases h2 : n < 100
    · rw [if_pos h2]; exact .inr (.inr (.inr (.inl ⟨n / 10, n % 10, by omega, by omega, by omega, rfl⟩)))
    rw [if_neg h2]
    by_cases h3 : n < 200
    · refine .inr (.inr (.inl ⟨n / 10 % 10, n % 10, by omega, by omega, ?_⟩))
      rw [show n / 100 = 1 by omega]; rfl
    by_cases h4 : n < 250
    · refine .inr (.inl ⟨n / 10 % 10, n % 10, by omega, by omega, ?_⟩)
      rw [show n / 100 = 2 by omega]; rfl
    · refine .inl ⟨n % 10, by omega, ?_⟩
      rw [show n / 100 = 2 by omega, show n / 10 % 10 = 5 by omega]; rfl

theorem octet_solid : Solid Octet := by
  have h : ∀ n, n < 256 → (!(bytes (toString n)).isEmpty && (bytes (toString n)).all isWord) = true := by decide +kernel
  rintro w ⟨n, hn, rfl⟩
  exact solid_bytes (h n hn)

/-- one number, possibly a dot, and a boundary -/
def group : Re := seqs [oct, opt (lit "."), .wb]

theorem ipV4_eq : ipV4 = seqs [.wb, seqs [group, group, group, group], .wb] := rfl

theorem at_first {t w : Bytes} {i j : Nat} (h : At t i w j) (hs : w ≠ []) (hc : ∀ c ∈ w, Word c) : wordAt t i ∧ 0 < j ∧ wordAt t (j - 1) := by
  obtain ⟨rfl, h2⟩ := h
  have hl := List.length_pos_iff.2 hs
  have h0 := h2 0 hl
  have h1 := h2 (w.length - 1) (by omega)
  rw [List.getElem?_eq_getElem hl, Nat.add_zero] at h0
  rw [List.getElem?_eq_getElem (l := w) (by omega), show i + (w.length - 1) = i + w.length - 1 by omega] at h1
  exact ⟨⟨_, h0, hc _ (List.getElem_mem _)⟩, by omega, ⟨_, h1, hc _ (List.getElem_mem _)⟩⟩

/-- a dot -/
abbrev dot : Bytes := bytes "."

theorem at_dot {t : Bytes} {i j : Nat} : At t i dot j ↔ j = i + 1 ∧ t[i]? = some 46 := by
  have hd : dot = [46] := by decide +kernel
  rw [hd]
  constructor
  · rintro ⟨h1, h2⟩; exact ⟨h1, by simpa using h2 0 (by decide)⟩
  · rintro ⟨h1, h2⟩
    refine ⟨h1, fun k hk => ?_⟩
    have : k = 0 := by simp at hk; omega
    subst this; simpa using h2

theorem not_word_dot {t : Bytes} {i : Nat} (h : t[i]? = some 46) : ¬ wordAt t i := by
  rintro ⟨c, hc, hw⟩
  rw [h] at hc
  injection hc with hc
  subst hc
  have := (word_iff 46).2 hw
  exact absurd this (by decide +kernel)

theorem M_group {t : Bytes} {i j : Nat} : M t group i j ↔ ∃ w k, Octet w ∧ At t i w k ∧ (j = k ∨ At t k dot j) ∧ Boundary t j := by
  unfold group
  rw [M_cons]
  constructor
  · rintro ⟨k, h1, h2⟩
    obtain ⟨w, hl, hat⟩ := (C240_words (noWb_iff.1 rfl) _ _).1 h1
    obtain ⟨l, h3, h4⟩ := M_cons.1 h2
    have h4' : M t .wb l j := h4
    obtain ⟨rfl, hb⟩ := M_wb.1 h4'
    refine ⟨w, k, oct_iff.1 hl, hat, ?_, hb⟩
    obtain ⟨d, hd, hat'⟩ := (C240_words (noWb_iff.1 rfl) _ _).1 h3
    rcases (L_opt L_lit d).1 hd with hd | rfl
    · right
      rw [(hd : d = bytes ".")] at hat'
      exact hat'
    · exact .inl (by simpa using hat'.1)
  · rintro ⟨w, k, ho, hat, hd, hb⟩
    refine ⟨k, (C240_words (noWb_iff.1 rfl) _ _).2 ⟨w, oct_iff.2 ho, hat⟩, M_cons.2 ⟨j, ?_, M_wb.2 ⟨rfl, hb⟩⟩⟩
    refine (C240_words (noWb_iff.1 rfl) _ _).2 ?_
    rcases hd with rfl | hd
    · exact ⟨[], (L_opt L_lit _).2 (.inr rfl), rfl, fun k hk => absurd hk (by simp)⟩
    · exact ⟨bytes ".", (L_opt L_lit _).2 (.inl rfl), hd⟩

/-- a group before another one ends with a dot -/
theorem group_dot {t : Bytes} {i j : Nat} (hj : wordAt t j) : M t group i j ↔ ∃ w, Octet w ∧ At t i (w ++ dot) j := by
  rw [M_group]
  constructor
  · rintro ⟨w, k, ho, hat, rfl | hd, hb⟩
    · have := at_first hat (octet_solid w ho).1 (octet_solid w ho).2
      exact absurd ⟨fun _ => hj, fun _ => this.2⟩ hb
    · exact ⟨w, ho, at_append.2 ⟨k, hat, hd⟩⟩
  · rintro ⟨w, ho, hat⟩
    obtain ⟨k, h1, h2⟩ := at_append.1 hat
    refine ⟨w, k, ho, h1, .inr h2, fun hb => ?_⟩
    obtain ⟨rfl, hk⟩ := at_dot.1 h2
    exact not_word_dot hk (hb.2 hj).2

/-- the last group may do without it -/
theorem group_last {t : Bytes} {i : Nat} : (∃ j, M t group i j) ↔ ∃ w k, Octet w ∧ At t i w k ∧ Boundary t k := by
  constructor
  · rintro ⟨j, h⟩
    obtain ⟨w, k, ho, hat, rfl | hd, hb⟩ := M_group.1 h
    · exact ⟨w, j, ho, hat, hb⟩
    · refine ⟨w, k, ho, hat, fun hk => ?_⟩
      have := at_first hat (octet_solid w ho).1 (octet_solid w ho).2
      exact not_word_dot (at_dot.1 hd).2 (hk.1 this.2)
  · rintro ⟨w, k, ho, hat, hb⟩
    exact ⟨k, M_group.2 ⟨w, k, ho, hat, .inl rfl, hb⟩⟩

theorem group_word {t : Bytes} {i j : Nat} (h : M t group i j) : wordAt t i := by
  obtain ⟨w, k, ho, hat, _⟩ := M_group.1 h
  exact (at_first hat (octet_solid w ho).1 (octet_solid w ho).2).1

theorem group_bound {t : Bytes} {i j : Nat} (h : M t group i j) : Boundary t j := by
  obtain ⟨w, k, _, _, _, hb⟩ := M_group.1 h
  exact hb

/-- a dotted quad -/
def Quad : Bytes → Prop := Cat [Octet, Lit ".", Octet, Lit ".", Octet, Lit ".", Octet]

theorem cat_at {t : Bytes} {P : Bytes → Prop} {Ps : List (Bytes → Prop)} {i k : Nat} :
    (∃ w, Cat (P :: Ps) w ∧ At t i w k) ↔ ∃ u j, P u ∧ At t i u j ∧ ∃ w, Cat Ps w ∧ At t j w k := by
  constructor
  · rintro ⟨w, ⟨u, v, rfl, h1, h2⟩, hat⟩
    obtain ⟨j, h3, h4⟩ := at_append.1 hat
    exact ⟨u, j, h1, h3, v, h2, h4⟩
  · rintro ⟨u, j, h1, h2, v, h3, h4⟩
    exact ⟨u ++ v, ⟨u, v, rfl, h1, h3⟩, at_append.2 ⟨j, h2, h4⟩⟩

theorem quad_first {w : Bytes} (h : Quad w) : ∃ c, w.head? = some c ∧ Word c := cat_first octet_solid h
theorem quad_last {w : Bytes} (h : Quad w) : ∃ c, w.getLast? = some c ∧ Word c := cat_last (Ps := [_, _, _, _, _, _]) (solid_ends octet_solid) h

theorem quad_M {t : Bytes} {i : Nat} : (∃ j, M t (seqs [group, group, group, group]) i j) ↔ ∃ w k, Quad w ∧ At t i w k ∧ Boundary t k := by
  have hdot : ∀ {w i j}, At t i (w ++ dot) j ↔ ∃ k, At t i w k ∧ At t k (bytes ".") j := at_append
  constructor
  · rintro ⟨j, h⟩
    obtain ⟨a, h1, h⟩ := M_cons.1 h
    obtain ⟨b, h2, h⟩ := M_cons.1 h
    obtain ⟨c, h3, h4⟩ := M_cons.1 h
    obtain ⟨w1, o1, t1⟩ := (group_dot (group_word h2)).1 h1
    obtain ⟨w2, o2, t2⟩ := (group_dot (group_word h3)).1 h2
    obtain ⟨w3, o3, t3⟩ := (group_dot (group_word (j := j) h4)).1 h3
    obtain ⟨w4, k, o4, t4, hb⟩ := group_last.1 ⟨j, h4⟩
    refine ⟨w1 ++ (dot ++ (w2 ++ (dot ++ (w3 ++ (dot ++ w4))))), k,
      ⟨w1, _, rfl, o1, _, _, rfl, rfl, w2, _, rfl, o2, _, _, rfl, rfl, w3, _, rfl, o3, _, _, rfl, rfl, w4, [], by simp, o4, rfl⟩, ?_, hb⟩
    obtain ⟨k1, u1, u1'⟩ := hdot.1 t1
    obtain ⟨k2, u2, u2'⟩ := hdot.1 t2
    obtain ⟨k3, u3, u3'⟩ := hdot.1 t3
    exact at_append.2 ⟨_, u1, at_append.2 ⟨_, u1', at_append.2 ⟨_, u2, at_append.2 ⟨_, u2', at_append.2 ⟨_, u3, at_append.2 ⟨_, u3', t4⟩⟩⟩⟩⟩⟩
  · rintro ⟨w, k, ⟨w1, _, rfl, o1, _, _, rfl, rfl, w2, _, rfl, o2, _, _, rfl, rfl, w3, _, rfl, o3, _, _, rfl, rfl, w4, _, rfl, o4, rfl⟩, hat, hb⟩
    rw [List.append_nil] at hat
    obtain ⟨_, u1, hat⟩ := at_append.1 hat
    obtain ⟨a, u1', hat⟩ := at_append.1 hat
    obtain ⟨_, u2, hat⟩ := at_append.1 hat
    obtain ⟨b, u2', hat⟩ := at_append.1 hat
    obtain ⟨_, u3, hat⟩ := at_append.1 hat
    obtain ⟨c, u3', u4⟩ := at_append.1 hat
    have f : ∀ {w i j}, Octet w → At t i w j → wordAt t i := fun ho hat => (at_first hat (octet_solid _ ho).1 (octet_solid _ ho).2).1
    obtain ⟨j, h4⟩ := group_last.2 ⟨w4, k, o4, u4, hb⟩
    exact ⟨j, M_cons.2 ⟨a, (group_dot (f o2 u2)).2 ⟨w1, o1, hdot.2 ⟨_, u1, u1'⟩⟩, M_cons.2 ⟨b, (group_dot (f o3 u3)).2 ⟨w2, o2, hdot.2 ⟨_, u2, u2'⟩⟩,
      M_cons.2 ⟨c, (group_dot (f o4 u4)).2 ⟨w3, o3, hdot.2 ⟨_, u3, u3'⟩⟩, h4⟩⟩⟩⟩

/-- **C241** IP V4 addresses: four numbers from 0 to 255 without leading zeros, separated by dots, standing alone. -/
theorem C241_ipv4 {t : Bytes} : findAll ipV4 t ≠ [] ↔ StandsAlone (Cat [Octet, Lit ".", Octet, Lit ".", Octet, Lit ".", Octet]) t := by
  have hend : ∀ {i j}, M t (seqs [group, group, group, group]) i j → Boundary t j := by
    intro i j h
    obtain ⟨a, h1, h⟩ := M_cons.1 h
    obtain ⟨b, h2, h⟩ := M_cons.1 h
    obtain ⟨c, h3, h4⟩ := M_cons.1 h
    exact group_bound (i := c) h4
  rw [C240_found, ipV4_eq]
  constructor
  · rintro ⟨i, j, hij, hj, hm⟩
    obtain ⟨k, h1, h2⟩ := M_cons.1 hm
    obtain ⟨rfl, hb⟩ := M_wb.1 h1
    obtain ⟨l, h3, _⟩ := M_cons.1 h2
    obtain ⟨w, k', hq, hat, hb'⟩ := quad_M.1 ⟨l, h3⟩
    obtain ⟨pre, post, rfl, rfl, rfl⟩ := (at_iff (by omega)).1 hat
    obtain ⟨c, e1, e2⟩ := quad_first hq
    obtain ⟨d, e3, e4⟩ := quad_last hq
    exact ⟨pre, w, post, rfl, hq, (alone_iff e1 e2 e3 e4).1 ⟨hb, hb'⟩⟩
  · rintro ⟨pre, w, post, rfl, hq, hal⟩
    obtain ⟨c, e1, e2⟩ := quad_first hq
    obtain ⟨d, e3, e4⟩ := quad_last hq
    obtain ⟨hb, hb'⟩ := (alone_iff e1 e2 e3 e4).2 hal
    obtain ⟨j, hm⟩ := quad_M.2 ⟨w, _, hq, (at_iff (by simp)).2 ⟨pre, post, rfl, rfl, rfl⟩, hb'⟩
    have hle := M_le hm (by simp)
    refine ⟨pre.length, j, ?_, hle.2, M_cons.2 ⟨pre.length, M_wb.2 ⟨rfl, hb⟩, M_cons.2 ⟨j, hm, M_wb.2 ⟨rfl, hend hm⟩⟩⟩⟩
    have hbj := hend hm
    have hne : pre.length ≠ j := by
      intro he
      obtain ⟨a, h1, h⟩ := M_cons.1 hm
      obtain ⟨b, h2, h⟩ := M_cons.1 h
      obtain ⟨c', h3, h4⟩ := M_cons.1 h
      obtain ⟨w1, o1, t1⟩ := (group_dot (group_word h2)).1 h1
      have l1 := M_le h1 (by simp)
      have l2 := M_le h2 l1.2
      have l3 := M_le h3 l2.2
      have l4 := M_le (j := j) h4 l3.2
      have := t1.1
      have hd : dot.length = 1 := by decide +kernel
      rw [List.length_append, hd] at this
      omega
    omega

/-- **C241** `DetectPII` answers yes exactly if one of the twenty patterns finds something; for example for every text in which a dotted quad
stands alone. -/
theorem C241_detect {order : List Re} (h : ∀ p, p ∈ order ↔ p ∈ patterns) (t : Bytes) (o : Bool) :
    (detectPII findAll order t o).2 = true ↔
      ∃ p ∈ patterns, ∃ i j, i < j ∧ j ≤ t.length ∧ M t p i j := by
  rw [C78_answer]
  simp only [h, C240_found]

/-! the hypotheses are met -/

/-- an address in a text -/
example : StandsAlone (Cat [Octet, Lit ".", Octet, Lit ".", Octet, Lit ".", Octet]) (bytes "host 10.0.0.255, up") := by
  refine ⟨bytes "host ", bytes "10.0.0.255", bytes ", up", by decide +kernel, ?_, ?_, ?_⟩
  · exact ⟨bytes "10", bytes ".0.0.255", by decide +kernel, ⟨10, by decide, by decide +kernel⟩, bytes ".", bytes "0.0.255", by decide +kernel, rfl,
      bytes "0", bytes ".0.255", by decide +kernel, ⟨0, by decide, by decide +kernel⟩, bytes ".", bytes "0.255", by decide +kernel, rfl,
      bytes "0", bytes ".255", by decide +kernel, ⟨0, by decide, by decide +kernel⟩, bytes ".", bytes "255", by decide +kernel, rfl,
      bytes "255", [], by decide +kernel, ⟨255, by decide, by decide +kernel⟩, rfl⟩
  · intro c hc
    have : c = 32 := by
      have : (bytes "host ").getLast? = some 32 := by decide +kernel
      rw [this] at hc; injection hc with hc; exact hc.symm
    subst this
    exact fun h => absurd ((word_iff 32).2 h) (by decide +kernel)
  · intro c hc
    have : c = 44 := by
      have : (bytes ", up").head? = some 44 := by decide +kernel
      rw [this] at hc; injection hc with hc; exact hc.symm
    subst this
    exact fun h => absurd ((word_iff 44).2 h) (by decide +kernel)

/-- and the pattern does find it -/
example : findAll ipV4 (bytes "host 10.0.0.255, up") = [(5, 15)] := by decide +kernel

end Verif.Props.PiiPat
