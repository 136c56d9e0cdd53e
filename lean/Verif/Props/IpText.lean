import Verif.Props.Ip
/-
Property C265, further: which characters are digits, and that the text of an address shortens the longest run of zeros, the first one if there are several.
-/
namespace Verif.Ip

/-- the decimal digits and what they stand for (specification) -/
def decTable : List (Char × Nat) := "0123456789".toList.zip (List.range 10)

/-- the hexadecimal digits and what they stand for (specification) -/
def hexTable : List (Char × Nat) := "0123456789abcdef".toList.zip (List.range 16) ++ "ABCDEF".toList.zip [10, 11, 12, 13, 14, 15]

theorem table_iff (fig : Char → Option Nat) (t : List (Char × Nat)) (h1 : ∀ n, n < 128 → ∀ d, d < 16 → (fig (Char.ofNat n) = some d ↔ (Char.ofNat n, d) ∈ t))
    (h2 : ∀ c d, fig c = some d → c.toNat < 128 ∧ d < 16) (h3 : ∀ e ∈ t, e.1.toNat < 128 ∧ e.2 < 16) (c : Char) (d : Nat) : fig c = some d ↔ (c, d) ∈ t := by
  constructor
  · intro h
    obtain ⟨hc, hd⟩ := h2 c d h
    have := (h1 c.toNat hc d hd).1 (by rw [Char.ofNat_toNat]; exact h)
    rwa [Char.ofNat_toNat] at this
  · intro h
    obtain ⟨hc, hd⟩ := h3 (c, d) h
    have := (h1 c.toNat hc d hd).2 (by rw [Char.ofNat_toNat]; exact h)
    rwa [Char.ofNat_toNat] at this

/-- **C265**. The characters read as hexadecimal digits, and what each stands for: capital and small letters alike. -/
theorem C265_hex_digits (c : Char) (d : Nat) : hexFig c = some d ↔ (c, d) ∈ hexTable := by
  refine table_iff hexFig hexTable (by decide +kernel) (fun c d h => ?_) (by decide +kernel) c d
  unfold hexFig at h
  repeat' split at h
  all_goals first | cases h | skip
  all_goals omega

/-- **C265**. The characters read as decimal digits. -/
theorem C265_dec_digits (c : Char) (d : Nat) : decFig c = some d ↔ (c, d) ∈ decTable := by
  refine table_iff decFig decTable (by decide +kernel) (fun c d h => ?_) (by decide +kernel) c d
  unfold decFig at h
  repeat' split at h
  all_goals first | cases h | skip
  all_goals omega

/-! ### the longest run -/

/-- how many zeros a list begins with (specification) -/
def run : List Nat → Nat
  | [] => 0
  | g :: t => if g = 0 then run t + 1 else 0

theorem zeros_run : ∀ l, zeros l = run l
  | [] => rfl
  | 0 :: t => by simp [zeros, run, zeros_run t]
  | (n + 1) :: t => by simp [zeros, run]

theorem run_drop : ∀ (k : Nat) (l : List Nat), k ≤ run l → run (l.drop k) = run l - k
  | 0, l, _ => by simp
  | k + 1, [], h => by simp [run] at h
  | k + 1, g :: t, h => by
    unfold run at h
    by_cases hg : g = 0
    · rw [if_pos hg] at h
      have := run_drop k t (by omega)
      rw [List.drop_succ_cons, this]
      simp only [run, hg, if_true]; omega
    · rw [if_neg hg] at h; omega

/-- what the search keeps: the best run so far begins before `i`, is one of the whole list, is at least as long as any that begins before `i`, and longer than any
that begins before it; the next `k` groups belong to it -/
structure Best (g : List Nat) (k i : Nat) (b : Nat × Nat) : Prop where
  le : b.1 ≤ b.2
  is : run (g.drop b.1) = b.2 - b.1 ∨ b = (0, 0)
  all : ∀ j, j < i → run (g.drop j) ≤ b.2 - b.1
  first : ∀ j, j < b.1 → run (g.drop j) < b.2 - b.1
  skip : 0 < k → run (g.drop i) < b.2 - b.1
  more : ∀ j, i ≤ j → j < i + k → run (g.drop j) < b.2 - b.1

theorem findRun_best (g : List Nat) : ∀ (t : List Nat) (k i : Nat) (b : Nat × Nat), t = g.drop i → Best g k i b →
    Best g 0 (i + t.length) (findRun k i t b)
  | [], k, i, b, _, h => by
    have h0 : findRun k i [] b = b := by cases k <;> rfl
    rw [h0]
    exact ⟨h.le, h.is, h.all, h.first, fun h => absurd h (by decide), fun j h1 h2 => by simp at h1 h2; omega⟩
  | x :: t, k + 1, i, b, ht, h => by
    have ht' : t = g.drop (i + 1) := by rw [← List.drop_drop, ← ht]; rfl
    have := findRun_best g t k (i + 1) b ht' ⟨h.le, h.is, fun j hj => ?_, h.first, fun hk => h.more (i + 1) (by omega) (by omega),
      fun j h1 h2 => h.more j (by omega) (by omega)⟩
    · simp only [findRun, List.length_cons]
      rwa [show i + 1 + t.length = i + (t.length + 1) by omega] at this
    · rcases Nat.lt_or_ge j i with h1 | h1
      · exact h.all j h1
      · exact Nat.le_of_lt (h.more j h1 (by omega))
  | x :: t, 0, i, b, ht, h => by
    have ht' : t = g.drop (i + 1) := by rw [← List.drop_drop, ← ht]; rfl
    have hz : zeros (x :: t) = run (g.drop i) := by rw [zeros_run, ht]
    simp only [findRun, List.length_cons]
    by_cases hb : b.2 - b.1 < zeros (x :: t)
    · rw [if_pos hb]
      have := findRun_best g t (zeros (x :: t)) (i + 1) (i, i + zeros (x :: t)) ht' ⟨?_, ?_, ?_, ?_, ?_, ?_⟩
      · rwa [show i + 1 + t.length = i + (t.length + 1) by omega] at this
      · exact Nat.le_add_right _ _
      · left; show run (g.drop i) = i + zeros (x :: t) - i; omega
      · intro j hj
        show run (g.drop j) ≤ i + zeros (x :: t) - i
        rcases Nat.lt_or_ge j i with h1 | h1
        · have := h.all j h1; omega
        · have : j = i := by omega
          rw [this]; omega
      · intro j hj
        have := h.all j hj
        show run (g.drop j) < i + zeros (x :: t) - i
        omega
      · intro _
        show run (g.drop (i + 1)) < i + zeros (x :: t) - i
        have := run_drop 1 (g.drop i) (by omega)
        rw [List.drop_drop] at this
        omega
      · intro j h1 h2
        show run (g.drop j) < i + zeros (x :: t) - i
        have := run_drop (j - i) (g.drop i) (by omega)
        rw [List.drop_drop, show i + (j - i) = j by omega] at this
        omega
    · rw [if_neg hb]
      have := findRun_best g t 0 (i + 1) b ht' ⟨h.le, h.is, fun j hj => ?_, h.first, fun h => absurd h (by decide), fun j h1 h2 => by omega⟩
      · rwa [show i + 1 + t.length = i + (t.length + 1) by omega] at this
      · rcases Nat.lt_or_ge j i with h1 | h1
        · exact h.all j h1
        · have : j = i := by omega
          rw [this]; omega
/-- the run of zeros the text of an address leaves out: from the group `b.1` up to before the group `b.2` (specification) -/
def Longest (g : List Nat) (b : Nat × Nat) : Prop :=
  b.1 ≤ b.2 ∧ (∀ j, run (g.drop j) ≤ b.2 - b.1) ∧ (∀ j, j < b.1 → run (g.drop j) < b.2 - b.1) ∧ (b = (0, 0) ∨ run (g.drop b.1) = b.2 - b.1)

/-- **C265**. The groups left out are the longest run of zeros, and the first of the longest ones. -/
theorem C265_longest (g : List Nat) : Longest g (findRun 0 0 g (0, 0)) := by
  have h := findRun_best g g 0 0 (0, 0) rfl ⟨Nat.le_refl _, Or.inr rfl, fun j hj => absurd hj (Nat.not_lt_zero j), fun j hj => absurd hj (Nat.not_lt_zero j),
    fun h => absurd h (by decide), fun j h1 h2 => by omega⟩
  refine ⟨h.le, fun j => ?_, h.first, h.is.symm⟩
  rcases Nat.lt_or_ge j (0 + g.length) with hj | hj
  · exact h.all j hj
  · rw [List.drop_of_length_le (by omega)]; exact Nat.zero_le _

/-- the run is determined by its description -/
theorem Longest.unique {g : List Nat} {b c : Nat × Nat} (hb : Longest g b) (hc : Longest g c) : b = c := by
  obtain ⟨b1, b2⟩ := b
  obtain ⟨c1, c2⟩ := c
  obtain ⟨lb, ab, fb, ib⟩ := hb
  obtain ⟨lc, ac, fc, ic⟩ := hc
  simp only at *
  have e1 := ab c1
  have e2 := ac b1
  have f1 := ab 0
  have f2 := ac 0
  rcases ib with ib | ib <;> rcases ic with ic | ic
  · rw [ib, ic]
  · simp only [Prod.mk.injEq] at ib
    obtain ⟨rfl, rfl⟩ := ib
    rcases Nat.lt_trichotomy 0 c1 with h | h | h
    · have := fc 0 h; omega
    · subst h; simp only [Prod.mk.injEq, true_and]; omega
    · omega
  · simp only [Prod.mk.injEq] at ic
    obtain ⟨rfl, rfl⟩ := ic
    rcases Nat.lt_trichotomy 0 b1 with h | h | h
    · have := fb 0 h; omega
    · subst h; simp only [Prod.mk.injEq, true_and]; omega
    · omega
  · rcases Nat.lt_trichotomy b1 c1 with h | h | h
    · have := fc b1 h; omega
    · subst h; simp only [Prod.mk.injEq, true_and]; omega
    · have := fb c1 h; omega

/-- **C265**. The text of an IPv6 address whose longest run of zeros is `b`: the groups before and after it around `::`, or all the groups if the longest run is
a single zero or there is none. -/
theorem C265_shortened {g : List Nat} {b : Nat × Nat} (hb : Longest g b) :
    text6 g = if b.2 - b.1 ≤ 1 then join ':' (g.map hexText) else join ':' ((g.take b.1).map hexText) ++ "::".toList ++ join ':' ((g.drop b.2).map hexText) := by
  rw [hb.unique (C265_longest g)]
  simp [text6]

example : findRun 0 0 [1, 0, 0, 2, 0, 0, 0, 3] (0, 0) = (4, 7) := by decide
example : findRun 0 0 [1, 0, 0, 2, 0, 0, 3, 4] (0, 0) = (1, 3) := by decide
example : Longest [1, 0, 0, 2, 0, 0, 0, 3] (4, 7) := C265_longest [1, 0, 0, 2, 0, 0, 0, 3]

end Verif.Ip
