import Verif.Kafka.VersionRange
/-
Property theorems C25: version range strings.
-/
namespace Verif.Props
open Verif Verif.Kafka

/-! Specification: what a version string denotes. -/

def IsDigit (c : Char) : Prop := '0' ≤ c ∧ c ≤ '9'
/-- value of a digit string -/
def decVal (s : List Char) : Nat := s.foldl (fun n c => n * 10 + (c.toNat - 48)) 0
/-- `s` is a decimal numeral for the version `n` -/
def Numeral (s : List Char) (n : Int) : Prop := s ≠ [] ∧ (∀ c ∈ s, IsDigit c) ∧ n = decVal s ∧ n ≤ 32767

/-- "a-b", "a+" and "a" -/
inductive Denotes : List Char → Int → Int → Prop
  | range {a b : List Char} {m n : Int} : Numeral a m → Numeral b n → Denotes (a ++ '-' :: b) m n
  | from {a : List Char} {m : Int} : Numeral a m → Denotes (a ++ ['+']) m 32767
  | one {a : List Char} {m : Int} : Numeral a m → Denotes a m m

theorem splitOn_none (c : Char) : ∀ s : List Char, c ∉ s → splitOn c s = [s]
  | [], _ => rfl
  | x :: s, h => by
    have hx : x ≠ c := fun e => h (by simp [e])
    have hs : c ∉ s := fun e => h (by simp [e])
    simp [splitOn, hx, splitOn_none c s hs]

theorem splitOn_append (c : Char) (b : List Char) : ∀ a : List Char, c ∉ a → splitOn c (a ++ c :: b) = a :: splitOn c b
  | [], _ => by simp [splitOn]
  | x :: a, h => by
    have hx : x ≠ c := fun e => h (by simp [e])
    have ha : c ∉ a := fun e => h (by simp [e])
    simp [splitOn, hx, splitOn_append c b a ha]

theorem splitOn_one {c : Char} : ∀ {s a : List Char}, splitOn c s = [a] → s = a ∧ c ∉ s
  | [], a, h => by simp [splitOn] at h; simp [h]
  | x :: s, a, h => by
    unfold splitOn at h
    split at h
    · rename_i hx
      simp at h
      cases s with
      | nil => simp [splitOn] at h
      | cons y s =>
        unfold splitOn at h
        split at h
        · simp at h
        · split at h <;> simp at h
    · rename_i hx
      split at h
      · rename_i h' t heq
        simp at h
        obtain ⟨h1, h2⟩ := h
        subst h2
        obtain ⟨e1, e2⟩ := splitOn_one heq
        subst h1
        refine ⟨by rw [e1], ?_⟩
        simp [e2, Ne.symm hx]
      · rename_i heq
        cases s <;> simp [splitOn] at heq
        split at heq
        · simp at heq
        · split at heq <;> simp at heq

theorem splitOn_two {c : Char} : ∀ {s a b : List Char}, splitOn c s = [a, b] → s = a ++ c :: b ∧ c ∉ a ∧ c ∉ b
  | [], a, b, h => by simp [splitOn] at h
  | x :: s, a, b, h => by
    unfold splitOn at h
    split at h
    · rename_i hx
      simp only [List.cons.injEq] at h
      obtain ⟨rfl, h⟩ := h
      obtain ⟨rfl, h2⟩ := splitOn_one h
      simp [hx, h2]
    · rename_i hx
      split at h
      · rename_i h' t heq
        simp only [List.cons.injEq] at h
        obtain ⟨rfl, rfl⟩ := h
        obtain ⟨e1, e2, e3⟩ := splitOn_two heq
        refine ⟨by rw [e1]; rfl, ?_, e3⟩
        simp [e2, Ne.symm hx]
      · simp at h

theorem parseDigits_of (s : List Char) : ∀ acc, (∀ c ∈ s, IsDigit c) →
    parseDigits s acc = some (s.foldl (fun n c => n * 10 + (c.toNat - 48)) acc) := by
  induction s with
  | nil => intro acc _; rfl
  | cons c s ih =>
    intro acc h
    have hc : '0' ≤ c ∧ c ≤ '9' := h c (by simp)
    simp only [parseDigits, hc, and_self, ↓reduceIte, List.foldl_cons]
    exact ih _ fun d hd => h d (by simp [hd])

theorem parseDigits_some {s : List Char} : ∀ {acc n}, parseDigits s acc = some n →
    (∀ c ∈ s, IsDigit c) ∧ n = s.foldl (fun n c => n * 10 + (c.toNat - 48)) acc := by
  induction s with
  | nil => intro acc n h; simp [parseDigits] at h; simp [h]
  | cons c s ih =>
    intro acc n h
    unfold parseDigits at h
    split at h
    · rename_i hc
      obtain ⟨h1, h2⟩ := ih h
      refine ⟨?_, h2⟩
      intro d hd
      rcases List.mem_cons.mp hd with rfl | hd
      · exact hc
      · exact h1 d hd
    · simp at h

theorem plus_not_digit : ¬ IsDigit '+' := by unfold IsDigit; decide
theorem minus_not_digit : ¬ IsDigit '-' := by unfold IsDigit; decide

theorem parseInt16_numeral {s : List Char} {n : Int} (h : Numeral s n) : parseInt16 s = some n := by
  obtain ⟨h1, h2, h3, h4⟩ := h
  have hp : '+' ∉ s := fun hm => plus_not_digit (h2 _ hm)
  have hm : '-' ∉ s := fun hm => minus_not_digit (h2 _ hm)
  unfold parseInt16
  have hd := parseDigits_of s 0 h2
  split
  · simp at hp
  · simp at hm
  · simp only [h1, ↓reduceIte, hd]
    simp only [decVal] at h3
    simp only [Bool.false_eq_true, ↓reduceIte]
    rw [← h3, if_pos ⟨by omega, h4⟩]

theorem numeral_of_parse {s : List Char} {n : Int} (h : parseInt16 s = some n) (hp : '+' ∉ s) (hm : '-' ∉ s) :
    Numeral s n := by
  unfold parseInt16 at h
  split at h
  · simp at hp
  · simp at hm
  · simp only at h
    split at h
    · simp at h
    · rename_i hne
      split at h
      · simp at h
      · rename_i k hk
        obtain ⟨h1, h2⟩ := parseDigits_some hk
        simp only [Bool.false_eq_true, ↓reduceIte] at h
        split at h
        · rename_i hr
          injection h with h
          exact ⟨hne, h1, by rw [← h, h2]; rfl, by omega⟩
        · simp at h

theorem Numeral.noPlus {s : List Char} {n : Int} (h : Numeral s n) : '+' ∉ s := fun hm => plus_not_digit (h.2.1 _ hm)
theorem Numeral.noMinus {s : List Char} {n : Int} (h : Numeral s n) : '-' ∉ s := fun hm => minus_not_digit (h.2.1 _ hm)

/-- C25: every string of the three forms is parsed to the range it denotes. -/
theorem C25_forms_parsed {s : List Char} {lo hi : Int} (h : Denotes s lo hi) : versionRange s = some (lo, hi) := by
  cases h with
  | range ha hb =>
    rename_i a b
    unfold versionRange
    rw [splitOn_append '-' b a ha.noMinus, splitOn_none '-' b hb.noMinus]
    simp [parseInt16_numeral ha, parseInt16_numeral hb]
  | «from» ha =>
    rename_i a
    unfold versionRange
    have hm : '-' ∉ a ++ ['+'] := by simp [ha.noMinus]
    rw [splitOn_none '-' _ hm]
    simp only []
    rw [splitOn_append '+' [] a ha.noPlus]
    simp [splitOn, parseInt16_numeral ha]
  | one ha =>
    unfold versionRange
    rw [splitOn_none '-' _ ha.noMinus]
    simp only []
    rw [splitOn_none '+' _ ha.noPlus]
    simp [parseInt16_numeral ha]

/-- C162: a string without '+' is accepted only if it denotes the range returned; every other one is an error. -/
theorem C162_others_rejected_partial {s : List Char} (hp : '+' ∉ s) {lo hi : Int}
    (h : versionRange s = some (lo, hi)) : Denotes s lo hi := by
  unfold versionRange at h
  split at h
  · rename_i a b hsp
    obtain ⟨rfl, ha, hb⟩ := splitOn_two hsp
    simp only [List.mem_append, List.mem_cons, not_or] at hp
    split at h
    · simp at h
    · rename_i lo' hlo
      split at h
      · simp at h
      · rename_i hi' hhi
        simp only [Option.some.injEq, Prod.mk.injEq] at h
        obtain ⟨rfl, rfl⟩ := h
        exact .range (numeral_of_parse hlo hp.1 ha) (numeral_of_parse hhi hp.2.2 hb)
  · rename_i hsp
    rw [splitOn_none '+' s hp] at h
    simp only at h
    split at h
    · rename_i v hv
      simp only [Option.some.injEq, Prod.mk.injEq] at h
      obtain ⟨rfl, rfl⟩ := h
      refine .one (numeral_of_parse hv hp ?_)
      intro hm
      -- a '-' can only be the sign, but then the string has exactly one '-' and was split
      obtain ⟨d, rfl⟩ : ∃ d, s = '-' :: d := by
        unfold parseInt16 at hv
        split at hv
        · simp at hp
        · exact ⟨_, rfl⟩
        · simp only at hv
          split at hv
          · simp at hv
          · split at hv
            · simp at hv
            · rename_i k hk
              exact absurd ((parseDigits_some hk).1 _ hm) minus_not_digit
      have hd : ∀ c ∈ d, IsDigit c := by
        unfold parseInt16 at hv
        simp only at hv
        split at hv
        · simp at hv
        · split at hv
          · simp at hv
          · rename_i k hk
            exact (parseDigits_some hk).1
      have hmd : '-' ∉ d := fun hm => minus_not_digit (hd _ hm)
      exact hsp [] d (by rw [show '-' :: d = [] ++ '-' :: d from rfl, splitOn_append '-' d [] (by simp), splitOn_none '-' d hmd])
    · simp at h

/-- C162 is false for strings with '+': whatever follows the '+' is ignored. -/
theorem C162_after_plus_false :
    versionRange "3+5".toList = some (3, 32767) ∧ ¬ Denotes "3+5".toList 3 32767 ∧
    versionRange "-5+-".toList = some (-5, 32767) := by
  refine ⟨by decide, ?_, by decide⟩
  intro h
  generalize hs : "3+5".toList = s at h
  have hs' : s = ['3', '+', '5'] := by rw [← hs]; decide
  cases h with
  | range ha hb =>
    rename_i a b
    have : '-' ∈ ['3', '+', '5'] := by rw [← hs']; simp
    exact absurd this (by decide)
  | «from» ha =>
    rename_i a
    have := congrArg List.getLast? hs'
    simp at this

example : Denotes "0-12".toList 0 12 := by
  have : "0-12".toList = "0".toList ++ '-' :: "12".toList := by decide
  rw [this]
  exact .range ⟨by decide, by unfold IsDigit; decide, by decide, by decide⟩ ⟨by decide, by unfold IsDigit; decide, by decide, by decide⟩
example : versionRange "1-2-3".toList = none ∧ versionRange "none".toList = none ∧ versionRange "".toList = none ∧
    versionRange "40000".toList = none := by decide

end Verif.Props
