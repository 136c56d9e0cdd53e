import Verif.Base
/-
Splitting and joining of text, as Go's `strings.Split` and `strings.Join` with a separator of one character.
-/
namespace Verif.Heimdall

/-- texts or bytes; models no code -/
abbrev Str := List Char

/-- `strings.Split(s, c)` -/
def split (c : Char) : Str → List Str
  | [] => [[]]
  | x :: s => if x = c then [] :: split c s else
    match split c s with
    | [] => [[x]]
    | p :: ps => (x :: p) :: ps

/-- `strings.SplitN(s, c, 2)` -/
def split2 (c : Char) : Str → Str × Option Str
  | [] => ([], none)
  | x :: s => if x = c then ([], some s) else ((x :: (split2 c s).1), (split2 c s).2)

/-- `strings.Join(l, c)` -/
def join (c : Char) : List Str → Str
  | [] => []
  | [p] => p
  | p :: q :: ps => p ++ c :: join c (q :: ps)

theorem split_ne_nil (c : Char) (s : Str) : split c s ≠ [] := by
  cases s with
  | nil => simp [split]
  | cons x s =>
    simp only [split]
    split
    · simp
    · split <;> simp

theorem join_split (c : Char) (s : Str) : join c (split c s) = s := by
  induction s with
  | nil => rfl
  | cons x s ih =>
    simp only [split]
    by_cases hx : x = c
    · rw [if_pos hx]
      cases hs : split c s with
      | nil => exact absurd hs (split_ne_nil c s)
      | cons p ps => rw [hs] at ih; simp only [join]; rw [ih, hx]; rfl
    · rw [if_neg hx]
      cases hs : split c s with
      | nil => exact absurd hs (split_ne_nil c s)
      | cons p ps =>
        rw [hs] at ih
        cases ps with
        | nil => simp only [join] at ih ⊢; rw [ih]
        | cons q ps => simp only [join] at ih ⊢; rw [List.cons_append, ih]

theorem split_free (c : Char) (s : Str) (h : c ∉ s) : split c s = [s] := by
  induction s with
  | nil => rfl
  | cons x s ih =>
    simp only [List.mem_cons, not_or] at h
    simp only [split]
    rw [if_neg (fun he => h.1 he.symm), ih h.2]

theorem split_append (c : Char) (p s : Str) (h : c ∉ p) : split c (p ++ c :: s) = p :: split c s := by
  induction p with
  | nil => simp [split]
  | cons x p ih =>
    simp only [List.mem_cons, not_or] at h
    simp only [List.cons_append, split]
    rw [if_neg (fun he => h.1 he.symm), ih h.2]

theorem split_join (c : Char) (l : List Str) (hn : l ≠ []) (h : ∀ p ∈ l, c ∉ p) : split c (join c l) = l := by
  induction l with
  | nil => exact absurd rfl hn
  | cons p ps ih =>
    cases ps with
    | nil => exact split_free c p (h p (by simp))
    | cons q ps =>
      simp only [join]
      rw [split_append c p _ (h p (by simp)), ih (by simp) (fun r hr => h r (by simp [List.mem_cons.mp hr]))]

theorem split_parts_free (c : Char) (s : Str) : ∀ p ∈ split c s, c ∉ p := by
  induction s with
  | nil => intro p hp; simp [split] at hp; subst hp; simp
  | cons x s ih =>
    intro p hp
    simp only [split] at hp
    by_cases hx : x = c
    · rw [if_pos hx] at hp
      simp only [List.mem_cons] at hp
      rcases hp with rfl | hp
      · simp
      · exact ih p hp
    · rw [if_neg hx] at hp
      cases hs : split c s with
      | nil => exact absurd hs (split_ne_nil c s)
      | cons q qs =>
        rw [hs] at hp ih
        simp only [List.mem_cons] at hp
        rcases hp with rfl | hp
        · have := ih q (by simp)
          simp only [List.mem_cons, not_or]
          exact ⟨fun he => hx he.symm, this⟩
        · exact ih p (by simp [hp])

theorem split2_append (c : Char) (p s : Str) (h : c ∉ p) : split2 c (p ++ c :: s) = (p, some s) := by
  induction p with
  | nil => simp [split2]
  | cons x p ih =>
    simp only [List.mem_cons, not_or] at h
    simp only [List.cons_append, split2]
    rw [if_neg (fun he => h.1 he.symm), ih h.2]

end Verif.Heimdall
