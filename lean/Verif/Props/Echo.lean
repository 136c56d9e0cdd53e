import Verif.Exp.Echo

/-! # C291: The echo server answers every line -/

namespace Verif.Echo

/-! ### Specification -/

/-- A line: no newline but the last byte. -/
def Line (l : List Nat) : Prop := ∃ w, l = w ++ [nl] ∧ nl ∉ w

/-- The answers to lines, numbered from `n`: those whose writes succeed. -/
def answers (pre : List Nat) (ok : Nat → Bool) : Nat → List (List Nat) → List Nat
  | _, [] => []
  | n, l :: r => (if ok n then pre ++ [32] ++ l else []) ++ answers pre ok (n + 1) r

/-! ### Proofs -/

theorem piece_append (pre : List Nat) (ok : Nat → Bool) (s : St) (a b : List Nat) :
    piece pre ok s (a ++ b) = piece pre ok (piece pre ok s a) b := List.foldl_append

theorem pieces (pre : List Nat) (ok : Nat → Bool) (ps : List (List Nat)) : ∀ s,
    ps.foldl (piece pre ok) s = piece pre ok s ps.flatten := by
  induction ps with
  | nil => exact fun _ => rfl
  | cons p r ih =>
    intro s
    show r.foldl (piece pre ok) (piece pre ok s p) = _
    rw [ih, List.flatten_cons, piece_append]

theorem noNl (pre : List Nat) (ok : Nat → Bool) (w : List Nat) : ∀ s : St, nl ∉ w →
    piece pre ok s w = { s with part := s.part ++ w } := by
  induction w with
  | nil => intro s _; show s = _; simp
  | cons b r ih =>
    intro s h
    rw [List.mem_cons, not_or] at h
    show piece pre ok (byte pre ok s b) r = _
    have hb : byte pre ok s b = { s with part := s.part ++ [b] } := by
      unfold byte
      rw [if_neg (fun h' => h.1 h'.symm)]
    rw [hb, ih _ h.2]
    simp

theorem line (pre : List Nat) (ok : Nat → Bool) (s : St) (l : List Nat) (h : Line l) (hp : s.part = []) :
    piece pre ok s l = { part := [], sent := s.sent ++ (if ok s.writes then pre ++ [32] ++ l else []), writes := s.writes + 1 } := by
  obtain ⟨w, rfl, hw⟩ := h
  rw [piece_append, noNl pre ok w s hw]
  show byte pre ok _ nl = _
  unfold byte
  rw [if_pos rfl]
  unfold answer
  dsimp only
  rw [hp]
  cases ok s.writes <;> simp

theorem lines (pre : List Nat) (ok : Nat → Bool) (ls : List (List Nat)) : ∀ s : St, (∀ l ∈ ls, Line l) → s.part = [] →
    piece pre ok s ls.flatten = { part := [], sent := s.sent ++ answers pre ok s.writes ls, writes := s.writes + ls.length } := by
  induction ls with
  | nil =>
    intro s _ hp
    show s = _
    cases s
    simp [answers] at hp ⊢
    exact hp
  | cons l r ih =>
    intro s h hp
    rw [List.flatten_cons, piece_append, line pre ok s l (h l List.mem_cons_self) hp, ih _ (fun x hx => h x (List.mem_cons_of_mem _ hx)) rfl]
    simp only [answers, List.append_assoc, List.length_cons, St.mk.injEq, true_and]
    omega

/-- Every text is lines and a rest without newline. -/
theorem split_lines (t : List Nat) : ∃ (ls : List (List Nat)) (rest : List Nat), t = ls.flatten ++ rest ∧ (∀ l ∈ ls, Line l) ∧ nl ∉ rest := by
  induction t with
  | nil => exact ⟨[], [], rfl, by simp, by simp⟩
  | cons b r ih =>
    obtain ⟨ls, rest, rfl, hl, hr⟩ := ih
    by_cases hb : b = nl
    · subst hb
      refine ⟨[nl] :: ls, rest, by simp, ?_, hr⟩
      intro l h
      rcases List.mem_cons.1 h with rfl | h
      · exact ⟨[], rfl, by simp⟩
      · exact hl l h
    · cases ls with
      | nil =>
        refine ⟨[], b :: rest, by simp, by simp, ?_⟩
        rw [List.mem_cons, not_or]
        exact ⟨fun h => hb h.symm, hr⟩
      | cons l ls =>
        refine ⟨(b :: l) :: ls, rest, by simp, ?_, hr⟩
        intro x h
        rcases List.mem_cons.1 h with rfl | h
        · obtain ⟨w, rfl, hw⟩ := hl l List.mem_cons_self
          refine ⟨b :: w, rfl, ?_⟩
          rw [List.mem_cons, not_or]
          exact ⟨fun h => hb h.symm, hw⟩
        · exact hl x (List.mem_cons_of_mem _ h)

/-- **C291** Whatever the pieces in which lines arrive, and whatever is left of a last line: while writes
succeed, what is sent is for each line, in order, the prefix, a blank, and the line as it was, and nothing
else. -/
theorem C291_answers_partial (pre : List Nat) (ps : List (List Nat)) (ls : List (List Nat)) (rest : List Nat)
    (hl : ∀ l ∈ ls, Line l) (hr : nl ∉ rest) (h : ps.flatten = ls.flatten ++ rest) :
    (handle pre (fun _ => true) ps).sent = (ls.map (fun l => pre ++ [32] ++ l)).flatten := by
  unfold handle
  rw [pieces, h, piece_append, lines pre _ ls {} hl rfl, noNl pre _ rest _ hr]
  show [] ++ answers pre (fun _ => true) 0 ls = _
  rw [List.nil_append]
  have : ∀ (ls : List (List Nat)) n, answers pre (fun _ => true) n ls = (ls.map (fun l => pre ++ [32] ++ l)).flatten := by
    intro ls
    induction ls with
    | nil => exact fun _ => rfl
    | cons l r ih => intro n; simp [answers, ih]
  exact this ls 0

/-- **C291** All bytes that arrive are lines and a rest, so that the above speaks of every connection. -/
theorem C291_lines (ps : List (List Nat)) :
    ∃ (ls : List (List Nat)) (rest : List Nat), ps.flatten = ls.flatten ++ rest ∧ (∀ l ∈ ls, Line l) ∧ nl ∉ rest := split_lines _

/-- **C291** If writes fail, the answers to exactly these lines are missing, and the others are sent. -/
theorem C291_failing (pre : List Nat) (ok : Nat → Bool) (ps : List (List Nat)) (ls : List (List Nat)) (rest : List Nat)
    (hl : ∀ l ∈ ls, Line l) (hr : nl ∉ rest) (h : ps.flatten = ls.flatten ++ rest) :
    (handle pre ok ps).sent = answers pre ok 0 ls ∧ (handle pre ok ps).writes = ls.length ∧ (handle pre ok ps).part = rest := by
  unfold handle
  rw [pieces, h, piece_append, lines pre ok ls {} hl rfl, noNl pre ok rest _ hr]
  refine ⟨List.nil_append _, Nat.zero_add _, List.nil_append _⟩

/-- **C291 (fails)** A last line without a newline is not answered, also when the peer has finished
sending. -/
theorem C291_rest_false (pre : List Nat) (ok : Nat → Bool) (ps : List (List Nat)) (rest : List Nat) (hr : nl ∉ rest) :
    (handle pre ok (ps ++ [rest])).sent = (handle pre ok ps).sent := by
  unfold handle
  rw [List.foldl_append]
  show (piece pre ok _ rest).sent = _
  rw [noNl pre ok rest _ hr]

/-! ### The hypotheses are met -/

example : (handle [1, 2] (fun _ => true) [[5, 6], [7, 10, 8], [10, 9]]).sent = [1, 2, 32, 5, 6, 7, 10, 1, 2, 32, 8, 10] := by decide
example : Line [5, 6, 7, 10] := ⟨[5, 6, 7], rfl, by decide⟩

end Verif.Echo
