import Verif.Pool.Create
/-! # C40 continued: creating a pool -/
namespace Verif.Pool.Create

theorem drain_all {closes : Nat → Bool} : ∀ {l : List Nat}, (∀ c ∈ l, closes c = true) → drain closes l = l
  | [], _ => rfl
  | c :: l, h => by
    unfold drain
    rw [if_pos (h c (List.mem_cons_self ..)), drain_all (fun x hx => h x (List.mem_cons_of_mem _ hx))]

theorem make_spec (makes closes : Nat → Bool) : ∀ (k n : Nat),
    ((∀ i, n ≤ i → i < n + k → makes i = true) ∧
      make makes closes k n = ⟨.ok (List.range (n + k)), List.range (n + k), []⟩) ∨
    (∃ i, n ≤ i ∧ i < n + k ∧ makes i = false ∧ (∀ j, n ≤ j → j < i → makes j = true) ∧
      make makes closes k n = ⟨.error .factory, List.range i, drain closes (List.range i)⟩)
  | 0, n => .inl ⟨fun i h1 h2 => by omega, rfl⟩
  | k + 1, n => by
    unfold make
    cases hm : makes n
    · exact .inr ⟨n, Nat.le_refl _, by omega, hm, fun j h1 h2 => by omega, rfl⟩
    · rw [if_pos rfl]
      rcases make_spec makes closes k (n + 1) with ⟨h1, h2⟩ | ⟨i, h1, h2, h3, h4, h5⟩
      · refine .inl ⟨fun i hi1 hi2 => ?_, ?_⟩
        · by_cases hi : i = n
          · rw [hi, hm]
          · exact h1 i (by omega) (by omega)
        · rw [h2, show n + 1 + k = n + (k + 1) by omega]
      · refine .inr ⟨i, by omega, by omega, h3, fun j hj1 hj2 => ?_, h5⟩
        by_cases hj : j = n
        · rw [hj, hm]
        · exact h4 j (by omega) hj2

/-- **C40** (creation). A pool is created exactly when its initial capacity is not above its maximum and all its initial
connections could be made; it then holds exactly these, at most the maximum, and none of them is closed. -/
theorem C40_created (makes closes : Nat → Bool) (initialCap maxCap : Nat) :
    (∃ l, (newPool makes closes initialCap maxCap).res = .ok l) ↔
      initialCap ≤ maxCap ∧ ∀ i, i < initialCap → makes i = true := by
  unfold newPool
  by_cases h : initialCap > maxCap
  · rw [if_pos h]
    exact ⟨fun ⟨l, hl⟩ => (by cases hl), fun ⟨h1, _⟩ => by omega⟩
  · rw [if_neg h]
    rcases make_spec makes closes initialCap 0 with ⟨h1, h2⟩ | ⟨i, h1, h2, h3, h4, h5⟩
    · rw [h2]
      exact ⟨fun _ => ⟨by omega, fun i hi => h1 i (by omega) (by omega)⟩, fun _ => ⟨_, rfl⟩⟩
    · rw [h5]
      refine ⟨fun ⟨l, hl⟩ => (by cases hl), fun ⟨_, hall⟩ => ?_⟩
      have := hall i (by omega)
      rw [h3] at this; cases this

theorem C40_created_full (makes closes : Nat → Bool) (initialCap maxCap : Nat) (l : List Nat)
    (h : (newPool makes closes initialCap maxCap).res = .ok l) :
    l = List.range initialCap ∧ l = (newPool makes closes initialCap maxCap).made ∧ l.length ≤ maxCap ∧
      (newPool makes closes initialCap maxCap).closed = [] := by
  revert h
  unfold newPool
  by_cases hc : initialCap > maxCap
  · rw [if_pos hc]; intro h; cases h
  · rw [if_neg hc]
    rcases make_spec makes closes initialCap 0 with ⟨h1, h2⟩ | ⟨i, h1, h2, h3, h4, h5⟩
    · rw [h2]; intro h; cases h
      simp only [Nat.zero_add, List.length_range]
      exact ⟨trivial, trivial, by omega, trivial⟩
    · rw [h5]; intro h; cases h

/-- **C182** (creation; partial). If closing connections succeeds, a pool that could not be created leaves no connection open:
all that were made have been closed, the one at which the factory failed being the first that was not made.
`C182_create_leaks_false` shows that the restriction is needed. -/
theorem C182_create_leaks_partial (makes closes : Nat → Bool) (initialCap maxCap : Nat)
    (hc : ∀ c, closes c = true) (e : Err) (h : (newPool makes closes initialCap maxCap).res = .error e) :
    (newPool makes closes initialCap maxCap).closed = (newPool makes closes initialCap maxCap).made ∧
      (e = .factory → makes (newPool makes closes initialCap maxCap).made.length = false) := by
  revert h
  unfold newPool
  by_cases hcap : initialCap > maxCap
  · rw [if_pos hcap]; intro h; cases h; exact ⟨rfl, fun k => by cases k⟩
  · rw [if_neg hcap]
    rcases make_spec makes closes initialCap 0 with ⟨h1, h2⟩ | ⟨i, h1, h2, h3, h4, h5⟩
    · rw [h2]; intro h; cases h
    · rw [h5]; intro h
      refine ⟨drain_all (fun c _ => hc c), fun _ => ?_⟩
      simpa using h3

/-- Without the restriction connections leak: the third of three connections cannot be made, closing the first reports an
error, and the second stays open. -/
theorem C182_create_leaks_false : ∃ (makes closes : Nat → Bool), (newPool makes closes 3 5).res = .error .factory ∧
    1 ∈ (newPool makes closes 3 5).made ∧ 1 ∉ (newPool makes closes 3 5).closed :=
  ⟨fun i => i < 2, fun c => c ≠ 0, rfl, by decide, by decide⟩

/-- Non-vacuity: a pool of two, and a failed creation that closes the connections made. -/
example : (newPool (fun _ => true) (fun _ => true) 2 5).res = .ok [0, 1] := rfl
example : (newPool (fun i => i < 2) (fun _ => true) 3 5).closed = [0, 1] := by decide

end Verif.Pool.Create
