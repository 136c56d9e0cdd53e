import Verif.Ads.Balance

/-! # C31: the arithmetic of the load balancers is that of IEEE 754

Order, and the results that are not numbers. The finite results are exact results rounded to nearest
(`Flt.rnd`, with its own theorems in Ads/Flt.lean). -/

namespace Verif.Bal.F

/-- The number is not above the value; every number is below infinity. -/
def Below (q : Rat) : F → Prop
  | .fin x => q ≤ x
  | .inf => True
  | .nan => False

/-- **C31** `>=` holds of two values that are numbers or infinite, if every number not above the
second is not above the first; `<` if `>=` does not, and `==` if it holds both ways. Nothing holds of
NaN. -/
theorem C31_order (a b : F) :
    (ge a b = true ↔ a ≠ .nan ∧ b ≠ .nan ∧ ∀ q, Below q b → Below q a) ∧
    (lt a b = true ↔ a ≠ .nan ∧ b ≠ .nan ∧ ∃ q, Below q b ∧ ¬ Below q a) ∧
    (eqF a b = true ↔ a ≠ .nan ∧ b ≠ .nan ∧ ∀ q, Below q a ↔ Below q b) := by
  cases a with
  | nan => simp [ge, lt, eqF]
  | inf =>
    cases b with
    | nan => simp [ge, lt, eqF]
    | inf => simp [ge, lt, eqF, Below]
    | fin y =>
      simp only [ge, lt, eqF, Below, ne_eq, reduceCtorEq, not_false_eq_true, true_and, implies_true,
        not_true_eq_false, and_false, exists_false, true_iff, Bool.false_eq_true, iff_false]
      refine ⟨fun h => h.elim, fun h => absurd (h (y + 1)) (by grind)⟩
  | fin x =>
    cases b with
    | nan => simp [ge, lt, eqF]
    | inf =>
      simp only [ge, lt, eqF, Below, ne_eq, reduceCtorEq, not_false_eq_true, true_and, Bool.false_eq_true, false_iff,
        true_iff, iff_true, forall_const]
      refine ⟨fun h => absurd (h (x + 1)) (by grind), ⟨x + 1, by grind⟩, fun h => absurd (h (x + 1)) (by grind)⟩
    | fin y =>
      simp only [ge, lt, eqF, Below, ne_eq, reduceCtorEq, not_false_eq_true, true_and, decide_eq_true_eq]
      refine ⟨⟨fun h q hq => by grind, fun h => h y (by grind)⟩,
        ⟨fun h => ⟨y, by grind, by grind⟩, fun ⟨q, h1, h2⟩ => by grind⟩,
        ⟨fun h q => by rw [h], fun h => ?_⟩⟩
      have h1 := (h x).mp (by grind)
      have h2 := (h y).mpr (by grind)
      grind

/-- **C31** Sums and products of non-negative values are NaN only for NaN and zero times infinity, and
infinite only if an operand is; a quotient is NaN only for NaN, zero by zero and infinity by infinity,
and infinite for infinity or something else by zero. -/
theorem C31_special (a b : F) :
    (add a b = .nan ↔ a = .nan ∨ b = .nan) ∧
    (add a b = .inf ↔ a ≠ .nan ∧ b ≠ .nan ∧ (a = .inf ∨ b = .inf)) ∧
    (mul a b = .nan ↔ a = .nan ∨ b = .nan ∨ (a = .inf ∧ b = .fin 0) ∨ (a = .fin 0 ∧ b = .inf)) ∧
    (mul a b = .inf ↔ mul a b ≠ .nan ∧ (a = .inf ∨ b = .inf)) ∧
    (div a b = .nan ↔ a = .nan ∨ b = .nan ∨ (a = .inf ∧ b = .inf) ∨ (a = .fin 0 ∧ b = .fin 0)) ∧
    (div a b = .inf ↔ div a b ≠ .nan ∧ (a = .inf ∨ b = .fin 0)) := by
  cases a <;> cases b <;> simp only [add, mul, div] <;> (repeat' split) <;> simp_all

/-- **C31** Finite results are the exact ones rounded to nearest, and anything finite by infinity is
zero. -/
theorem C31_finite (x y : Rat) :
    add (.fin x) (.fin y) = .fin (Flt.rnd (x + y)) ∧ mul (.fin x) (.fin y) = .fin (Flt.rnd (x * y)) ∧
    (y ≠ 0 → div (.fin x) (.fin y) = .fin (Flt.rnd (x / y))) ∧ div (.fin x) .inf = .fin 0 := by
  refine ⟨rfl, rfl, fun h => ?_, rfl⟩
  show (if y = 0 then _ else _) = _
  rw [if_neg h]

end Verif.Bal.F
