/-
IEEE-754 binary64 rounding (round to nearest, ties to even) of non-negative rationals: the
`float64` operations of pkg/ads/internal/{loadbalancer,cluster,endpoint} are modelled as the exact
rational operation followed by `rnd`.

Simplifications: the exponent range is unbounded (no overflow, no subnormals).  The quantities the
code computes (weights and counts below 2^32, their quotients and products) stay far inside the
range of normal numbers.
-/
namespace Verif.Flt

/-- The greatest `e` with `2^e ≤ q`, for `q > 0`. (Go's float64; models no code of the repository) -/
def expo (q : Rat) : Int :=
  let e := (q.num.natAbs.log2 : Int) - (q.den.log2 : Int)
  if (2 : Rat) ^ e ≤ q then e else e - 1

/-- Nearest integer, ties to even (`math.RoundToEven`). (Go's math package) -/
def roundEven (x : Rat) : Int :=
  let f := x.floor
  let d := x - f
  if d < 1/2 then f else if 1/2 < d then f + 1 else if f % 2 = 0 then f else f + 1

/-- Nearest integer, ties away from zero (`math.Round`), for non-negative arguments. (Go's math package) -/
def roundHalfUp (x : Rat) : Int := (x + 1/2).floor

/-- The nearest binary64 number to `q ≥ 0`. (Go's float64; models no code of the repository) -/
def rnd (q : Rat) : Rat :=
  if q ≤ 0 then 0 else
  let s := (2 : Rat) ^ (expo q - 52)
  s * roundEven (q / s)

/-! ### Basic facts -/

theorem two_zpow_pos (e : Int) : 0 < (2 : Rat) ^ e := Rat.zpow_pos (by decide)

theorem zpow_succ (e : Int) : (2 : Rat) ^ (e + 1) = 2 ^ e * 2 := Rat.zpow_add_one (by decide) e

theorem zpow_mono_nat (e : Int) (k : Nat) : (2 : Rat) ^ e ≤ 2 ^ (e + k) := by
  induction k with
  | zero => simp
  | succ k ih =>
    have : e + ((k + 1 : Nat) : Int) = (e + k) + 1 := by omega
    rw [this, zpow_succ]
    have := two_zpow_pos (e + k)
    grind

theorem zpow_mono {a b : Int} (h : a ≤ b) : (2 : Rat) ^ a ≤ 2 ^ b := by
  have := zpow_mono_nat a (b - a).toNat
  rwa [show a + ((b - a).toNat : Int) = b by omega] at this

theorem zpow_lt_imp {a b : Int} (h : (2 : Rat) ^ a < 2 ^ b) : a < b := by
  refine Decidable.byContradiction fun hn => ?_
  have := zpow_mono (show b ≤ a by omega)
  grind

theorem natPow_cast (n : Nat) : ((2 ^ n : Nat) : Rat) = (2 : Rat) ^ (n : Int) := by
  rw [Rat.zpow_natCast, Rat.natCast_pow]; rfl

theorem num_pos' {q : Rat} (h : 0 < q) : 0 < q.num := by
  have := (Rat.lt_iff 0 q).mp h
  simpa using this

theorem pos_eq {q : Rat} (h : 0 < q) : q = (q.num.natAbs : Rat) / (q.den : Rat) := by
  have hn : 0 < q.num := num_pos' h
  have h1 : ((q.num.natAbs : Nat) : Rat) = ((q.num : Int) : Rat) := by
    rw [← Rat.intCast_natCast]; congr 1; omega
  rw [h1, ← Rat.mkRat_eq_div, Rat.mkRat_self]

theorem expo_spec {q : Rat} (h : 0 < q) : (2 : Rat) ^ expo q ≤ q ∧ q < 2 ^ (expo q + 1) := by
  have hn : 0 < q.num := num_pos' h
  have hn0 : q.num.natAbs ≠ 0 := by omega
  have hd0 : q.den ≠ 0 := q.den_nz
  have hq := pos_eq h
  have hdp : (0 : Rat) < (q.den : Rat) := Rat.natCast_pos.mpr (Nat.pos_of_ne_zero hd0)
  have a1 : (2 : Rat) ^ (q.num.natAbs.log2 : Int) ≤ (q.num.natAbs : Rat) := by
    rw [← natPow_cast]; exact Rat.natCast_le_natCast.mpr (Nat.log2_self_le hn0)
  have a2 : (q.num.natAbs : Rat) < (2 : Rat) ^ ((q.num.natAbs.log2 : Int) + 1) := by
    have := Rat.natCast_lt_natCast.mpr (Nat.lt_log2_self (n := q.num.natAbs))
    rw [natPow_cast] at this; simpa using this
  have b1 : (2 : Rat) ^ (q.den.log2 : Int) ≤ (q.den : Rat) := by
    rw [← natPow_cast]; exact Rat.natCast_le_natCast.mpr (Nat.log2_self_le hd0)
  have b2 : (q.den : Rat) < (2 : Rat) ^ ((q.den.log2 : Int) + 1) := by
    have := Rat.natCast_lt_natCast.mpr (Nat.lt_log2_self (n := q.den))
    rw [natPow_cast] at this; simpa using this
  have hqd : q * q.den = (q.num.natAbs : Rat) := by
    conv => lhs; lhs; rw [hq]
    exact Rat.div_mul_cancel (by grind)
  -- with e = log2 num - log2 den:  2^(e-1) < q < 2^(e+1)
  generalize hL : (q.num.natAbs.log2 : Int) = L at *
  generalize hM : (q.den.log2 : Int) = M at *
  have hup : q < 2 ^ (L - M + 1) := by
    refine Rat.lt_of_mul_lt_mul_right (c := (2 : Rat) ^ M) ?_ (Rat.le_of_lt (two_zpow_pos M))
    rw [← Rat.zpow_add (by decide), show L - M + 1 + M = L + 1 by omega]
    have := Rat.mul_le_mul_of_nonneg_left b1 (Rat.le_of_lt h)
    grind
  have hlo : (2 : Rat) ^ (L - M - 1) < q := by
    refine Rat.lt_of_mul_lt_mul_right (c := (2 : Rat) ^ (M + 1)) ?_ (Rat.le_of_lt (two_zpow_pos _))
    rw [← Rat.zpow_add (by decide), show L - M - 1 + (M + 1) = L by omega]
    have := Rat.mul_lt_mul_of_pos_left b2 h
    grind
  have he : expo q = if (2 : Rat) ^ (L - M) ≤ q then L - M else L - M - 1 := by
    subst hL hM; rfl
  rw [he]
  split
  · rename_i h1; exact ⟨h1, hup⟩
  · rename_i h1
    refine ⟨Rat.le_of_lt hlo, ?_⟩
    rw [show L - M - 1 + 1 = L - M by omega]
    exact Rat.not_le.mp h1

theorem expo_mono {x y : Rat} (hx : 0 < x) (h : x ≤ y) : expo x ≤ expo y := by
  have h1 := (expo_spec hx).1
  have h2 := (expo_spec (show 0 < y by grind)).2
  have : (2 : Rat) ^ expo x < 2 ^ (expo y + 1) := by grind
  have := zpow_lt_imp this
  omega

/-! ### Rounding to an integer -/

theorem roundEven_int (k : Int) : roundEven (k : Rat) = k := by
  unfold roundEven
  simp only [Rat.floor_intCast]
  rw [if_pos (by grind)]

theorem roundEven_ge_floor (x : Rat) : x.floor ≤ roundEven x := by
  unfold roundEven; simp only; split
  · exact Int.le_refl _
  · split
    · omega
    · split <;> omega

theorem roundEven_le_floor (x : Rat) : roundEven x ≤ x.floor + 1 := by
  unfold roundEven; simp only; split
  · omega
  · split
    · omega
    · split <;> omega

theorem roundEven_mono {x y : Rat} (h : x ≤ y) : roundEven x ≤ roundEven y := by
  have hf := Rat.floor_monotone h
  by_cases he : x.floor = y.floor
  · unfold roundEven
    simp only
    rw [he]
    have : x - (y.floor : Rat) ≤ y - (y.floor : Rat) := by grind
    by_cases h1 : x - (y.floor : Rat) < 1/2
    · rw [if_pos h1]; have := roundEven_ge_floor y; unfold roundEven at this; simpa using this
    · rw [if_neg h1]
      have h2 : ¬ (y - (y.floor : Rat) < 1/2) := by grind
      rw [if_neg h2]
      by_cases h3 : 1/2 < y - (y.floor : Rat)
      · rw [if_pos h3]; split
        · omega
        · split <;> omega
      · rw [if_neg h3, if_neg (by grind)]
        exact Int.le_refl _
  · have h1 := roundEven_le_floor x
    have h2 := roundEven_ge_floor y
    omega

theorem roundEven_err (x : Rat) : x - 1/2 ≤ (roundEven x : Rat) ∧ (roundEven x : Rat) ≤ x + 1/2 := by
  have h1 := Rat.floor_le x
  have h2 := Rat.lt_floor_add_one x
  rw [Rat.intCast_add] at h2
  unfold roundEven
  simp only
  split
  · constructor <;> grind
  · split
    · rw [Rat.intCast_add]; constructor <;> grind
    · split
      · constructor <;> grind
      · rw [Rat.intCast_add]; constructor <;> grind

/-! ### Rounding to binary64 -/

theorem rnd_zero : rnd 0 = 0 := by unfold rnd; rw [if_pos (by grind)]

theorem rnd_pos_eq {q : Rat} (h : 0 < q) :
    rnd q = 2 ^ (expo q - 52) * (roundEven (q / 2 ^ (expo q - 52)) : Rat) := by
  unfold rnd; rw [if_neg (by grind)]

theorem scale_split (e : Int) : (2 : Rat) ^ e = 2 ^ (e - 52) * ((2 ^ 52 : Int) : Rat) := by
  have : (2 : Rat) ^ (52 : Int) = ((2 ^ 52 : Int) : Rat) := by decide +kernel
  rw [← this, ← Rat.zpow_add (by decide), show e - 52 + 52 = e by omega]

theorem rnd_ge_pow {q : Rat} (h : 0 < q) : (2 : Rat) ^ expo q ≤ rnd q := by
  rw [rnd_pos_eq h, scale_split]
  have hp := two_zpow_pos (expo q - 52)
  refine Rat.mul_le_mul_of_nonneg_left ?_ (Rat.le_of_lt hp)
  rw [Rat.intCast_le_intCast]
  have h1 := (expo_spec h).1
  have : ((2 ^ 52 : Int) : Rat) ≤ q / 2 ^ (expo q - 52) := by
    refine Rat.not_lt.mp fun hc => ?_
    rw [Rat.div_lt_iff' hp, ← scale_split] at hc
    grind
  have := roundEven_mono this
  rwa [roundEven_int] at this

theorem rnd_le_pow {q : Rat} (h : 0 < q) : rnd q ≤ (2 : Rat) ^ (expo q + 1) := by
  have hp := two_zpow_pos (expo q - 52)
  have hs : (2 : Rat) ^ (expo q + 1) = 2 ^ (expo q - 52) * ((2 ^ 53 : Int) : Rat) := by
    rw [zpow_succ, scale_split, Rat.mul_assoc]; congr 1; decide +kernel
  rw [rnd_pos_eq h, hs]
  refine Rat.mul_le_mul_of_nonneg_left ?_ (Rat.le_of_lt hp)
  rw [Rat.intCast_le_intCast]
  have h1 := (expo_spec h).2
  have : q / 2 ^ (expo q - 52) ≤ ((2 ^ 53 : Int) : Rat) := by
    refine Rat.not_lt.mp fun hc => ?_
    rw [Rat.lt_div_iff' hp, ← hs] at hc
    grind
  have := roundEven_mono this
  rwa [roundEven_int] at this

theorem rnd_nonneg (q : Rat) : 0 ≤ rnd q := by
  by_cases h : 0 < q
  · have := rnd_ge_pow h; have := two_zpow_pos (expo q); grind
  · unfold rnd; rw [if_pos (by grind)]; exact Rat.le_refl

theorem rnd_pos {q : Rat} (h : 0 < q) : 0 < rnd q := by
  have := rnd_ge_pow h; have := two_zpow_pos (expo q); grind

/-- Rounding is monotone. -/
theorem rnd_mono {x y : Rat} (h : x ≤ y) : rnd x ≤ rnd y := by
  by_cases hx : 0 < x
  · have hy : 0 < y := by grind
    have he := expo_mono hx h
    by_cases hee : expo x = expo y
    · rw [rnd_pos_eq hx, rnd_pos_eq hy, hee]
      have hp := two_zpow_pos (expo y - 52)
      refine Rat.mul_le_mul_of_nonneg_left ?_ (Rat.le_of_lt hp)
      rw [Rat.intCast_le_intCast]
      refine roundEven_mono ?_
      refine Rat.not_lt.mp fun hc => ?_
      rw [Rat.div_lt_iff' hp] at hc
      have : (2 : Rat) ^ (expo y - 52) * (x / 2 ^ (expo y - 52)) = x := by
        rw [Rat.mul_comm]; exact Rat.div_mul_cancel (by grind)
      grind
    · have h1 := rnd_le_pow hx
      have h2 := rnd_ge_pow hy
      have h3 := zpow_mono (show expo x + 1 ≤ expo y by omega)
      grind
  · have : rnd x = 0 := by unfold rnd; rw [if_pos (by grind)]
    rw [this]; exact rnd_nonneg y

/-- Natural numbers below 2^53 are exact. -/
theorem rnd_nat (n : Nat) (hn : n < 2 ^ 53) : rnd (n : Rat) = n := by
  by_cases h0 : n = 0
  · subst h0; exact rnd_zero
  · have hp : (0 : Rat) < (n : Rat) := Rat.natCast_pos.mpr (Nat.pos_of_ne_zero h0)
    rw [rnd_pos_eq hp]
    have hlt : expo (n : Rat) < 53 := by
      apply zpow_lt_imp
      have h1 := (expo_spec hp).1
      have h2 : (n : Rat) < (2 : Rat) ^ (53 : Int) := by
        have := Rat.natCast_lt_natCast.mpr hn
        rwa [natPow_cast] at this
      grind
    obtain ⟨k, hk⟩ : ∃ k : Nat, (k : Int) = 52 - expo (n : Rat) := ⟨(52 - expo (n : Rat)).toNat, by omega⟩
    have hs : (n : Rat) / 2 ^ (expo (n : Rat) - 52) = ((n * 2 ^ k : Nat) : Int) := by
      have hinv : ((2 : Rat) ^ (expo (n : Rat) - 52))⁻¹ = 2 ^ (k : Int) := by
        rw [← Rat.zpow_neg, hk]; congr 1; omega
      rw [Rat.div_def, hinv, Rat.zpow_natCast, Rat.intCast_natCast, Rat.natCast_mul, Rat.natCast_pow]; rfl
    rw [hs, roundEven_int, ← hs, Rat.mul_comm]
    exact Rat.div_mul_cancel (by have := two_zpow_pos (expo (n : Rat) - 52); grind)

/-- The relative rounding error is at most 2^-53. -/
theorem rnd_err {q : Rat} (h : 0 ≤ q) :
    q - q * (1 / 2 ^ 53) ≤ rnd q ∧ rnd q ≤ q + q * (1 / 2 ^ 53) := by
  by_cases hp : 0 < q
  · have hs := two_zpow_pos (expo q - 52)
    have h1 := (expo_spec hp).1
    rw [scale_split] at h1
    have hq : (2 : Rat) ^ (expo q - 52) * (q / 2 ^ (expo q - 52)) = q := by
      rw [Rat.mul_comm]; exact Rat.div_mul_cancel (by grind)
    have he := roundEven_err (q / 2 ^ (expo q - 52))
    rw [rnd_pos_eq hp]
    generalize (2 : Rat) ^ (expo q - 52) = s at *
    generalize (roundEven (q / s) : Rat) = r at *
    have h2 : s * (1/2) ≤ q * (1 / 2 ^ 53) := by grind
    have e1 := Rat.mul_le_mul_of_nonneg_left he.1 (Rat.le_of_lt hs)
    have e2 := Rat.mul_le_mul_of_nonneg_left he.2 (Rat.le_of_lt hs)
    constructor <;> grind
  · have : q = 0 := by grind
    subst this
    rw [rnd_zero]; constructor <;> grind

/-- Being above an integer is decided correctly: if an integer is below the rounded value it is
below the exact one. -/
theorem lt_of_lt_rnd {n : Nat} {q : Rat} (hn : n < 2 ^ 53) (h : (n : Rat) < rnd q) : (n : Rat) < q := by
  refine Rat.not_le.mp fun hc => ?_
  have := rnd_mono hc
  rw [rnd_nat n hn] at this
  grind

example : rnd (33/100) = 5944751508129055 / 18014398509481984 := by decide +kernel
example : rnd (rnd (33/100) * 100) = 33 := by decide +kernel
example : rnd (1/3) = 6004799503160661 / 18014398509481984 := by decide +kernel

end Verif.Flt
