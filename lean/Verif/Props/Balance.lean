/-
C31, C32: the weighted selection used for clusters and for round-robin endpoints.
-/
import Verif.Ads.Balance

namespace Verif.Bal
open Verif.Flt

/-! ## Rounding does not disturb the comparison with the share -/

/-- Below the exact share by an integer comparison: also below the rounded one. -/
theorem lt_share {c w W T : Nat} (hW : 0 < W) (hw : w ≤ W) (hT : W * T ≤ 2 ^ 51)
    (h : c * W < w * T) : (c : Rat) < rnd (rnd ((w : Rat) / W) * T) := by
  have hWq : (0 : Rat) < (W : Rat) := Rat.natCast_pos.mpr hW
  have hTq : (0 : Rat) ≤ (T : Rat) := Rat.natCast_nonneg
  have h1 : ((c : Rat) * W + 1) ≤ w * T := by
    have : c * W + 1 ≤ w * T := h
    have := Rat.natCast_le_natCast.mpr this
    simpa [Rat.natCast_add, Rat.natCast_mul] using this
  have h2 : (W : Rat) * T ≤ 2 ^ 51 := by
    have := Rat.natCast_le_natCast.mpr hT
    rw [Rat.natCast_mul, Rat.natCast_pow] at this
    exact this
  have h3 : (w : Rat) ≤ W := Rat.natCast_le_natCast.mpr hw
  have hx0 : (0 : Rat) ≤ (w : Rat) / W := by
    rw [Rat.div_def]; exact Rat.mul_nonneg Rat.natCast_nonneg (Rat.le_of_lt (Rat.inv_pos.mpr hWq))
  have hxW : (w : Rat) / W * W = w := Rat.div_mul_cancel (by grind)
  have hx1 : (w : Rat) / W ≤ 1 := by
    refine Rat.le_of_mul_le_mul_right (c := (W : Rat)) ?_ hWq
    rw [hxW]; grind
  generalize (w : Rat) / W = x at *
  have ey := (rnd_err hx0).1
  have ey2 := (rnd_err hx0).2
  have hy0 := rnd_nonneg x
  generalize rnd x = y at *
  have hyT : (0 : Rat) ≤ y * T := Rat.mul_nonneg hy0 hTq
  have ez := (rnd_err hyT).1
  generalize rnd (y * T) = z at *
  -- c + 1/W ≤ x*T
  have a1 := Rat.mul_le_mul_of_nonneg_right ey hTq
  have a2 := Rat.mul_le_mul_of_nonneg_right ey2 hTq
  have a3 := Rat.mul_le_mul_of_nonneg_right hx1 hTq
  refine Rat.lt_of_mul_lt_mul_right (c := (W : Rat)) ?_ (Rat.le_of_lt hWq)
  have b1 : (x * T) * W = w * T := by rw [← hxW]; grind
  have b2 : y * T ≥ x * T - T * (1 / 2 ^ 53) := by grind
  have b3 : x * T - T * (3 / 2 ^ 53) ≤ z := by grind
  have b4 := Rat.mul_le_mul_of_nonneg_right b3 (Rat.le_of_lt hWq)
  grind

/-- Below the rounded share: not above the exact one. -/
theorem le_share {c w W T : Nat} (hW : 0 < W) (hw : w ≤ W) (hT : W * T ≤ 2 ^ 51)
    (h : (c : Rat) < rnd (rnd ((w : Rat) / W) * T)) : c * W ≤ w * T := by
  refine Decidable.byContradiction fun hc => ?_
  have hc : w * T + 1 ≤ c * W := by omega
  have hWq : (0 : Rat) < (W : Rat) := Rat.natCast_pos.mpr hW
  have hTq : (0 : Rat) ≤ (T : Rat) := Rat.natCast_nonneg
  have h1 : ((w : Rat) * T + 1) ≤ c * W := by
    have := Rat.natCast_le_natCast.mpr hc
    simpa [Rat.natCast_add, Rat.natCast_mul] using this
  have h2 : (W : Rat) * T ≤ 2 ^ 51 := by
    have := Rat.natCast_le_natCast.mpr hT
    rw [Rat.natCast_mul, Rat.natCast_pow] at this
    exact this
  have h3 : (w : Rat) ≤ W := Rat.natCast_le_natCast.mpr hw
  have hx0 : (0 : Rat) ≤ (w : Rat) / W := by
    rw [Rat.div_def]; exact Rat.mul_nonneg Rat.natCast_nonneg (Rat.le_of_lt (Rat.inv_pos.mpr hWq))
  have hxW : (w : Rat) / W * W = w := Rat.div_mul_cancel (by grind)
  have hx1 : (w : Rat) / W ≤ 1 := by
    refine Rat.le_of_mul_le_mul_right (c := (W : Rat)) ?_ hWq
    rw [hxW]; grind
  generalize (w : Rat) / W = x at *
  have ey2 := (rnd_err hx0).2
  have hy0 := rnd_nonneg x
  generalize rnd x = y at *
  have hyT : (0 : Rat) ≤ y * T := Rat.mul_nonneg hy0 hTq
  have ez := (rnd_err hyT).2
  generalize rnd (y * T) = z at *
  have a2 := Rat.mul_le_mul_of_nonneg_right ey2 hTq
  have a3 := Rat.mul_le_mul_of_nonneg_right hx1 hTq
  have b1 : (x * T) * W = w * T := by rw [← hxW]; grind
  have b2 : y * T ≤ x * T + T * (1 / 2 ^ 53) := by grind
  have b3 : z ≤ x * T + T * (3 / 2 ^ 53) := by grind
  have b4 := Rat.mul_le_mul_of_nonneg_right b3 (Rat.le_of_lt hWq)
  have b5 := Rat.mul_lt_mul_of_pos_right h hWq
  grind

/-! ## The loop -/

/-- The comparison values of a candidate. -/
def Item.cap (i : Item) (tot : Nat) : F := i.share.mul (F.ofNat tot)
def Item.skipped (cnt : String → Nat) (tot : Nat) (i : Item) : Bool := (F.ofNat (cnt i.name)).ge (i.cap tot)
def Item.rel (cnt : String → Nat) (tot : Nat) (i : Item) : F := (F.ofNat (cnt i.name)).div (i.cap tot)

theorem F.eqF_iff {a b : F} : F.eqF a b = true ↔ a = b ∧ a ≠ .nan := by
  cases a <;> cases b <;> simp [F.eqF]

/-- What the loop has established after the candidates `done`. -/
structure ScanInv (cnt : String → Nat) (tot : Nat) (done : List Item) (s : Sel) : Prop where
  none_max : s.sel = none → s.minLoad = F.max ∧ s.tie = .fin 0
  mem : ∀ i, s.sel = some i → i ∈ done ∧ i.skipped cnt tot = false ∧ s.minLoad = i.rel cnt tot ∧
    s.tie = i.tie ∧ s.minLoad ≠ .nan
  least : ∀ j ∈ done, j.skipped cnt tot = true ∨ (j.rel cnt tot).lt s.minLoad = false
  ties : ∀ i, s.sel = some i → ∀ j ∈ done, j.skipped cnt tot = true ∨ j.rel cnt tot ≠ s.minLoad ∨
    s.tie.lt j.tie = false

theorem F.lt_trans_false {a b c : F} (h : b.lt c = true) (h2 : a.lt c = false) : a.lt b = false := by
  cases a <;> cases b <;> cases c <;> simp_all [F.lt] <;> grind

theorem F.lt_irrefl (a : F) : a.lt a = false := by
  cases a <;> simp [F.lt, Rat.lt_irrefl]

theorem F.lt_not_nan {a b : F} (h : a.lt b = true) : a ≠ .nan := by
  cases a <;> cases b <;> simp_all [F.lt]

theorem F.lt_asymm {a b : F} (h : a.lt b = true) : b.lt a = false := by
  cases a <;> cases b <;> simp_all [F.lt] <;> grind

theorem F.tie_trans {a b c : F} (h : a.lt b = true) (h2 : a.lt c = false) : b.lt c = false := by
  cases a <;> cases b <;> cases c <;> simp_all [F.lt] <;> grind

theorem rnd_one : rnd 1 = 1 := by
  have := rnd_nat 1 (by decide)
  simpa using this

/-- A candidate that is not skipped has a relative load of at most 1 (or NaN). -/
theorem rel_small {cnt : String → Nat} {tot : Nat} {i : Item} (h : i.skipped cnt tot = false) :
    i.rel cnt tot = .nan ∨ ∃ q, q ≤ 1 ∧ i.rel cnt tot = .fin q := by
  unfold Item.skipped at h
  unfold Item.rel
  cases hc : i.cap tot with
  | nan => exact Or.inl rfl
  | inf => exact Or.inr ⟨0, by decide, rfl⟩
  | fin m =>
    rw [hc] at h
    simp only [F.ofNat, F.ge, decide_eq_false_iff_not, Rat.not_le] at h
    have h0 := rnd_nonneg (cnt i.name : Rat)
    have hm : 0 < m := by grind
    right
    refine ⟨rnd (rnd (cnt i.name) / m), ?_, ?_⟩
    · have : rnd (cnt i.name) / m ≤ 1 := by
        refine Rat.not_lt.mp fun hh => ?_
        rw [Rat.lt_div_iff hm] at hh
        grind
      have := rnd_mono this
      rwa [rnd_one] at this
    · simp only [F.ofNat, F.div]
      rw [if_neg (by grind)]

theorem max_large {q : Rat} (h : q ≤ 1) : F.lt (.fin q) F.max = true := by
  have h2 : (1 : Rat) < ((2 ^ 1024 - 2 ^ 971 : Nat) : Rat) := by decide +kernel
  simp only [F.lt, F.max, decide_eq_true_eq]
  generalize ((2 ^ 1024 - 2 ^ 971 : Nat) : Rat) = m at *
  grind

theorem rel_max {cnt : String → Nat} {tot : Nat} {i : Item} (h : i.skipped cnt tot = false) :
    i.rel cnt tot = .nan ∨ (i.rel cnt tot).lt F.max = true := by
  rcases rel_small h with h | ⟨q, h1, h2⟩
  · exact Or.inl h
  · right; rw [h2]; exact max_large h1

theorem scan_inv (cnt : String → Nat) (tot : Nat) (is : List Item) :
    ∀ (done : List Item) (s : Sel), ScanInv cnt tot done s →
      ScanInv cnt tot (done ++ is) (is.foldl (scanStep cnt tot) s) := by
  induction is with
  | nil => intro done s h; simpa using h
  | cons i is ih =>
    intro done s h
    -- leaving the state alone
    have keep : (i.skipped cnt tot = true ∨ ((i.rel cnt tot).lt s.minLoad = false ∧
        (i.rel cnt tot ≠ s.minLoad ∨ s.tie.lt i.tie = false))) → ScanInv cnt tot (done ++ [i]) s := by
      intro hi
      constructor
      · exact h.none_max
      · intro j hj; obtain ⟨a, b⟩ := h.mem j hj; exact ⟨by simp [a], b⟩
      · intro j hj
        rcases List.mem_append.mp hj with hj | hj
        · exact h.least j hj
        · simp only [List.mem_singleton] at hj; subst hj
          rcases hi with h1 | h1
          · exact Or.inl h1
          · exact Or.inr h1.1
      · intro k hk j hj
        rcases List.mem_append.mp hj with hj | hj
        · exact h.ties k hk j hj
        · simp only [List.mem_singleton] at hj; subst hj
          rcases hi with h1 | h1
          · exact Or.inl h1
          · exact Or.inr h1.2
    have : ScanInv cnt tot (done ++ [i]) (scanStep cnt tot s i) := by
      unfold scanStep
      simp only
      by_cases hs : (F.ofNat (cnt i.name)).ge (i.share.mul (F.ofNat tot)) = true
      · rw [if_pos hs]
        exact keep (Or.inl hs)
      · rw [if_neg hs]
        have hns : i.skipped cnt tot = false := by simpa [Item.skipped, Item.cap] using hs
        have hrel : (F.ofNat (cnt i.name)).div (i.share.mul (F.ofNat tot)) = i.rel cnt tot := rfl
        rw [hrel]
        by_cases hl : (i.rel cnt tot).lt s.minLoad = true
        · rw [if_pos hl]
          constructor
          · intro hc; cases hc
          · intro j hj; simp only [Option.some.injEq] at hj; subst hj
            exact ⟨by simp, hns, rfl, rfl, F.lt_not_nan hl⟩
          · intro j hj
            rcases List.mem_append.mp hj with hj | hj
            · rcases h.least j hj with h1 | h1
              · exact Or.inl h1
              · exact Or.inr (F.lt_trans_false hl h1)
            · simp only [List.mem_singleton] at hj; subst hj; exact Or.inr (F.lt_irrefl _)
          · intro k hk j hj
            simp only [Option.some.injEq] at hk; subst hk
            rcases List.mem_append.mp hj with hj | hj
            · rcases h.least j hj with h1 | h1
              · exact Or.inl h1
              · refine Or.inr (Or.inl fun hc => ?_)
                simp only at hc
                rw [hc] at h1; rw [h1] at hl; cases hl
            · simp only [List.mem_singleton] at hj; subst hj
              exact Or.inr (Or.inr (F.lt_irrefl _))
        · rw [if_neg hl]
          have hl' : (i.rel cnt tot).lt s.minLoad = false := by simpa using hl
          by_cases he : s.minLoad.eqF (i.rel cnt tot) = true
          · rw [if_pos he]
            obtain ⟨he, hnn⟩ := F.eqF_iff.mp he
            have hsome : ∃ k, s.sel = some k := by
              cases hsel : s.sel with
              | some k => exact ⟨k, rfl⟩
              | none =>
                have := (h.none_max hsel).1
                rcases rel_max hns with h1 | h1
                · rw [h1] at he; exact absurd he hnn
                · rw [this] at hl'; rw [hl'] at h1; cases h1
            obtain ⟨k, hk⟩ := hsome
            by_cases ht : s.tie.lt i.tie = true
            · rw [if_pos ht]
              constructor
              · intro hc; cases hc
              · intro j hj; simp only [Option.some.injEq] at hj; subst hj
                exact ⟨by simp, hns, he, rfl, hnn⟩
              · intro j hj
                rcases List.mem_append.mp hj with hj | hj
                · exact h.least j hj
                · simp only [List.mem_singleton] at hj; subst hj; exact Or.inr hl'
              · intro k' hk' j hj
                simp only [Option.some.injEq] at hk'; subst hk'
                rcases List.mem_append.mp hj with hj | hj
                · rcases h.ties k hk j hj with h1 | h1 | h1
                  · exact Or.inl h1
                  · exact Or.inr (Or.inl h1)
                  · exact Or.inr (Or.inr (F.tie_trans ht h1))
                · simp only [List.mem_singleton] at hj; subst hj
                  exact Or.inr (Or.inr (F.lt_irrefl _))
            · rw [if_neg ht, if_neg (by rw [hk]; simp)]
              exact keep (Or.inr ⟨hl', Or.inr (by simpa using ht)⟩)
          · rw [if_neg he]
            refine keep (Or.inr ⟨hl', ?_⟩)
            by_cases hq : i.rel cnt tot = s.minLoad
            · -- only NaN differs from itself
              have hnan : s.minLoad = .nan := by
                refine Classical.byContradiction fun hn => he (F.eqF_iff.mpr ⟨hq.symm, hn⟩)
              cases hsel : s.sel with
              | none => rw [(h.none_max hsel).1] at hnan; cases hnan
              | some k => exact absurd hnan (h.mem k hsel).2.2.2.2
            · exact Or.inl hq
    have h2 := ih _ _ this
    simpa using h2

theorem scan_final (cnt : String → Nat) (tot : Nat) (is : List Item) :
    ScanInv cnt tot is (is.foldl (scanStep cnt tot) {}) := by
  have := scan_inv cnt tot is [] {} ⟨fun _ => ⟨rfl, rfl⟩, (fun i h => nomatch h), (fun j h => nomatch h), (fun i h => nomatch h)⟩
  simpa using this

/-- The choice: an eligible candidate of least relative load, and of greatest weight among those. -/
theorem scan_some {cnt : String → Nat} {tot : Nat} {is : List Item} {i : Item} (h : scan cnt tot is = some i) :
    i ∈ is ∧ i.skipped cnt tot = false ∧
    ∀ j ∈ is, j.skipped cnt tot = false →
      (j.rel cnt tot).lt (i.rel cnt tot) = false ∧ (j.rel cnt tot = i.rel cnt tot → i.tie.lt j.tie = false) := by
  have hi := scan_final cnt tot is
  obtain ⟨a, b, c, d, e⟩ := hi.mem i h
  refine ⟨a, b, fun j hj hs => ⟨?_, ?_⟩⟩
  · rcases hi.least j hj with h1 | h1
    · rw [hs] at h1; cases h1
    · rwa [c] at h1
  · intro hr
    rcases hi.ties i h j hj with h1 | h1 | h1
    · rw [hs] at h1; cases h1
    · rw [c] at h1; exact absurd hr h1
    · rwa [d] at h1

/-- A choice is made unless every candidate is used up (or its share is not a number). -/
theorem scan_none {cnt : String → Nat} {tot : Nat} {is : List Item} (h : scan cnt tot is = none) :
    ∀ j ∈ is, j.skipped cnt tot = true ∨ j.rel cnt tot = .nan := by
  have hi := scan_final cnt tot is
  intro j hj
  have hm := (hi.none_max h).1
  rcases hi.least j hj with h1 | h1
  · exact Or.inl h1
  · cases hs : j.skipped cnt tot with
    | true => exact Or.inl rfl
    | false =>
      rcases rel_max hs with h2 | h2
      · exact Or.inr h2
      · rw [hm, h2] at h1; cases h1

/-! ## Repeated calls -/

/-- `n` successive calls of a balancer; the `k`-th call may see its map in a different order. The
results are listed in the order of the calls. -/
def calls {α : Type} (f : Nat → Table → α × Table) : Nat → Table → List α × Table
  | 0, t => ([], t)
  | n + 1, t =>
    let r := calls f n t
    let x := f n r.2
    (r.1 ++ [x.1], x.2)

/-- One call in the common form. -/
def choose (names : List String) (is : List Item) (t : Table) : Option String × Table :=
  match scan t.picks (nextTotal t.picks names) is with
  | some i => (some i.name, t.incPicks i.name)
  | none => (none, t)

theorem sum_map_add (ns : List String) (f g : String → Nat) :
    (ns.map fun a => f a + g a).sum = (ns.map f).sum + (ns.map g).sum := by
  induction ns with
  | nil => rfl
  | cons a r ih => simp only [List.map_cons, List.sum_cons, ih]; omega

theorem sum_indicator (ns : List String) (hn : ns.Nodup) (b : String) (hb : b ∈ ns) :
    (ns.map fun a => if some b = some a then 1 else 0).sum = 1 := by
  induction ns with
  | nil => cases hb
  | cons a r ih =>
    rw [List.nodup_cons] at hn
    simp only [List.map_cons, List.sum_cons]
    by_cases h : b = a
    · subst h
      have : (r.map fun a => if some b = some a then 1 else 0).sum = 0 := by
        have : ∀ l : List String, b ∉ l → (l.map fun a => if some b = some a then 1 else 0).sum = 0 := by
          intro l
          induction l with
          | nil => intro _; rfl
          | cons c l ih2 =>
            intro hc
            simp only [List.mem_cons, not_or] at hc
            rw [List.map_cons, List.sum_cons, ih2 hc.2, if_neg (by simpa using hc.1)]
        exact this r hn.1
      rw [this]; simp
    · rw [ih hn.2 (by simpa [h] using hb)]
      simp [h]

/-- The counters add up to the number of successful calls. -/
theorem count_sum (ns : List String) (hn : ns.Nodup) (rs : List (Option String))
    (h : ∀ b, some b ∈ rs → b ∈ ns) :
    (ns.map fun a => rs.count (some a)).sum + rs.count none = rs.length := by
  induction rs with
  | nil =>
    simp only [List.count_nil, List.length_nil, Nat.add_zero]
    clear hn h
    induction ns with
    | nil => rfl
    | cons a r ih => simp [ih]
  | cons x rs ih =>
    have ih := ih (fun b hb => h b (List.mem_cons_of_mem _ hb))
    cases x with
    | none =>
      simp only [List.count_cons, List.length_cons, ← ih, beq_self_eq_true, if_true]
      have : ∀ a : String, ((none : Option String) == some a) = false := by intro a; rfl
      simp only [this]
      simp
      omega
    | some b =>
      have e := sum_indicator ns hn b (h b (by simp))
      have : (ns.map fun a => (some b :: rs).count (some a)).sum =
          (ns.map fun a => rs.count (some a)).sum + (ns.map fun a => if some b = some a then 1 else 0).sum := by
        rw [← sum_map_add]
        congr 1
        apply List.map_congr_left
        intro a _
        simp only [List.count_cons, beq_iff_eq]
      rw [this, e]
      simp only [List.count_cons, List.length_cons]
      have : ((some b : Option String) == none) = false := rfl
      simp only [this]
      simp
      omega

theorem ofNat_small {n : Nat} (h : n < 2 ^ 53) : F.ofNat n = .fin n := by
  unfold F.ofNat; rw [rnd_nat n h]

/-- The counters agree with the results. -/
structure Agree (ns : List String) (rs : List (Option String)) (t : Table) : Prop where
  known : ∀ a ∈ ns, ∃ s, t a = some s ∧ s.picks = rs.count (some a)
  named : ∀ b, some b ∈ rs → b ∈ ns

theorem Agree.picks {ns : List String} {rs : List (Option String)} {t : Table} (h : Agree ns rs t)
    {a : String} (ha : a ∈ ns) : t.picks a = rs.count (some a) := by
  obtain ⟨s, h1, h2⟩ := h.known a ha
  simp [Table.picks, h1, h2]

theorem Agree.total {ns ms : List String} {rs : List (Option String)} {t : Table} (h : Agree ns rs t)
    (hn : ns.Nodup) (hp : ms.Perm ns) (hl : rs.length + 1 < 2 ^ 32) :
    nextTotal t.picks ms + rs.count none = rs.length + 1 := by
  have h1 : (ms.map t.picks).sum = (ns.map t.picks).sum := (hp.map _).sum_nat
  have h2 : (ns.map t.picks).sum = (ns.map fun a => rs.count (some a)).sum := by
    congr 1
    exact List.map_congr_left fun a ha => h.picks ha
  have h3 := count_sum ns hn rs h.named
  unfold nextTotal u32
  rw [h1, h2, Nat.mod_eq_of_lt (by omega)]
  omega

theorem Agree.step {ns ms : List String} {rs : List (Option String)} {t : Table} (h : Agree ns rs t)
    {is : List Item} (his : ∀ i ∈ is, i.name ∈ ns) (hl : rs.length + 1 < 2 ^ 32) :
    Agree ns (rs ++ [(choose ms is t).1]) (choose ms is t).2 := by
  unfold choose
  split
  · rename_i i hi
    have hm := (scan_some hi).1
    constructor
    · intro a ha
      obtain ⟨s, h1, h2⟩ := h.known a ha
      by_cases he : a = i.name
      · subst he
        refine ⟨{ s with picks := u32 (s.picks + 1) }, ?_, ?_⟩
        · simp [Table.incPicks, Table.adjust, h1]
        · simp only [List.count_append, h2, List.count_singleton, beq_self_eq_true, if_true]
          unfold u32
          have := List.count_le_length (l := rs) (a := some i.name)
          omega
      · refine ⟨s, ?_, ?_⟩
        · simp [Table.incPicks, Table.adjust, he, h1]
        · rw [h2, List.count_append, List.count_singleton]
          have : ((some i.name : Option String) == some a) = false := by
            simp only [beq_eq_false_iff_ne, ne_eq, Option.some.injEq]; exact fun hc => he hc.symm
          simp [this]
    · intro b hb
      rcases List.mem_append.mp hb with hb | hb
      · exact h.named b hb
      · simp only [List.mem_singleton, Option.some.injEq] at hb; subst hb; exact his _ hm
  · constructor
    · intro a ha
      obtain ⟨s, h1, h2⟩ := h.known a ha
      refine ⟨s, h1, ?_⟩
      rw [h2, List.count_append, List.count_singleton]
      simp
    · intro b hb
      rcases List.mem_append.mp hb with hb | hb
      · exact h.named b hb
      · simp at hb

/-- No choice takes a candidate beyond its share. -/
theorem choose_under {cnt : String → Nat} {T : Nat} {i : Item} {q : Rat} (hT : T < 2 ^ 53)
    (hc : cnt i.name < 2 ^ 53) (hq : i.share = .fin q) (h : i.skipped cnt T = false) :
    (cnt i.name : Rat) < q * T := by
  unfold Item.skipped Item.cap at h
  rw [hq, ofNat_small hT, ofNat_small hc] at h
  simp only [F.mul, F.ge, decide_eq_false_iff_not, Rat.not_le] at h
  exact lt_of_lt_rnd hc h

/-- Upper bound for arbitrary finite shares. -/
theorem upper_run (ns : List String) (hn : ns.Nodup) (share : String → Rat) (hs : ∀ a, 0 ≤ share a)
    (ms : Nat → List String) (is : Nat → List Item) (hp : ∀ k, (ms k).Perm ns)
    (his : ∀ k, ∀ i ∈ is k, i.name ∈ ns ∧ i.share = .fin (share i.name))
    (t0 : Table) (h0 : ∀ a ∈ ns, ∃ s, t0 a = some s ∧ s.picks = 0) :
    ∀ n, n < 2 ^ 32 →
      Agree ns (calls (fun k t => choose (ms k) (is k) t) n t0).1 (calls (fun k t => choose (ms k) (is k) t) n t0).2 ∧
      (calls (fun k t => choose (ms k) (is k) t) n t0).1.length = n ∧
      ∀ a ∈ ns, (((calls (fun k t => choose (ms k) (is k) t) n t0).1.count (some a) : Nat) : Rat) < share a * n + 1 := by
  intro n
  induction n with
  | zero =>
    intro _
    refine ⟨⟨?_, ?_⟩, rfl, ?_⟩
    · intro a ha; obtain ⟨s, h1, h2⟩ := h0 a ha; exact ⟨s, h1, by simpa [calls] using h2⟩
    · intro b hb; simp [calls] at hb
    · intro a _; simp [calls]; decide +kernel
  | succ n ih =>
    intro hlt
    obtain ⟨h1, h2, h3⟩ := ih (by omega)
    simp only [calls]
    generalize (calls (fun k t => choose (ms k) (is k) t) n t0) = r at *
    obtain ⟨rs, t⟩ := r
    simp only at h1 h2 h3 ⊢
    refine ⟨h1.step (fun i hi => (his n i hi).1) (by omega), by simp [h2], ?_⟩
    intro a ha
    have hmono : share a * n + 1 ≤ share a * ((n + 1 : Nat) : Rat) + 1 := by
      have := hs a
      rw [Rat.natCast_add]
      grind
    have h3a := h3 a ha
    unfold choose
    split
    · rename_i i hi
      obtain ⟨hm, hsk, _⟩ := scan_some hi
      simp only [List.count_append, List.count_singleton]
      by_cases he : i.name = a
      · subst he
        have hT := h1.total hn (hp n) (by omega)
        have hc := h1.picks ha
        have hcl := List.count_le_length (l := rs) (a := some i.name)
        have := choose_under (by omega) (by rw [hc]; omega) (his n i hm).2 hsk
        rw [hc] at this
        have hTq : share i.name * ((nextTotal t.picks (ms n) : Nat) : Rat) ≤ share i.name * ((n + 1 : Nat) : Rat) :=
          Rat.mul_le_mul_of_nonneg_left (Rat.natCast_le_natCast.mpr (by omega)) (hs _)
        simp only [beq_self_eq_true, if_true, Rat.natCast_add]
        rw [Rat.natCast_add] at hTq
        grind
      · have : ((some i.name : Option String) == some a) = false := by
          simp only [beq_eq_false_iff_ne, ne_eq, Option.some.injEq]; exact he
        simp only [this]
        simp only [Bool.false_eq_true, if_false, Nat.add_zero]
        grind
    · simp only [List.count_append, List.count_singleton]
      have : ((none : Option String) == some a) = false := rfl
      simp only [this, Bool.false_eq_true, if_false, Nat.add_zero]
      grind

/-- Somebody is below its share. -/
theorem pigeon (ns : List String) (c w : String → Nat) (W m : Nat) (hc : (ns.map c).sum = m)
    (hw : (ns.map w).sum = W) (hW : 0 < W) : ∃ a ∈ ns, c a * W < w a * (m + 1) := by
  refine Classical.byContradiction fun hno => ?_
  have h : ∀ a ∈ ns, w a * (m + 1) ≤ c a * W := fun a ha => Nat.not_lt.mp fun hlt => hno ⟨a, ha, hlt⟩
  have key : ∀ l : List String, (∀ a ∈ l, w a * (m + 1) ≤ c a * W) →
      (l.map w).sum * (m + 1) ≤ (l.map c).sum * W := by
    intro l
    induction l with
    | nil => simp
    | cons a r ih =>
      intro hl
      have h1 := hl a (by simp)
      have h2 := ih fun b hb => hl b (List.mem_cons_of_mem _ hb)
      simp only [List.map_cons, List.sum_cons, Nat.add_mul]
      omega
  have := key ns h
  rw [hc, hw, Nat.mul_add, Nat.mul_comm W m] at this
  omega

theorem le_sum (f : String → Nat) : ∀ (l : List String) (a : String), a ∈ l → f a ≤ (l.map f).sum
  | b :: r, a, h => by
    simp only [List.map_cons, List.sum_cons]
    rcases List.mem_cons.mp h with h | h
    · subst h; omega
    · have := le_sum f r a h; omega

/-- Exact weights: `w a` out of `W`. The selection always succeeds, picks names of positive weight
only, and stays within the share on both sides. -/
theorem weights_run (ns : List String) (hn : ns.Nodup) (w : String → Nat) (W : Nat) (hW : 0 < W)
    (hsum : (ns.map w).sum = W) (ms : Nat → List String) (is : Nat → List Item) (hp : ∀ k, (ms k).Perm ns)
    (his : ∀ k, ∀ i ∈ is k, i.name ∈ ns ∧ i.share = .fin (rnd ((w i.name : Rat) / W)))
    (hall : ∀ k, ∀ a ∈ ns, 0 < w a → ∃ i ∈ is k, i.name = a)
    (t0 : Table) (h0 : ∀ a ∈ ns, ∃ s, t0 a = some s ∧ s.picks = 0) :
    ∀ n, n < 2 ^ 32 → W * n ≤ 2 ^ 51 →
      Agree ns (calls (fun k t => choose (ms k) (is k) t) n t0).1 (calls (fun k t => choose (ms k) (is k) t) n t0).2 ∧
      (calls (fun k t => choose (ms k) (is k) t) n t0).1.length = n ∧
      (∀ x ∈ (calls (fun k t => choose (ms k) (is k) t) n t0).1, ∃ a ∈ ns, x = some a ∧ 0 < w a) ∧
      ∀ a ∈ ns, (calls (fun k t => choose (ms k) (is k) t) n t0).1.count (some a) * W ≤ w a * n + W := by
  have hle : ∀ a ∈ ns, w a ≤ W := by
    intro a ha
    rw [← hsum]
    exact le_sum w ns a ha
  intro n
  induction n with
  | zero =>
    intro _ _
    refine ⟨⟨?_, ?_⟩, rfl, ?_, ?_⟩
    · intro a ha; obtain ⟨s, h1, h2⟩ := h0 a ha; exact ⟨s, h1, by simpa [calls] using h2⟩
    · intro b hb; simp [calls] at hb
    · intro x hx; simp [calls] at hx
    · intro a _; simp [calls]
  | succ n ih =>
    intro hlt hWn
    have hWn' : W * n ≤ 2 ^ 51 := Nat.le_trans (Nat.mul_le_mul_left W (Nat.le_succ n)) hWn
    obtain ⟨h1, h2, h3, h4⟩ := ih (by omega) hWn'
    simp only [calls]
    generalize (calls (fun k t => choose (ms k) (is k) t) n t0) = r at *
    obtain ⟨rs, t⟩ := r
    simp only at h1 h2 h3 h4 ⊢
    have hnone : rs.count none = 0 := by
      refine List.count_eq_zero.mpr fun hm => ?_
      obtain ⟨a, _, h, _⟩ := h3 none hm
      cases h
    have hT : nextTotal t.picks (ms n) = n + 1 := by
      have := h1.total hn (hp n) (by omega)
      omega
    have hcs : (ns.map fun a => rs.count (some a)).sum = n := by
      have := count_sum ns hn rs h1.named
      omega
    have hcl : ∀ a, rs.count (some a) ≤ n := fun a => by
      have := List.count_le_length (l := rs) (a := some a)
      omega
    -- a choice is made
    have hsome : ∃ i, scan t.picks (nextTotal t.picks (ms n)) (is n) = some i := by
      cases hsc : scan t.picks (nextTotal t.picks (ms n)) (is n) with
      | some i => exact ⟨i, rfl⟩
      | none =>
        exfalso
        obtain ⟨a, ha, hlt'⟩ := pigeon ns _ w W n hcs hsum hW
        have hwa : 0 < w a := by
          refine Nat.pos_of_ne_zero fun h0 => ?_
          rw [h0] at hlt'; simp at hlt'
        obtain ⟨i, hi, rfl⟩ := hall n a ha hwa
        have hl := lt_share hW (hle _ ha) hWn hlt'
        rcases scan_none hsc i hi with hk | hk
        · unfold Item.skipped Item.cap at hk
          rw [hT, (his n i hi).2, ofNat_small (by omega : n + 1 < 2 ^ 53), h1.picks ha,
            ofNat_small (Nat.lt_of_le_of_lt (hcl _) (by omega))] at hk
          simp only [F.mul, F.ge, decide_eq_true_eq] at hk
          exact absurd hl (Rat.not_lt.mpr hk)
        · unfold Item.rel Item.cap at hk
          rw [hT, (his n i hi).2, ofNat_small (by omega : n + 1 < 2 ^ 53), h1.picks ha,
            ofNat_small (Nat.lt_of_le_of_lt (hcl _) (by omega))] at hk
          simp only [F.mul, F.div] at hk
          have hpos : (0 : Rat) ≤ ((rs.count (some i.name) : Nat) : Rat) := Rat.natCast_nonneg
          rw [if_neg (by intro hz; rw [hz] at hl; exact absurd hl (Rat.not_lt.mpr hpos))] at hk
          cases hk
    obtain ⟨i, hi⟩ := hsome
    obtain ⟨hm, hsk, _⟩ := scan_some hi
    obtain ⟨hin, hish⟩ := his n i hm
    have hcap : ((rs.count (some i.name) : Nat) : Rat) < rnd (rnd ((w i.name : Rat) / W) * ((n + 1 : Nat) : Rat)) := by
      unfold Item.skipped Item.cap at hsk
      rw [hT, hish, ofNat_small (by omega : n + 1 < 2 ^ 53), h1.picks hin,
        ofNat_small (Nat.lt_of_le_of_lt (hcl _) (by omega))] at hsk
      simp only [F.mul, F.ge, decide_eq_false_iff_not, Rat.not_le] at hsk
      exact hsk
    have hwpos : 0 < w i.name := by
      refine Nat.pos_of_ne_zero fun hz => ?_
      rw [hz] at hcap
      have e : rnd (((0 : Nat) : Rat) / W) * ((n + 1 : Nat) : Rat) = 0 := by
        have : ((0 : Nat) : Rat) / (W : Rat) = 0 := by
          rw [Rat.div_def]; exact Rat.zero_mul _
        rw [this, rnd_zero, Rat.zero_mul]
      rw [e, rnd_zero] at hcap
      exact absurd hcap (Rat.not_lt.mpr Rat.natCast_nonneg)
    have hup := le_share hW (hle _ hin) hWn hcap
    have hch : (choose (ms n) (is n) t).1 = some i.name := by unfold choose; rw [hi]
    refine ⟨h1.step (fun i hi => (his n i hi).1) (by omega), by simp [h2], ?_, ?_⟩
    · intro x hx
      rcases List.mem_append.mp hx with hx | hx
      · exact h3 x hx
      · simp only [List.mem_singleton] at hx
        exact ⟨i.name, hin, by rw [hx, hch], hwpos⟩
    · intro a ha
      rw [hch, List.count_append, List.count_singleton]
      have h4a := h4 a ha
      by_cases he : i.name = a
      · subst he
        simp only [beq_self_eq_true, if_true, Nat.add_mul, Nat.one_mul]
        omega
      · have : ((some i.name : Option String) == some a) = false := by
          simp only [beq_eq_false_iff_ne, ne_eq, Option.some.injEq]; exact he
        simp only [this, Bool.false_eq_true, if_false, Nat.add_zero]
        have : w a * n ≤ w a * (n + 1) := Nat.mul_le_mul_left _ (Nat.le_succ n)
        omega

/-- The lower bound follows from the upper bounds of the others. -/
theorem lower_of_upper (ns : List String) (hn : ns.Nodup) (w c : String → Nat) (W n : Nat)
    (hsum : (ns.map w).sum = W) (hc : (ns.map c).sum = n)
    (hu : ∀ a ∈ ns, c a * W ≤ w a * n + W) :
    ∀ a ∈ ns, w a * n + W ≤ c a * W + W * ns.length := by
  have key : ∀ l : List String, (∀ a ∈ l, c a * W ≤ w a * n + W) →
      (l.map c).sum * W ≤ (l.map w).sum * n + W * l.length := by
    intro l
    induction l with
    | nil => simp
    | cons a r ih =>
      intro hl
      have h1 := hl a (by simp)
      have h2 := ih fun b hb => hl b (List.mem_cons_of_mem _ hb)
      simp only [List.map_cons, List.sum_cons, Nat.add_mul, List.length_cons, Nat.mul_add, Nat.mul_one]
      omega
  intro a ha
  obtain ⟨l1, l2, rfl⟩ := List.append_of_mem ha
  have k1 := key l1 fun b hb => hu b (by simp [hb])
  have k2 := key l2 fun b hb => hu b (by simp [hb])
  simp only [List.map_append, List.map_cons, List.sum_append, List.sum_cons] at hsum hc
  have e1 : n * W = ((l1.map c).sum + (c a + (l2.map c).sum)) * W := by rw [hc]
  have e2 : W * n = ((l1.map w).sum + (w a + (l2.map w).sum)) * n := by rw [hsum]
  simp only [Nat.add_mul] at e1 e2
  simp only [List.length_append, List.length_cons, Nat.mul_add, Nat.mul_one]
  have : n * W = W * n := Nat.mul_comm _ _
  omega

end Verif.Bal
