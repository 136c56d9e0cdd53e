import Verif.Props.BalanceLoad
/-
C52, second part: shares within a priority and a locality, and where the rules are broken.
C30: every sample of the least-request balancer is possible.
-/
namespace Verif.Bal
open Verif.Flt

/-! ### Monotonicity -/

/-- `x` is at most `y`, both numbers; or neither is a number. -/
def F.leq (x y : F) : Prop := (x = .nan ∧ y = .nan) ∨ ∃ a b, x = .fin a ∧ y = .fin b ∧ 0 ≤ a ∧ a ≤ b

theorem floor_mono {x y : Rat} (h : x ≤ y) : x.floor ≤ y.floor := by
  rw [Rat.le_floor_iff]
  exact Rat.le_trans (Rat.floor_le _) h

theorem leq_round4 {x y : F} (h : x.leq y) : (round4 x).leq (round4 y) := by
  rcases h with ⟨rfl, rfl⟩ | ⟨a, b, rfl, rfl, h0, h⟩
  · exact Or.inl ⟨rfl, rfl⟩
  · right
    have e : (rnd ((10000 : Nat) : Rat)) = 10000 := by decide +kernel
    have hne : ¬ ((10000 : Rat) = 0) := by decide
    simp only [round4, F.ofNat, F.mul, F.round, F.div, e]
    rw [if_neg hne]
    refine ⟨_, _, rfl, by rw [if_neg hne], rnd_nonneg _, rnd_mono ?_⟩
    have h1 : rnd (a * 10000) ≤ rnd (b * 10000) := rnd_mono (by grind)
    have h2 : roundHalfUp (rnd (a * 10000)) ≤ roundHalfUp (rnd (b * 10000)) := by
      unfold roundHalfUp
      exact floor_mono (by grind)
    have h3 : ((roundHalfUp (rnd (a * 10000)) : Int) : Rat) ≤ ((roundHalfUp (rnd (b * 10000)) : Int) : Rat) :=
      Rat.intCast_le_intCast.mpr h2
    rw [Rat.div_def, Rat.div_def]
    exact Rat.mul_le_mul_of_nonneg_right h3 (by decide +kernel)

theorem leq_round2 {x y : F} (h : x.leq y) : (round2 x).leq (round2 y) := by
  rcases h with ⟨rfl, rfl⟩ | ⟨a, b, rfl, rfl, h0, h⟩
  · exact Or.inl ⟨rfl, rfl⟩
  · right
    have e : (rnd ((100 : Nat) : Rat)) = 100 := by decide +kernel
    have hne : ¬ ((100 : Rat) = 0) := by decide
    simp only [round2, F.ofNat, F.mul, F.roundEven, F.div, e]
    rw [if_neg hne]
    refine ⟨_, _, rfl, by rw [if_neg hne], rnd_nonneg _, rnd_mono ?_⟩
    have h1 : rnd (a * 100) ≤ rnd (b * 100) := rnd_mono (by grind)
    have h2 := roundEven_mono h1
    have h3 : ((Flt.roundEven (rnd (a * 100)) : Int) : Rat) ≤ ((Flt.roundEven (rnd (b * 100)) : Int) : Rat) :=
      Rat.intCast_le_intCast.mpr h2
    rw [Rat.div_def, Rat.div_def]
    exact Rat.mul_le_mul_of_nonneg_right h3 (by decide +kernel)

theorem leq_mul {x y z : F} (h : x.leq y) (hz : z = .nan ∨ ∃ c, 0 ≤ c ∧ z = .fin c) : (x.mul z).leq (y.mul z) := by
  rcases h with ⟨rfl, rfl⟩ | ⟨a, b, rfl, rfl, h0, h⟩
  · left; cases z <;> exact ⟨rfl, rfl⟩
  · rcases hz with rfl | ⟨c, hc, rfl⟩
    · exact Or.inl ⟨rfl, rfl⟩
    · exact Or.inr ⟨_, _, rfl, rfl, rnd_nonneg _, rnd_mono (Rat.mul_le_mul_of_nonneg_right h hc)⟩

theorem leq_div {a b S : Rat} (ha : 0 ≤ a) (h : a ≤ b) (hS : 0 ≤ S) (hb : b = 0 ∨ 0 < S) :
    ((F.fin a).div (.fin S)).leq ((F.fin b).div (.fin S)) := by
  by_cases h0 : S = 0
  · have hb0 : b = 0 := by
      rcases hb with hb | hb
      · exact hb
      · grind
    have ha0 : a = 0 := by grind
    subst h0 hb0 ha0
    left; simp [F.div]
  · have hS' : 0 < S := by grind
    simp only [F.div]
    rw [if_neg h0, if_neg h0]
    refine Or.inr ⟨_, _, rfl, rfl, rnd_nonneg _, rnd_mono ?_⟩
    rw [Rat.div_def, Rat.div_def]
    exact Rat.mul_le_mul_of_nonneg_right h (Rat.le_of_lt (Rat.inv_pos.mpr hS'))

/-! ### Loads are numbers -/

theorem sum_pos {γ : Type} (sc : γ → Rat) (hsc : ∀ p, 0 ≤ sc p) : ∀ (ps : List γ) (acc : Rat), 0 ≤ acc →
    (0 < acc ∨ ∃ p ∈ ps, 0 < sc p) →
    ∃ T, 0 < T ∧ ps.foldl (fun acc p => F.add acc (.fin (sc p))) (.fin acc) = .fin T
  | [], acc, _, h => by
    rcases h with h | ⟨p, hp, _⟩
    · exact ⟨acc, h, rfl⟩
    · cases hp
  | p :: ps, acc, h0, h => by
    rw [List.foldl_cons]
    have := hsc p
    apply sum_pos sc hsc ps _ (rnd_nonneg _)
    rcases h with h | ⟨q, hq, h⟩
    · exact Or.inl (rnd_pos (by grind))
    · rcases List.mem_cons.mp hq with rfl | hq
      · exact Or.inl (rnd_pos (by grind))
      · exact Or.inr ⟨q, hq, h⟩

theorem levelLoads_num (cla : Cla) (o : Rat) (p : Nat) :
    ((lookup p (levelLoads cla (.fin o))).getD (.fin 0) = .nan) ∨
    ∃ q, 0 ≤ q ∧ (lookup p (levelLoads cla (.fin o))).getD (.fin 0) = .fin q := by
  -- every value in the list is a rounded number or not a number
  have r4 : ∀ x : F, round4 x = .nan ∨ round4 x = .inf ∨ ∃ q, 0 ≤ q ∧ round4 x = .fin q := by
    intro x
    cases x with
    | nan => exact Or.inl rfl
    | inf =>
      right; left
      have e : (rnd ((10000 : Nat) : Rat)) = 10000 := by decide +kernel
      simp only [round4, F.mul, F.ofNat, e]
      rw [if_neg (by decide)]
      rfl
    | fin a =>
      right; right
      have e : (rnd ((10000 : Nat) : Rat)) = 10000 := by decide +kernel
      simp only [round4, F.ofNat, F.mul, F.round, F.div, e]
      rw [if_neg (by decide)]
      exact ⟨_, rnd_nonneg _, rfl⟩
  have hom : ∀ x : F, oneMinus x = .nan ∨ ∃ q, oneMinus x = .fin q := by
    intro x; cases x
    · exact Or.inr ⟨_, rfl⟩
    · exact Or.inl rfl
    · exact Or.inl rfl
  have key : ∀ (tot : F) (ps : List Nat) (acc : List (Nat × F) × F) (score : Nat → F),
      (∀ p ∈ ps, ((score p).div tot) = .nan ∨ ∃ q, 0 ≤ q ∧ (score p).div tot = .fin q) →
      (∀ e ∈ acc.1, e.2 = .nan ∨ ∃ q, 0 ≤ q ∧ e.2 = .fin q) →
      ∀ e ∈ (ps.foldl (fun (acc : List (Nat × F) × F) p =>
        let l := (score p).div tot
        let l := if (oneMinus acc.2).lt l then oneMinus acc.2 else l
        let l := round4 l
        (acc.1 ++ [(p, l)], acc.2.add l)) acc).1, e.2 = .nan ∨ ∃ q, 0 ≤ q ∧ e.2 = .fin q := by
    intro tot ps
    induction ps with
    | nil => intro acc score _ h; exact h
    | cons p ps ih =>
      intro acc score hsc h
      rw [List.foldl_cons]
      refine ih _ score (fun q hq => hsc q (by simp [hq])) ?_
      intro e he
      simp only at he
      rcases List.mem_append.mp he with he | he
      · exact h e he
      · simp only [List.mem_singleton] at he
        subst he
        simp only
        have hx : ∃ y, (if (oneMinus acc.2).lt ((score p).div tot) = true then oneMinus acc.2 else (score p).div tot) = y ∧
            (y = .nan ∨ ∃ q, y = .fin q) := by
          refine ⟨_, rfl, ?_⟩
          split
          · exact hom _
          · rcases hsc p (by simp) with h | ⟨q, _, h⟩
            · exact Or.inl h
            · exact Or.inr ⟨q, h⟩
        obtain ⟨y, hy, hy2⟩ := hx
        rw [hy]
        rcases r4 y with h | h | h
        · exact Or.inl h
        · exfalso
          rcases hy2 with rfl | ⟨q, rfl⟩
          · cases h
          · have e : (rnd ((10000 : Nat) : Rat)) = 10000 := by decide +kernel
            simp only [round4, F.ofNat, F.mul, F.round, F.div, e] at h
            rw [if_neg (by decide)] at h
            cases h
        · exact Or.inr h
  have hll : ∀ e ∈ levelLoads cla (.fin o), e.2 = .nan ∨ ∃ q, 0 ≤ q ∧ e.2 = .fin q := by
    unfold levelLoads
    simp only [availability_fin]
    obtain ⟨T, hT0, hT⟩ := sum_fin (fun p => F.fin (av o (atLevel cla p)))
      (fun p => ⟨_, (av_range o _).1, rfl⟩) (levels cla) 0 (by decide)
    rw [hT]
    have hif : ∃ U, 0 ≤ U ∧ (if (F.fin 1).lt (F.fin T) = true then F.fin 1 else F.fin T) = F.fin U ∧
        (U = 0 → T = 0) := by
      split
      · exact ⟨1, by decide, rfl, fun h => absurd h (by decide)⟩
      · exact ⟨T, hT0, rfl, id⟩
    obtain ⟨U, hU0, hU, hUT⟩ := hif
    rw [hU]
    by_cases hzero : U = 0
    · -- all availabilities are zero
      refine key (.fin U) (levels cla) _ (fun p => F.fin (av o (atLevel cla p))) ?_ (by intro e he; cases he)
      intro p hp
      have hT' := hUT hzero
      have hav : av o (atLevel cla p) = 0 := by
        have h0 := (av_range o (atLevel cla p)).1
        apply Classical.byContradiction
        intro hne
        obtain ⟨T', hT1, hT2⟩ := sum_pos (fun p => av o (atLevel cla p)) (fun p => (av_range o _).1)
          (levels cla) 0 (by decide) (Or.inr ⟨p, hp, by grind⟩)
        rw [hT] at hT2
        injection hT2 with hT2
        grind
      subst hzero
      left
      simp [F.div, hav]
    · refine key (.fin U) (levels cla) _ (fun p => F.fin (av o (atLevel cla p))) ?_ (by intro e he; cases he)
      intro p _
      simp only [F.div]
      rw [if_neg hzero]
      exact Or.inr ⟨_, rnd_nonneg _, rfl⟩
  cases hl : lookup p (levelLoads cla (.fin o)) with
  | none => exact Or.inr ⟨0, by decide, rfl⟩
  | some v => exact hll _ (mem_of_lookup _ _ _ hl)

/-! ### Shares of localities -/

theorem F.add_nan (x : F) : x.add .nan = .nan := by cases x <;> rfl
theorem F.nan_add (x : F) : F.nan.add x = .nan := by cases x <;> rfl

theorem foldl_nan {γ : Type} (f : γ → F) : ∀ ls : List γ, ls.foldl (fun acc l => F.add acc (f l)) .nan = .nan
  | [] => rfl
  | l :: ls => by rw [List.foldl_cons, F.nan_add, foldl_nan f ls]

/-- A sum of numbers that are not negative, or not numbers; at least as positive as its parts. -/
theorem sum_num {γ : Type} (f : γ → F) (hf : ∀ x, f x = .nan ∨ ∃ q, 0 ≤ q ∧ f x = .fin q) :
    ∀ (ls : List γ) (acc : Rat), 0 ≤ acc →
    ls.foldl (fun acc l => F.add acc (f l)) (.fin acc) = .nan ∨
    ∃ S, 0 ≤ S ∧ ls.foldl (fun acc l => F.add acc (f l)) (.fin acc) = .fin S ∧ (0 < acc → 0 < S) ∧
      ∀ x ∈ ls, f x = .fin 0 ∨ 0 < S
  | [], acc, h => Or.inr ⟨acc, h, rfl, id, by simp⟩
  | l :: ls, acc, h => by
    rw [List.foldl_cons]
    rcases hf l with hl | ⟨q, hq, hl⟩
    · rw [hl, F.add_nan, foldl_nan]; exact Or.inl rfl
    · rw [hl]
      rcases sum_num f hf ls (rnd (acc + q)) (rnd_nonneg _) with h1 | ⟨S, h1, h2, h3, h4⟩
      · exact Or.inl h1
      · refine Or.inr ⟨S, h1, h2, fun hp => h3 (rnd_pos (by grind)), ?_⟩
        intro x hx
        rcases List.mem_cons.mp hx with rfl | hx
        · by_cases hz : q = 0
          · left; rw [hl, hz]
          · right; exact h3 (rnd_pos (by grind))
        · exact h4 x hx

theorem effWeight_num (cla : Cla) (o : Rat) (l : Locality) :
    effWeight cla (.fin o) l = .nan ∨ ∃ q, 0 ≤ q ∧ effWeight cla (.fin o) l = .fin q := by
  unfold effWeight
  rw [availability_fin]
  rcases levelLoads_num cla o l.priority with h | ⟨q, _, h⟩
  · rw [h]; left; simp [F.ofNat, F.mul]
  · rw [h]; right; exact ⟨_, rnd_nonneg _, rfl⟩

/-- **C52** Within one priority, a locality with at most the weight of another gets at most its
load, if both have enough healthy endpoints; equal weights get equal loads.  (Loads that are not
numbers only occur together.) -/
theorem C52_locality_weight (cla : Cla) (o : Rat) (hn : DistinctLocalities cla) (l1 l2 : Locality)
    (h1 : l1 ∈ cla) (h2 : l2 ∈ cla) (hp : l1.priority = l2.priority) (hf1 : Full o l1.eps) (hf2 : Full o l2.eps)
    (hw : l1.weight.getD 1 ≤ l2.weight.getD 1) :
    ∃ x y, lookup l1.name (localityLoads cla (.fin o)) = some x ∧
      lookup l2.name (localityLoads cla (.fin o)) = some y ∧ x.leq y := by
  refine ⟨_, _, localityLoads_eq hn h1, localityLoads_eq hn h2, leq_round4 ?_⟩
  have hle : (effWeight cla (.fin o) l1).leq (effWeight cla (.fin o) l2) := by
    unfold effWeight
    rw [availability_fin, availability_fin, atLocality_self hn h1, atLocality_self hn h2, av_full hf1, av_full hf2, hp]
    refine leq_mul ?_ (levelLoads_num cla o l2.priority)
    refine Or.inr ⟨_, _, rfl, rfl, rnd_nonneg _, rnd_mono ?_⟩
    rw [Rat.mul_one, Rat.mul_one]
    exact rnd_mono (Rat.natCast_le_natCast.mpr hw)
  rcases sum_num (effWeight cla (.fin o)) (effWeight_num cla o) cla 0 (by decide) with hs | ⟨S, hS0, hS, _, hS2⟩
  · rw [hs]
    left
    constructor
    · cases effWeight cla (.fin o) l1 <;> rfl
    · cases effWeight cla (.fin o) l2 <;> rfl
  · rw [hS]
    rcases hle with ⟨e1, e2⟩ | ⟨a, b, e1, e2, h0, hab⟩
    · rw [e1, e2]; exact Or.inl ⟨rfl, rfl⟩
    · rw [e1, e2]
      refine leq_div h0 hab hS0 ?_
      rcases hS2 l2 h2 with h | h
      · rw [e2] at h; injection h with h; exact Or.inl h
      · exact Or.inr h

/-! ### Shares of endpoints -/

theorem div_anti {x y m n : Rat} (hx : 0 ≤ x) (hxy : x ≤ y) (hn : 0 < n) (hnm : n ≤ m) : x / m ≤ y / n := by
  have hm : 0 < m := by grind
  refine Rat.not_lt.mp fun h => ?_
  rw [Rat.lt_div_iff hm] at h
  have h2 : y / n * n = y := by rw [Rat.div_mul_cancel (by grind)]
  have h3 : 0 ≤ y / n := by rw [Rat.div_def]; exact Rat.mul_nonneg (by grind) (Rat.le_of_lt (Rat.inv_pos.mpr hn))
  have h4 : y / n * n ≤ y / n * m := Rat.mul_le_mul_of_nonneg_left hnm h3
  grind

/-- All addresses are different. -/
def DistinctAddresses (cla : Cla) : Prop := ((cla.flatMap (·.eps)).filterMap (·.addr)).Nodup

/-- The load of an endpoint (endpoint.go:339-353). -/
def epLoad (cla : Cla) (t : Table) (opf : F) (bias : Option (Nat → F)) (loc : Locality) (e : LbEndpoint) (a : String) : F :=
  round2 (((biased t bias (if e.isHealthy then F.ofNat e.lbWeight else F.fin 0) a).div
    (localityWeight cla t bias loc.name)).mul ((lookup loc.name (localityLoads cla opf)).getD (.fin 0)))

/-- Adding up a list of assignments. -/
theorem load_lookup {cla : Cla} (hd : DistinctAddresses cla) (t : Table) (opf : F) (bias : Option (Nat → F))
    {loc : Locality} (hloc : loc ∈ cla) {e : LbEndpoint} (he : e ∈ loc.eps) {a : String} (ha : e.addr = some a) :
    lookup a (loadDistribution cla t opf bias) = some (epLoad cla t opf bias loc e a) := by
  -- the nested loop is one loop over the pairs
  let kvs : List (String × F) := cla.flatMap fun l => l.eps.filterMap fun e => e.addr.map fun a =>
    (a, epLoad cla t opf bias l e a)
  have hinner : ∀ (l : Locality) (es : List LbEndpoint) (acc : List (String × F)),
      es.foldl (fun acc e =>
        match e.addr with
        | none => acc
        | some a =>
          let w := if e.isHealthy then F.ofNat e.lbWeight else F.fin 0
          let load := ((biased t bias w a).div (localityWeight cla t bias l.name)).mul
            ((lookup l.name (localityLoads cla opf)).getD (.fin 0))
          put a (round2 load) acc) acc =
      (es.filterMap fun e => e.addr.map fun a => (a, epLoad cla t opf bias l e a)).foldl
        (fun acc kv => put kv.1 kv.2 acc) acc := by
    intro l es
    induction es with
    | nil => intro acc; rfl
    | cons e es ih =>
      intro acc
      rw [List.foldl_cons, ih]
      cases hea : e.addr with
      | none => simp [hea]
      | some a => simp only [hea, List.filterMap_cons, Option.map_some, List.foldl_cons]; rfl
  have houter : loadDistribution cla t opf bias = kvs.foldl (fun acc kv => put kv.1 kv.2 acc) [] := by
    unfold loadDistribution
    have : ∀ (ls : List Locality) (acc : List (String × F)),
        ls.foldl (fun acc l => l.eps.foldl (fun acc e =>
          match e.addr with
          | none => acc
          | some a =>
            let w := if e.isHealthy then F.ofNat e.lbWeight else F.fin 0
            let load := ((biased t bias w a).div (localityWeight cla t bias l.name)).mul
              ((lookup l.name (localityLoads cla opf)).getD (.fin 0))
            put a (round2 load) acc) acc) acc =
        (ls.flatMap fun l => l.eps.filterMap fun e => e.addr.map fun a => (a, epLoad cla t opf bias l e a)).foldl
          (fun acc kv => put kv.1 kv.2 acc) acc := by
      intro ls
      induction ls with
      | nil => intro acc; rfl
      | cons l ls ih =>
        intro acc
        rw [List.foldl_cons, ih, hinner, List.flatMap_cons, List.foldl_append]
    exact this cla []
  have hkeys : kvs.map (·.1) = (cla.flatMap (·.eps)).filterMap (·.addr) := by
    have h1 : ∀ (l : Locality) (es : List LbEndpoint), (es.filterMap fun e => e.addr.map fun a =>
        (a, epLoad cla t opf bias l e a)).map (·.1) = es.filterMap (·.addr) := by
      intro l es
      induction es with
      | nil => rfl
      | cons e es ih =>
        cases hea : e.addr with
        | none => simp only [List.filterMap_cons, hea, Option.map_none]; exact ih
        | some a => simp only [List.filterMap_cons, hea, Option.map_some, List.map_cons, ih]
    have h2 : ∀ ls : List Locality, ((ls.flatMap fun l => l.eps.filterMap fun e => e.addr.map fun a =>
        (a, epLoad cla t opf bias l e a)).map (·.1)) = (ls.flatMap (·.eps)).filterMap (·.addr) := by
      intro ls
      induction ls with
      | nil => rfl
      | cons l ls ih => rw [List.flatMap_cons, List.flatMap_cons, List.map_append, List.filterMap_append, ih, h1]
    exact h2 cla
  have hmem : (a, epLoad cla t opf bias loc e a) ∈ kvs := by
    simp only [kvs, List.mem_flatMap, List.mem_filterMap]
    exact ⟨loc, hloc, e, he, by rw [ha]; rfl⟩
  rw [houter]
  exact lookup_putAll_nodup (γ := String × F) (·.1) (·.2) kvs [] (by rw [hkeys]; exact hd) _ hmem

/-- The active-request bias as a number. -/
def biasedNum (t : Table) (useActive : Bool) (w : Nat) (a : String) : Rat :=
  if useActive then rnd (rnd w / rnd ((t.active a + 1 : Nat) : Rat)) else rnd w

theorem biased_num (t : Table) (useActive : Bool) (w : Nat) (a : String) (hact : t.active a + 1 < 2 ^ 32) :
    biased t (if useActive then some biasOne else none) (.ofNat w) a = .fin (biasedNum t useActive w a) := by
  cases useActive with
  | false => rfl
  | true =>
    simp only [if_true, biased, biasedNum, biasOne, F.ofNat, F.div, u32, Nat.mod_eq_of_lt hact]
    have := rnd_natPos (n := t.active a + 1) (by omega)
    rw [if_neg (by grind)]

theorem biasedNum_nonneg (t : Table) (u : Bool) (w : Nat) (a : String) : 0 ≤ biasedNum t u w a := by
  unfold biasedNum; split <;> exact rnd_nonneg _

/-- **C52** Within one locality, a healthy endpoint with at most the weight of another, and at
least as many active requests, gets at most its load; endpoints equal in both get equal loads.
`useActive`: least-request with the default bias, otherwise round robin.  (Loads that are not
numbers only occur together.) -/
theorem C52_endpoint_weight (cla : Cla) (o : Rat) (t : Table) (useActive : Bool) (hn : DistinctLocalities cla)
    (hd : DistinctAddresses cla) (hact : ∀ a, t.active a + 1 < 2 ^ 32) (loc : Locality) (hloc : loc ∈ cla)
    (e1 e2 : LbEndpoint) (he1 : e1 ∈ loc.eps) (he2 : e2 ∈ loc.eps) (a1 a2 : String) (ha1 : e1.addr = some a1)
    (ha2 : e2.addr = some a2) (hh1 : e1.isHealthy = true) (hh2 : e2.isHealthy = true)
    (hw : e1.weight.getD 1 ≤ e2.weight.getD 1) (hr : useActive = true → t.active a2 ≤ t.active a1) :
    ∃ x y, lookup a1 (loadDistribution cla t (.fin o) (if useActive then some biasOne else none)) = some x ∧
      lookup a2 (loadDistribution cla t (.fin o) (if useActive then some biasOne else none)) = some y ∧ x.leq y := by
  refine ⟨_, _, load_lookup hd t _ _ hloc he1 ha1, load_lookup hd t _ _ hloc he2 ha2, leq_round2 ?_⟩
  rw [hh1, hh2]
  simp only [if_true, biased_num _ _ _ _ (hact _)]
  have hlw : ∃ L, 0 ≤ L ∧ localityWeight cla t (if useActive then some biasOne else none) loc.name = .fin L ∧
      (biasedNum t useActive e2.lbWeight a2 = 0 ∨ 0 < L) := by
    unfold localityWeight
    rw [atLocality_self hn hloc]
    let val : LbEndpoint → F := fun e => if e.isHealthy then
        (match e.addr with | some a => .fin (biasedNum t useActive e.lbWeight a) | none => .fin 0) else .fin 0
    have hstep : ∀ (es : List LbEndpoint) (acc : Rat), 0 ≤ acc →
        es.foldl (fun acc e => if e.isHealthy then
          match e.addr with
          | some a => F.add acc (biased t (if useActive then some biasOne else none) (F.ofNat e.lbWeight) a)
          | none => acc else acc) (.fin acc) =
        (es.filter (fun e => e.isHealthy && e.addr.isSome)).foldl (fun acc e => F.add acc (val e)) (.fin acc) := by
      intro es
      induction es with
      | nil => intro acc _; rfl
      | cons e es ih =>
        intro acc h0
        rw [List.foldl_cons]
        cases hh : e.isHealthy with
        | false => simp only [Bool.false_eq_true, if_false, List.filter_cons, hh, Bool.false_and]; exact ih acc h0
        | true =>
          cases ha : e.addr with
          | none => simp only [if_true, List.filter_cons, hh, ha, Option.isSome_none, Bool.and_false,
              Bool.false_eq_true, if_false]; exact ih acc h0
          | some b =>
            have hv : val e = .fin (biasedNum t useActive e.lbWeight b) := by simp [val, hh, ha]
            have hb := biased_num t useActive e.lbWeight b (hact _)
            simp only [if_true, List.filter_cons, hh, ha, Option.isSome_some, Bool.and_true, List.foldl_cons, hb, hv]
            exact ih (rnd (acc + biasedNum t useActive e.lbWeight b)) (rnd_nonneg _)
    have hst := hstep loc.eps 0 (by decide)
    have hval : ∀ e, val e = .nan ∨ ∃ q, 0 ≤ q ∧ val e = .fin q := by
      intro e
      simp only [val]
      right
      split
      · split
        · exact ⟨_, biasedNum_nonneg _ _ _ _, rfl⟩
        · exact ⟨0, by decide, rfl⟩
      · exact ⟨0, by decide, rfl⟩
    rcases sum_num val hval (loc.eps.filter (fun e => e.isHealthy && e.addr.isSome)) 0 (by decide) with hs | ⟨S, hS0, hS, _, hS2⟩
    · exfalso
      have hval' : ∀ e, ∃ q, 0 ≤ q ∧ val e = .fin q := by
        intro e
        rcases hval e with h | h
        · exfalso
          simp only [val] at h
          split at h
          · split at h <;> cases h
          · cases h
        · exact h
      obtain ⟨S, _, hS⟩ := sum_fin val hval' (loc.eps.filter (fun e => e.isHealthy && e.addr.isSome)) 0 (by decide)
      rw [hS] at hs
      cases hs
    · refine ⟨S, hS0, hst.trans hS, ?_⟩
      rcases hS2 e2 (by simp [he2, hh2, ha2]) with h | h
      · left
        simp only [val, hh2, if_true, ha2] at h
        injection h
      · exact Or.inr h
  obtain ⟨L, hL0, hL, hL2⟩ := hlw
  have hbias : biasedNum t useActive e1.lbWeight a1 ≤ biasedNum t useActive e2.lbWeight a2 := by
    have hwr : rnd (e1.lbWeight : Rat) ≤ rnd (e2.lbWeight : Rat) := rnd_mono (Rat.natCast_le_natCast.mpr hw)
    unfold biasedNum
    cases useActive with
    | false => exact hwr
    | true =>
      simp only [if_true]
      apply rnd_mono
      have hp1 := rnd_natPos (n := t.active a1 + 1) (by omega)
      have hp2 := rnd_natPos (n := t.active a2 + 1) (by omega)
      have hm : rnd ((t.active a2 + 1 : Nat) : Rat) ≤ rnd ((t.active a1 + 1 : Nat) : Rat) :=
        rnd_mono (Rat.natCast_le_natCast.mpr (by have := hr rfl; omega))
      exact div_anti (rnd_nonneg _) hwr hp2 hm
  rw [hL]
  refine leq_mul (leq_div (biasedNum_nonneg _ _ _ _) hbias hL0 hL2) ?_
  rw [localityLoads_eq hn hloc, Option.getD_some]
  have hq : ∀ x : F, (x = .nan ∨ ∃ q, 0 ≤ q ∧ x = .fin q) → round4 x = .nan ∨ ∃ c, 0 ≤ c ∧ round4 x = .fin c := by
    rintro x (rfl | ⟨q, _, rfl⟩)
    · exact Or.inl rfl
    · right
      have e : (rnd ((10000 : Nat) : Rat)) = 10000 := by decide +kernel
      simp only [round4, F.ofNat, F.mul, F.round, F.div, e]
      rw [if_neg (by decide)]
      exact ⟨_, rnd_nonneg _, rfl⟩
  apply hq
  rcases effWeight_num cla o loc with hw1 | ⟨q, hq0, hw1⟩
  · left; rw [hw1]; cases (List.foldl _ _ _ : F) <;> rfl
  · rcases sum_num (effWeight cla (.fin o)) (effWeight_num cla o) cla 0 (by decide) with hs | ⟨S, hS0, hS, _, hS2⟩
    · left; rw [hs, hw1]; rfl
    · rw [hS, hw1]
      by_cases hz : S = 0
      · subst hz
        rcases hS2 loc hloc with h | h
        · rw [hw1] at h; injection h with h; subst h; left; simp [F.div]
        · exact absurd h (by decide)
      · right
        simp only [F.div]
        rw [if_neg hz]
        exact ⟨_, rnd_nonneg _, rfl⟩

/-! ### The theorems apply -/

/-- Two priorities, two localities in the first, different weights. -/
def zones : Cla :=
  [ { name := "r/a", priority := 0, weight := some 3, eps := [⟨some "a1", .healthy, some 3⟩, ⟨some "a2", .healthy, some 1⟩] },
    { name := "r/b", priority := 0, weight := some 1, eps := [⟨some "b1", .healthy, none⟩, ⟨some "b2", .unhealthy, none⟩,
      ⟨some "b3", .healthy, none⟩, ⟨some "b4", .healthy, none⟩] },
    { name := "r/c", priority := 1, eps := [⟨some "c1", .healthy, none⟩] } ]

example : DistinctLocalities zones ∧ DistinctAddresses zones := by
  unfold DistinctLocalities DistinctAddresses; decide +kernel
example : localityLoads zones defaultOpf =
    [("r/a", F.lit (75/100)), ("r/b", F.lit (25/100)), ("r/c", .fin 0)] := by decide +kernel
example : loadDistribution zones (fun _ => some {}) defaultOpf none =
    [("a1", F.lit (56/100)), ("a2", F.lit (19/100)), ("b1", F.lit (8/100)), ("b2", .fin 0), ("b3", F.lit (8/100)),
     ("b4", F.lit (8/100)), ("c1", .fin 0)] := by decide +kernel
example : UsesLoads zones (.leastRequest 2 (some biasOne)) ∧ (∀ q, q < 0 → Down (ofPriority zones q)) ∧
    healthyCount (ofPriority zones 0) = 5 ∧ (ofPriority zones 0).length = 6 :=
  ⟨by show weightsEqual zones = false; decide +kernel, by omega, by decide, by decide⟩
example : Full (rnd (14/10)) (ofPriority zones 0) ∧ ¬ Full (rnd (14/10)) (ofPriority mixed 0) := by
  unfold Full; decide +kernel
example : (clientAddress .roundRobin zones defaultOpf (fun _ => some {}) (fun _ => 0)).1 = .addr "a1" := by decide +kernel
/-- With three requests active on `a1`, least-request halves its share. -/
example : loadDistribution zones (fun a => if a = "a1" then some ⟨0, 3⟩ else some {}) defaultOpf (some biasOne) =
    [("a1", F.lit (32/100)), ("a2", F.lit (43/100)), ("b1", F.lit (8/100)), ("b2", .fin 0), ("b3", F.lit (8/100)),
     ("b4", F.lit (8/100)), ("c1", .fin 0)] := by decide +kernel

/-! ### Samples -/

theorem swapAt_last (p q : List String) (x y : String) (tail : List String) :
    swapAt (p ++ x :: (q ++ y :: tail)) p.length (p.length + 1 + q.length) = p ++ y :: (q ++ x :: tail) := by
  unfold swapAt
  have h1 : (p ++ x :: (q ++ y :: tail))[p.length]? = some x := by simp
  have h2 : (p ++ x :: (q ++ y :: tail))[p.length + 1 + q.length]? = some y := by
    rw [List.getElem?_append_right (by omega)]
    rw [show p.length + 1 + q.length - p.length = q.length + 1 by omega]
    simp
  rw [h1, h2]
  simp only
  rw [List.set_append_right _ _ (by omega), Nat.sub_self, List.set_cons_zero, List.set_append_right _ _ (by omega),
    show p.length + 1 + q.length - p.length = q.length + 1 by omega, List.set_cons_succ,
    List.set_append_right _ _ (by omega), Nat.sub_self, List.set_cons_zero]

theorem swapAt_same (p : List String) (y : String) (tail : List String) :
    swapAt (p ++ y :: tail) p.length p.length = p ++ y :: tail := by
  unfold swapAt
  have h1 : (p ++ y :: tail)[p.length]? = some y := by simp
  rw [h1]
  simp only
  rw [List.set_append_right _ _ (by omega), Nat.sub_self, List.set_cons_zero, List.set_append_right _ _ (by omega),
    Nat.sub_self, List.set_cons_zero]

theorem sample_congr {r r' : Nat → Nat} : ∀ (k i : Nat) (l : List String), (∀ j, i ≤ j → r j = r' j) →
    sample r k i l = sample r' k i l
  | 0, _, _, _ => rfl
  | k + 1, i, l, h => by
    unfold sample
    rw [h i (Nat.le_refl _)]
    split
    · rfl
    · exact sample_congr k (i + 1) _ fun j hj => h j (by omega)

/-- Every arrangement of every selection of `k` positions can be drawn. -/
theorem sample_all : ∀ (k : Nat) (tgt head tail rest : List String), tgt.length = k → head.Perm (rest ++ tgt) →
    ∃ r h', sample r k tail.length (head ++ tail) = some (h' ++ tgt ++ tail)
  | 0, tgt, head, tail, rest, hk, _ => by
    have : tgt = [] := List.length_eq_zero_iff.mp hk
    subst this
    exact ⟨fun _ => 0, head, by simp [sample]⟩
  | k + 1, tgt, head, tail, rest, hk, hp => by
    obtain ⟨tgt', x, rfl⟩ : ∃ t x, tgt = t ++ [x] := by
      have hne : tgt ≠ [] := by intro h; subst h; simp at hk
      exact ⟨tgt.dropLast, tgt.getLast hne, (List.dropLast_concat_getLast hne).symm⟩
    have hx : x ∈ head := hp.mem_iff.mpr (by simp)
    have hk' : tgt'.length = k := by simp at hk; exact hk
    have hlen : 0 < head.length := List.length_pos_of_mem hx
    -- the number to draw and the list after the exchange
    have hsw : ∃ j head1, j < head.length ∧ swapAt (head ++ tail) j (head.length - 1) = head1 ++ x :: tail ∧
        head.Perm (head1 ++ [x]) := by
      obtain ⟨p, q, rfl⟩ := List.append_of_mem hx
      by_cases hq : q = []
      · subst hq
        refine ⟨p.length, p, by simp, ?_, List.Perm.refl _⟩
        have := swapAt_same p x tail
        simpa using this
      · refine ⟨p.length, p ++ q.getLast hq :: q.dropLast, by simp, ?_, ?_⟩
        · have h1 := swapAt_last p q.dropLast x (q.getLast hq) tail
          have h2 : q.dropLast ++ q.getLast hq :: tail = q ++ tail := by
            rw [show q.getLast hq :: tail = [q.getLast hq] ++ tail from rfl, ← List.append_assoc,
              List.dropLast_concat_getLast]
          have h3 : p.length + 1 + q.dropLast.length = (p ++ x :: q).length - 1 := by
            have : 0 < q.length := List.length_pos_iff.mpr hq
            simp only [List.length_dropLast, List.length_append, List.length_cons]; omega
          rw [h2, h3] at h1
          rw [List.append_assoc, List.cons_append, h1]
          simp
        · have h2 : q = q.dropLast ++ [q.getLast hq] := (List.dropLast_concat_getLast hq).symm
          have h4 : (x :: q).Perm ((q.getLast hq :: q.dropLast) ++ [x]) := by
            have h5 : q.Perm (q.getLast hq :: q.dropLast) := by
              have h6 : (q.dropLast ++ [q.getLast hq]).Perm (q.getLast hq :: q.dropLast) :=
                (List.perm_append_singleton _ _)
              rw [← h2] at h6
              exact h6
            exact (h5.cons x).trans (List.perm_append_singleton x _).symm
          have := h4.append_left p
          simpa using this
    obtain ⟨j, head1, hj, hs, hperm⟩ := hsw
    have hp1 : head1.Perm (rest ++ tgt') := by
      have h1 : (head1 ++ [x]).Perm ((rest ++ tgt') ++ [x]) := by
        have := hperm.symm.trans hp
        simpa using this
      exact (List.perm_append_right_iff _).mp h1
    obtain ⟨r, h', hr⟩ := sample_all k tgt' head1 (x :: tail) rest hk' hp1
    refine ⟨fun i => if i = tail.length then j else r i, h', ?_⟩
    unfold sample
    have hl : (head ++ tail).length - tail.length = head.length := by simp
    rw [if_neg (by simp only [List.length_append]; omega), hl, if_pos rfl, Nat.mod_eq_of_lt hj, hs]
    rw [sample_congr (r' := r) _ _ _ (fun i hi => if_neg (by omega))]
    simp only [List.length_cons] at hr
    rw [hr]
    simp

theorem drop_tail (a b : List String) (k : Nat) (h : b.length = k) : (a ++ b).drop ((a ++ b).length - k) = b := by
  rw [List.length_append, show a.length + b.length - k = a.length by omega, List.drop_left]

/-- **C30** Every sample is possible: for each way to pick `choice` of the endpoints there are
random numbers for which the least-request balancer compares exactly these. -/
theorem C30_sample_all (eps : List String) (t : Table) (S rest : List String) (hS : eps.Perm (rest ++ S))
    (h2 : 2 ≤ eps.length) (h0 : S ≠ []) :
    ∃ r a, p2cNext eps S.length t r = .addr a ∧ a ∈ S ∧ (∀ b ∈ S, t.active a ≤ t.active b) ∧
      leastActive t S = some a := by
  have hsp : (eps.mergeSort (fun a b => decide (a ≤ b))).Perm (rest ++ S) := (List.mergeSort_perm eps _).trans hS
  obtain ⟨r, h', hr⟩ := sample_all S.length S _ [] rest rfl hsp
  obtain ⟨a, ha⟩ : ∃ a, leastActive t S = some a := by
    cases S with
    | nil => exact absurd rfl h0
    | cons x xs => exact ⟨_, rfl⟩
  refine ⟨r, a, ?_, (leastActive_spec t S a ha).1, (leastActive_spec t S a ha).2, ha⟩
  match eps, h2, hr with
  | [], h, _ => simp at h
  | [_], h, _ => simp at h
  | x :: y :: zs, _, hr =>
    unfold p2cNext
    simp only
    simp only [List.append_nil, List.length_nil] at hr
    have hr' : sample r S.length 0 ((x :: y :: zs).mergeSort (fun a b => decide (a ≤ b))) = some (h' ++ S) := hr
    rw [hr']
    simp only
    rw [drop_tail h' S _ rfl, ha]

example : ∃ r a, p2cNext ["a", "b", "c", "d"] 2 (fun _ => some {}) r = .addr a ∧ a ∈ ["d", "b"] ∧
    (∀ b ∈ ["d", "b"], Table.active (fun _ => some {}) a ≤ Table.active (fun _ => some {}) b) ∧
    leastActive (fun _ => some {}) ["d", "b"] = some a :=
  C30_sample_all ["a", "b", "c", "d"] (fun _ => some {}) ["d", "b"] ["a", "c"]
    (by decide) (by decide) (by decide)

/-! ### Where the rules are broken -/

/-- Priority 0 healthy, a second priority as reserve. -/
def reserve : Cla :=
  [ { name := "r/a", priority := 0, eps := [⟨some "a", .healthy, none⟩, ⟨some "b", .healthy, none⟩] },
    { name := "r/b", priority := 1, eps := [⟨some "c", .healthy, none⟩, ⟨some "d", .healthy, none⟩] } ]

/-- **C172** (negation) The random policy does not look at priorities: the reserve is used although
every endpoint of the highest priority is healthy. -/
theorem C172_random_priority_false :
    (∀ e ∈ ofPriority reserve 0, e.isHealthy = true) ∧
    ∃ r, (clientAddress .random reserve defaultOpf (fun _ => some {}) r).1 = .addr "c" :=
  ⟨by decide, fun _ => 2, by decide +kernel⟩

/-- **C172** (negation) Least request does not look at priorities either when all weights are equal,
which is the default: the reserve is used although every endpoint of the highest priority is
healthy and idle. -/
theorem C172_leastRequest_priority_false :
    (∀ e ∈ ofPriority reserve 0, e.isHealthy = true) ∧
    ∃ r, (clientAddress (.leastRequest 2 (some biasOne)) reserve defaultOpf (fun _ => some {}) r).1 = .addr "c" := by
  refine ⟨by decide, ?_⟩
  obtain ⟨r, a, h, _, _, ha⟩ := C30_sample_all ["a", "b", "c", "d"] (fun _ => some {}) ["c", "d"] ["a", "b"]
    (by decide) (by decide) (by decide)
  have ha' : a = "c" := by injection ha with ha; exact ha.symm
  subst ha'
  refine ⟨r, ?_⟩
  have hn : nextEndpoint (.leastRequest 2 (some biasOne)) reserve defaultOpf (fun _ => some {}) r =
      (.addr "c", fun _ => some {}) := by
    simp only [nextEndpoint, wlrNext]
    rw [if_pos (by decide), show healthyAddrs reserve = ["a", "b", "c", "d"] from by decide]
    exact congrArg (·, _) h
  unfold clientAddress
  rw [hn]
  rfl

/-- One locality whose endpoints have different weights. -/
def oneZone : Cla :=
  [ { name := "r/a", priority := 0, eps := [⟨some "a", .healthy, some 100⟩, ⟨some "b", .healthy, some 1⟩] } ]

/-- **C172** (negation) Least request ignores the endpoint weights of a cluster with a single
locality: whatever the random numbers, of two idle endpoints with the same number of active
requests the outcome does not depend on the weights at all. -/
theorem C172_single_locality_false (l : Locality) (w : Nat) (choice : Nat) (bias : Option (Nat → F)) (opf : F) (t : Table)
    (r : Nat → Nat) :
    nextEndpoint (.leastRequest choice bias) [l] opf t r =
    nextEndpoint (.leastRequest choice bias) [{ l with eps := l.eps.map fun e => { e with weight := some w } }] opf t r := by
  have hh : healthyAddrs [{ l with eps := l.eps.map fun e => { e with weight := some w } }] = healthyAddrs [l] := by
    simp only [healthyAddrs, List.flatMap_cons, List.flatMap_nil, List.append_nil, List.filterMap_map]
    congr
  simp only [nextEndpoint, wlrNext, weightsEqual, List.length_singleton, Nat.le_refl, if_true, hh]

/-- The endpoint with a hundredth of the weight is chosen. -/
example : ∃ r, (clientAddress (.leastRequest 2 (some biasOne)) oneZone defaultOpf (fun _ => some {}) r).1 = .addr "b" := by
  obtain ⟨r, a, h, _, _, ha⟩ := C30_sample_all ["a", "b"] (fun _ => some {}) ["b", "a"] []
    (by decide) (by decide) (by decide)
  have ha' : a = "b" := by injection ha with ha; exact ha.symm
  subst ha'
  refine ⟨r, ?_⟩
  have hn : nextEndpoint (.leastRequest 2 (some biasOne)) oneZone defaultOpf (fun _ => some {}) r =
      (.addr "b", fun _ => some {}) := by
    simp only [nextEndpoint, wlrNext]
    rw [if_pos (by decide), show healthyAddrs oneZone = ["a", "b"] from by decide]
    exact congrArg (·, _) h
  unfold clientAddress
  rw [hn]
  rfl

/-- The same locality in two priorities. -/
def twice : Cla :=
  [ { name := "r/a", priority := 0, eps := [⟨some "a", .healthy, none⟩] },
    { name := "r/a", priority := 1, eps := [⟨some "b", .healthy, none⟩] } ]

/-- **C172** (negation) With the same locality in two priorities, the last entry's load wins for
both: round robin has no endpoint to offer, although all are healthy, and the connection attempt
panics. -/
theorem C172_same_locality_false (r : Nat → Nat) :
    (∀ e ∈ twice.flatMap (·.eps), e.isHealthy = true) ∧
    (clientAddress .roundRobin twice defaultOpf (fun _ => some {}) r).1 = .panic :=
  ⟨by decide, by
    have h : (clientAddress .roundRobin twice defaultOpf (fun _ => some {}) (fun _ => 0)).1 = .panic := by decide +kernel
    exact h⟩

/-! ### Active requests -/

theorem act_lem {n : Nat} (h : n + 1 < 2 ^ 32) : ((n + 1) % 2 ^ 32 + (2 ^ 32 - 1)) % 2 ^ 32 = n := by
  rw [Nat.mod_eq_of_lt h, show n + 1 + (2 ^ 32 - 1) = n + 2 ^ 32 by omega, Nat.add_mod_right, Nat.mod_eq_of_lt (by omega)]

theorem stats_ext {s s' : Stats} (h1 : s.picks = s'.picks) (h2 : s.active = s'.active) : s = s' := by
  cases s; cases s'; simp only at h1 h2; rw [h1, h2]

/-- **C30** The end of a request undoes its start, and neither touches other endpoints. -/
theorem C30_active (t : Table) (a b : String) (s : Stats) (ha : t a = some s) (hs : s.active + 1 < 2 ^ 32) :
    (t.incActive a).active a = t.active a + 1 ∧ ((t.incActive a).decActive a) = t ∧
    (b ≠ a → (t.incActive a).active b = t.active b ∧ (t.decActive a).active b = t.active b) := by
  refine ⟨?_, ?_, ?_⟩
  · simp only [Table.incActive, Table.adjust, Table.active, ha, Option.map_some, Option.getD_some, if_true, u32]
    omega
  · funext m
    simp only [Table.decActive, Table.incActive, Table.adjust, if_true]
    split
    · subst m
      have := act_lem hs
      rw [ha, Option.map_some, Option.map_some]
      unfold u32
      exact congrArg some (stats_ext rfl this)
    · rfl
  · intro hb
    simp [Table.decActive, Table.incActive, Table.adjust, Table.active, hb]

end Verif.Bal
