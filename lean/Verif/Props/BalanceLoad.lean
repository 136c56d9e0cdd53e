import Verif.Props.BalancePick
/-
C52: how the load is distributed over priorities, localities and endpoints.
-/
namespace Verif.Bal
open Verif.Flt

/-! ### Specification -/

/-- The number of healthy endpoints of a list. -/
def healthyCount (es : List LbEndpoint) : Nat := es.countP (·.isHealthy)

/-- Enough healthy endpoints: their part, overprovisioned by `o`, is at least 100% (in float64
arithmetic). -/
def Full (o : Rat) (es : List LbEndpoint) : Prop :=
  0 < es.length ∧ es.length < 2 ^ 53 ∧ 1 ≤ rnd (o * rnd ((healthyCount es : Rat) / (es.length : Rat)))

/-- None of the endpoints is healthy. -/
def Down (es : List LbEndpoint) : Prop := ∀ e ∈ es, e.isHealthy = false

/-- All endpoints of a priority. -/
def ofPriority (cla : Cla) (p : Nat) : List LbEndpoint := (cla.filter (·.priority = p)).flatMap (·.eps)

/-! ### Health and availability -/

theorem rnd_le_one {q : Rat} (h : q ≤ 1) : rnd q ≤ 1 := by
  have := rnd_mono h; rwa [rnd_one] at this

theorem one_le_rnd {q : Rat} (h : 1 ≤ q) : 1 ≤ rnd q := by
  have := rnd_mono h; rwa [rnd_one] at this

/-- The health as a number. -/
def hs (es : List LbEndpoint) : Rat :=
  if es.length = 0 then 0 else rnd (rnd (healthyCount es : Rat) / rnd (es.length : Rat))

theorem rnd_natPos {n : Nat} (h : 0 < n) : 0 < rnd (n : Rat) := by
  apply rnd_pos
  have : ((0 : Nat) : Rat) < (n : Rat) := Rat.natCast_lt_natCast.mpr h
  simpa using this

theorem healthScore_fin (es : List LbEndpoint) : healthScore es = .fin (hs es) := by
  unfold healthScore hs
  split
  · rfl
  · rename_i h
    have := rnd_natPos (n := es.length) (by omega)
    simp only [F.ofNat, F.div, healthyCount, List.countP_eq_length_filter]
    rw [if_neg (by grind)]

/-- The availability as a number. -/
def av (o : Rat) (es : List LbEndpoint) : Rat :=
  if 1 < rnd (o * hs es) then 1 else rnd (o * hs es)

theorem availability_fin (o : Rat) (es : List LbEndpoint) : availability (.fin o) es = .fin (av o es) := by
  simp only [availability, healthScore_fin, F.mul, F.lt, av, decide_eq_true_eq]
  split <;> rfl

theorem av_range (o : Rat) (es : List LbEndpoint) : 0 ≤ av o es ∧ av o es ≤ 1 := by
  unfold av
  have := rnd_nonneg (o * hs es)
  split <;> grind

theorem av_full {o : Rat} {es : List LbEndpoint} (h : Full o es) : av o es = 1 := by
  obtain ⟨h0, h1, h2⟩ := h
  have hh : hs es = rnd ((healthyCount es : Rat) / (es.length : Rat)) := by
    unfold hs
    rw [if_neg (by omega), rnd_nat _ h1, rnd_nat]
    have : healthyCount es ≤ es.length := List.countP_le_length
    omega
  unfold av
  rw [hh]
  split <;> grind

theorem av_down {o : Rat} {es : List LbEndpoint} (h : Down es) : av o es = 0 := by
  have h0 : healthyCount es = 0 := by
    rw [healthyCount, List.countP_eq_zero]
    intro e he; simp [h e he]
  have hh : hs es = 0 := by
    unfold hs
    split
    · rfl
    · rw [h0]
      have : rnd ((0 : Nat) : Rat) = 0 := rnd_zero
      rw [this, Rat.div_def, Rat.zero_mul, rnd_zero]
  unfold av
  rw [hh, Rat.mul_zero, rnd_zero]
  rw [if_neg (by decide)]

/-! ### Priority levels -/

theorem mem_insertKey {p q : Nat} : ∀ {l : List Nat}, q ∈ insertKey p l ↔ q = p ∨ q ∈ l
  | [] => by simp [insertKey]
  | x :: r => by
    unfold insertKey
    split
    · simp
    · split
      · rename_i h; subst h; simp
      · simp only [List.mem_cons, mem_insertKey (l := r)]
        constructor
        · rintro (h | h | h) <;> simp [h]
        · rintro (h | h | h) <;> simp [h]

theorem sorted_insertKey {p : Nat} : ∀ {l : List Nat}, l.Pairwise (· < ·) → (insertKey p l).Pairwise (· < ·)
  | [], _ => by simp [insertKey]
  | x :: r, h => by
    unfold insertKey
    rw [List.pairwise_cons] at h
    split
    · rename_i hp
      rw [List.pairwise_cons]
      refine ⟨?_, by rw [List.pairwise_cons]; exact h⟩
      intro y hy
      rcases List.mem_cons.mp hy with rfl | hy
      · exact hp
      · have := h.1 y hy; omega
    · split
      · rw [List.pairwise_cons]; exact h
      · rw [List.pairwise_cons]
        refine ⟨?_, sorted_insertKey h.2⟩
        intro y hy
        rcases mem_insertKey.mp hy with rfl | hy
        · omega
        · exact h.1 y hy

theorem levels_spec (cla : Cla) : (levels cla).Pairwise (· < ·) ∧ ∀ p, p ∈ levels cla ↔ ∃ l ∈ cla, l.priority = p := by
  have key : ∀ (cla : Cla) (acc : List Nat), acc.Pairwise (· < ·) →
      (cla.foldl (fun acc l => insertKey l.priority acc) acc).Pairwise (· < ·) ∧
      ∀ p, p ∈ cla.foldl (fun acc l => insertKey l.priority acc) acc ↔ p ∈ acc ∨ ∃ l ∈ cla, l.priority = p := by
    intro cla
    induction cla with
    | nil => intro acc h; exact ⟨h, fun p => by simp⟩
    | cons l r ih =>
      intro acc h
      rw [List.foldl_cons]
      obtain ⟨h1, h2⟩ := ih _ (sorted_insertKey (p := l.priority) h)
      refine ⟨h1, fun p => ?_⟩
      rw [h2, mem_insertKey]
      simp only [List.mem_cons, exists_eq_or_imp]
      constructor
      · rintro ((h | h) | h)
        · exact Or.inr (Or.inl h.symm)
        · exact Or.inl h
        · exact Or.inr (Or.inr h)
      · rintro (h | h | h)
        · exact Or.inl (Or.inr h)
        · exact Or.inl (Or.inl h.symm)
        · exact Or.inr h
  obtain ⟨h1, h2⟩ := key cla [] List.Pairwise.nil
  exact ⟨h1, fun p => by rw [levels, h2]; simp⟩

theorem round4_zero : round4 (.fin 0) = .fin 0 := by decide +kernel
theorem round4_one : round4 (.fin 1) = .fin 1 := by decide +kernel
theorem round2_zero : round2 (.fin 0) = .fin 0 := by decide +kernel

/-- The sum of availabilities is at least 1 as soon as one of them is. -/
theorem total_full (sc : Nat → Rat) (hsc : ∀ p, 0 ≤ sc p) : ∀ (ps : List Nat) (acc : Rat), 0 ≤ acc →
    (1 ≤ acc ∨ ∃ p ∈ ps, sc p = 1) →
    ∃ T, 1 ≤ T ∧ ps.foldl (fun acc p => F.add acc (.fin (sc p))) (.fin acc) = .fin T
  | [], acc, _, h => by
    rcases h with h | ⟨p, hp, _⟩
    · exact ⟨acc, h, rfl⟩
    · cases hp
  | p :: ps, acc, h0, h => by
    rw [List.foldl_cons]
    have := hsc p
    apply total_full sc hsc ps _ (rnd_nonneg _)
    rcases h with h | ⟨q, hq, h⟩
    · exact Or.inl (one_le_rnd (by grind))
    · rcases List.mem_cons.mp hq with rfl | hq
      · exact Or.inl (one_le_rnd (by grind))
      · exact Or.inr ⟨q, hq, h⟩

/-- The body of the loop of `levelLoads`, with a total of 1. -/
def levelStep (sc : Nat → Rat) (acc : List (Nat × F) × F) (p : Nat) : List (Nat × F) × F :=
  let l := (F.fin (sc p)).div (.fin 1)
  let l := if (oneMinus acc.2).lt l then oneMinus acc.2 else l
  let l := round4 l
  (acc.1 ++ [(p, l)], acc.2.add l)

theorem levelStep_zero (sc : Nat → Rat) (a : List (Nat × F)) (p : Nat) (h : sc p = 0) :
    levelStep sc (a, .fin 0) p = (a ++ [(p, .fin 0)], .fin 0) := by
  unfold levelStep
  rw [h]
  have e1 : (F.fin 0).div (.fin 1) = .fin 0 := by decide +kernel
  have e2 : oneMinus (.fin 0) = .fin 1 := by decide +kernel
  have e3 : (F.fin 1).lt (.fin 0) = false := by decide +kernel
  have e4 : (F.fin 0).add (.fin 0) = .fin 0 := by decide +kernel
  simp only [e1, e2, e3, round4_zero, e4]
  simp [round4_zero, e4]

theorem levelStep_one (sc : Nat → Rat) (a : List (Nat × F)) (p : Nat) (h : sc p = 1) :
    levelStep sc (a, .fin 0) p = (a ++ [(p, .fin 1)], .fin 1) := by
  unfold levelStep
  rw [h]
  have e1 : (F.fin 1).div (.fin 1) = .fin 1 := by decide +kernel
  have e2 : oneMinus (.fin 0) = .fin 1 := by decide +kernel
  have e3 : (F.fin 1).lt (.fin 1) = false := by decide +kernel
  have e4 : (F.fin 0).add (.fin 1) = .fin 1 := by decide +kernel
  simp only [e1, e2, e3]
  simp [round4_one, e4]

theorem levelStep_rest (sc : Nat → Rat) (a : List (Nat × F)) (p : Nat) (h : 0 ≤ sc p) :
    levelStep sc (a, .fin 1) p = (a ++ [(p, .fin 0)], .fin 1) := by
  unfold levelStep
  have e1 : (F.fin (sc p)).div (.fin 1) = .fin (rnd (sc p)) := by
    simp only [F.div]
    rw [if_neg (by decide), show sc p / 1 = sc p by grind]
  have e2 : oneMinus (.fin 1) = .fin 0 := by decide +kernel
  have e4 : (F.fin 1).add (.fin 0) = .fin 1 := by decide +kernel
  simp only [e1, e2, F.lt]
  have hr := rnd_nonneg (sc p)
  by_cases hp : 0 < rnd (sc p)
  · simp only [hp, decide_true, if_true, round4_zero, e4]
  · have h0 : rnd (sc p) = 0 := by grind
    rw [h0]
    simp [round4_zero, e4]

theorem fold_zero (sc : Nat → Rat) : ∀ (ps : List Nat) (a : List (Nat × F)), (∀ p ∈ ps, sc p = 0) →
    ps.foldl (levelStep sc) (a, .fin 0) = (a ++ ps.map (fun p => (p, .fin 0)), .fin 0)
  | [], a, _ => by simp
  | p :: ps, a, h => by
    rw [List.foldl_cons, levelStep_zero sc a p (h p (by simp)), fold_zero sc ps _ (fun q hq => h q (by simp [hq]))]
    simp

theorem fold_rest (sc : Nat → Rat) (hsc : ∀ p, 0 ≤ sc p) : ∀ (ps : List Nat) (a : List (Nat × F)),
    ps.foldl (levelStep sc) (a, .fin 1) = (a ++ ps.map (fun p => (p, .fin 0)), .fin 1)
  | [], a => by simp
  | p :: ps, a => by
    rw [List.foldl_cons, levelStep_rest sc a p (hsc p), fold_rest sc hsc ps]
    simp

theorem lookup_append {α β : Type} [DecidableEq α] (k : α) (a b : List (α × β)) :
    lookup k (a ++ b) = (lookup k a).or (lookup k b) := by
  induction a with
  | nil => simp [lookup]
  | cons x r ih =>
    obtain ⟨k', v'⟩ := x
    simp only [List.cons_append, lookup]
    split
    · rfl
    · exact ih

theorem lookup_const {p : Nat} {v : F} : ∀ {ps : List Nat}, p ∈ ps → lookup p (ps.map fun p => (p, v)) = some v
  | x :: r, h => by
    simp only [List.map_cons, lookup]
    split
    · rfl
    · rename_i hne
      rcases List.mem_cons.mp h with h | h
      · exact absurd h.symm hne
      · exact lookup_const h

theorem lookup_absent {p : Nat} {v : F} : ∀ {ps : List Nat}, p ∉ ps → lookup p (ps.map fun p => (p, v)) = none
  | [], _ => rfl
  | x :: r, h => by
    simp only [List.map_cons, lookup]
    rw [if_neg (fun hc => h (by simp [hc]))]
    exact lookup_absent (fun hc => h (by simp [hc]))

/-- If the priorities above `p` have no healthy endpoint and `p` has enough, `p` gets everything. -/
theorem levelLoads_failover {cla : Cla} {o : Rat} {p : Nat} (hf : Full o (ofPriority cla p))
    (hd : ∀ q, q < p → Down (ofPriority cla q)) {q : Nat} (hq : q ∈ levels cla) :
    lookup q (levelLoads cla (.fin o)) = some (.fin (if q = p then 1 else 0)) := by
  obtain ⟨hsort, hmem⟩ := levels_spec cla
  have hat : ∀ q, atLevel cla q = ofPriority cla q := fun _ => rfl
  have hp : p ∈ levels cla := by
    rw [hmem]
    have h0 := hf.1
    have : ofPriority cla p ≠ [] := by intro h; rw [h] at h0; simp at h0
    simp only [ofPriority, ne_eq, List.flatMap_eq_nil_iff, List.mem_filter, decide_eq_true_eq] at this
    apply Classical.byContradiction
    intro hc
    apply this
    intro l hl
    exact absurd ⟨l, hl.1, hl.2⟩ hc
  obtain ⟨pre, post, hsplit⟩ := List.append_of_mem hp
  have hscore : (fun p => availability (F.fin o) (atLevel cla p)) = fun p => F.fin (av o (ofPriority cla p)) := by
    funext p; rw [availability_fin, hat]
  have hnn : ∀ p, 0 ≤ av o (ofPriority cla p) := fun p => (av_range o _).1
  have hone : av o (ofPriority cla p) = 1 := av_full hf
  rw [hsplit] at hsort
  have hpre : ∀ q ∈ pre, q < p := by
    intro q hq
    exact (List.pairwise_append.mp hsort).2.2 q hq p (by simp)
  have hpost : ∀ q ∈ post, p < q := by
    intro q hq
    exact (List.pairwise_cons.mp (List.pairwise_append.mp hsort).2.1).1 q hq
  obtain ⟨T, hT1, hT⟩ := total_full (fun p => av o (ofPriority cla p)) hnn (levels cla) 0 (by decide)
    (Or.inr ⟨p, hp, hone⟩)
  have htot : (if (F.fin 1).lt (.fin T) then F.fin 1 else .fin T) = F.fin 1 := by
    simp only [F.lt, decide_eq_true_eq]
    split
    · rfl
    · congr 1; grind
  have hll : levelLoads cla (.fin o) = ((levels cla).foldl (levelStep fun p => av o (ofPriority cla p)) ([], .fin 0)).1 := by
    unfold levelLoads
    simp only [availability_fin, hat]
    rw [hT, htot]
    rfl
  rw [hll, hsplit, List.foldl_append, List.foldl_cons,
    fold_zero _ pre [] (fun q hq => av_down (hd q (hpre q hq))),
    levelStep_one _ _ _ hone, fold_rest _ hnn]
  rw [List.nil_append, lookup_append, lookup_append]
  rw [hsplit] at hq
  by_cases hqp : q = p
  · subst hqp
    rw [lookup_absent (fun hc => by have := hpre _ hc; omega)]
    simp [lookup]
  · rw [if_neg hqp]
    rcases List.mem_append.mp hq with hq | hq
    · rw [lookup_const hq]; rfl
    · rcases List.mem_cons.mp hq with hq | hq
      · exact absurd hq hqp
      · have hnp : q ∉ pre := fun hc => by have := hpre _ hc; have := hpost _ hq; omega
        rw [lookup_absent hnp, lookup_const hq]
        simp only [lookup]
        rw [if_neg (fun hc => hqp hc.symm)]
        rfl

/-! ### Localities -/

theorem lookup_put {α β : Type} [DecidableEq α] (k k' : α) (v : β) : ∀ l : List (α × β),
    lookup k (put k' v l) = if k' = k then some v else lookup k l
  | [] => by simp [put, lookup]
  | (k2, v2) :: r => by
    unfold put
    split
    · rename_i h
      subst h
      simp only [lookup]
      split <;> rfl
    · rename_i h
      simp only [lookup]
      rw [lookup_put k k' v r]
      split
      · rename_i h2
        subst h2
        rw [if_neg (Ne.symm h)]
      · rfl

theorem lookup_putAll {α β γ : Type} [DecidableEq α] (key : γ → α) (val : γ → β) : ∀ (ls : List γ) (acc : List (α × β)) (k : α),
    lookup k (ls.foldl (fun acc l => put (key l) (val l) acc) acc) =
      if h : ∃ l ∈ ls, key l = k then lookup k (ls.foldl (fun acc l => put (key l) (val l) acc) []) else lookup k acc
  | [], acc, k => by simp
  | l :: ls, acc, k => by
    rw [List.foldl_cons, lookup_putAll key val ls]
    split
    · rename_i h
      obtain ⟨x, hx, hk⟩ := h
      rw [dif_pos ⟨x, by simp [hx], hk⟩, List.foldl_cons, lookup_putAll key val ls (put (key l) (val l) []),
        dif_pos ⟨x, hx, hk⟩]
    · rename_i h
      rw [lookup_put]
      split
      · rename_i hk
        rw [dif_pos ⟨l, by simp, hk⟩, List.foldl_cons, lookup_putAll key val ls (put (key l) (val l) []),
          dif_neg h, lookup_put, if_pos hk]
      · rename_i hk
        rw [dif_neg]
        rintro ⟨x, hx, hxk⟩
        rcases List.mem_cons.mp hx with rfl | hx
        · exact hk hxk
        · exact h ⟨x, hx, hxk⟩

/-- With distinct keys every entry is found. -/
theorem lookup_putAll_nodup {α β γ : Type} [DecidableEq α] (key : γ → α) (val : γ → β) : ∀ (ls : List γ) (acc : List (α × β)),
    (ls.map key).Nodup → ∀ l ∈ ls, lookup (key l) (ls.foldl (fun acc l => put (key l) (val l) acc) acc) = some (val l)
  | x :: ls, acc, hn, l, hl => by
    rw [List.map_cons, List.nodup_cons] at hn
    rw [List.foldl_cons]
    rcases List.mem_cons.mp hl with rfl | hl
    · rw [lookup_putAll, dif_neg, lookup_put, if_pos rfl]
      rintro ⟨y, hy, hk⟩
      exact hn.1 (List.mem_map.mpr ⟨y, hy, hk⟩)
    · exact lookup_putAll_nodup key val ls _ hn.2 l hl

/-- All localities have different names. -/
def DistinctLocalities (cla : Cla) : Prop := (cla.map (·.name)).Nodup

/-- The effective weight (endpoint.go:287-288). -/
def effWeight (cla : Cla) (opf : F) (l : Locality) : F :=
  ((F.ofNat l.lbWeight).mul (availability opf (atLocality cla l.name))).mul
    ((lookup l.priority (levelLoads cla opf)).getD (.fin 0))

theorem localityLoads_eq {cla : Cla} {opf : F} (hn : DistinctLocalities cla) {l : Locality} (hl : l ∈ cla) :
    lookup l.name (localityLoads cla opf) =
      some (round4 ((effWeight cla opf l).div (cla.foldl (fun acc l => acc.add (effWeight cla opf l)) (.fin 0)))) := by
  unfold localityLoads
  have h := lookup_putAll_nodup (γ := Locality) (·.name) (fun l => round4
    (((lookup l.name (cla.foldl (fun acc l => put l.name (effWeight cla opf l) acc) [])).getD (.fin 0)).div
      (cla.foldl (fun acc l => acc.add (effWeight cla opf l)) (.fin 0)))) cla [] hn l hl
  refine Eq.trans h ?_
  have h2 := lookup_putAll_nodup (γ := Locality) (·.name) (effWeight cla opf) cla [] hn l hl
  rw [h2]
  rfl

theorem atLocality_self {cla : Cla} (hn : DistinctLocalities cla) {l : Locality} (hl : l ∈ cla) :
    atLocality cla l.name = l.eps := by
  unfold atLocality
  induction cla with
  | nil => cases hl
  | cons x r ih =>
    simp only [DistinctLocalities, List.map_cons, List.nodup_cons, List.mem_map, not_exists, not_and] at hn
    rcases List.mem_cons.mp hl with rfl | hl
    · have : r.filter (fun y => decide (y.name = l.name)) = [] := by
        rw [List.filter_eq_nil_iff]
        intro y hy
        simp only [decide_eq_true_eq]
        exact hn.1 y hy
      simp [List.filter_cons, this]
    · have hne : x.name ≠ l.name := fun hc => hn.1 l hl hc.symm
      rw [List.filter_cons, if_neg (by simpa using hne)]
      exact ih hn.2 hl

/-- A sum of finite non-negative numbers is one. -/
theorem sum_fin {γ : Type} (f : γ → F) (hf : ∀ x, ∃ q, 0 ≤ q ∧ f x = .fin q) : ∀ (ls : List γ) (acc : Rat), 0 ≤ acc →
    ∃ S, 0 ≤ S ∧ ls.foldl (fun acc l => F.add acc (f l)) (.fin acc) = .fin S
  | [], acc, h => ⟨acc, h, rfl⟩
  | l :: ls, acc, _ => by
    obtain ⟨q, _, hq⟩ := hf l
    rw [List.foldl_cons, hq]
    exact sum_fin f hf ls _ (rnd_nonneg _)

/-- A load that attracts no traffic: 0 or not a number. -/
def F.noLoad (x : F) : Prop := x = .fin 0 ∨ x = .nan

theorem noLoad_round4 {x : F} (h : x.noLoad) : (round4 x).noLoad := by
  rcases h with rfl | rfl
  · exact Or.inl round4_zero
  · exact Or.inr rfl

theorem noLoad_round2 {x : F} (h : x.noLoad) : (round2 x).noLoad := by
  rcases h with rfl | rfl
  · exact Or.inl round2_zero
  · exact Or.inr rfl

theorem noLoad_mul {x y : F} (h : y.noLoad) : (x.mul y).noLoad := by
  rcases h with rfl | rfl
  · cases x with
    | fin a => left; simp [F.mul, rnd_zero]
    | inf => right; simp [F.mul]
    | nan => right; rfl
  · right; cases x <;> rfl

theorem noLoad_mul' {x y : F} (h : x.noLoad) : (x.mul y).noLoad := by
  rcases h with rfl | rfl
  · cases y with
    | fin a => left; simp [F.mul, rnd_zero]
    | inf => right; simp [F.mul]
    | nan => right; rfl
  · right; cases y <;> rfl

theorem noLoad_div {x y : F} (h : x.noLoad) : (x.div y).noLoad := by
  rcases h with rfl | rfl
  · cases y with
    | fin a =>
      simp only [F.div]
      split
      · right; simp
      · left; rw [Rat.div_def, Rat.zero_mul, rnd_zero]
    | inf => left; rfl
    | nan => right; rfl
  · right; cases y <;> rfl

/-- A locality that is not at the priority in charge gets no load. -/
theorem locality_failover {cla : Cla} {o : Rat} {p : Nat} (hn : DistinctLocalities cla)
    (hf : Full o (ofPriority cla p)) (hd : ∀ q, q < p → Down (ofPriority cla q)) {l : Locality} (hl : l ∈ cla)
    (hp : l.priority ≠ p) : ((lookup l.name (localityLoads cla (.fin o))).getD (.fin 0)).noLoad := by
  rw [localityLoads_eq hn hl]
  have hlev : l.priority ∈ levels cla := (levels_spec cla).2 _ |>.mpr ⟨l, hl, rfl⟩
  refine noLoad_round4 (noLoad_div ?_)
  unfold effWeight
  rw [levelLoads_failover hf hd hlev, if_neg hp]
  exact noLoad_mul (Or.inl rfl)

theorem scan_notnan {cnt : String → Nat} {tot : Nat} {is : List Item} {i : Item} (h : scan cnt tot is = some i) :
    i.rel cnt tot ≠ .nan := by
  have hi := scan_final cnt tot is
  obtain ⟨_, _, c, _, e⟩ := hi.mem i h
  rwa [c] at e

/-- A pick of the weighted round robin has a load. -/
theorem wrr_pick_load {eps : List String} {loads : List (String × F)} {t : Table} {a : String}
    (h : (wrrNext eps loads t).1 = .addr a) : ∃ l, lookup a loads = some l ∧ ¬ l.noLoad := by
  unfold wrrNext at h
  split at h
  · rename_i i hi
    cases h
    obtain ⟨hm, hsk, _⟩ := scan_some hi
    have hnn := scan_notnan hi
    obtain ⟨_, hlk, _⟩ := wrrItems_spec hm
    refine ⟨_, hlk, ?_⟩
    rintro (h0 | h0)
    · unfold Item.skipped Item.cap at hsk
      rw [h0] at hsk
      simp only [F.ofNat, F.mul, Rat.zero_mul, rnd_zero, F.ge, decide_eq_false_iff_not] at hsk
      exact hsk (rnd_nonneg _)
    · apply hnn
      unfold Item.rel Item.cap
      rw [h0]
      simp only [F.ofNat, F.mul, F.div]
  · cases h

/-- The balancer uses the computed loads: round robin, or least request with unequal weights. -/
def UsesLoads (cla : Cla) : Policy → Prop
  | .roundRobin => True
  | .leastRequest _ _ => weightsEqual cla = false
  | _ => False

theorem nextEndpoint_loads {p : Policy} {cla : Cla} (hu : UsesLoads cla p) (opf : F) (t : Table) (r : Nat → Nat) :
    ∃ bias, nextEndpoint p cla opf t r = wrrNext (healthyAddrs cla) (loadDistribution cla t opf bias) t := by
  cases p with
  | random => exact hu.elim
  | other => exact hu.elim
  | roundRobin => exact ⟨none, rfl⟩
  | leastRequest c b =>
    refine ⟨b, ?_⟩
    simp only [UsesLoads] at hu
    simp [nextEndpoint, wlrNext, hu]

theorem clientAddress_addr {p : Policy} {cla : Cla} {opf : F} {t : Table} {r : Nat → Nat} {a : String}
    (h : (clientAddress p cla opf t r).1 = .addr a) : (nextEndpoint p cla opf t r).1 = .addr a := by
  unfold clientAddress at h
  simp only at h
  split at h
  · cases h
  · exact h

/-- **C172** Priorities: as long as one priority has enough healthy endpoints and the priorities
before it have none, every pick is an endpoint of that priority.  (Partial: for policies that use
the computed loads, and localities with different names; see `C172_leastRequest_priority_false`,
`C172_random_priority_false` and `C172_same_locality_false`.) -/
theorem C172_priority_partial (pol : Policy) (cla : Cla) (o : Rat) (t : Table) (r : Nat → Nat) (p : Nat) (a : String)
    (hu : UsesLoads cla pol) (hn : DistinctLocalities cla)
    (hf : Full o (ofPriority cla p)) (hd : ∀ q, q < p → Down (ofPriority cla q))
    (h : (clientAddress pol cla (.fin o) t r).1 = .addr a) :
    ∃ e ∈ ofPriority cla p, e.addr = some a := by
  obtain ⟨bias, hb⟩ := nextEndpoint_loads hu (.fin o) t r
  have h1 := clientAddress_addr h
  rw [hb] at h1
  obtain ⟨l, hl, hnl⟩ := wrr_pick_load h1
  obtain ⟨loc, hloc, e, he, ha, hval⟩ := load_mem _ _ _ _ (mem_of_lookup _ _ _ hl)
  by_cases hp : loc.priority = p
  · refine ⟨e, ?_, ha⟩
    simp only [ofPriority, List.mem_flatMap, List.mem_filter, decide_eq_true_eq]
    exact ⟨loc, ⟨hloc, hp⟩, he⟩
  · exfalso
    apply hnl
    rw [hval]
    exact noLoad_round2 (noLoad_mul (locality_failover hn hf hd hloc hp))

/-- An unhealthy endpoint gets no load unless its address is also that of another one. -/
theorem C52_unhealthy (cla : Cla) (o : Rat) (t : Table) (bias : Option (Nat → F)) (a : String) (l : F)
    (hb : bias = none ∨ bias = some biasOne)
    (hu : ∀ loc ∈ cla, ∀ e ∈ loc.eps, e.addr = some a → e.isHealthy = false)
    (h : (a, l) ∈ loadDistribution cla t (.fin o) bias) : l.noLoad := by
  obtain ⟨loc, hloc, e, he, ha, rfl⟩ := load_mem _ _ _ _ h
  rw [hu loc hloc e he ha]
  refine noLoad_round2 (noLoad_mul' (noLoad_div ?_))
  rcases hb with rfl | rfl
  · exact Or.inl rfl
  · simp only [biased, Bool.false_eq_true, if_false]
    exact noLoad_div (Or.inl rfl)

end Verif.Bal
