/-
C30: the endpoint handed out by every load-balancing policy.
-/
import Verif.Props.BalanceMain

namespace Verif.Bal
open Verif.Flt

/-! ### Specification -/

/-- An endpoint of the load assignment with this socket address that is not marked unhealthy,
draining or timed out. -/
def HealthyEndpoint (cla : Cla) (a : String) : Prop :=
  ∃ loc ∈ cla, ∃ e ∈ loc.eps, e.addr = some a ∧
    e.health ≠ .unhealthy ∧ e.health ≠ .draining ∧ e.health ≠ .timeout

/-- `a` is a least-loaded endpoint of some `choice` of the listed endpoints. -/
def LeastOfSample (t : Table) (choice : Nat) (eps : List String) (a : String) : Prop :=
  ∃ chosen others : List String, (chosen ++ others).Perm eps ∧ chosen.length = choice ∧ a ∈ chosen ∧
    ∀ b ∈ chosen, t.active a ≤ t.active b

/-! ### Proof -/

theorem mem_healthyAddrs {cla : Cla} {a : String} (h : a ∈ healthyAddrs cla) : HealthyEndpoint cla a := by
  obtain ⟨e, he, h⟩ := List.mem_filterMap.mp h
  obtain ⟨loc, hl, he⟩ := List.mem_flatMap.mp he
  refine ⟨loc, hl, e, he, ?_⟩
  split at h
  · rename_i hh
    refine ⟨h, ?_⟩
    unfold LbEndpoint.isHealthy at hh
    cases hx : e.health <;> simp_all
  · cases h

theorem healthyAddrs_mem {cla : Cla} {a : String} (h : HealthyEndpoint cla a) : a ∈ healthyAddrs cla := by
  obtain ⟨loc, hl, e, he, ha, h1, h2, h3⟩ := h
  refine List.mem_filterMap.mpr ⟨e, List.mem_flatMap.mpr ⟨loc, hl, he⟩, ?_⟩
  have : e.isHealthy = true := by
    unfold LbEndpoint.isHealthy
    cases hx : e.health <;> simp_all
  rw [this, if_pos rfl, ha]

/-- **C30** The random balancer returns one of the endpoints of a non-empty list, for every random
number. -/
theorem C30_random (eps : List String) (r : Nat) (h : eps ≠ []) :
    ∃ a ∈ eps, randomNext eps r = .addr a := by
  match eps, h with
  | [a], _ => exact ⟨a, by simp, rfl⟩
  | a :: b :: rest, _ =>
    have hl : r % (a :: b :: rest).length < (a :: b :: rest).length := Nat.mod_lt _ (by simp)
    refine ⟨(a :: b :: rest)[r % (a :: b :: rest).length], List.getElem_mem _, ?_⟩
    unfold randomNext
    simp only [List.getElem?_eq_getElem hl]

/-- Every endpoint of the list is the random balancer's answer for some random number: none is
starved. -/
theorem C30_random_all (eps : List String) (a : String) (h : a ∈ eps) : ∃ r, randomNext eps r = .addr a := by
  obtain ⟨i, hi, rfl⟩ := List.getElem_of_mem h
  match eps, hi with
  | [a], hi =>
    refine ⟨0, ?_⟩
    have : i = 0 := by simp at hi; exact hi
    subst this; rfl
  | a :: b :: rest, hi =>
    refine ⟨i, ?_⟩
    unfold randomNext
    simp only [Nat.mod_eq_of_lt hi, List.getElem?_eq_getElem hi]

theorem swapAt_perm (l : List String) (i j : Nat) : (swapAt l i j).Perm l := by
  unfold swapAt
  split
  · rename_i a b ha hb
    obtain ⟨hi, ha⟩ := List.getElem?_eq_some_iff.mp ha
    obtain ⟨hj, hb⟩ := List.getElem?_eq_some_iff.mp hb
    subst ha hb
    exact List.set_set_perm hi hj
  · exact List.Perm.refl _

theorem swapAt_length (l : List String) (i j : Nat) : (swapAt l i j).length = l.length :=
  (swapAt_perm l i j).length_eq

theorem sample_perm (r : Nat → Nat) : ∀ k i l l', sample r k i l = some l' → l'.Perm l := by
  intro k
  induction k with
  | zero => intro i l l' h; cases h; exact List.Perm.refl _
  | succ k ih =>
    intro i l l' h
    unfold sample at h
    split at h
    · cases h
    · exact (ih _ _ _ h).trans (swapAt_perm _ _ _)

theorem sample_none (r : Nat → Nat) : ∀ k i l, sample r k i l = none ↔ 0 < k ∧ l.length < i + k := by
  intro k
  induction k with
  | zero => intro i l; simp [sample]
  | succ k ih =>
    intro i l
    unfold sample
    split
    · simp; omega
    · rw [ih, swapAt_length]
      omega

theorem leastActive_spec (t : Table) (l : List String) (a : String) (h : leastActive t l = some a) :
    a ∈ l ∧ ∀ b ∈ l, t.active a ≤ t.active b := by
  cases l with
  | nil => cases h
  | cons x rest =>
    simp only [leastActive, Option.some.injEq] at h
    have key : ∀ (rest : List String) (x a : String),
        rest.foldl (fun s b => if t.active b < t.active s then b else s) x = a →
        a ∈ x :: rest ∧ ∀ b ∈ x :: rest, t.active a ≤ t.active b := by
      intro rest
      induction rest with
      | nil => intro x a h; cases h; simp
      | cons y rest ih =>
        intro x a h
        rw [List.foldl_cons] at h
        obtain ⟨h1, h2⟩ := ih _ _ h
        split at h1
        · rename_i hlt
          rw [if_pos hlt] at h2
          refine ⟨List.mem_cons_of_mem _ h1, ?_⟩
          intro b hb
          rcases List.mem_cons.mp hb with rfl | hb
          · have := h2 y (by simp); omega
          · exact h2 b hb
        · rename_i hlt
          rw [if_neg hlt] at h2
          constructor
          · rcases List.mem_cons.mp h1 with rfl | h1
            · simp
            · simp [h1]
          · intro b hb
            rcases List.mem_cons.mp hb with rfl | hb
            · exact h2 _ (by simp)
            · rcases List.mem_cons.mp hb with rfl | hb
              · have := h2 x (by simp); omega
              · exact h2 b (by simp [hb])
    exact key rest x a h

/-- **C30** The least-request balancer's pick is, for all random numbers, a listed endpoint that has
no more active requests than the others of the sample of `choice` distinct positions. -/
theorem C30_least (eps : List String) (choice : Nat) (t : Table) (r : Nat → Nat) (a : String)
    (h : p2cNext eps choice t r = .addr a) (h2 : 2 ≤ eps.length) : LeastOfSample t choice eps a := by
  match eps, h2 with
  | x :: y :: rest, _ =>
    unfold p2cNext at h
    dsimp only at h
    split at h
    · cases h
    · rename_i l hl
      split at h
      · rename_i b hb
        cases h
        obtain ⟨h1, h3⟩ := leastActive_spec t _ _ hb
        have hp : l.Perm (x :: y :: rest) :=
          (sample_perm r _ _ _ _ hl).trans (List.mergeSort_perm _ _)
        have hlen : choice ≤ l.length := by
          have hn : ¬ sample r choice 0 ((x :: y :: rest).mergeSort (fun a b => decide (a ≤ b))) = none := by
            rw [hl]; simp
          rw [sample_none] at hn
          have e1 : ((x :: y :: rest).mergeSort (fun a b => decide (a ≤ b))).length = l.length :=
            (sample_perm r _ _ _ _ hl).length_eq.symm
          rw [e1] at hn
          omega
        refine ⟨l.drop (l.length - choice), l.take (l.length - choice), ?_, ?_, h1, h3⟩
        · refine List.Perm.trans List.perm_append_comm ?_
          rw [List.take_append_drop]
          exact hp
        · rw [List.length_drop]; omega
      · cases h

/-- **C30** With one endpoint it is returned; with 1 ≤ choice ≤ number of endpoints there always is
a pick. -/
theorem C30_least_total (eps : List String) (choice : Nat) (t : Table) (r : Nat → Nat)
    (hc : 1 ≤ choice) (hl : choice ≤ eps.length) : ∃ a ∈ eps, p2cNext eps choice t r = .addr a := by
  match eps with
  | [] => simp at hl; omega
  | [a] => exact ⟨a, by simp, rfl⟩
  | x :: y :: rest =>
    have hnn : ¬ sample r choice 0 ((x :: y :: rest).mergeSort (fun a b => decide (a ≤ b))) = none := by
      rw [sample_none, List.length_mergeSort]
      omega
    obtain ⟨l, hl'⟩ := Option.ne_none_iff_exists'.mp hnn
    have hp : l.Perm (x :: y :: rest) := (sample_perm r _ _ _ _ hl').trans (List.mergeSort_perm _ _)
    have hlen := hp.length_eq
    cases hd : leastActive t (l.drop (l.length - choice)) with
    | none =>
      exfalso
      have : (l.drop (l.length - choice)).length = 0 := by
        cases hh : l.drop (l.length - choice) with
        | nil => rfl
        | cons _ _ => rw [hh] at hd; cases hd
      rw [List.length_drop] at this
      omega
    | some a =>
      refine ⟨a, hp.mem_iff.mp (List.mem_of_mem_drop (leastActive_spec t _ _ hd).1), ?_⟩
      unfold p2cNext
      simp only [hl', hd]

/-- **C159 (fails)** A choice count above the number of (at least two) endpoints crashes the process,
for every random source; Envoy caps the sample. -/
theorem C159_choice_false (eps : List String) (choice : Nat) (t : Table) (r : Nat → Nat)
    (h2 : 2 ≤ eps.length) (hc : eps.length < choice) : p2cNext eps choice t r = .panic := by
  match eps, h2 with
  | x :: y :: rest, _ =>
    have : sample r choice 0 ((x :: y :: rest).mergeSort (fun a b => decide (a ≤ b))) = none := by
      rw [sample_none, List.length_mergeSort]
      omega
    unfold p2cNext
    simp only [this]

theorem wrrNext_mem {eps : List String} {loads : List (String × F)} {t : Table} {a : String}
    (h : (wrrNext eps loads t).1 = .addr a) : a ∈ eps ∧ ∃ l, lookup a loads = some l := by
  unfold wrrNext at h
  split at h
  · rename_i i hi
    cases h
    obtain ⟨hm, _, _⟩ := scan_some hi
    obtain ⟨h1, h2, _⟩ := wrrItems_spec hm
    exact ⟨h1, _, h2⟩
  · cases h

/-- **C30** Whatever the policy, the load assignment, the counters and the random numbers: an address
handed to the caller belongs to a healthy endpoint of the load assignment. -/
theorem C30_healthy (p : Policy) (cla : Cla) (opf : F) (t : Table) (r : Nat → Nat) (a : String)
    (h : (clientAddress p cla opf t r).1 = .addr a) : HealthyEndpoint cla a := by
  apply mem_healthyAddrs
  unfold clientAddress at h
  dsimp only at h
  split at h
  · cases h
  · cases p with
    | random =>
      have h : randomNext (healthyAddrs cla) (r 0) = .addr a := h
      by_cases hn : healthyAddrs cla = []
      · rw [hn] at h; cases h
      · obtain ⟨b, hb, hb2⟩ := C30_random _ (r 0) hn
        rw [hb2] at h; cases h; exact hb
    | roundRobin => exact (wrrNext_mem h).1
    | leastRequest choice bias =>
      have h : (wlrNext (healthyAddrs cla) (loadDistribution cla t opf bias) (weightsEqual cla) choice t r).1 = .addr a := h
      unfold wlrNext at h
      split at h
      · have h : p2cNext (healthyAddrs cla) choice t r = .addr a := h
        match he : healthyAddrs cla with
        | [] => rw [he] at h; cases h
        | [x] => rw [he] at h; cases h; simp
        | x :: y :: rest =>
          obtain ⟨c, o, hp, _, hm, _⟩ := C30_least _ _ _ _ _ h (by rw [he]; simp)
          rw [← he]
          exact hp.mem_iff.mp (by simp [hm])
      · exact (wrrNext_mem h).1
    | other =>
      have h : (match healthyAddrs cla with
        | a :: _ => ((Pick.addr a, t) : Pick × Table)
        | [] => (.nil, t)).1 = .addr a := h
      split at h
      · rename_i x l he
        cases h
        rw [he]; simp
      · cases h

/-- **C159** With a healthy endpoint the random, unknown and (for 1 ≤ choice ≤ number of healthy
endpoints and equal weights) least-request policies always answer with an address. -/
theorem C159_answers_partial (p : Policy) (cla : Cla) (opf : F) (t : Table) (r : Nat → Nat) (b : String)
    (hb : HealthyEndpoint cla b)
    (hp : p = .random ∨ p = .other ∨ ∃ choice bias, p = .leastRequest choice bias ∧ weightsEqual cla = true ∧
      1 ≤ choice ∧ choice ≤ (healthyAddrs cla).length) :
    ∃ a, (clientAddress p cla opf t r).1 = .addr a := by
  have hm := healthyAddrs_mem hb
  have key : ∃ a, (nextEndpoint p cla opf t r).1 = .addr a := by
    rcases hp with rfl | rfl | ⟨c, bias, rfl, hw, h1, h2⟩
    · obtain ⟨a, _, h⟩ := C30_random (healthyAddrs cla) (r 0) (by intro h; rw [h] at hm; cases hm)
      exact ⟨a, h⟩
    · match he : healthyAddrs cla with
      | [] => rw [he] at hm; cases hm
      | a :: l => exact ⟨a, by unfold nextEndpoint; simp only [he]⟩
    · obtain ⟨a, _, h⟩ := C30_least_total (healthyAddrs cla) c t r h1 h2
      refine ⟨a, ?_⟩
      show (wlrNext _ _ _ _ _ _).1 = _
      unfold wlrNext
      rw [if_pos hw]
      exact h
  obtain ⟨a, ha⟩ := key
  refine ⟨a, ?_⟩
  unfold clientAddress
  simp only [ha, metadataPanics]
  simpa using ha

/-- A healthy endpoint, an unhealthy one and a draining one. -/
def mixed : Cla :=
  [{ name := "r1", priority := 0, eps := [⟨some "a", .healthy, none⟩, ⟨some "b", .unhealthy, none⟩] },
   { name := "r2", priority := 1, eps := [⟨some "c", .draining, none⟩, ⟨some "d", .degraded, none⟩] }]

example : (clientAddress .random mixed defaultOpf (fun _ => some {}) (fun _ => 7)).1 = .addr "d" := by decide +kernel
example : (clientAddress .other mixed defaultOpf (fun _ => some {}) (fun _ => 7)).1 = .addr "a" := by decide +kernel
example : (clientAddress .roundRobin mixed defaultOpf (fun _ => some {}) (fun _ => 0)).1 = .addr "a" := by decide +kernel

/-- The least-request pick between "a" with three active requests and "d" with none is "d". -/
example (r : Nat → Nat) : p2cNext ["a", "d"] 2 (fun n => if n = "a" then some ⟨0, 3⟩ else some {}) r = .addr "d" := by
  obtain ⟨x, hx, h⟩ := C30_least_total ["a", "d"] 2 (fun n => if n = "a" then some ⟨0, 3⟩ else some {}) r
    (by decide) (by decide)
  obtain ⟨c, o, hp, hl, hm, hle⟩ := C30_least _ _ _ _ _ h (by decide)
  have ho : o = [] := by
    have := hp.length_eq
    rw [List.length_append] at this
    simp at this
    exact List.length_eq_zero_iff.mp (by omega)
  subst ho
  rw [List.append_nil] at hp
  have hd := hle "d" (hp.mem_iff.mpr (by simp))
  rcases List.mem_cons.mp hx with rfl | hx
  · exact absurd hd (by decide)
  · rcases List.mem_cons.mp hx with rfl | hx
    · exact h
    · cases hx

example (r : Nat → Nat) : ∃ a, (clientAddress (.leastRequest 2 none) mixed defaultOpf (fun _ => some {}) r).1 = .addr a :=
  C159_answers_partial _ _ _ _ _ "a" ⟨_, List.mem_cons_self, _, List.mem_cons_self, rfl, by decide, by decide, by decide⟩
    (Or.inr (Or.inr ⟨2, none, rfl, by decide +kernel, by decide, by decide +kernel⟩))

/-- A load assignment whose only endpoint is unhealthy. -/
def allDown : Cla := [{ name := "r1", priority := 0, eps := [⟨some "a", .unhealthy, none⟩] }]

/-- **C159 (fails)** When no endpoint is healthy, every policy crashes the process instead of
reporting that there is no endpoint. -/
theorem C159_allDown_false (p : Policy) (opf : F) (t : Table) (r : Nat → Nat) :
    (clientAddress p allDown opf t r).1 = .panic := by
  have he : healthyAddrs allDown = [] := rfl
  apply panic_of_nil _ _ _ _ _ rfl
  cases p with
  | random => rfl
  | roundRobin => rw [nextEndpoint_rr, he]; rfl
  | leastRequest c b => rfl
  | other => rfl

/-- The crash is general: any load assignment with an addressed endpoint but no healthy one. -/
theorem C159_noneHealthy_false (p : Policy) (cla : Cla) (opf : F) (t : Table) (r : Nat → Nat)
    (hn : ∀ a, ¬ HealthyEndpoint cla a) (loc : Locality) (hloc : loc ∈ cla) (e : LbEndpoint) (he : e ∈ loc.eps)
    (ha : e.addr.isSome = true) : (clientAddress p cla opf t r).1 = .panic := by
  have hnil : healthyAddrs cla = [] := by
    cases h : healthyAddrs cla with
    | nil => rfl
    | cons a l => exact absurd (mem_healthyAddrs (by rw [h]; simp)) (hn a)
  apply panic_of_nil
  · exact List.any_eq_true.mpr ⟨e, List.mem_flatMap.mpr ⟨loc, hloc, he⟩, ha⟩
  · cases p with
    | random => show randomNext _ _ = _; rw [hnil]; rfl
    | roundRobin => rw [nextEndpoint_rr, hnil]; rfl
    | leastRequest c b =>
      show (wlrNext _ _ _ _ _ _).1 = _
      unfold wlrNext
      rw [hnil]
      split <;> rfl
    | other => unfold nextEndpoint; simp only [hnil]

end Verif.Bal
