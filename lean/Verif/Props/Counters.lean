import Verif.Ads.Counters
import Verif.Props.BalanceMain
/-
Property C261: the counters of the load balancers follow the configuration.
-/
namespace Verif.Bal

theorem ensure_at (t : Table) (n m : String) : t.ensure n m = if m = n then some ((t m).getD {}) else t m := by
  unfold Table.ensure
  by_cases h : m = n
  · subst h
    cases ht : t m with
    | none => simp
    | some s => simp
  · simp [h]

theorem ensureAll_at : ∀ (ns : List String) (t : Table) (m : String), ns.foldl Table.ensure t m = if m ∈ ns then some ((t m).getD {}) else t m := by
  intro ns
  induction ns with
  | nil => intro t m; simp
  | cons n ns ih =>
    intro t m
    rw [List.foldl_cons, ih, ensure_at]
    by_cases h : m = n
    · subst h; simp
    · simp [h]

theorem reset_at (t : Table) (n m : String) : t.reset n m = if m = n then (t m).map (fun s => { s with picks := 0 }) else t m := by
  unfold Table.reset Table.adjust
  by_cases h : m = n
  · subst h; simp
  · simp [h]

theorem reset_twice (o : Option Stats) : (o.map (fun s => { s with picks := 0 })).map (fun s => ({ s with picks := 0 } : Stats)) = o.map (fun s => { s with picks := 0 }) := by
  cases o <;> rfl

theorem resetAll_at : ∀ (ns : List String) (t : Table) (m : String), ns.foldl Table.reset t m = if m ∈ ns then (t m).map (fun s => { s with picks := 0 }) else t m := by
  intro ns
  induction ns with
  | nil => intro t m; simp
  | cons n ns ih =>
    intro t m
    rw [List.foldl_cons, ih, reset_at]
    by_cases h : m = n
    · subst h; simp only [List.mem_cons, true_or, if_true]; split
      · exact reset_twice _
      · rfl
    · simp [h]

/-- **C261**: after an update of the endpoints there are counters for exactly the endpoints of the load assignments; those that were known keep theirs, the others start
with zero -/
theorem C261_endpoints (clas : List Addrs) (t : Table) (a : String) :
    onEndpoints clas t a = if (∃ cla ∈ clas, some a ∈ cla) then some ((t a).getD {}) else none := by
  have hm : a ∈ clas.flatten.filterMap id ↔ ∃ cla ∈ clas, some a ∈ cla := by
    rw [List.mem_filterMap]
    constructor
    · rintro ⟨o, ho, hid⟩
      obtain ⟨l, hl, hol⟩ := List.mem_flatten.1 ho
      have : o = some a := hid
      exact ⟨l, hl, this ▸ hol⟩
    · rintro ⟨l, hl, hol⟩
      exact ⟨some a, List.mem_flatten.2 ⟨l, hl, hol⟩, rfl⟩
  simp only [onEndpoints, Table.keep, ensureAll_at]
  by_cases h : a ∈ clas.flatten.filterMap id
  · rw [if_pos h, if_pos h, if_pos (hm.1 h)]
  · rw [if_neg h, if_neg (fun x => h (hm.2 x))]

/-- **C261**: after an update of the clusters there are counters for exactly the clusters; those that were known keep theirs, the others start with zero -/
theorem C261_clusters (cs : List Cl) (las : Option (String → Option La)) (ct et : Table) (n : String) :
    (onClusters cs las ct et).1 n = if (∃ c ∈ cs, c.name = n) then some ((ct n).getD {}) else none := by
  have hm : n ∈ cs.map (·.name) ↔ ∃ c ∈ cs, c.name = n := by simp
  simp only [onClusters, Table.keep, ensureAll_at]
  by_cases h : n ∈ cs.map (·.name)
  · rw [if_pos h, if_pos h, if_pos (hm.1 h)]
  · rw [if_neg h, if_neg (fun x => h (hm.2 x))]

/-- the cluster has this endpoint and a policy that does without counters of selections: neither round robin nor least request with weights (specification) -/
def Unused (las : Option (String → Option La)) (c : Cl) (a : String) : Prop :=
  ∃ f r la, las = some f ∧ c.ref = some r ∧ f r = some la ∧ some a ∈ la.addrs ∧ c.lb ≠ .roundRobin ∧ (c.lb = .leastRequest → la.equal = true)

theorem idle_iff (c : Cl) (la : La) : c.idle la = true ↔ c.lb ≠ .roundRobin ∧ (c.lb = .leastRequest → la.equal = true) := by
  unfold Cl.idle
  cases c.lb <;> cases la.equal <;> simp

open Classical in
theorem resets_at (las : Option (String → Option La)) (et : Table) (c : Cl) (a : String) :
    c.resets las et a = if Unused las c a then (et a).map (fun s => { s with picks := 0 }) else et a := by
  unfold Cl.resets
  cases hr : c.ref with
  | none => rw [if_neg (by rintro ⟨f, r, la, _, h, _⟩; rw [hr] at h; cases h)]
  | some r =>
    cases las with
    | none => rw [if_neg (by rintro ⟨f, r, la, h, _⟩; cases h)]
    | some f =>
      simp only []
      cases hf : f r with
      | none =>
        rw [if_neg]
        rintro ⟨f', r', la, h1, h2, h3, _⟩
        cases h1; rw [hr] at h2; cases h2; rw [hf] at h3; cases h3
      | some la =>
        simp only []
        by_cases hi : c.idle la = true
        · rw [if_pos hi, resetAll_at]
          by_cases ha : some a ∈ la.addrs
          · rw [if_pos (by simpa using ha), if_pos ⟨f, r, la, rfl, hr, hf, ha, (idle_iff c la).1 hi⟩]
          · rw [if_neg (by simpa using ha), if_neg]
            rintro ⟨f', r', la', h1, h2, h3, h4, _⟩
            cases h1; rw [hr] at h2; cases h2; rw [hf] at h3; cases h3
            exact ha h4
        · rw [if_neg hi, if_neg]
          rintro ⟨f', r', la', h1, h2, h3, h4, h5⟩
          cases h1; rw [hr] at h2; cases h2; rw [hf] at h3; cases h3
          exact hi ((idle_iff c la).2 h5)

open Classical in
/-- **C261**: an update of the clusters sets the selections of an endpoint to zero exactly if it belongs to a cluster that does not count them, and changes nothing
else about endpoints; in particular never the number of active requests -/
theorem C261_resets (cs : List Cl) (las : Option (String → Option La)) (ct et : Table) (a : String) :
    ((onClusters cs las ct et).2 a = if (∃ c ∈ cs, Unused las c a) then (et a).map (fun s => { s with picks := 0 }) else et a) ∧
    (onClusters cs las ct et).2.active a = et.active a := by
  have main : ∀ (cs : List Cl) (et : Table), cs.foldl (Cl.resets las) et a =
      if (∃ c ∈ cs, Unused las c a) then (et a).map (fun s => { s with picks := 0 }) else et a := by
    intro cs
    induction cs with
    | nil => intro et; simp
    | cons c cs ih =>
      intro et
      rw [List.foldl_cons, ih, resets_at]
      by_cases h : Unused las c a
      · rw [if_pos h, if_pos (c := ∃ c' ∈ c :: cs, Unused las c' a) ⟨c, by simp, h⟩]
        split
        · exact reset_twice _
        · rfl
      · rw [if_neg h]
        have : (∃ c' ∈ c :: cs, Unused las c' a) ↔ ∃ c' ∈ cs, Unused las c' a := by
          constructor
          · rintro ⟨c', hm, hu⟩
            rcases List.mem_cons.1 hm with rfl | hm
            · exact absurd hu h
            · exact ⟨c', hm, hu⟩
          · rintro ⟨c', hm, hu⟩; exact ⟨c', List.mem_cons_of_mem _ hm, hu⟩
        by_cases h' : ∃ c' ∈ cs, Unused las c' a
        · rw [if_pos h', if_pos (this.2 h')]
        · rw [if_neg h', if_neg (fun x => h' (this.1 x))]
  refine ⟨main cs et, ?_⟩
  show ((cs.foldl (Cl.resets las) et a).map (·.active)).getD 0 = ((et a).map (·.active)).getD 0
  rw [main cs et]
  split
  · cases et a <;> rfl
  · rfl

/-- **C261**: an update of the routes sets the selections of a cluster to zero exactly if some route leads to this cluster alone -/
theorem C261_routes (rs : List Target) (ct : Table) (n : String) :
    onRoutes rs ct n = if .single n ∈ rs then (ct n).map (fun s => { s with picks := 0 }) else ct n := by
  unfold onRoutes
  induction rs generalizing ct with
  | nil => simp
  | cons r rs ih =>
    rw [List.foldl_cons, ih]
    cases r with
    | single c =>
      simp only [reset_at, List.mem_cons, Target.single.injEq]
      by_cases h : n = c
      · subst h; simp only [if_true, true_or]; split
        · exact reset_twice _
        · rfl
      · simp [h]
    | weighted ws => simp
    | elsewhere => simp

/-- **C261** is false of the code: an endpoint that also belongs to a cluster with another policy loses its count at every update of the clusters, although a cluster with
round robin uses it -/
theorem C261_shared_false (et : Table) (s : Stats) (h : et "10.0.0.1:80" = some s) : ∃ (cs : List Cl) (f : String → Option La),
    (∃ c ∈ cs, c.lb = .roundRobin ∧ ∃ r la, c.ref = some r ∧ f r = some la ∧ some "10.0.0.1:80" ∈ la.addrs) ∧
    ∀ ct, (onClusters cs (some f) ct et).2 "10.0.0.1:80" = some { s with picks := 0 } := by
  refine ⟨[⟨"a", .roundRobin, some "x"⟩, ⟨"b", .other, some "x"⟩], fun _ => some ⟨[some "10.0.0.1:80", some "10.0.0.2:80"], true⟩,
    ⟨⟨"a", .roundRobin, some "x"⟩, by simp, rfl, "x", _, rfl, rfl, by simp⟩, ?_⟩
  intro ct
  rw [(C261_resets _ _ ct et _).1, if_pos, h]
  · rfl
  · exact ⟨⟨"b", .other, some "x"⟩, by simp, _, "x", _, rfl, rfl, rfl, by simp, by simp, by simp⟩

/-- **C261** is false of the code: two clusters share the traffic of a route evenly, and another route leads to the first alone. After twenty selections any update of the
routes, even one that changes nothing, sends the next ten to the first cluster. -/
theorem C261_both_false :
    let ws := [("v1", 50), ("v2", 50)]
    let t := (calls (fun _ t => selectCluster ws t) 20 (fun _ => some {})).2
    t.picks "v1" = 10 ∧ t.picks "v2" = 10 ∧
    (calls (fun _ t => selectCluster ws t) 10 (onRoutes [.weighted ws, .single "v1"] t)).1 = List.replicate 10 (some "v1") := by
  decide +kernel

/-- **C261** is false of the code: the counts are kept when the weights change, so that the traffic does not follow the new weights: after forty selections with 90 to 10, an
update to 50 to 50 sends the next thirty-two all to the second cluster -/
theorem C261_weights_false :
    let t := (calls (fun _ t => selectCluster [("v1", 90), ("v2", 10)] t) 40 (fun _ => some {})).2
    let t' := onRoutes [.weighted [("v1", 50), ("v2", 50)]] t
    t.picks "v1" = 36 ∧ t.picks "v2" = 4 ∧
    (calls (fun _ t => selectCluster [("v1", 50), ("v2", 50)] t) 32 t').1 = List.replicate 32 (some "v2") := by
  decide +kernel

/-- an update of endpoints and clusters (non-vacuity): one endpoint stays, one is new, one is removed -/
example : let t : Table := fun a => if a = "1" ∨ a = "2" then some { picks := 7, active := 3 } else none
    let t' := onEndpoints [[some "1", none], [some "3"]] t
    t'.picks "1" = 7 ∧ t' "2" = none ∧ t' "3" = some {} ∧ t'.active "1" = 3 := by
  refine ⟨?_, ?_, ?_, ?_⟩ <;> simp [Table.picks, Table.active, C261_endpoints]

end Verif.Bal
