/-
C30, C31, C32: the claims about load balancing.
-/
import Verif.Props.Balance

namespace Verif.Bal
open Verif.Flt

/-! ## C32 Weighted cluster selection -/

theorem lookup_mem {α β : Type} [DecidableEq α] (l : List (α × β)) (hn : (l.map (·.1)).Nodup) (a : α) (b : β)
    (h : (a, b) ∈ l) : lookup a l = some b := by
  induction l with
  | nil => cases h
  | cons x r ih =>
    obtain ⟨k, v⟩ := x
    rw [List.map_cons, List.nodup_cons] at hn
    unfold lookup
    rcases List.mem_cons.mp h with h | h
    · simp only [Prod.mk.injEq] at h; obtain ⟨rfl, rfl⟩ := h; simp
    · have : k ≠ a := by
        rintro rfl
        exact hn.1 (List.mem_map.mpr ⟨_, h, rfl⟩)
      rw [if_neg this]
      exact ih hn.2 h

theorem mem_of_lookup {α β : Type} [DecidableEq α] (l : List (α × β)) (a : α) (b : β)
    (h : lookup a l = some b) : (a, b) ∈ l := by
  induction l with
  | nil => cases h
  | cons x r ih =>
    obtain ⟨k, v⟩ := x
    unfold lookup at h
    split at h
    · rename_i hk; subst hk; simp only [Option.some.injEq] at h; subst h; simp
    · exact List.mem_cons_of_mem _ (ih h)

/-- The weight a name has in a list. -/
def weightIn (ws : List (String × Nat)) (a : String) : Nat := (lookup a ws).getD 0

theorem weightIn_mem {ws : List (String × Nat)} (hn : (ws.map (·.1)).Nodup) {a : String} {w : Nat}
    (h : (a, w) ∈ ws) : weightIn ws a = w := by
  simp [weightIn, lookup_mem ws hn a w h]

theorem weightIn_sum {ws : List (String × Nat)} (hn : (ws.map (·.1)).Nodup) :
    ((ws.map (·.1)).map (weightIn ws)).sum = (ws.map (·.2)).sum := by
  rw [List.map_map]
  congr 1
  apply List.map_congr_left
  rintro ⟨a, w⟩ h
  exact weightIn_mem hn h

theorem selectCluster_eq {ws ord : List (String × Nat)} (hW : 0 < (ws.map (·.2)).sum) (hp : ord.Perm ws) (t : Table) :
    selectCluster ord t = choose (ord.map (·.1)) (clusterItems ord) t := by
  unfold selectCluster
  rw [if_neg]
  · rfl
  · rintro rfl
    have := hp.symm.eq_nil
    subst this
    simp at hW

theorem clusterItems_spec {ws ord : List (String × Nat)} (hn : (ws.map (·.1)).Nodup)
    (hW : 0 < (ws.map (·.2)).sum) (hW2 : (ws.map (·.2)).sum < 2 ^ 32) (hp : ord.Perm ws) :
    (∀ i ∈ clusterItems ord, i.name ∈ ws.map (·.1) ∧
      i.share = .fin (rnd ((weightIn ws i.name : Rat) / ((ws.map (·.2)).sum : Nat)))) ∧
    (∀ a ∈ ws.map (·.1), ∃ i ∈ clusterItems ord, i.name = a) := by
  have hs : (ord.map (·.2)).sum = (ws.map (·.2)).sum := (hp.map _).sum_nat
  have hle : ∀ x ∈ ws, x.2 ≤ (ws.map (·.2)).sum := by
    intro x hx
    clear hn hW hW2 hp hs
    induction ws with
    | nil => cases hx
    | cons y r ih =>
      simp only [List.map_cons, List.sum_cons]
      rcases List.mem_cons.mp hx with h | h
      · subst h; omega
      · have := ih h; omega
  constructor
  · intro i hi
    unfold clusterItems at hi
    obtain ⟨⟨a, w⟩, hm, rfl⟩ := List.mem_map.mp hi
    have hmw := hp.mem_iff.mp hm
    refine ⟨List.mem_map.mpr ⟨_, hmw, rfl⟩, ?_⟩
    simp only
    rw [weightIn_mem hn hmw, hs]
    have : u32 ((ws.map (·.2)).sum) = (ws.map (·.2)).sum := Nat.mod_eq_of_lt hW2
    have hw : w ≤ (ws.map (·.2)).sum := hle _ hmw
    rw [this, ofNat_small (by omega), ofNat_small (by omega)]
    simp only [F.div]
    rw [if_neg]
    intro hz
    have : (0 : Rat) < ((ws.map (·.2)).sum : Nat) := Rat.natCast_pos.mpr hW
    rw [hz] at this
    exact Rat.lt_irrefl this
  · intro a ha
    obtain ⟨⟨b, w⟩, hm, rfl⟩ := List.mem_map.mp ha
    exact ⟨_, List.mem_map.mpr ⟨(b, w), hp.mem_iff.mpr hm, rfl⟩, rfl⟩

/-- **C183** For every list of weighted clusters whose weights add up to a positive uint32, every
iteration order of the map at every call, and every number `n` of calls (up to the range of the
counters): each call selects a listed cluster of positive weight, and after the `n` calls a cluster
of weight `w` out of `W` has been selected at most `w·n/W + 1` and at least `w·n/W - (k-1)` times,
`k` being the number of clusters.

Missing for the full property: clusters without a statistics entry (`C183_unknown_false`) and
counters beyond `W·n ≤ 2^51`. -/
theorem C183_selection_partial (ws : List (String × Nat)) (hn : (ws.map (·.1)).Nodup)
    (hW : 0 < (ws.map (·.2)).sum) (hW2 : (ws.map (·.2)).sum < 2 ^ 32)
    (ord : Nat → List (String × Nat)) (hp : ∀ k, (ord k).Perm ws)
    (t : Table) (ht : ∀ a ∈ ws.map (·.1), ∃ s, t a = some s ∧ s.picks = 0)
    (n : Nat) (h32 : n < 2 ^ 32) (h51 : (ws.map (·.2)).sum * n ≤ 2 ^ 51) :
    let rs := (calls (fun k t => selectCluster (ord k) t) n t).1
    rs.length = n ∧ (∀ x ∈ rs, ∃ a w, (a, w) ∈ ws ∧ 0 < w ∧ x = some a) ∧
    ∀ a w, (a, w) ∈ ws →
      rs.count (some a) * (ws.map (·.2)).sum ≤ w * n + (ws.map (·.2)).sum ∧
      w * n + (ws.map (·.2)).sum ≤ rs.count (some a) * (ws.map (·.2)).sum + (ws.map (·.2)).sum * ws.length := by
  have hf : (fun k t => selectCluster (ord k) t) =
      fun k t => choose ((ord k).map (·.1)) (clusterItems (ord k)) t := by
    funext k t; exact selectCluster_eq hW (hp k) t
  simp only [hf]
  have hs := fun k => clusterItems_spec hn hW hW2 (hp k)
  obtain ⟨h1, h2, h3, h4⟩ := weights_run (ws.map (·.1)) hn (weightIn ws) (ws.map (·.2)).sum hW (weightIn_sum hn)
    (fun k => (ord k).map (·.1)) (fun k => clusterItems (ord k)) (fun k => (hp k).map _)
    (fun k => (hs k).1) (fun k a ha _ => (hs k).2 a ha) t ht n h32 h51
  refine ⟨h2, ?_, ?_⟩
  · intro x hx
    obtain ⟨a, ha, rfl, hpos⟩ := h3 x hx
    obtain ⟨⟨b, w⟩, hm, rfl⟩ := List.mem_map.mp ha
    rw [weightIn_mem hn hm] at hpos
    exact ⟨b, w, hm, hpos, rfl⟩
  · intro a w hm
    have ha : a ∈ ws.map (·.1) := List.mem_map.mpr ⟨_, hm, rfl⟩
    have hu := h4 a ha
    rw [weightIn_mem hn hm] at hu
    refine ⟨hu, ?_⟩
    have hnone : (calls (fun k t => choose ((ord k).map (·.1)) (clusterItems (ord k)) t) n t).1.count none = 0 := by
      refine List.count_eq_zero.mpr fun hm => ?_
      obtain ⟨a, _, h, _⟩ := h3 none hm
      cases h
    have hcs := count_sum (ws.map (·.1)) hn _ h1.named
    rw [h2, hnone, Nat.add_zero] at hcs
    have := lower_of_upper (ws.map (·.1)) hn (weightIn ws) _ _ n (weightIn_sum hn) hcs h4 a ha
    rw [weightIn_mem hn hm, List.length_map] at this
    exact this

/-- The hypotheses are met by a 90/10 split. -/
example : let ws := [("v1", 90), ("v2", 10)]
    (ws.map (·.1)).Nodup ∧ 0 < (ws.map (·.2)).sum ∧ (ws.map (·.2)).sum < 2 ^ 32 ∧
    (calls (fun _ t => selectCluster ws t) 10 (fun _ => some {})).1.count (some "v2") = 1 := by
  decide +kernel

/-- A single call yields a listed cluster, or nothing. -/
theorem C32_listed (ws : List (String × Nat)) (t : Table) (a : String) (h : (selectCluster ws t).1 = some a) :
    a ∈ ws.map (·.1) := by
  unfold selectCluster at h
  split at h
  · cases h
  · split at h
    · rename_i i hi
      simp only [Option.some.injEq] at h
      subst h
      have := (scan_some hi).1
      unfold clusterItems at this
      obtain ⟨x, hx, rfl⟩ := List.mem_map.mp this
      exact List.mem_map.mpr ⟨x, hx, rfl⟩
    · cases h

/-- **C183 (fails)** A cluster without a statistics entry (for example one that is not known yet)
gets all the traffic, whatever its weight: here 100 calls in a row for a weight of 1 in 100. -/
theorem C183_unknown_false :
    let t : Table := fun a => if a = "v1" then some {} else none
    (calls (fun _ t => selectCluster [("v1", 99), ("v2", 1)] t) 100 t).1.count (some "v2") = 99 ∧
    (calls (fun _ t => selectCluster [("v1", 99), ("v2", 1)] t) 100 t).1.count (some "v1") = 1 := by
  decide +kernel

/-- **C183 (fails)** Weights adding up to 2^32 (each a valid uint32) make the total wrap to zero, and
no cluster is ever limited: the first one listed is always selected. -/
theorem C183_overflow_false :
    let ws := [("v1", 2 ^ 31), ("v2", 2 ^ 31)]
    (calls (fun _ t => selectCluster ws t) 10 (fun _ => some {})).1 = List.replicate 10 (some "v1") := by
  decide +kernel

/-! ## C31 Weighted round robin -/

/-- The result of a call as a pick. -/
def toPick : Option String → Pick
  | some a => .addr a
  | none => .nil

theorem wrrNext_eq (eps : List String) (loads : List (String × F)) (t : Table) :
    wrrNext eps loads t = (toPick (choose (loads.map (·.1)) (wrrItems eps loads) t).1,
      (choose (loads.map (·.1)) (wrrItems eps loads) t).2) := by
  unfold wrrNext choose
  cases scan t.picks (nextTotal t.picks (loads.map (·.1))) (wrrItems eps loads) <;> rfl

theorem calls_map {α β : Type} (f : Nat → Table → α × Table) (g : α → β) (n : Nat) (t : Table) :
    calls (fun k t => (g (f k t).1, (f k t).2)) n t = ((calls f n t).1.map g, (calls f n t).2) := by
  induction n with
  | zero => rfl
  | succ n ih => simp only [calls, ih, List.map_append, List.map_cons, List.map_nil]

theorem count_toPick (rs : List (Option String)) (a : String) :
    (rs.map toPick).count (.addr a) = rs.count (some a) := by
  induction rs with
  | nil => rfl
  | cons x r ih =>
    rw [List.map_cons, List.count_cons, List.count_cons, ih]
    congr 1
    cases x with
    | none => rfl
    | some b =>
      simp only [toPick, beq_iff_eq, Option.some.injEq, Pick.addr.injEq]

theorem wrrItems_spec {eps : List String} {loads : List (String × F)} {i : Item} (h : i ∈ wrrItems eps loads) :
    i.name ∈ eps ∧ lookup i.name loads = some i.share ∧ i.tie = i.share := by
  unfold wrrItems at h
  obtain ⟨a, ha, h⟩ := List.mem_filterMap.mp h
  obtain ⟨l, hl, rfl⟩ := Option.map_eq_some_iff.mp h
  exact ⟨ha, hl, rfl⟩

/-- **C31** (one pick) The endpoint picked is listed, has a load, is below its share of the picks
(exactly, although the code compares rounded numbers), and no other endpoint that is below its
share has a smaller relative load `count / (load · total)`; among equal ones it has the greatest
load. `tot` is the number of picks so far plus one. -/
theorem C31_pick_least (eps : List String) (loads : List (String × F)) (t : Table) (a : String) (qa : Rat)
    (hcnt : ∀ b, t.picks b < 2 ^ 32)
    (h : (wrrNext eps loads t).1 = .addr a) (hq : lookup a loads = some (.fin qa)) :
    let tot := nextTotal t.picks (loads.map (·.1))
    a ∈ eps ∧ (t.picks a : Rat) < qa * tot ∧
    ∀ b ∈ eps, ∀ qb, lookup b loads = some (.fin qb) → (t.picks b : Rat) < rnd (qb * tot) →
      rnd (t.picks a / rnd (qa * tot)) ≤ rnd (t.picks b / rnd (qb * tot)) ∧
      (rnd (t.picks a / rnd (qa * tot)) = rnd (t.picks b / rnd (qb * tot)) → qb ≤ qa) := by
  intro tot
  have htot : tot < 2 ^ 53 := Nat.lt_of_lt_of_le (Nat.mod_lt _ (by decide)) (by decide)
  have hc : ∀ b, t.picks b < 2 ^ 53 := fun b => Nat.lt_of_lt_of_le (hcnt b) (by decide)
  unfold wrrNext at h
  cases hs : scan t.picks tot (wrrItems eps loads) with
  | none => rw [show nextTotal t.picks (loads.map (·.1)) = tot from rfl, hs] at h; cases h
  | some i =>
    rw [show nextTotal t.picks (loads.map (·.1)) = tot from rfl, hs] at h
    simp only [Pick.addr.injEq] at h
    subst h
    obtain ⟨hm, hsk, hleast⟩ := scan_some hs
    obtain ⟨he, hl, htie⟩ := wrrItems_spec hm
    rw [hl] at hq
    simp only [Option.some.injEq] at hq
    refine ⟨he, choose_under htot (hc _) hq hsk, ?_⟩
    have hsk' : (t.picks i.name : Rat) < rnd (qa * tot) := by
      unfold Item.skipped Item.cap at hsk
      rw [hq, ofNat_small htot, ofNat_small (hc _)] at hsk
      simpa [F.mul, F.ge, Rat.not_le] using hsk
    intro b hb qb hlb hub
    have hmb : (⟨b, .fin qb, .fin qb⟩ : Item) ∈ wrrItems eps loads :=
      List.mem_filterMap.mpr ⟨b, hb, by rw [hlb]; rfl⟩
    have hskb : Item.skipped t.picks tot ⟨b, .fin qb, .fin qb⟩ = false := by
      unfold Item.skipped Item.cap
      simp only
      rw [ofNat_small htot, ofNat_small (hc _)]
      simpa [F.mul, F.ge, Rat.not_le] using hub
    obtain ⟨h1, h2⟩ := hleast _ hmb hskb
    have hn0 : ∀ c : Nat, (0 : Rat) ≤ (c : Rat) := fun c => Rat.natCast_nonneg
    have ra : i.rel t.picks tot = .fin (rnd (t.picks i.name / rnd (qa * tot))) := by
      unfold Item.rel Item.cap
      rw [hq, ofNat_small htot, ofNat_small (hc _)]
      simp only [F.mul, F.div]
      rw [if_neg]
      intro hz; rw [hz] at hsk'; exact absurd hsk' (Rat.not_lt.mpr (hn0 _))
    have rb : Item.rel t.picks tot ⟨b, .fin qb, .fin qb⟩ = .fin (rnd (t.picks b / rnd (qb * tot))) := by
      unfold Item.rel Item.cap
      simp only
      rw [ofNat_small htot, ofNat_small (hc _)]
      simp only [F.mul, F.div]
      rw [if_neg]
      intro hz; rw [hz] at hub; exact absurd hub (Rat.not_lt.mpr (hn0 _))
    rw [ra, rb] at h1 h2
    refine ⟨?_, ?_⟩
    · simpa [F.lt, Rat.not_lt] using h1
    · intro heq
      have := h2 (by rw [heq])
      rw [htie, hq] at this
      simpa [F.lt, Rat.not_lt] using this

/-- **C31** (never above the share) For every table of finite loads, every endpoint list and every
number of successive picks starting from zero counters, no endpoint has been picked `load·n + 1`
times or more. -/
theorem C31_never_over (eps : List String) (loads : List (String × F)) (hn : (loads.map (·.1)).Nodup)
    (hfin : ∀ a l, (a, l) ∈ loads → ∃ q, 0 ≤ q ∧ l = .fin q)
    (t : Table) (ht : ∀ a ∈ loads.map (·.1), ∃ s, t a = some s ∧ s.picks = 0)
    (n : Nat) (h32 : n < 2 ^ 32) (a : String) (q : Rat) (ha : (a, .fin q) ∈ loads) :
    (((calls (fun _ t => wrrNext eps loads t) n t).1.count (.addr a) : Nat) : Rat) < q * n + 1 := by
  have hf : (fun (_ : Nat) t => wrrNext eps loads t) = fun _ t =>
      (toPick (choose (loads.map (·.1)) (wrrItems eps loads) t).1, (choose (loads.map (·.1)) (wrrItems eps loads) t).2) := by
    funext k t; exact wrrNext_eq eps loads t
  rw [hf, calls_map (fun _ t => choose (loads.map (·.1)) (wrrItems eps loads) t) toPick, count_toPick]
  let share : String → Rat := fun a => match lookup a loads with | some (.fin q) => q | _ => 0
  have hsh : ∀ a, 0 ≤ share a := by
    intro a
    simp only [share]
    split
    · rename_i q hq
      obtain ⟨q', h0, he⟩ := hfin a _ (mem_of_lookup _ _ _ hq)
      simp only [F.fin.injEq] at he; rw [he]; exact h0
    · exact Rat.le_refl
  have hmem : a ∈ loads.map (·.1) := List.mem_map.mpr ⟨_, ha, rfl⟩
  have := (upper_run (loads.map (·.1)) hn share hsh (fun _ => loads.map (·.1)) (fun _ => wrrItems eps loads)
    (fun _ => List.Perm.refl _) ?_ t ht n h32).2.2 a hmem
  · have hqa : share a = q := by
      simp only [share]; rw [lookup_mem loads hn a _ ha]
    rw [hqa] at this
    exact this
  · intro _ i hi
    obtain ⟨_, h1, _⟩ := wrrItems_spec hi
    have hm := mem_of_lookup _ _ _ h1
    refine ⟨List.mem_map.mpr ⟨_, hm, rfl⟩, ?_⟩
    obtain ⟨q, _, hq⟩ := hfin _ _ hm
    simp only [share]
    rw [h1, hq]

/-- Loads as percentages, the form in which `GetLoadDistribution` computes them. -/
def percent (ks : List (String × Nat)) : List (String × F) := ks.map fun x => (x.1, .fin (rnd ((x.2 : Rat) / (100 : Nat))))

theorem percent_keys (ks : List (String × Nat)) : (percent ks).map (·.1) = ks.map (·.1) := by
  simp [percent, List.map_map, Function.comp_def]

theorem lookup_percent (ks : List (String × Nat)) (a : String) :
    lookup a (percent ks) = (lookup a ks).map fun k => .fin (rnd ((k : Rat) / (100 : Nat))) := by
  induction ks with
  | nil => rfl
  | cons x r ih =>
    obtain ⟨k, v⟩ := x
    simp only [percent, List.map_cons, lookup]
    split
    · rfl
    · exact ih

/-- **C173** (close to the share) When the loads are whole percentages that add up to 100, every pick
succeeds and after any number `n` of picks an endpoint with `k` percent has been picked at most
`k·n/100 + 1` and at least `k·n/100 - (m-1)` times, `m` being the number of endpoints.

Missing for the full property: loads that do not add up to 100 percent, see `C173_thirds_false`. -/
theorem C173_close_partial (eps : List String) (ks : List (String × Nat)) (hn : (ks.map (·.1)).Nodup)
    (hsum : (ks.map (·.2)).sum = 100) (heps : ∀ a k, (a, k) ∈ ks → 0 < k → a ∈ eps)
    (t : Table) (ht : ∀ a ∈ ks.map (·.1), ∃ s, t a = some s ∧ s.picks = 0) (n : Nat) (h32 : n < 2 ^ 32) :
    let rs := (calls (fun _ t => wrrNext eps (percent ks) t) n t).1
    rs.length = n ∧ (∀ x ∈ rs, ∃ a k, (a, k) ∈ ks ∧ 0 < k ∧ x = .addr a) ∧
    ∀ a k, (a, k) ∈ ks → rs.count (.addr a) * 100 ≤ k * n + 100 ∧
      k * n + 100 ≤ rs.count (.addr a) * 100 + 100 * ks.length := by
  have hf : (fun (_ : Nat) t => wrrNext eps (percent ks) t) = fun _ t =>
      (toPick (choose (ks.map (·.1)) (wrrItems eps (percent ks)) t).1,
        (choose (ks.map (·.1)) (wrrItems eps (percent ks)) t).2) := by
    funext k t; rw [wrrNext_eq, percent_keys]
  simp only [hf, calls_map (fun _ t => choose (ks.map (·.1)) (wrrItems eps (percent ks)) t) toPick]
  have hsum' := weightIn_sum hn
  rw [hsum] at hsum'
  obtain ⟨h1, h2, h3, h4⟩ := weights_run (ks.map (·.1)) hn (weightIn ks) 100 (by decide) hsum'
    (fun _ => ks.map (·.1)) (fun _ => wrrItems eps (percent ks)) (fun _ => List.Perm.refl _) (by
      intro _ i hi
      obtain ⟨_, hl, _⟩ := wrrItems_spec hi
      rw [lookup_percent] at hl
      obtain ⟨k, hk, hs⟩ := Option.map_eq_some_iff.mp hl
      have hm := mem_of_lookup _ _ _ hk
      refine ⟨List.mem_map.mpr ⟨_, hm, rfl⟩, ?_⟩
      rw [weightIn_mem hn hm, ← hs]) (by
      intro _ a ha hpos
      obtain ⟨⟨b, k⟩, hm, rfl⟩ := List.mem_map.mp ha
      rw [weightIn_mem hn hm] at hpos
      have hl : lookup b (percent ks) = some (.fin (rnd ((k : Rat) / (100 : Nat)))) := by
        rw [lookup_percent, lookup_mem ks hn b k hm]; rfl
      exact ⟨⟨b, _, _⟩, List.mem_filterMap.mpr ⟨b, heps b k hm hpos, by rw [hl]; rfl⟩, rfl⟩)
    t ht n h32 (by omega)
  refine ⟨by simp [h2], ?_, ?_⟩
  · intro x hx
    obtain ⟨y, hy, rfl⟩ := List.mem_map.mp hx
    obtain ⟨a, ha, rfl, hpos⟩ := h3 y hy
    obtain ⟨⟨b, k⟩, hm, rfl⟩ := List.mem_map.mp ha
    rw [weightIn_mem hn hm] at hpos
    exact ⟨b, k, hm, hpos, rfl⟩
  · intro a k hm
    have ha : a ∈ ks.map (·.1) := List.mem_map.mpr ⟨_, hm, rfl⟩
    rw [count_toPick]
    have hu := h4 a ha
    rw [weightIn_mem hn hm] at hu
    refine ⟨hu, ?_⟩
    have hnone : (calls (fun _ t => choose (ks.map (·.1)) (wrrItems eps (percent ks)) t) n t).1.count none = 0 := by
      refine List.count_eq_zero.mpr fun hm => ?_
      obtain ⟨a, _, h, _⟩ := h3 none hm
      cases h
    have hcs := count_sum (ks.map (·.1)) hn _ h1.named
    rw [h2, hnone, Nat.add_zero] at hcs
    have := lower_of_upper (ks.map (·.1)) hn (weightIn ks) _ _ n hsum' hcs h4 a ha
    rw [weightIn_mem hn hm, List.length_map] at this
    exact this

/-- Four equal endpoints meet the hypotheses. -/
example : let cla : Cla := [{ name := "z", priority := 0, eps :=
      [⟨some "a", .healthy, none⟩, ⟨some "b", .unknown, none⟩, ⟨some "c", .degraded, none⟩, ⟨some "d", .healthy, none⟩] }]
    loadDistribution cla (fun _ => some {}) defaultOpf none = percent [("a", 25), ("b", 25), ("c", 25), ("d", 25)] := by
  decide +kernel

/-- Three healthy endpoints of one locality. -/
def three : Cla := [{ name := "z", priority := 0, eps :=
  [⟨some "a", .healthy, none⟩, ⟨some "b", .healthy, none⟩, ⟨some "c", .healthy, none⟩] }]

/-- A failed pick changes no counter, so the next one fails as well. -/
theorem wrr_stuck (cla : Cla) (opf : F) (t : Table) (r : Nat → Nat) (h : (clientAddress .roundRobin cla opf t r).1 = .panic) :
    (clientAddress .roundRobin cla opf t r).2 = t := by
  unfold clientAddress nextEndpoint at *
  unfold wrrNext at *
  cases hs : scan t.picks (nextTotal t.picks ((loadDistribution cla t opf none).map (·.1)))
      (wrrItems (healthyAddrs cla) (loadDistribution cla t opf none)) with
  | none => simp only [hs]; split <;> rfl
  | some i => simp [hs, metadataPanics] at h

theorem stuck_forever {α : Type} (f : Nat → Table → α × Table) (t : Table) (x : α) (h : ∀ k, f k t = (x, t)) :
    ∀ n, calls f n t = (List.replicate n x, t) := by
  intro n
  induction n with
  | zero => rfl
  | succ n ih => simp [calls, ih, h, List.replicate_succ']

theorem wrrNext_snd {eps : List String} {loads : List (String × F)} {t : Table} {a : String}
    (h : (wrrNext eps loads t).1 = .addr a) : (wrrNext eps loads t).2 = t.incPicks a := by
  unfold wrrNext at *
  split at h
  · rename_i i hi
    simp only [Pick.addr.injEq] at h
    simp only [h]
  · cases h

/-- A table with three counters. -/
def counts3 (a b c : Nat) : Table := fun m =>
  if m = "a" then some { picks := a } else if m = "b" then some { picks := b }
  else if m = "c" then some { picks := c } else none

theorem counts3_a (a b c : Nat) : (counts3 a b c).incPicks "a" = counts3 (u32 (a + 1)) b c := by
  funext m
  simp only [Table.incPicks, Table.adjust, counts3]
  by_cases h : m = "a"
  · simp [h]
  · simp [h]

theorem counts3_b (a b c : Nat) : (counts3 a b c).incPicks "b" = counts3 a (u32 (b + 1)) c := by
  funext m
  simp only [Table.incPicks, Table.adjust, counts3]
  by_cases h : m = "b"
  · simp [h]
  · simp [h]

theorem counts3_c (a b c : Nat) : (counts3 a b c).incPicks "c" = counts3 a b (u32 (c + 1)) := by
  funext m
  simp only [Table.incPicks, Table.adjust, counts3]
  by_cases h : m = "c"
  · simp [h]
  · simp [h]

/-- **C173 (fails)** Three equal healthy endpoints get a load of 0.33 each. After 99 successful
picks each has reached its "share", the round-robin balancer returns no endpoint although all three
are healthy, and the call crashes; it never recovers, as the counters no longer change. -/
theorem C173_thirds_false :
    let f := fun (_ : Nat) t => clientAddress .roundRobin three defaultOpf t (fun _ => 0)
    let t0 : Table := counts3 0 0 0
    loadDistribution three t0 defaultOpf none = percent [("a", 33), ("b", 33), ("c", 33)] ∧
    (∀ x ∈ (calls f 99 t0).1, x = .addr "a" ∨ x = .addr "b" ∨ x = .addr "c") ∧
    ∀ n, (calls f n (calls f 99 t0).2).1 = List.replicate n .panic := by
  intro f t0
  have hl : ∀ t, loadDistribution three t defaultOpf none = percent [("a", 33), ("b", 33), ("c", 33)] := by
    intro t
    show loadDistribution three t0 defaultOpf none = _
    decide +kernel
  -- the same calls with the load table computed once
  let g : Nat → Table → Pick × Table := fun _ t =>
    let x := wrrNext ["a", "b", "c"] (percent [("a", 33), ("b", 33), ("c", 33)]) t
    if metadataPanics three x.1 then (.panic, x.2) else x
  have hfg : f = g := by
    funext k t
    show (let x := wrrNext (healthyAddrs three) (loadDistribution three t defaultOpf none) t
      if metadataPanics three x.1 then (Pick.panic, x.2) else x) = _
    rw [hl]
    rfl
  have hstep : ∀ k t a, (wrrNext ["a", "b", "c"] (percent [("a", 33), ("b", 33), ("c", 33)]) t).1 = .addr a →
      g k t = (.addr a, t.incPicks a) := by
    intro k t a h
    have h2 := wrrNext_snd h
    show (if metadataPanics three _ then _ else _) = _
    rw [h]
    exact Prod.ext h h2
  have hrun : ∀ k, k ≤ 33 → (∀ x ∈ (calls g (3 * k) t0).1, x = .addr "a" ∨ x = .addr "b" ∨ x = .addr "c") ∧
      (calls g (3 * k) t0).2 = counts3 k k k := by
    intro k
    induction k with
    | zero =>
      intro _
      exact ⟨(fun x hx => nomatch hx), rfl⟩
    | succ k ih =>
      intro hk
      obtain ⟨i1, i2⟩ := ih (by omega)
      have d : ∀ k, k < 33 →
          (wrrNext ["a", "b", "c"] (percent [("a", 33), ("b", 33), ("c", 33)]) (counts3 k k k)).1 = .addr "a" ∧
          (wrrNext ["a", "b", "c"] (percent [("a", 33), ("b", 33), ("c", 33)]) (counts3 (k + 1) k k)).1 = .addr "b" ∧
          (wrrNext ["a", "b", "c"] (percent [("a", 33), ("b", 33), ("c", 33)]) (counts3 (k + 1) (k + 1) k)).1 = .addr "c" := by
        decide +kernel
      obtain ⟨d1, d2, d3⟩ := d k (by omega)
      have hu : u32 (k + 1) = k + 1 := by unfold u32; omega
      have s1 := hstep (3 * k) _ _ d1
      have s2 := hstep (3 * k + 1) _ _ d2
      have s3 := hstep (3 * k + 1 + 1) _ _ d3
      rw [counts3_a, hu] at s1
      rw [counts3_b, hu] at s2
      rw [counts3_c, hu] at s3
      have e : 3 * (k + 1) = 3 * k + 1 + 1 + 1 := by omega
      rw [e]
      simp only [calls, i2, s1, s2, s3, List.append_assoc, List.mem_append]
      refine ⟨?_, trivial⟩
      intro x hx
      rcases hx with hx | hx | hx | hx
      · exact i1 x hx
      · simp only [List.mem_singleton] at hx; exact Or.inl hx
      · simp only [List.mem_singleton] at hx; exact Or.inr (Or.inl hx)
      · simp only [List.mem_singleton] at hx; exact Or.inr (Or.inr hx)
  obtain ⟨hr1, hr2⟩ := hrun 33 (by decide)
  have hg : (∀ x ∈ (calls g 99 t0).1, x = .addr "a" ∨ x = .addr "b" ∨ x = .addr "c") ∧
      (g 99 (calls g 99 t0).2).1 = .panic := by
    refine ⟨hr1, ?_⟩
    have : (calls g 99 t0).2 = counts3 33 33 33 := hr2
    rw [this]
    decide +kernel
  refine ⟨hl t0, by rw [hfg]; exact hg.1, fun n => ?_⟩
  have h : (clientAddress .roundRobin three defaultOpf (calls f 99 t0).2 (fun _ => 0)).1 = .panic := by
    have := hg.2
    rw [← hfg] at this
    exact this
  have h2 := wrr_stuck _ _ _ _ h
  have := stuck_forever f (calls f 99 t0).2 .panic (fun _ => Prod.ext h h2) n
  rw [this]

theorem put_mem {α β : Type} [DecidableEq α] (k : α) (v : β) (l : List (α × β)) {x : α × β} (h : x ∈ put k v l) :
    x = (k, v) ∨ x ∈ l := by
  induction l with
  | nil => exact Or.inl (by simpa [put] using h)
  | cons y r ih =>
    obtain ⟨k', v'⟩ := y
    unfold put at h
    split at h
    · rcases List.mem_cons.mp h with h | h
      · exact Or.inl h
      · exact Or.inr (List.mem_cons_of_mem _ h)
    · rcases List.mem_cons.mp h with h | h
      · exact Or.inr (by rw [h]; simp)
      · rcases ih h with h | h
        · exact Or.inl h
        · exact Or.inr (List.mem_cons_of_mem _ h)

/-- Every entry of the load table is computed by the formula for one of the endpoints. -/
theorem load_mem (cla : Cla) (t : Table) (opf : F) (bias : Option (Nat → F)) {a : String} {l : F}
    (h : (a, l) ∈ loadDistribution cla t opf bias) :
    ∃ loc ∈ cla, ∃ e ∈ loc.eps, e.addr = some a ∧
      l = round2 (((biased t bias (if e.isHealthy then F.ofNat e.lbWeight else F.fin 0) a).div
        (localityWeight cla t bias loc.name)).mul ((lookup loc.name (localityLoads cla opf)).getD (.fin 0))) := by
  have inner : ∀ (loc : Locality) (es : List LbEndpoint) (acc : List (String × F)),
      (a, l) ∈ es.foldl (fun acc e =>
        match e.addr with
        | none => acc
        | some a =>
          let w := if e.isHealthy then F.ofNat e.lbWeight else F.fin 0
          let load := ((biased t bias w a).div (localityWeight cla t bias loc.name)).mul
            ((lookup loc.name (localityLoads cla opf)).getD (.fin 0))
          put a (round2 load) acc) acc →
      (a, l) ∈ acc ∨ ∃ e ∈ es, e.addr = some a ∧
        l = round2 (((biased t bias (if e.isHealthy then F.ofNat e.lbWeight else F.fin 0) a).div
        (localityWeight cla t bias loc.name)).mul ((lookup loc.name (localityLoads cla opf)).getD (.fin 0))) := by
    intro loc es
    induction es with
    | nil => intro acc h; exact Or.inl h
    | cons e es ih =>
      intro acc h
      rw [List.foldl_cons] at h
      rcases ih _ h with h | ⟨e', he', h⟩
      · split at h
        · exact Or.inl h
        · rename_i b hb
          simp only at h
          rcases put_mem _ _ _ h with h | h
          · simp only [Prod.mk.injEq] at h
            obtain ⟨rfl, rfl⟩ := h
            exact Or.inr ⟨e, by simp, hb, rfl⟩
          · exact Or.inl h
      · exact Or.inr ⟨e', List.mem_cons_of_mem _ he', h⟩
  have outer : ∀ (ls : List Locality) (acc : List (String × F)),
      (a, l) ∈ ls.foldl (fun acc loc => loc.eps.foldl (fun acc e =>
        match e.addr with
        | none => acc
        | some a =>
          let w := if e.isHealthy then F.ofNat e.lbWeight else F.fin 0
          let load := ((biased t bias w a).div (localityWeight cla t bias loc.name)).mul
            ((lookup loc.name (localityLoads cla opf)).getD (.fin 0))
          put a (round2 load) acc) acc) acc →
      (a, l) ∈ acc ∨ ∃ loc ∈ ls, ∃ e ∈ loc.eps, e.addr = some a ∧
        l = round2 (((biased t bias (if e.isHealthy then F.ofNat e.lbWeight else F.fin 0) a).div
        (localityWeight cla t bias loc.name)).mul ((lookup loc.name (localityLoads cla opf)).getD (.fin 0))) := by
    intro ls
    induction ls with
    | nil => intro acc h; exact Or.inl h
    | cons loc ls ih =>
      intro acc h
      rw [List.foldl_cons] at h
      rcases ih _ h with h | ⟨loc', hl', h⟩
      · rcases inner loc _ _ h with h | h
        · exact Or.inl h
        · exact Or.inr ⟨loc, by simp, h⟩
      · exact Or.inr ⟨loc', List.mem_cons_of_mem _ hl', h⟩
  rcases outer cla [] h with h | h
  · cases h
  · exact h

/-- If every load is zero no endpoint is picked. -/
theorem zero_loads_nil (eps : List String) (loads : List (String × F)) (t : Table)
    (h : ∀ a l, (a, l) ∈ loads → l = .fin 0) : wrrNext eps loads t = (.nil, t) := by
  unfold wrrNext
  split
  · rename_i i hi
    exfalso
    obtain ⟨hm, hs, _⟩ := scan_some hi
    obtain ⟨_, hl, _⟩ := wrrItems_spec hm
    have := h _ _ (mem_of_lookup _ _ _ hl)
    unfold Item.skipped Item.cap at hs
    rw [this] at hs
    simp only [F.ofNat, F.mul, Rat.zero_mul, rnd_zero, F.ge, decide_eq_false_iff_not] at hs
    exact hs (rnd_nonneg _)
  · rfl

theorem nextEndpoint_rr (cla : Cla) (opf : F) (t : Table) (r : Nat → Nat) :
    nextEndpoint .roundRobin cla opf t r = wrrNext (healthyAddrs cla) (loadDistribution cla t opf none) t := rfl

theorem panic_of_nil (p : Policy) (cla : Cla) (opf : F) (t : Table) (r : Nat → Nat)
    (hany : metadataPanics cla .nil = true) (h : (nextEndpoint p cla opf t r).1 = .nil) :
    (clientAddress p cla opf t r).1 = .panic := by
  unfold clientAddress
  simp only [h, hany, if_true]

/-- `n` healthy endpoints of equal weight. -/
def equalEps (n : Nat) : Cla :=
  [{ name := "z", priority := 0, eps := (List.range n).map fun i => ⟨some (Nat.repr i), .healthy, none⟩ }]

/-- **C173 (fails)** With 200 equal healthy endpoints every load rounds to zero and the very first
pick crashes. -/
theorem C173_many_false :
    (clientAddress .roundRobin (equalEps 200) defaultOpf (fun _ => some {}) (fun _ => 0)).1 = .panic := by
  have hw : localityWeight (equalEps 200) (fun _ => some {}) none "z" = .fin 200 := by decide +kernel
  have hl : localityLoads (equalEps 200) defaultOpf = [("z", .fin 1)] := by decide +kernel
  have hz : ∀ a l, (a, l) ∈ loadDistribution (equalEps 200) (fun _ => some {}) defaultOpf none → l = .fin 0 := by
    intro a l h
    obtain ⟨loc, hloc, e, he, _, rfl⟩ := load_mem _ _ _ _ h
    simp only [equalEps, List.mem_singleton] at hloc
    have hn : loc.name = "z" := by rw [hloc]
    rw [hloc] at he
    obtain ⟨i, _, rfl⟩ := List.mem_map.mp he
    rw [hn, hw, hl]
    simp only [biased, LbEndpoint.isHealthy, LbEndpoint.lbWeight, Option.getD_none, if_true, lookup, Option.getD_some]
    decide +kernel
  have hany : metadataPanics (equalEps 200) .nil = true :=
    List.any_eq_true.mpr ⟨⟨some "0", .healthy, none⟩, List.mem_flatMap.mpr ⟨_, List.mem_singleton.mpr rfl,
      List.mem_map.mpr ⟨0, List.mem_range.mpr (by decide), rfl⟩⟩, rfl⟩
  have hne : nextEndpoint .roundRobin (equalEps 200) defaultOpf (fun _ => some {}) (fun _ => 0) = (.nil, fun _ => some {}) :=
    (nextEndpoint_rr _ _ _ _).trans (zero_loads_nil _ _ _ hz)
  exact panic_of_nil _ _ _ _ _ hany (by rw [hne])

end Verif.Bal
