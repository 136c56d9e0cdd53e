import Verif.Kafka.Pools
/-
Property theorems C24: pooled byte slices.
-/
namespace Verif.Props
open Verif Verif.Kafka

/-- states reachable from empty pools by any history of gets, releases of buffers in use, and garbage collections -/
inductive PoolReach : PoolState → Prop
  | init : PoolReach ⟨fun _ => [], [], 0⟩
  | step {s s' : PoolState} {g : Option Got} : PoolReach s → PoolStep s g s' → PoolReach s'

theorem allocCap_ge (c : Nat) : c ≤ allocCap c := by
  unfold allocCap
  split
  · rename_i h
    by_cases h0 : c ≤ 4 * 1024
    · have : bucketIndex c = 0 := by simp only [bucketIndex, h0, ↓reduceIte]
      rw [this]; omega
    · by_cases h1 : c ≤ 8 * 1024
      · have : bucketIndex c = 1 := by simp only [bucketIndex, h0, h1, ↓reduceIte]
        rw [this]; omega
      · by_cases h2 : c ≤ 16 * 1024
        · have : bucketIndex c = 2 := by simp only [bucketIndex, h0, h1, h2, ↓reduceIte]
          rw [this]; omega
        · have : 3 ≤ bucketIndex c := by
            simp only [bucketIndex, h0, h1, h2, ↓reduceIte]
            repeat' split
            all_goals omega
          omega
  · exact Nat.le_refl _

abbrev ids (l : List Buf) : List Nat := l.map (·.id)

theorem getLoop_ok {cap : Nat} {l l' : List Buf} {r : Option Buf} (h : GetLoop cap l l' r) :
    l'.Sublist l ∧ ∀ b, r = some b → cap ≤ b.cap ∧ b ∈ l ∧ ((ids l).Nodup → b.id ∉ ids l') := by
  induction h with
  | alloc l l' hs => exact ⟨hs, by simp⟩
  | take l a c b hl hc =>
    subst hl
    refine ⟨?_, ?_⟩
    · exact List.Sublist.append (List.Sublist.refl a) (List.sublist_cons_self b c)
    · intro b' hb
      injection hb with hb
      subst hb
      refine ⟨hc, by simp, ?_⟩
      intro hnd
      simp only [ids, List.map_append, List.map_cons] at hnd ⊢
      rw [List.nodup_append] at hnd
      obtain ⟨h1, h2, h3⟩ := hnd
      rw [List.nodup_cons] at h2
      simp only [List.mem_append, not_or]
      refine ⟨?_, h2.1⟩
      intro hm
      exact h3 _ hm _ (List.mem_cons_self ..) rfl
  | drop l a c l' b r hl hlt _ ih =>
    subst hl
    have hsub : (a ++ c).Sublist (a ++ b :: c) := List.Sublist.append (List.Sublist.refl a) (List.sublist_cons_self b c)
    refine ⟨ih.1.trans hsub, ?_⟩
    intro b' hb
    obtain ⟨h1, h2, h3⟩ := ih.2 b' hb
    exact ⟨h1, hsub.subset h2, fun hnd => h3 (hnd.sublist (hsub.map _))⟩

/-- no buffer is in two places -/
structure PoolInv (s : PoolState) : Prop where
  live : (ids s.live).Nodup
  pool : ∀ i, (ids (s.pools i)).Nodup
  disj : ∀ i j, i ≠ j → ∀ x ∈ ids (s.pools i), x ∉ ids (s.pools j)
  apart : ∀ i, ∀ x ∈ ids (s.pools i), x ∉ ids s.live
  fresh : (∀ x ∈ ids s.live, x < s.next) ∧ ∀ i, ∀ x ∈ ids (s.pools i), x < s.next

theorem ids_subset {a b : List Buf} (h : a.Sublist b) {x : Nat} (hx : x ∈ ids a) : x ∈ ids b := (h.map _).subset hx

theorem PoolInv.step {s s' : PoolState} {g : Option Got} (h : PoolInv s) (st : PoolStep s g s') : PoolInv s' := by
  cases st with
  | getPooled length capacity rest b hl hg =>
    obtain ⟨hs, hb⟩ := getLoop_ok hg
    obtain ⟨h1, h2, h3⟩ := hb b rfl
    have hbid : b.id ∈ ids (s.pools (bucketIndex capacity)) := List.mem_map.mpr ⟨b, h2, rfl⟩
    refine ⟨?_, ?_, ?_, ?_, ?_, ?_⟩
    · simp only [ids, List.map_cons, List.nodup_cons]
      exact ⟨h.apart _ _ hbid, h.live⟩
    · intro i; simp only []
      split
      · exact (h.pool _).sublist (hs.map _)
      · exact h.pool i
    · intro i j hij x hx; simp only [] at hx ⊢
      split at hx <;> split
      · omega
      · rename_i e _; subst e; exact h.disj _ _ hij x (ids_subset hs hx)
      · rename_i e; subst e; intro hx'; exact h.disj _ _ hij x hx (ids_subset hs hx')
      · exact h.disj _ _ hij x hx
    · intro i x hx
      simp only [] at hx
      simp only [ids, List.map_cons, List.mem_cons, not_or]
      split at hx
      · rename_i e
        subst e
        refine ⟨?_, h.apart _ x (ids_subset hs hx)⟩
        intro he; subst he
        exact h3 (h.pool _) hx
      · rename_i e
        refine ⟨?_, h.apart _ x hx⟩
        intro he; subst he
        exact h.disj _ _ e _ hx hbid
    · intro x hx
      simp only [ids, List.map_cons, List.mem_cons] at hx
      rcases hx with rfl | hx
      · exact h.fresh.2 _ _ hbid
      · exact h.fresh.1 x hx
    · intro i x hx
      simp only [] at hx
      split at hx
      · rename_i e; subst e; exact h.fresh.2 _ x (ids_subset hs hx)
      · exact h.fresh.2 i x hx
  | getNew length capacity rest hl hg =>
    obtain ⟨hs, -⟩ := getLoop_ok hg
    refine ⟨?_, ?_, ?_, ?_, ?_, ?_⟩
    · simp only [ids, List.map_cons, List.nodup_cons]
      refine ⟨fun hm => ?_, h.live⟩
      have := h.fresh.1 _ hm
      omega
    · intro i; simp only []
      split
      · exact (h.pool _).sublist (hs.map _)
      · exact h.pool i
    · intro i j hij x hx; simp only [] at hx ⊢
      split at hx <;> split
      · omega
      · rename_i e _; subst e; exact h.disj _ _ hij x (ids_subset hs hx)
      · rename_i e; subst e; intro hx'; exact h.disj _ _ hij x hx (ids_subset hs hx')
      · exact h.disj _ _ hij x hx
    · intro i x hx
      simp only [] at hx
      simp only [ids, List.map_cons, List.mem_cons, not_or]
      have hx' : x ∈ ids (s.pools i) := by
        split at hx
        · rename_i e; subst e; exact ids_subset hs hx
        · exact hx
      have := h.fresh.2 i x hx'
      exact ⟨by omega, h.apart i x hx'⟩
    · intro x hx
      simp only [ids, List.map_cons, List.mem_cons] at hx
      rcases hx with rfl | hx
      · exact Nat.lt_succ_self _
      · exact Nat.lt_succ_of_lt (h.fresh.1 x hx)
    · intro i x hx
      simp only [] at hx
      have hx' : x ∈ ids (s.pools i) := by
        split at hx
        · rename_i e; subst e; exact ids_subset hs hx
        · exact hx
      exact Nat.lt_succ_of_lt (h.fresh.2 i x hx')
  | release a c b hl =>
    have hbl : b.id ∈ ids s.live := by rw [hl]; simp [ids]
    have hsub : (a ++ c).Sublist s.live := by
      rw [hl]; exact List.Sublist.append (List.Sublist.refl a) (List.sublist_cons_self b c)
    have hbn : b.id ∉ ids (a ++ c) := by
      have hnd := h.live
      rw [hl] at hnd
      simp only [ids, List.map_append, List.map_cons] at hnd ⊢
      rw [List.nodup_append] at hnd
      obtain ⟨h1, h2, h3⟩ := hnd
      rw [List.nodup_cons] at h2
      simp only [List.mem_append, not_or]
      exact ⟨fun hm => h3 _ hm _ (List.mem_cons_self ..) rfl, h2.1⟩
    have hbp : ∀ i, b.id ∉ ids (s.pools i) := fun i hm => h.apart i _ hm hbl
    have key : ∀ i x, x ∈ ids (if i = bucketIndex b.cap then b :: s.pools i else s.pools i) →
        (x = b.id ∧ i = bucketIndex b.cap) ∨ x ∈ ids (s.pools i) := by
      intro i x hx
      split at hx
      · rename_i e
        simp only [ids, List.map_cons, List.mem_cons] at hx
        rcases hx with rfl | hx
        · exact Or.inl ⟨rfl, e⟩
        · exact Or.inr hx
      · exact Or.inr hx
    refine ⟨h.live.sublist (hsub.map _), ?_, ?_, ?_, ?_, ?_⟩
    · intro i
      simp only []
      split
      · simp only [ids, List.map_cons, List.nodup_cons]
        exact ⟨hbp i, h.pool i⟩
      · exact h.pool i
    · intro i j hij x hx hx'
      rcases key i x hx with ⟨rfl, e⟩ | hx1
      · rcases key j _ hx' with ⟨_, e'⟩ | hx2
        · omega
        · exact hbp j hx2
      · rcases key j x hx' with ⟨rfl, _⟩ | hx2
        · exact hbp i hx1
        · exact h.disj i j hij x hx1 hx2
    · intro i x hx hx'
      rcases key i x hx with ⟨rfl, _⟩ | hx1
      · exact hbn hx'
      · exact h.apart i x hx1 (ids_subset hsub hx')
    · intro x hx
      exact h.fresh.1 x (ids_subset hsub hx)
    · intro i x hx
      rcases key i x hx with ⟨rfl, _⟩ | hx1
      · exact h.fresh.1 _ hbl
      · exact h.fresh.2 i x hx1
  | gc p hp =>
    refine ⟨h.live, ?_, ?_, ?_, h.fresh.1, ?_⟩
    · intro i; exact (h.pool i).sublist ((hp i).map _)
    · intro i j hij x hx hx'; exact h.disj i j hij x (ids_subset (hp i) hx) (ids_subset (hp j) hx')
    · intro i x hx; exact h.apart i x (ids_subset (hp i) hx)
    · intro i x hx; exact h.fresh.2 i x (ids_subset (hp i) hx)

theorem PoolReach.inv {s : PoolState} (h : PoolReach s) : PoolInv s := by
  induction h with
  | init => exact ⟨by simp [ids], by simp [ids], by simp [ids], by simp [ids], by simp [ids], by simp [ids]⟩
  | step _ st ih => exact ih.step st

/-- C24: GetByteSlice(length, capacity) returns a slice with at least the requested capacity, in any state; its length fits. -/
theorem C24_large_enough {s s' : PoolState} {g : Got} (h : PoolStep s (some g) s') :
    g.asked ≤ g.buf.cap ∧ g.length ≤ g.buf.cap := by
  cases h with
  | getPooled length capacity rest b hl hg =>
    have := ((getLoop_ok hg).2 b rfl).1
    exact ⟨this, Nat.le_trans hl this⟩
  | getNew length capacity rest hl hg => exact ⟨allocCap_ge capacity, Nat.le_trans hl (allocCap_ge capacity)⟩

/-- C24: in every history in which users release only buffers they hold, a buffer returned by a Get is not in use, and the
buffers in use are pairwise different. -/
theorem C24_never_shared {s s' : PoolState} {g : Got} (hr : PoolReach s) (h : PoolStep s (some g) s') :
    (∀ b ∈ s.live, b.id ≠ g.buf.id) ∧ s'.live = g.buf :: s.live ∧ (s'.live.map (·.id)).Nodup := by
  have hi := hr.inv.step h
  have hl : s'.live = g.buf :: s.live := by cases h <;> rfl
  refine ⟨?_, hl, hi.live⟩
  intro b hb he
  have := hi.live
  rw [hl] at this
  simp only [ids, List.map_cons, List.nodup_cons] at this
  exact this.1 (List.mem_map.mpr ⟨b, hb, he⟩)

/-- **C24** A buffer made for a request of at most 16 KiB serves, once released, every later request of the same size class
(up to 4, 8 or 16 KiB). -/
theorem C24_reusable {s s' : PoolState} {g : Got} (h : PoolStep s (some g) s') (hnew : ∀ i, g.buf ∉ s.pools i) (k : Nat)
    (hk : k = 4 * 1024 ∨ k = 8 * 1024 ∨ k = 16 * 1024) (hg : g.asked ≤ k) (hlow : k = 4 * 1024 ∨ k < 2 * g.asked) : g.buf.cap = k := by
  cases h with
  | getPooled length capacity rest b hl hg' =>
    exact absurd ((getLoop_ok hg').2 b rfl).2.1 (hnew _)
  | getNew length capacity rest hl hg' =>
    simp only at hg hlow
    have hb : bucketIndex capacity = if k = 4 * 1024 then 0 else if k = 8 * 1024 then 1 else 2 := by
      unfold bucketIndex
      rcases hk with rfl | rfl | rfl
      · rw [if_pos (by omega)]; rfl
      · rw [if_neg (by omega), if_pos (by omega)]; rfl
      · rw [if_neg (by omega), if_neg (by omega), if_pos (by omega)]; rfl
    show allocCap capacity = k
    unfold allocCap
    rw [hb]
    rcases hk with rfl | rfl | rfl <;> simp

/-- C24 needs the users' discipline: after releasing the same buffer twice, two Gets return the same buffer. -/
theorem C24_double_release_false :
    ∃ (l rest1 rest2 : List Buf) (b : Buf), l = [b, b] ∧ GetLoop 10 l rest1 (some b) ∧ GetLoop 10 rest1 rest2 (some b) :=
  ⟨[⟨0, 4096⟩, ⟨0, 4096⟩], [⟨0, 4096⟩], [], ⟨0, 4096⟩, rfl, .take _ [] [⟨0, 4096⟩] _ rfl (by decide),
    .take _ [] [] _ rfl (by decide)⟩

/-! non-vacuity: get, release, get again returns the pooled buffer -/
example : ∃ s1 s2 s3, PoolStep ⟨fun _ => [], [], 0⟩ (some ⟨⟨0, 8192⟩, 10, 5000⟩) s1 ∧ PoolStep s1 none s2 ∧
    PoolStep s2 (some ⟨⟨0, 8192⟩, 7000, 7000⟩) s3 :=
  ⟨_, _, _, .getNew _ 10 5000 [] (by decide) (.alloc [] [] (List.Sublist.refl _)),
    .release _ [] [] ⟨0, 8192⟩ rfl, .getPooled _ 7000 7000 [] ⟨0, 8192⟩ (by decide) (.take _ [] [] ⟨0, 8192⟩ rfl (by decide))⟩

end Verif.Props
