import Verif.Props.WasmPlugin
/-
C65, second part: which instances run, and what happens without the conditions.
-/
namespace Verif.Plugin

/-! ### Specification -/

/-- Every instance was running when it was handed out. -/
def HandedRunning (tr : List Ev) : Prop := ∀ pre i post, tr = pre ++ .got i :: post → Running post i

/-- No instance is stopped twice. -/
def StoppedOnce (tr : List Ev) : Prop := ∀ i, tr.count (.stopped i) ≤ 1

/-! ### Invariant -/

def Busy (p : Phase) : Prop := p ≠ .none ∧ p ≠ .done

structure Life (s : St) : Prop where
  one : ∀ c c', Busy (s.phase c) → Busy (s.phase c') → c = c'
  nonil : none ∉ s.insts
  alive : s.crashed = false
  count : s.count = s.insts.length
  read : ∀ c d a f, s.phase c = .ensure d a f → a = s.count ∧ (f = true → d = 0)
  nodup : s.insts.Nodup
  run : ∀ i, some i ∈ s.insts ↔ Running s.trace i
  fresh : ∀ i, .started i ∈ s.trace → i < s.next
  stop : ∀ i, .stopped i ∈ s.trace → .started i ∈ s.trace
  len : s.insts.length ≤ s.next
  small : s.next < U32
  vm : ∀ c, s.phase c = .toVM → s.insts = []
  handed : HandedRunning s.trace
  once : StoppedOnce s.trace

theorem getLoop_mem (ok : Nat → Bool) (insts : List (Option Nat)) : ∀ (k idx : Nat) (i j : Nat),
    getLoop ok insts k idx = (.inst i, j) → some i ∈ insts
  | 0, idx, i, j, h => by simp [getLoop] at h
  | k + 1, idx, i, j, h => by
    unfold getLoop at h
    split at h
    · rename_i x hx
      split at h
      · injection h with h _; injection h with h; subst h; exact List.mem_of_getElem? hx
      · exact getLoop_mem ok insts k _ i j h
    · injection h with h; cases h

theorem getLoop_nocrash (ok : Nat → Bool) (insts : List (Option Nat)) (hn : none ∉ insts) : ∀ (k idx : Nat) (j : Nat),
    k ≤ insts.length → getLoop ok insts k idx ≠ (.crash, j)
  | 0, idx, j, _ => by simp [getLoop]
  | k + 1, idx, j, hk => by
    unfold getLoop
    have hin : idx % insts.length < insts.length := Nat.mod_lt _ (by omega)
    rw [List.getElem?_eq_getElem hin]
    cases h : insts[idx % insts.length] with
    | none => exact absurd (h ▸ List.getElem_mem hin) hn
    | some i =>
      simp only
      split
      · intro h; injection h with h; cases h
      · exact getLoop_nocrash ok insts hn k _ j (by omega)

theorem handed_cons {tr : List Ev} {e : Ev} (h : HandedRunning tr) (he : ∀ i, e = .got i → Running tr i) :
    HandedRunning (e :: tr) := by
  intro pre i post heq
  cases pre with
  | nil =>
    simp only [List.nil_append, List.cons.injEq] at heq
    obtain ⟨h1, h2⟩ := heq
    subst h2
    exact he i h1
  | cons x xs =>
    simp only [List.cons_append, List.cons.injEq] at heq
    exact h xs i post heq.2

theorem handed_append {tr es : List Ev} (h : HandedRunning tr) (he : ∀ i, Ev.got i ∉ es) : HandedRunning (es ++ tr) := by
  induction es with
  | nil => exact h
  | cons e es ih =>
    rw [List.cons_append]
    refine handed_cons (ih fun i hi => he i (List.mem_cons_of_mem _ hi)) ?_
    intro i hi
    exact absurd (by simp [hi]) (he i)

theorem releaseAll_mem {b : List (Nat × Nat)} {e : Ev} (h : e ∈ releaseAll b) : ∃ i, e = .released i := by
  simp only [releaseAll, List.mem_flatMap, List.mem_replicate] at h
  obtain ⟨x, _, _, rfl⟩ := h
  exact ⟨_, rfl⟩

/-- Events that do not start or stop anything. -/
theorem run_append {tr es : List Ev} (h1 : ∀ i, Ev.started i ∉ es) (h2 : ∀ i, Ev.stopped i ∉ es) (i : Nat) :
    (Ev.started i ∈ es ++ tr ↔ Ev.started i ∈ tr) ∧ (Ev.stopped i ∈ es ++ tr ↔ Ev.stopped i ∈ tr) ∧
    (Running (es ++ tr) i ↔ Running tr i) := by
  have := h1 i; have := h2 i
  simp only [Running, List.mem_append]
  grind

theorem mem_create : ∀ (ok : List Bool) (n i : Nat), i ∈ create n ok → n ≤ i ∧ i < n + ok.length
  | [], n, i, h => by simp [create] at h
  | true :: r, n, i, h => by
    simp only [create, List.mem_cons] at h
    rcases h with h | h
    · subst h; simp
    · have := mem_create r (n + 1) i h; simp only [List.length_cons]; omega
  | false :: r, n, i, h => by
    simp only [create] at h
    have := mem_create r (n + 1) i h; simp only [List.length_cons]; omega

theorem create_nodup : ∀ (ok : List Bool) (n : Nat), (create n ok).Nodup
  | [], n => by simp [create]
  | true :: r, n => by
    simp only [create, List.nodup_cons]
    exact ⟨fun h => by have := mem_create r (n + 1) n h; omega, create_nodup r (n + 1)⟩
  | false :: r, n => create_nodup r (n + 1)

theorem create_length : ∀ (ok : List Bool) (n : Nat), (create n ok).length = ok.count true
  | [], n => rfl
  | true :: r, n => by simp [create, create_length r (n + 1)]
  | false :: r, n => by simp [create, create_length r (n + 1)]

theorem busy_set {s : St} {c : Nat} {p : Phase} (h : ∀ c c', Busy (s.phase c) → Busy (s.phase c') → c = c')
    (hb : Busy p → Busy (s.phase c) ∨ ∀ c, s.phase c = .none ∨ s.phase c = .done) :
    ∀ k k', Busy ((s.setPhase c p).phase k) → Busy ((s.setPhase c p).phase k') → k = k' := by
  intro k k' h1 h2
  simp only [St.setPhase] at h1 h2
  have nob : (∀ c, s.phase c = .none ∨ s.phase c = .done) → ∀ x, ¬ Busy (s.phase x) := by
    intro hall x hx
    rcases hall x with h | h <;> exact (by simp [Busy, h] at hx)
  by_cases e1 : k = c <;> by_cases e2 : k' = c
  · omega
  · rw [if_pos e1] at h1
    rw [if_neg e2] at h2
    rcases hb h1 with h3 | h3
    · subst e1; exact (h _ _ h2 h3).symm
    · exact absurd h2 (nob h3 _)
  · rw [if_neg e1] at h1
    rw [if_pos e2] at h2
    rcases hb h2 with h3 | h3
    · subst e2; exact h _ _ h1 h3
    · exact absurd h1 (nob h3 _)
  · rw [if_neg e1] at h1
    rw [if_neg e2] at h2
    exact h _ _ h1 h2

theorem filterMap_id_nodup : ∀ l : List (Option Nat), l.Nodup → (l.filterMap id).Nodup
  | [], _ => by simp
  | none :: r, h => by
    simp only [List.nodup_cons] at h
    exact filterMap_id_nodup r h.2
  | some x :: r, h => by
    simp only [List.nodup_cons] at h
    simp only [List.filterMap_cons, id, List.nodup_cons]
    exact ⟨by simpa [List.mem_filterMap] using h.1, filterMap_id_nodup r h.2⟩

theorem nodup_map_inj {α β : Type} (f : α → β) (hf : ∀ x y, f x = f y → x = y) : ∀ l : List α, l.Nodup → (l.map f).Nodup
  | [], _ => by simp
  | x :: r, h => by
    simp only [List.nodup_cons] at h
    simp only [List.map_cons, List.nodup_cons, List.mem_map, not_exists, not_and]
    exact ⟨fun y hy he => h.1 (hf _ _ he ▸ hy), nodup_map_inj f hf r h.2⟩

theorem once_append {tr es : List Ev} (h : StoppedOnce tr) (he : ∀ i, Ev.stopped i ∉ es) : StoppedOnce (es ++ tr) := by
  intro i
  rw [List.count_append, List.count_eq_zero.mpr (he i), Nat.zero_add]
  exact h i

/-- A step that touches neither the instances nor the phases and only appends harmless events. -/
theorem life_events {s : St} {es : List Ev} {x y : Nat} {b : List (Nat × Nat)} (h : Life s) (h1 : ∀ i, Ev.started i ∉ es)
    (h2 : ∀ i, Ev.stopped i ∉ es) (h3 : HandedRunning (es ++ s.trace)) :
    Life { s with index := x, bcount := y, bmap := b, trace := es ++ s.trace } := by
  obtain ⟨a1, a2, a3, a4, a5, a6, a7, a8, a9, a10, a11, a12, a13, a14⟩ := h
  have hr := run_append (tr := s.trace) h1 h2
  exact ⟨a1, a2, a3, a4, a5, a6, fun i => (a7 i).trans (hr i).2.2.symm, fun i hi => a8 i ((hr i).1.mp hi),
    fun i hi => (hr i).1.mpr (a9 i ((hr i).2.1.mp hi)), a10, a11, a12, h3, once_append a14 h2⟩

/-- A step that moves a call to another phase. -/
theorem life_phase {s : St} {c : Nat} {p : Phase} (h : Life s)
    (hb : Busy p → Busy (s.phase c) ∨ ∀ c, s.phase c = .none ∨ s.phase c = .done)
    (hr : ∀ d a f, p = .ensure d a f → a = s.count ∧ (f = true → d = 0)) (hv : p = .toVM → s.insts = []) :
    Life (s.setPhase c p) := by
  obtain ⟨a1, a2, a3, a4, a5, a6, a7, a8, a9, a10, a11, a12, a13, a14⟩ := h
  refine ⟨busy_set a1 hb, a2, a3, a4, ?_, a6, a7, a8, a9, a10, a11, ?_, a13, a14⟩
  · intro k d a f hk
    simp only [St.setPhase] at hk
    split at hk
    · exact hr d a f hk
    · exact a5 k d a f hk
  · intro k hk
    simp only [St.setPhase] at hk
    split at hk
    · exact hv hk
    · exact a12 k hk

theorem life_step {s s' : St} {a : Act} (h : Life s) (hg : Serial s a) (he : exec s a = some s') : Life s' := by
  have h0 := h
  obtain ⟨a1, a2, a3, a4, a5, a6, a7, a8, a9, a10, a11, a12, a13, a14⟩ := h
  unfold exec at he
  split at he
  · cases he
  cases a with
  | get ok =>
    simp only at he
    split at he
    · rename_i i idx hl
      injection he with he; subst he
      have hm := getLoop_mem _ _ _ _ _ _ hl
      exact life_events (es := [.got i]) h0 (by simp) (by simp)
        (handed_cons a13 (by intro j hj; injection hj with hj; subst hj; exact (a7 _).mp hm))
    · injection he with he; subst he
      exact life_events (es := [.refused]) h0 (by simp) (by simp) (handed_cons a13 (by intro j hj; cases hj))
    · rename_i j hl
      exact absurd hl (getLoop_nocrash ok _ a2 _ _ _ (Nat.le_refl _))
  | release i =>
    simp only at he
    injection he with he; subst he
    exact life_events (es := [.released i]) h0 (by simp) (by simp) (handed_cons a13 (by intro j hj; cases hj))
  | ensure c d =>
    simp only at he
    split at he
    · injection he with he; subst he
      unfold ensureRead
      split
      · exact life_phase h0 (by simp [Busy]) (by simp) (by simp)
      · exact life_phase h0 (fun _ => Or.inr hg) (by intro d a f hp; injection hp with _ h2 h3; exact ⟨h2.symm, by simp [← h3]⟩) (by simp)
    · cases he
  | ensureLock c ok =>
    simp only [Serial] at hg
    simp only at he
    split at he
    · rename_i d ac fc hph
      obtain ⟨hac, hfc⟩ := a5 c d ac fc hph
      subst hac
      have hpb : Busy (s.phase c) := by rw [hph]; simp [Busy]
      generalize hp : (if fc = true then Phase.toVM else Phase.done) = ph at he
      have hph' : ∀ d a f, ph ≠ .ensure d a f := by
        intro d a f; rw [← hp]; split <;> simp
      have hvm : ph = .toVM → d = 0 := by
        intro hv
        rw [← hp] at hv
        cases fc with
        | true => exact hfc rfl
        | false => simp at hv
      -- nobody else is at `toVM` meanwhile
      have hother : ∀ k, k ≠ c → s.phase k ≠ .toVM ∧ ∀ d a f, s.phase k ≠ .ensure d a f := by
        intro k hk
        constructor
        · intro hk2; exact hk (a1 k c (by rw [hk2]; simp [Busy]) hpb)
        · intro d a f hk2; exact hk (a1 k c (by rw [hk2]; simp [Busy]) hpb)
      have hone := busy_set (c := c) (p := ph) a1 (fun _ => Or.inl hpb)
      split at he
      · -- shrinking
        rename_i hlt
        have hcon : ¬ ((s.setPhase c ph).insts.drop d).contains none = true := by
          simp only [St.setPhase, List.contains_iff_mem]
          intro hm
          exact a2 (List.mem_of_mem_drop hm)
        rw [if_neg hcon] at he
        injection he with he; subst he
        have hlen : d ≤ s.insts.length := by omega
        have hrep : s.insts.take d ++ List.replicate (d - s.insts.length) none = s.insts.take d := by
          rw [show d - s.insts.length = 0 by omega]; simp
        have hdrop : ∀ i, i ∈ ((s.insts.drop d).filterMap id) ↔ some i ∈ s.insts.drop d := by
          intro i; simp [List.mem_filterMap]
        have hst : ∀ i, Ev.stopped i ∈ ((s.insts.drop d).filterMap id).reverse.map Ev.stopped ++ s.trace ↔
            some i ∈ s.insts.drop d ∨ Ev.stopped i ∈ s.trace := by
          intro i
          simp only [List.mem_append, List.mem_map, List.mem_reverse, hdrop]
          constructor
          · rintro (⟨j, hj, h⟩ | h)
            · injection h with h; subst h; exact Or.inl hj
            · exact Or.inr h
          · rintro (h | h)
            · exact Or.inl ⟨i, h, rfl⟩
            · exact Or.inr h
        have hsa : ∀ i, Ev.started i ∈ ((s.insts.drop d).filterMap id).reverse.map Ev.stopped ++ s.trace ↔
            Ev.started i ∈ s.trace := by
          intro i; simp
        have hdisj : ∀ x, x ∈ s.insts.take d → x ∈ s.insts.drop d → False := by
          intro x h1 h2
          have hnd := a6
          rw [← List.take_append_drop d s.insts, List.nodup_append] at hnd
          exact hnd.2.2 x h1 x h2 rfl
        have hmem : ∀ x, x ∈ s.insts ↔ x ∈ s.insts.take d ∨ x ∈ s.insts.drop d := by
          intro x
          rw [← List.mem_append, List.take_append_drop]
        refine ⟨hone, ?_, a3, ?_, ?_, ?_, ?_, ?_, ?_, ?_, a11, ?_, ?_, ?_⟩
        · simp only [St.setPhase, hrep]; intro hm; exact a2 (List.mem_of_mem_take hm)
        · simp only [St.setPhase, hrep, List.length_take]; omega
        · intro k d' a' f' hk
          simp only [St.setPhase] at hk
          split at hk
          · exact absurd hk (hph' _ _ _)
          · rename_i hkc; exact absurd hk ((hother k hkc).2 _ _ _)
        · simp only [St.setPhase, hrep]
          exact List.Nodup.sublist (List.take_sublist _ _) a6
        · intro i
          simp only [St.setPhase, hrep, Running, hsa, hst]
          have h7 := a7 i
          have hd := hdisj (some i)
          have hm := hmem (some i)
          simp only [Running] at h7
          grind
        · intro i hi; exact a8 i ((hsa i).mp hi)
        · intro i hi
          apply (hsa i).mpr
          rcases (hst i).mp hi with h | h
          · exact ((a7 i).mp (List.mem_of_mem_drop h)).1
          · exact a9 i h
        · simp only [St.setPhase, hrep, List.length_take]; omega
        · intro k hk
          simp only [St.setPhase] at hk ⊢
          split at hk
          · have := hvm hk; subst this; simp
          · rename_i hkc; exact absurd hk (hother k hkc).1
        · exact handed_append a13 (by simp)
        · intro i
          simp only [St.setPhase, List.count_append]
          by_cases hin : some i ∈ s.insts.drop d
          · have h7 := (a7 i).mp (List.mem_of_mem_drop hin)
            rw [List.count_eq_zero.mpr h7.2]
            have hnd : (((s.insts.drop d).filterMap id).reverse.map Ev.stopped).Nodup := by
              have h1 : ((s.insts.drop d).filterMap id).Nodup := by
                have hsub : (s.insts.drop d).Nodup := List.Nodup.sublist (List.drop_sublist _ _) a6
                have hnn : none ∉ s.insts.drop d := fun hm => a2 (List.mem_of_mem_drop hm)
                exact filterMap_id_nodup _ hsub
              exact nodup_map_inj Ev.stopped (by intro x y h; injection h) _ ((List.reverse_perm _).nodup_iff.mpr h1)
            have := List.nodup_iff_count.mp hnd (Ev.stopped i)
            omega
          · rw [List.count_eq_zero.mpr]
            · have := a14 i; omega
            · intro hm
              have := (hst i).mp (List.mem_append_left _ hm)
              simp only [List.mem_map, List.mem_reverse, hdrop] at hm
              obtain ⟨j, hj, hji⟩ := hm
              injection hji with hji; subst hji; exact hin hj
      · -- growing
        rename_i hge
        split at he
        · rename_i hokl
          injection he with he; subst he
          have hstart : ∀ i, Ev.started i ∈ (create s.next ok).reverse.map Ev.started ++ s.trace ↔
              i ∈ create s.next ok ∨ Ev.started i ∈ s.trace := by
            intro i
            simp only [List.mem_append, List.mem_map, List.mem_reverse]
            constructor
            · rintro (⟨j, hj, h⟩ | h)
              · injection h with h; subst h; exact Or.inl hj
              · exact Or.inr h
            · rintro (h | h)
              · exact Or.inl ⟨i, h, rfl⟩
              · exact Or.inr h
          have hstop : ∀ i, Ev.stopped i ∈ (create s.next ok).reverse.map Ev.started ++ s.trace ↔ Ev.stopped i ∈ s.trace := by
            intro i; simp
          have hnew : ∀ i ∈ create s.next ok, Ev.started i ∉ s.trace := by
            intro i hi hst
            have := mem_create ok s.next i hi
            have := a8 i hst
            omega
          have hcl : (create s.next ok).length ≤ ok.length := by rw [create_length]; exact List.count_le_length
          refine ⟨hone, ?_, a3, ?_, ?_, ?_, ?_, ?_, ?_, ?_, hg, ?_, ?_, ?_⟩
          · simp only [St.setPhase, List.mem_append, not_or]
            exact ⟨a2, by simp⟩
          · simp only [St.setPhase, List.length_append, List.length_map]
            rw [a4, Nat.mod_eq_of_lt (by omega)]
          · intro k d' a' f' hk
            simp only [St.setPhase] at hk
            split at hk
            · exact absurd hk (hph' _ _ _)
            · rename_i hkc; exact absurd hk ((hother k hkc).2 _ _ _)
          · simp only [St.setPhase]
            rw [List.nodup_append]
            refine ⟨a6, nodup_map_inj some (by intro x y h; injection h) _ (create_nodup _ _), ?_⟩
            intro x hx y hy hxy
            subst hxy
            simp only [List.mem_map] at hy
            obtain ⟨i, hi, rfl⟩ := hy
            exact hnew i hi ((a7 i).mp hx).1
          · intro i
            have h7 := a7 i
            have hn := hnew i
            have h9 := a9 i
            simp only [St.setPhase, List.mem_append (s := s.insts), List.mem_map, Option.some.injEq, exists_eq_right, Running, hstart, hstop] at h7 ⊢
            grind
          · intro i hi
            rcases (hstart i).mp hi with h | h
            · have := mem_create ok s.next i h; exact this.2
            · have := a8 i h; simp only [St.setPhase]; omega
          · intro i hi
            exact (hstart i).mpr (Or.inr (a9 i ((hstop i).mp hi)))
          · simp only [St.setPhase, List.length_append, List.length_map]; omega
          · intro k hk
            simp only [St.setPhase] at hk ⊢
            split at hk
            · have hd0 := hvm hk
              subst hd0
              have : s.count = 0 := by omega
              have hz : s.insts = [] := List.length_eq_zero_iff.mp (by omega)
              have hok0 : ok = [] := List.length_eq_zero_iff.mp (by omega)
              rw [hz, hok0]; rfl
            · rename_i hkc; exact absurd hk (hother k hkc).1
          · exact handed_append a13 (by simp)
          · exact once_append a14 (by simp)
        · cases he
    · cases he
  | close c =>
    simp only at he
    split at he
    · injection he with he; subst he
      have hl := life_phase (c := c) (p := .toEnsure) h0 (fun _ => Or.inr hg) (by simp) (by simp)
      refine life_events (es := releaseAll s.bmap) hl ?_ ?_ ?_
      · intro i hi; obtain ⟨j, h⟩ := releaseAll_mem hi; cases h
      · intro i hi; obtain ⟨j, h⟩ := releaseAll_mem hi; cases h
      · exact handed_append a13 (fun i hi => by obtain ⟨j, h⟩ := releaseAll_mem hi; cases h)
    · cases he
  | closeEnsure c =>
    simp only at he
    split at he
    · rename_i hph
      injection he with he; subst he
      have hpb : Busy (s.phase c) := by rw [hph]; simp [Busy]
      unfold ensureRead
      split
      · rename_i hz
        exact life_phase h0 (fun _ => Or.inl hpb) (by simp) (fun _ => List.length_eq_zero_iff.mp (by omega))
      · exact life_phase h0 (fun _ => Or.inl hpb) (by intro d a f hp; injection hp with h1 h2 h3; exact ⟨h2.symm, fun _ => h1.symm⟩) (by simp)
    · cases he
  | closeVM c =>
    simp only at he
    split at he
    · injection he with he; subst he
      have hl := life_phase (c := c) (p := .done) h0 (by simp [Busy]) (by simp) (by simp)
      exact life_events (es := [.closed]) hl (by simp) (by simp) (handed_cons a13 (by intro j hj; cases hj))
    · cases he

theorem life {s : St} (h : Reach Serial s) : Life s := by
  induction h with
  | init =>
    refine ⟨by simp [Busy], by simp, rfl, rfl, by simp, by simp, by simp [Running], by simp, by simp, by simp, by decide +kernel, by simp, ?_, ?_⟩
    · intro pre i post h; simp at h
    · intro i; simp
  | step _ hg he ih => exact life_step ih hg he

/-- **C65** If calls of `EnsureInstances` and `Close` do not overlap: no nil instance is ever
used, an instance handed out was running at that moment, and no instance is stopped twice. -/
theorem C65_running {s : St} (h : Reach Serial s) :
    s.crashed = false ∧ HandedRunning s.trace ∧ StoppedOnce s.trace := by
  have h := life h
  exact ⟨h.alive, h.handed, h.once⟩

/-- The instances that are running, without repetition. -/
def RunningAre (tr : List Ev) (l : List Nat) : Prop := l.Nodup ∧ ∀ i, i ∈ l ↔ Running tr i

theorem runningAre {s : St} (h : Life s) : RunningAre s.trace (s.insts.filterMap id) ∧
    (s.insts.filterMap id).length = s.count := by
  refine ⟨⟨filterMap_id_nodup _ h.nodup, ?_⟩, ?_⟩
  · intro i
    rw [← h.run i]
    simp [List.mem_filterMap]
  · rw [h.count]
    have hn := h.nonil
    generalize s.insts = l at hn
    clear h
    induction l with
    | nil => rfl
    | cons x r ih =>
      simp only [List.mem_cons, not_or] at hn
      cases x with
      | none => exact absurd rfl hn.1
      | some v => simp [ih hn.2]

theorem create_all (n : Nat) (ok : List Bool) (h : ∀ b ∈ ok, b = true) : (create n ok).length = ok.length := by
  rw [create_length, List.count_eq_length]
  intro b hb; exact (h b hb).symm

/-- **C65** After `EnsureInstances(desired)`, exactly `desired` instances are running, if every
instance that had to be created could be, and no other call of `EnsureInstances` or `Close`
overlapped it. -/
theorem C65_ensure {s s' : St} {c desired actual : Nat} {f : Bool} {ok : List Bool} (h : Reach Serial s)
    (hp : s.phase c = .ensure desired actual f) (hs : s.next + ok.length < U32) (hok : ∀ b ∈ ok, b = true)
    (he : exec s (.ensureLock c ok) = some s') :
    ∃ l, RunningAre s'.trace l ∧ l.length = desired := by
  have h1 := life h
  have h2 := life_step (a := .ensureLock c ok) h1 hs he
  have ⟨h3, h4⟩ := runningAre h2
  refine ⟨_, h3, ?_⟩
  rw [h4]
  obtain ⟨hac, _⟩ := h1.read c desired actual f hp
  unfold exec at he
  rw [h1.alive] at he
  simp only [hp] at he
  generalize (if f = true then Phase.toVM else Phase.done) = ph at he
  have hl : s.count = s.insts.length := h1.count
  have hlen := h1.len
  split at he
  · cases he
  · split at he
    · split at he
      · injection he with he; subst he
        exact absurd h2.alive (by simp)
      · injection he with he; subst he; rfl
    · split at he
      · rename_i hlt hol
        injection he with he; subst he
        have := create_all s.next ok hok
        simp only [St.setPhase]
        rw [Nat.mod_eq_of_lt (by omega)]
        omega
      · cases he

/-- **C65** When `Close` returns, no instance is running any more, if no call of
`EnsureInstances` or `Close` overlapped it. -/
theorem C65_closed {s s' : St} {c : Nat} (h : Reach Serial s) (he : exec s (.closeVM c) = some s') :
    ∀ i, .started i ∈ s'.trace → .stopped i ∈ s'.trace := by
  have h1 := life h
  have h2 := life_step (a := .closeVM c) h1 trivial he
  intro i hi
  by_cases hr : Ev.stopped i ∈ s'.trace
  · exact hr
  · have hm := (h2.run i).mpr ⟨hi, hr⟩
    unfold exec at he
    rw [h1.alive] at he
    simp only at he
    split at he
    · cases he
    · split at he
      · rename_i hph
        injection he with he; subst he
        have := h1.vm c hph
        simp [St.setPhase, this] at hm
      · cases he

/-! ### Without the conditions -/

/-- Any schedule. -/
def anyAct (_ : St) (_ : Act) : Prop := True

def run (s : St) : List Act → Option St
  | [] => some s
  | a :: r => match exec s a with
    | some s' => run s' r
    | none => none

theorem reach_run {g : St → Act → Prop} : ∀ (l : List Act) (s s' : St), Reach g s → (∀ s a, g s a) → run s l = some s' → Reach g s'
  | [], s, s', h, _, hr => by injection hr with hr; exact hr ▸ h
  | a :: r, s, s', h, hg, hr => by
    simp only [run] at hr
    split at hr
    · rename_i s1 h1; exact reach_run r s1 s' (.step h (hg s a) h1) hg hr
    · cases hr

/-- **C68 refuted** for overlapping calls: `EnsureInstances(2)` reads 4 instances, `EnsureInstances(1)`
completes, and the first, now with the lock, extends the list again with an entry that is nil:
the next `GetInstance` that reaches it ends the process. -/
theorem C68_nil_false : ∃ l s, run {} l = some s ∧ Reach anyAct s ∧ s.crashed = true := by
  have h : (run {} [.ensure 0 4, .ensureLock 0 [true, true, true, true], .ensure 1 2, .ensure 2 1, .ensureLock 2 [],
      .ensureLock 1 [], .get fun _ => true, .get fun _ => true]).map (·.crashed) = some true := by decide +kernel
  generalize hr : run _ _ = r at h
  cases r with
  | none => cases h
  | some s => exact ⟨_, s, hr, reach_run _ _ _ .init (fun _ _ => trivial) hr, by simpa using h⟩

/-- **C68 refuted**: two overlapping calls of `EnsureInstances(2)` leave four instances running. -/
theorem C68_overcreate_false : ∃ l s, run {} l = some s ∧ Reach anyAct s ∧
    (∀ a ∈ l, ∀ c d, a = .ensure c d → d = 2) ∧ (∀ c, s.phase c = .none ∨ s.phase c = .done) ∧
    ∀ i, i < 4 → Running s.trace i := by
  let l : List Act := [.ensure 0 2, .ensure 1 2, .ensureLock 0 [true, true], .ensureLock 1 [true, true]]
  have h : (run {} l).map (fun s => (s.trace, s.phase 0, s.phase 1)) =
      some ([.started 3, .started 2, .started 1, .started 0], .done, .done) := by decide +kernel
  have hph : ∀ s, run {} l = some s → ∀ c, c ≠ 0 → c ≠ 1 → s.phase c = .none := by
    intro s hs c h0 h1
    simp only [l, run, exec, ensureRead, St.setPhase] at hs
    simp at hs
    subst hs
    simp [h0, h1]
  generalize hr : run _ l = r at h
  cases r with
  | none => cases h
  | some s =>
    simp only [Option.map_some, Option.some.injEq, Prod.mk.injEq] at h
    refine ⟨l, s, hr, reach_run _ _ _ .init (fun _ _ => trivial) hr, ?_, ?_, ?_⟩
    · intro a ha c d he
      subst he
      simp [l] at ha
      rcases ha with h | h <;> exact h.2
    · intro c
      by_cases h0 : c = 0
      · subst h0; exact Or.inr h.2.1
      · by_cases h1 : c = 1
        · subst h1; exact Or.inr h.2.2
        · exact Or.inl (hph s hr c h0 h1)
    · rw [h.1]
      intro i hi
      have : i = 0 ∨ i = 1 ∨ i = 2 ∨ i = 3 := by omega
      rcases this with h | h | h | h <;> subst h <;> simp [Running]

/-- **C68 refuted** for a release after `Close`: a stream that was open when the plugin was closed
gives its instance back when it ends, which releases it a second time; the count of borrowed
instances becomes 2^32 - 1. -/
theorem C68_late_release_false : ∃ l s, run {} l = some s ∧ Reach anyAct s ∧
    gets s.trace 0 = 1 ∧ releases s.trace 0 = 2 ∧ s.bcount = 2 ^ 32 - 1 := by
  have h : (run {} [.ensure 0 1, .ensureLock 0 [true], .get fun _ => true, .close 1, .release 0]).map
      (fun s => (gets s.trace 0, releases s.trace 0, s.bcount)) = some (1, 2, 2 ^ 32 - 1) := by decide +kernel
  generalize hr : run _ _ = r at h
  cases r with
  | none => cases h
  | some s =>
    simp only [Option.map_some, Option.some.injEq, Prod.mk.injEq] at h
    exact ⟨_, s, hr, reach_run _ _ _ .init (fun _ _ => trivial) hr, h.1, h.2.1, h.2.2⟩

/-- **C68 refuted** as a least-loaded choice, and the reason not to read round robin as one: a release
moves the position back, so that an instance that is in use is handed out again while another
one is idle, with nobody doing anything wrong. -/
theorem C68_skew_false : ∃ l s, run {} l = some s ∧ Reach Correct s ∧
    gets s.trace 1 - releases s.trace 1 = 2 ∧ gets s.trace 0 - releases s.trace 0 = 0 ∧ Running s.trace 0 := by
  let l : List Act := [.ensure 0 2, .ensureLock 0 [true, true], .get fun _ => true, .get fun _ => true, .release 0, .get fun _ => true]
  have h : (run {} l).map (fun s => (gets s.trace 1, releases s.trace 1, gets s.trace 0, releases s.trace 0,
      decide (.started 0 ∈ s.trace), decide (.stopped 0 ∈ s.trace))) = some (2, 0, 1, 1, true, false) := by decide +kernel
  generalize hr : run _ l = r at h
  cases r with
  | none => cases h
  | some s =>
    simp only [Option.map_some, Option.some.injEq, Prod.mk.injEq, decide_eq_true_eq, decide_eq_false_iff_not] at h
    obtain ⟨h1, h2, h3, h4, h5, h6⟩ := h
    refine ⟨l, s, hr, ?_, by omega, by omega, h5, h6⟩
    -- the run, step by step
    have k1 : (run {} [Act.ensure 0 2, .ensureLock 0 [true, true]]).isSome = true := by decide +kernel
    have k2 : (run {} [Act.ensure 0 2, .ensureLock 0 [true, true]]).map (fun s => decide (s.index + s.insts.length < U32)) = some true := by decide +kernel
    have k3 : (run {} [Act.ensure 0 2, .ensureLock 0 [true, true], .get fun _ => true]).map (fun s => decide (s.index + s.insts.length < U32)) = some true := by decide +kernel
    have k4 : (run {} [Act.ensure 0 2, .ensureLock 0 [true, true], .get fun _ => true, .get fun _ => true]).map
      (fun s => decide (releases s.trace 0 < gets s.trace 0)) = some true := by decide +kernel
    have k5 : (run {} [Act.ensure 0 2, .ensureLock 0 [true, true], .get fun _ => true, .get fun _ => true, .release 0]).map
      (fun s => decide (s.index + s.insts.length < U32)) = some true := by decide +kernel
    simp only [l, run] at hr k1 k2 k3 k4 k5
    split at hr
    · rename_i s1 e1
      simp only [e1] at k1 k2 k3 k4 k5
      split at hr
      · rename_i s2 e2
        simp only [e2] at k1 k2 k3 k4 k5
        split at hr
        · rename_i s3 e3
          simp only [e3] at k3 k4 k5
          split at hr
          · rename_i s4 e4
            simp only [e4] at k4 k5
            split at hr
            · rename_i s5 e5
              simp only [e5] at k5
              split at hr
              · rename_i s6 e6
                injection hr with hr; subst hr
                simp only [Option.map_some, Option.some.injEq, decide_eq_true_eq] at k2 k3 k4 k5
                exact .step (a := .get _) (.step (a := .release 0) (.step (a := .get _) (.step (a := .get _) (.step (a := .ensureLock _ _)
                  (.step (a := .ensure _ _) .init trivial e1) trivial e2) k2 e3) k3 e4) k4 e5) k5 e6
              · cases hr
            · cases hr
          · cases hr
        · cases hr
      · cases hr
    · cases hr

/-- **C68 refuted** when the counter wraps around: with three instances, at position 2^32 - 1 (which is
0 modulo 3), the next positions are 0 and 1, so instance 0 is asked twice and instance 2 never:
`GetInstance` fails although instance 2 would accept. -/
theorem C68_wrap_false : ∃ s s' : St, s.insts = [some 0, some 1, some 2] ∧ s.index = 2 ^ 32 - 1 ∧
    exec s (.get fun i => i == 2) = some s' ∧ s'.trace = .refused :: s.trace := by
  let s : St := { insts := [some 0, some 1, some 2], index := 2 ^ 32 - 1, count := 3, next := 3 }
  have h : (exec s (.get fun i => i == 2)).map (·.trace) = some [.refused] := by decide +kernel
  generalize hr : exec s _ = r at h
  cases r with
  | none => cases h
  | some s' => exact ⟨s, s', rfl, rfl, hr, by simpa using h⟩

/-! ### Non-vacuity -/

def ex (s : St) (a : Act) : St := (exec s a).getD {}
def ex1 : St := ex {} (.ensure 0 2)
def ex2 : St := ex ex1 (.ensureLock 0 [true, true])
def ex3 : St := ex ex2 (.get fun _ => true)
def ex4 : St := ex ex3 (.close 1)
def ex5 : St := ex ex4 (.closeEnsure 1)
def ex6 : St := ex ex5 (.ensureLock 1 [])
def ex7 : St := ex ex6 (.closeVM 1)

/-- Two instances are started, one is handed out, and the plugin is closed: a run that meets
both conditions, and what the theorems say about it. -/
example : Reach Serial ex1 ∧ Reach Correct ex1 ∧ ex1.phase 0 = .ensure 2 0 false ∧
    exec ex1 (.ensureLock 0 [true, true]) = some ex2 ∧ RunningAre ex2.trace [0, 1] :=
  ⟨.step (a := .ensure 0 2) .init (fun _ => Or.inl rfl) rfl, .step (a := .ensure 0 2) .init trivial rfl, rfl, rfl, by
    constructor
    · decide
    · intro i; show i ∈ [0, 1] ↔ Running [.started 1, .started 0] i; simp [Running]; omega⟩

theorem ex1_reach : Reach Serial ex1 := .step (a := .ensure 0 2) .init (fun _ => Or.inl rfl) rfl
theorem ex2_reach : Reach Serial ex2 := .step (a := .ensureLock 0 [true, true]) ex1_reach (by show (2 : Nat) < U32; decide) rfl
theorem ex3_reach : Reach Serial ex3 := .step (a := .get fun _ => true) ex2_reach trivial rfl
theorem ex4_reach : Reach Serial ex4 := .step (a := .close 1) ex3_reach
  (by intro c
      by_cases h : c = 0
      · subst h; exact Or.inr rfl
      · refine Or.inl ?_
        show (if c = 0 then Phase.done else if c = 0 then Phase.ensure 2 0 false else Phase.none) = Phase.none
        simp [h]) rfl
theorem ex5_reach : Reach Serial ex5 := .step (a := .closeEnsure 1) ex4_reach trivial rfl
theorem ex6_reach : Reach Serial ex6 := .step (a := .ensureLock 1 []) ex5_reach (by show (2 : Nat) < U32; decide) rfl

example : Reach Serial ex6 ∧ exec ex6 (.closeVM 1) = some ex7 ∧ .started 0 ∈ ex7.trace ∧ .got 0 ∈ ex7.trace :=
  ⟨ex6_reach, rfl, by decide +kernel, by decide +kernel⟩

example : Reach Correct ex3 ∧ exec ex3 (.close 1) = some ex4 ∧ gets ex4.trace 0 = 1 ∧ ex4.bcount = 0 :=
  ⟨.step (a := .get fun _ => true) (.step (a := .ensureLock 0 [true, true]) (.step (a := .ensure 0 2) .init trivial rfl) trivial rfl)
    (by show (0 + 2 : Nat) < U32; decide) rfl, rfl, by decide +kernel, by decide +kernel⟩

/-- The conditions of `C65_get` and `C65_roundRobin` hold there. -/
example : ex2.crashed = false ∧ none ∉ ex2.insts ∧ ex2.insts ≠ [] ∧ ex2.index + 2 * ex2.insts.length < U32 := by
  decide +kernel

end Verif.Plugin
