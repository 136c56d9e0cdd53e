import Verif.Wasm.MwHandler
/-
C149: every middleware is called exactly once for every request.
-/
namespace Verif.Props.MwHandler
open Verif.Wasm.MwHandler

inductive Reach (G : St → Act → Prop) : St → Prop
  | init : Reach G {}
  | step {s s' : St} {a : Act} : Reach G s → G s a → exec s a = some s' → Reach G s'

def free : St → Act → Prop := fun _ _ => True

/-- the middlewares are changed only while no request is calling them -/
def apart (s : St) : Act → Prop
  | .lock _ _ => ∀ l ∈ s.loops, l.done = true
  | .change _ => ∀ l ∈ s.loops, l.done = true
  | _ => True

theorem order_spec {l m : List Mw} (h : isOrder l m = true) (hm : m.Nodup) : l.Nodup ∧ ∀ x, x ∈ l ↔ x ∈ m := by
  simp only [isOrder, decide_eq_true_eq, List.all_eq_true] at h
  obtain ⟨h1, h2, h3⟩ := h
  have sub : ∀ x, x ∈ l ↔ x ∈ m := fun x => ⟨fun hx => by simpa using h2 x hx, fun hx => by simpa using h3 x hx⟩
  refine ⟨?_, sub⟩
  -- as many entries as members: none twice
  clear h2 h3
  induction m generalizing l with
  | nil =>
    have : l = [] := List.length_eq_zero_iff.mp h1
    rw [this]; exact List.nodup_nil
  | cons a m ih =>
    have ha : a ∈ l := (sub a).mpr (by simp)
    obtain ⟨p, q, rfl⟩ := List.append_of_mem ha
    rw [List.nodup_cons] at hm
    have hlen : (p ++ q).length = m.length := by simp at h1 ⊢; omega
    have hsubl : ∀ x ∈ m, x ∈ p ++ q := by
      intro x hx
      have : x ∈ p ++ a :: q := (sub x).mpr (by simp [hx])
      have hne : x ≠ a := fun e => hm.1 (e ▸ hx)
      simpa [hne] using this
    -- a is not in p ++ q: otherwise a :: m (nodup) would be a sublist set of it with more members
    have hna : a ∉ p ++ q := by
      intro hin
      have hcard : (a :: m).length ≤ (p ++ q).length := by
        have : ∀ (k : List Mw), k.Nodup → ∀ r : List Mw, (∀ x ∈ k, x ∈ r) → k.length ≤ r.length := by
          intro k
          induction k with
          | nil => intro _ r _; simp
          | cons b k ihk =>
            intro hk r hr
            rw [List.nodup_cons] at hk
            obtain ⟨u, v, rfl⟩ := List.append_of_mem (hr b (by simp))
            have := ihk hk.2 (u ++ v) fun x hx => by
              have h := hr x (by simp [hx])
              have hne : x ≠ b := fun e => hk.1 (e ▸ hx)
              simpa [hne] using h
            simp at this ⊢; omega
        refine this (a :: m) (List.nodup_cons.mpr hm) (p ++ q) ?_
        intro x hx
        rcases List.mem_cons.mp hx with rfl | hx
        · exact hin
        · exact hsubl x hx
      simp at hcard hlen; omega
    have hpq := ih (l := p ++ q) hm.2 hlen fun x => ⟨fun hx => by
        have : x ∈ a :: m := (sub x).mp (by
          rcases List.mem_append.mp hx with h | h
          · exact List.mem_append.mpr (.inl h)
          · exact List.mem_append.mpr (.inr (List.mem_cons_of_mem _ h)))
        rcases List.mem_cons.mp this with rfl | h
        · exact absurd hx hna
        · exact h, hsubl x⟩
    rw [List.nodup_append] at hpq ⊢
    refine ⟨hpq.1, List.nodup_cons.mpr ⟨fun h => hna (by simp [h]), hpq.2.1⟩, ?_⟩
    intro x hx y hy e
    rcases List.mem_cons.mp hy with rfl | hy
    · exact hna (by simp [← e, hx])
    · exact hpq.2.2 x hx y hy e

theorem mem_set {α : Type} {l : List α} {i : Nat} {v x : α} (h : x ∈ l.set i v) : x ∈ l ∨ x = v := by
  rcases List.mem_or_eq_of_mem_set h with h | h
  · exact .inl h
  · exact .inr h

structure Good (l : Loop) : Prop where
  once : (l.called ++ l.todo).Nodup
  same : ∀ x, x ∈ l.called ++ l.todo ↔ x ∈ l.all
  done : l.done = true → l.todo = []

structure Inv (s : St) : Prop where
  set : s.mws.Nodup
  loops : ∀ l ∈ s.loops, Good l
  quiet : s.writing.isSome = true → ∀ l ∈ s.loops, l.done = true
  alive : s.crashed = false

theorem drop_done {m : Mw} {l : Loop} (g : Good l) (h : l.done = true) : drop m l = l := by
  have := g.done h
  cases l
  simp only [drop] at *
  subst this
  rfl

theorem add_done {m : Mw} {b : Bool} {l : Loop} (h : l.done = true) : add m b l = l := by simp [add, h]

theorem inv_step {s s' : St} {a : Act} (v : Inv s) (g : apart s a) (hx : exec s a = some s') : Inv s' := by
  unfold exec at hx
  rw [if_neg (by rw [v.alive]; nofun)] at hx
  cases a with
  | lock b m =>
    dsimp only at hx
    by_cases hw : s.writing.isNone = true
    · rw [if_pos hw] at hx; injection hx with hx; subst hx
      exact ⟨v.set, v.loops, fun _ => g, v.alive⟩
    · rw [if_neg hw] at hx; cases hx
  | change seen =>
    dsimp only at hx
    have g : ∀ l ∈ s.loops, l.done = true := g
    cases hw : s.writing with
    | none => rw [hw] at hx; cases hx
    | some p =>
      obtain ⟨b, m⟩ := p
      rw [hw] at hx
      cases b with
      | true =>
        dsimp only at hx
        by_cases hm : m ∈ s.mws
        · rw [if_pos hm] at hx; injection hx with hx; subst hx
          exact ⟨v.set, v.loops, nofun, v.alive⟩
        · rw [if_neg hm] at hx; injection hx with hx; subst hx
          have hl : (s.loops.mapIdx fun i l => add m (seen i) l) = s.loops := by
            apply List.ext_getElem
            · simp
            · intro i h1 h2
              rw [List.getElem_mapIdx]
              exact add_done (g _ (List.getElem_mem _))
          refine ⟨?_, ?_, nofun, v.alive⟩
          · show (s.mws ++ [m]).Nodup
            rw [List.nodup_append]
            refine ⟨v.set, by simp, ?_⟩
            intro x hx y hy e
            simp at hy
            exact hm (by rw [← hy, ← e]; exact hx)
          · show ∀ l ∈ (s.loops.mapIdx fun i l => add m (seen i) l), Good l
            rw [hl]; exact v.loops
      | false =>
        dsimp only at hx
        injection hx with hx; subst hx
        have hl : s.loops.map (drop m) = s.loops := by
          have : s.loops.map (drop m) = s.loops.map id := List.map_congr_left fun l hl => drop_done (v.loops l hl) (g l hl)
          rw [this, List.map_id]
        refine ⟨v.set.filter _, ?_, nofun, v.alive⟩
        show ∀ l ∈ s.loops.map (drop m), Good l
        rw [hl]; exact v.loops
  | begin_ order =>
    dsimp only at hx
    by_cases ho : isOrder order s.mws = false
    · rw [if_pos ho] at hx; cases hx
    · rw [if_neg ho] at hx
      by_cases hw : s.writing.isSome = true
      · rw [if_pos hw] at hx; cases hx
      · rw [if_neg hw] at hx; injection hx with hx; subst hx
        obtain ⟨o1, o2⟩ := order_spec (Bool.of_not_eq_false ho) v.set
        refine ⟨v.set, ?_, fun h => absurd h hw, v.alive⟩
        intro l hl
        rcases List.mem_append.mp hl with hl | hl
        · exact v.loops l hl
        · simp at hl; subst hl
          exact ⟨o1, o2, nofun⟩
  | next i =>
    dsimp only at hx
    cases hi : s.loops[i]? with
    | none => rw [hi] at hx; cases hx
    | some l =>
      rw [hi] at hx
      dsimp only at hx
      have hl : l ∈ s.loops := List.mem_of_getElem? hi
      have gl := v.loops l hl
      by_cases hd : l.done = true
      · rw [if_pos hd] at hx; cases hx
      · rw [if_neg hd] at hx
        have hw : ¬ s.writing.isSome = true := fun h => hd (v.quiet h l hl)
        rw [if_neg hw] at hx
        have key : ∀ t : List Loop, (∀ k ∈ t, Good k) → Inv { s with loops := t } := fun t ht => ⟨v.set, ht, fun h => absurd h hw, v.alive⟩
        cases ht : l.todo with
        | nil =>
          rw [ht] at hx; injection hx with hx; subst hx
          apply key
          intro k hk
          rcases mem_set hk with hk | rfl
          · exact v.loops k hk
          · exact ⟨by have := gl.once; rwa [ht] at this, fun x => by have := gl.same x; rwa [ht] at this, fun _ => rfl⟩
        | cons m r =>
          rw [ht] at hx; injection hx with hx; subst hx
          apply key
          intro k hk
          rcases mem_set hk with hk | rfl
          · exact v.loops k hk
          · have e : (l.called ++ [m]) ++ r = l.called ++ l.todo := by rw [ht]; simp
            refine ⟨?_, ?_, fun h => absurd h hd⟩
            · show ((l.called ++ [m]) ++ r).Nodup
              rw [e]; exact gl.once
            · intro x
              show x ∈ (l.called ++ [m]) ++ r ↔ _
              rw [e]; exact gl.same x

theorem reach_inv {s : St} (h : Reach apart s) : Inv s := by
  induction h with
  | init => exact ⟨List.nodup_nil, nofun, nofun, rfl⟩
  | step _ g hx ih => exact inv_step ih g hx

/-- C149 (partial): if the middlewares are changed only while no request is calling them, every request calls exactly the middlewares registered when it began, each once, however
many requests there are at the same time. -/
theorem C149_once_partial {s : St} (h : Reach apart s) {l : Loop} (hl : l ∈ s.loops) (hd : l.done = true) :
    l.called.Nodup ∧ ∀ m, m ∈ l.called ↔ m ∈ l.all := by
  have g := (reach_inv h).loops l hl
  have e : l.called ++ l.todo = l.called := by rw [g.done hd]; simp
  exact ⟨e ▸ g.once, fun m => by have := g.same m; rwa [e] at this⟩

/-- C149 (partial): until then it has called some of them, none twice, and the program does not stop. -/
theorem C149_running_partial {s : St} (h : Reach apart s) : s.crashed = false ∧ ∀ l ∈ s.loops, l.called.Nodup ∧ ∀ m ∈ l.called, m ∈ l.all := by
  have v := reach_inv h
  refine ⟨v.alive, fun l hl => ⟨(List.nodup_append.mp (v.loops l hl).once).1, fun m hm => ((v.loops l hl).same m).mp (List.mem_append.mpr (.inl hm))⟩⟩

/-! ### schedules -/

def run : St → List Act → Option St
  | s, [] => some s
  | s, a :: l => match exec s a with
    | some s' => run s' l
    | none => none

theorem run_free : ∀ {l : List Act} {s s' : St}, Reach free s → run s l = some s' → Reach free s'
  | [], s, s', h, e => by injection e with e; subst e; exact h
  | a :: l, s, s', h, e => by
    simp only [run] at e
    cases hx : exec s a with
    | none => rw [hx] at e; cases e
    | some t => rw [hx] at e; exact run_free (h.step trivial hx) e

/-- two middlewares are registered and two requests call them at the same time, in different orders -/
example : ∃ s, Reach apart s ∧ s.loops.map (·.called) = [[1, 2], [2, 1]] ∧ s.loops.all (·.done) = true := by
  have r := ((((Reach.init (G := apart)).step (a := .lock true 1) nofun rfl).step (a := .change fun _ => false) nofun rfl).step (a := .lock true 2) nofun rfl).step
    (a := .change fun _ => false) nofun rfl
  have r := ((r.step (a := .begin_ [1, 2]) trivial rfl).step (a := .begin_ [2, 1]) trivial rfl)
  have r := ((((((r.step (a := .next 0) trivial rfl).step (a := .next 1) trivial rfl).step (a := .next 0) trivial rfl).step (a := .next 1) trivial rfl).step
    (a := .next 0) trivial rfl).step (a := .next 1) trivial rfl)
  exact ⟨_, r, rfl, rfl⟩

/-- Known defect (C149): adding a middleware while a request is calling the others stops the program: the lock does not cover the loop. -/
theorem C149_crash_false : ∃ s, Reach free s ∧ s.crashed = true :=
  ⟨_, run_free (l := [.lock true 1, .change fun _ => false, .begin_ [1], .lock true 2, .next 0]) .init rfl, rfl⟩

/-- Known defect (C149): a middleware removed and added again during a request may be called twice for it. -/
theorem C149_twice_false : ∃ s, Reach free s ∧ s.loops.map (·.called) = [[1, 2, 1]] ∧ s.crashed = false :=
  ⟨_, run_free (l := [.lock true 1, .change fun _ => false, .lock true 2, .change fun _ => false, .begin_ [1, 2], .next 0, .lock false 1, .change fun _ => false,
    .lock true 1, .change fun _ => true, .next 0, .next 0]) .init rfl, rfl, rfl⟩

end Verif.Props.MwHandler
