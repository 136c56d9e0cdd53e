/-
C35 continued: no lost update (under the conditions that make it true), progress, and the schedules
that break the two.
-/
import Verif.Props.AdsResultOrder

namespace Verif.Res

/-! ### No lost update -/

/-- The observer is in its loop (it neither leaves nor has crashed). -/
def looping : PC → Bool
  | .wait | .get | .drain _ | .take _ | .push _ => true
  | _ => false

theorem looping_active {p : PC} (h : looping p = true) : active p = true := by
  cases p <;> simp_all [looping, active]

/-- Registration does not change the result other observers of the same input rely on, and a
registration that computes no response finds no stored one. -/
def NoOverwrite (s : St) : Act → Prop
  | .register o none => s.results (s.obs o).input = none
  | .register o (some r) => s.reg (s.obs o).input = [] ∨ (s.results (s.obs o).input).bind (·.resp) = some r
  | _ => True

/-- Observer `o` has, or is about to have, response `r`. -/
def Knows (s : St) (o : Nat) (r : Option Resp) : Prop :=
  (s.obs o).note = true ∨ (∃ todo sends, s.ref = .busy todo sends ∧ o ∈ sends) ∨ (s.obs o).pc = .get ∨
  (∃ w, held (s.obs o).pc = some w ∧ w.resp = r) ∨
  (held (s.obs o).pc = none ∧ ∃ w, lastPushed o s.trace = some w ∧ w.resp = r)

def InvG (s : St) : Prop := ∀ o v, looping (s.obs o).pc = true → (s.obs o).ctxDone = false → s.clientDone = false →
  s.results (s.obs o).input = some v → Knows s o v.resp

theorem looping_afterSend {x : Obs} {v : Val} (h : looping (afterSend x v) = true) : afterSend x v = .wait := by
  unfold afterSend at *
  split <;> rename_i h1
  · simp only [h1, if_true] at h
    split <;> rename_i h2
    · simp only [h2, looping] at h; cases h
    · simp only [h2] at h
      split <;> rename_i h3
      · rfl
      · simp only [h3] at h; cases h
  · rfl

theorem knows_ref {s : St} {o : Nat} {r : Option Resp} (h : Knows s o r) (ref : RPC)
    (hn : ∀ todo sends, s.ref = .busy todo sends → sends = []) : Knows { s with ref := ref } o r := by
  rcases h with h | ⟨t, ss, h, hm⟩ | h
  · exact Or.inl h
  · rw [hn t ss h] at hm; cases hm
  · exact Or.inr (Or.inr h)

/-- Steps that touch one observer and leave the rest alone. -/
theorem invG_move {s : St} (h : InvG s) (o : Nat) (y : Obs) (e : List Ev)
    (he : ∀ o', o' ≠ o → lastPushed o' (e ++ s.trace) = lastPushed o' s.trace)
    (hy : InvG s → ∀ v, looping y.pc = true → y.ctxDone = false → s.clientDone = false → s.results y.input = some v →
      Knows { s.setObs o y with trace := e ++ s.trace } o v.resp) :
    InvG { s.setObs o y with trace := e ++ s.trace } := by
  intro o' v h1 h2 h3 h4
  by_cases ho : o' = o
  · subst ho
    simp only [St.setObs, if_true] at h1 h2 h3 h4
    exact hy h v h1 h2 h3 h4
  · simp only [St.setObs, ho, if_false] at h1 h2 h3 h4
    have := h o' v h1 h2 h3 h4
    simpa only [Knows, St.setObs, ho, if_false, he o' ho] using this

theorem invG_step {s s' : St} {a : Act} (hA : InvA s) (h : InvG s) (hg : NoOverwrite s a) (he : exec s a = some s') : InvG s' := by
  have nil : ∀ o : Nat, ∀ o', o' ≠ o → lastPushed o' ([] ++ s.trace) = lastPushed o' s.trace := fun _ _ _ => rfl
  cases a with
  | start o i once =>
    simp only [exec] at he
    split at he <;> simp only [Option.some.injEq, reduceCtorEq] at he
    subst he
    exact invG_move h o _ [] (nil o) (by intro _ v h1; cases h1)
  | register o r =>
    simp only [exec] at he
    split at he
    · rename_i hp
      obtain ⟨hp, hfree⟩ := hp
      have hidle : s.ref = .idle := by
        unfold St.free at hfree
        cases hr : s.ref <;> simp_all
      cases r with
      | none =>
        simp only [Option.some.injEq] at he
        subst he
        simp only [NoOverwrite] at hg
        intro o' v h1 h2 h3 h4
        by_cases ho : o' = o
        · subst ho
          simp only [St.setObs, if_true] at h4
          rw [hg] at h4; cases h4
        · simp only [St.setObs, ho, if_false] at h1 h2 h3 h4
          have := h o' v h1 h2 h3 h4
          simpa only [Knows, St.setObs, ho, if_false] using this
      | some r =>
        simp only [Option.some.injEq] at he
        subst he
        simp only [NoOverwrite] at hg
        intro o' v h1 h2 h3 h4
        by_cases ho : o' = o
        · subst ho
          left
          simp [St.setObs]
        · simp only [St.setObs, ho, if_false] at h1 h2 h3 h4
          by_cases hi : (s.obs o').input = (s.obs o).input
          · rw [if_pos hi] at h4
            cases h4
            rcases hg with hg | hg
            · have := (hA.mem o' (s.obs o).input).mpr ⟨hi, looping_active h1⟩
              rw [hg] at this; cases this
            · cases hres : s.results (s.obs o).input with
              | none => rw [hres] at hg; cases hg
              | some w =>
                rw [hres] at hg
                simp only [Option.bind_some] at hg
                have := h o' w h1 h2 h3 (by rw [hi, hres])
                rw [hg] at this
                simpa only [Knows, St.setObs, ho, if_false] using this
          · rw [if_neg hi] at h4
            have := h o' v h1 h2 h3 h4
            simpa only [Knows, St.setObs, ho, if_false] using this
    · cases he
  | cancelCtx o =>
    simp only [exec] at he
    split at he <;> simp only [Option.some.injEq, reduceCtorEq] at he
    subst he
    exact invG_move h o _ [.cancelled o] (by intro o' _; rfl) (by intro _ v h1 h2; cases h2)
  | seeDone o =>
    simp only [exec] at he
    split at he <;> simp only [Option.some.injEq, reduceCtorEq] at he
    subst he
    exact invG_move h o _ [] (nil o) (by intro _ v h1; cases h1)
  | recv o =>
    simp only [exec] at he
    split at he <;> simp only [Option.some.injEq, reduceCtorEq] at he
    subst he
    exact invG_move h o _ [] (nil o) (by intro _ v _ _ _ _; right; right; left; simp [St.setObs])
  | get o =>
    simp only [exec] at he
    split at he
    · split at he <;> simp only [Option.some.injEq] at he <;> subst he
      · rename_i hn
        exact invG_move h o _ [] (nil o) (by intro _ v _ _ _ h4; simp only at h4; rw [hn] at h4; cases h4)
      · rename_i w hw
        refine invG_move h o _ [] (nil o) ?_
        intro _ v _ _ _ h4
        simp only at h4
        rw [hw] at h4
        cases h4
        right; right; right; left
        exact ⟨w, by simp [St.setObs, held], rfl⟩
    · cases he
  | check o =>
    simp only [exec] at he
    split at he <;> simp only [Option.some.injEq, reduceCtorEq] at he
    rename_i w hp
    subst he
    refine invG_move h o _ [] (nil o) ?_
    intro h v h1 h2 h3 h4
    have := h o v (by rw [hp]; rfl) h2 h3 h4
    cases ho : (s.obs o).out <;> simpa [Knows, St.setObs, hp, held, ho] using this
  | take o =>
    simp only [exec] at he
    split at he
    · rename_i w hp
      split at he <;> simp only [Option.some.injEq, reduceCtorEq] at he
      subst he
      refine invG_move h o _ [] (nil o) ?_
      intro h v h1 h2 h3 h4
      have := h o v (by rw [hp]; rfl) h2 h3 h4
      simpa [Knows, St.setObs, hp, held] using this
    · cases he
  | takeDone o =>
    simp only [exec] at he
    split at he
    · split at he <;> simp only [Option.some.injEq, reduceCtorEq] at he
      rename_i hd
      subst he
      exact invG_move h o _ [] (nil o) (by intro _ v _ h2; simp only at h2; rw [hd] at h2; cases h2)
    · cases he
  | push o =>
    simp only [exec] at he
    split at he
    · rename_i w hp
      split at he <;> simp only [Option.some.injEq, reduceCtorEq] at he
      subst he
      refine invG_move h o _ [.pushed o w] (by intro o' ho; simp [lastPushed, Ne.symm ho]) ?_
      intro h v h1 h2 h3 h4
      have := h o v (by rw [hp]; rfl) h2 h3 h4
      have hw := looping_afterSend h1
      simp only [Knows, hp, held, reduceCtorEq, Option.some.injEq, exists_eq_left', false_and, or_false, false_or] at this
      simp only [Knows, St.setObs, if_true, hw, held, reduceCtorEq, false_and, exists_false, false_or, List.cons_append,
        List.nil_append, lastPushed, Option.some.injEq, exists_eq_left', true_and]
      exact this
    · cases he
  | pushDone o =>
    simp only [exec] at he
    split at he
    · split at he <;> simp only [Option.some.injEq, reduceCtorEq] at he
      rename_i hd
      subst he
      exact invG_move h o _ [] (nil o) (by intro _ v _ h2; simp only at h2; rw [hd] at h2; cases h2)
    · cases he
  | cancel o =>
    simp only [exec] at he
    split at he
    · simp only [Option.some.injEq] at he
      subst he
      have := invG_move h o { s.obs o with pc := .close, noteClosed := true } [] (nil o) (by intro _ v h1; cases h1)
      exact this
    · cases he
  | close o =>
    simp only [exec] at he
    split at he <;> simp only [Option.some.injEq, reduceCtorEq] at he
    subst he
    exact invG_move h o _ [.closed o] (by intro o' _; rfl) (by intro _ v h1; cases h1)
  | consume o =>
    simp only [exec] at he
    split at he <;> simp only [Option.some.injEq, reduceCtorEq] at he
    rename_i w hw
    subst he
    refine invG_move h o _ [.received o w] (by intro o' _; rfl) ?_
    intro h v h1 h2 h3 h4
    have := h o v h1 h2 h3 h4
    simpa [Knows, St.setObs, lastPushed] using this
  | refStart order =>
    simp only [exec] at he
    split at he <;> simp only [Option.some.injEq, reduceCtorEq] at he
    rename_i hi
    subst he
    intro o v h1 h2 h3 h4
    exact knows_ref (h o v h1 h2 h3 h4) _ (by intro t ss h; rw [hi] at h; cases h)
  | refInput r =>
    simp only [exec] at he
    split at he
    · rename_i i todo hr
      split at he <;> simp only [Option.some.injEq] at he <;> subst he
      · intro o v h1 h2 h3 h4
        exact knows_ref (h o v h1 h2 h3 h4) _ (by intro t ss h; rw [hr] at h; cases h; rfl)
      · intro o v h1 h2 h3 h4
        simp only at h4
        by_cases hi : (s.obs o).input = i
        · right; left
          exact ⟨_, _, rfl, (hA.mem o i).mpr ⟨hi, looping_active h1⟩⟩
        · rw [if_neg hi] at h4
          have := h o v h1 h2 h3 h4
          rcases this with h | ⟨t, ss, h, hm⟩ | h
          · exact Or.inl h
          · rw [hr] at h; cases h; cases hm
          · exact Or.inr (Or.inr h)
    · cases he
  | refSend =>
    simp only [exec] at he
    split at he
    · rename_i todo o rest hr
      have hnc := hA.opened o ((hA.sends _ _ hr).2 o (by simp))
      simp only [hnc, Bool.false_eq_true, if_false] at he
      split at he <;> simp only [Option.some.injEq, reduceCtorEq] at he
      subst he
      intro o' v h1 h2 h3 h4
      by_cases ho : o' = o
      · subst ho; left; simp [St.setObs]
      · simp only [St.setObs, ho, if_false] at h1 h2 h3 h4
        have := h o' v h1 h2 h3 h4
        simp only [Knows, St.setObs, ho, if_false]
        rcases this with h | ⟨t, ss, h, hm⟩ | h
        · exact Or.inl h
        · rw [hr] at h
          cases h
          right; left
          refine ⟨_, _, rfl, ?_⟩
          rcases List.mem_cons.mp hm with h | h
          · exact absurd h ho
          · exact h
        · exact Or.inr (Or.inr h)
    · cases he
  | refAbort =>
    simp only [exec] at he
    split at he
    · split at he <;> simp only [Option.some.injEq, reduceCtorEq] at he
      rename_i hd
      subst he
      intro o v h1 h2 h3 h4
      simp only at h3
      rw [hd] at h3; cases h3
    · cases he
  | refEnd =>
    simp only [exec] at he
    split at he <;> simp only [Option.some.injEq, reduceCtorEq] at he
    rename_i hr
    subst he
    intro o v h1 h2 h3 h4
    exact knows_ref (h o v h1 h2 h3 h4) _ (by intro t ss h; rw [hr] at h; cases h; rfl)
  | stopClient =>
    simp only [exec] at he
    split at he <;> simp only [Option.some.injEq, reduceCtorEq] at he
    subst he
    intro o v h1 h2 h3 h4
    cases h3

theorem invG {s : St} (h : Reach NoOverwrite s) : InvG s := by
  induction h with
  | init => intro o v h; cases h
  | step hr _ hg he ih => exact invG_step (invA hr) ih hg he

/-- Nothing is under way for observer `o`: the refresher is idle, the observer is back at its
`select`, and no notification is pending. -/
def Settled (s : St) (o : Nat) : Prop := s.ref = .idle ∧ (s.obs o).pc = .wait ∧ (s.obs o).note = false

/-- **C167** (partial) No update is lost: in every run in which registering does not silently replace
the stored result under other observers, an observer for which everything is settled has been sent
the latest result of its input. -/
theorem C167_latest_partial {s : St} (h : Reach NoOverwrite s) (o : Nat) (v : Val) (hs : Settled s o)
    (hc : (s.obs o).ctxDone = false) (hd : s.clientDone = false) (hv : s.results (s.obs o).input = some v) :
    ∃ w, lastPushed o s.trace = some w ∧ w.resp = v.resp := by
  obtain ⟨h1, h2, h3⟩ := hs
  have := invG h o v (by rw [h2]; rfl) hc hd hv
  rcases this with h | ⟨t, ss, h, _⟩ | h | ⟨w, h, _⟩ | ⟨_, h⟩
  · rw [h3] at h; cases h
  · rw [h1] at h; cases h
  · rw [h2] at h; cases h
  · rw [h2] at h; cases h
  · exact h

/-! ### Progress -/

/-- The consumer does not take a response between the observer's length test and its receive, and a
refresh starts only when no notification is pending. -/
def Calm (s : St) : Act → Prop
  | .consume o => ∀ v, (s.obs o).pc ≠ .take v
  | .refStart _ => ∀ o, active (s.obs o).pc = true → (s.obs o).note = false
  | _ => True

structure InvP (s : St) : Prop where
  take : ∀ o v, (s.obs o).pc = .take v → (s.obs o).out.isSome = true
  push : ∀ o v, (s.obs o).pc = .push v → (s.obs o).out = none
  empty : ∀ todo sends, s.ref = .busy todo sends → todo.Nodup ∧
    (∀ o ∈ sends, (s.obs o).note = false ∧ (s.obs o).input ∉ todo) ∧
    (∀ o, (s.obs o).input ∈ todo → active (s.obs o).pc = true → (s.obs o).note = false)

/-- A step of one observer that does not raise its note. -/
theorem invP_move {s : St} (h : InvP s) (o : Nat) (y : Obs) (tr : List Ev)
    (h1 : ∀ v, y.pc = .take v → y.out.isSome = true) (h2 : ∀ v, y.pc = .push v → y.out = none)
    (h3 : active y.pc = true → active (s.obs o).pc = true ∧ y.input = (s.obs o).input)
    (h4 : y.note = true → (s.obs o).note = true) (h5 : ∀ t ss, s.ref = .busy t ss → o ∈ ss → y.input = (s.obs o).input) :
    InvP { s.setObs o y with trace := tr } := by
  obtain ⟨a, b, c⟩ := h
  refine ⟨?_, ?_, ?_⟩
  · intro o' v
    by_cases ho : o' = o
    · subst ho; simpa [St.setObs] using h1 v
    · simpa [St.setObs, ho] using a o' v
  · intro o' v
    by_cases ho : o' = o
    · subst ho; simpa [St.setObs] using h2 v
    · simpa [St.setObs, ho] using b o' v
  · intro t ss hr
    obtain ⟨c1, c2, c3⟩ := c t ss hr
    refine ⟨c1, ?_, ?_⟩
    · intro o' ho'
      by_cases ho : o' = o
      · subst ho
        have h := c2 o' ho'
        have h5 := h5 t ss hr ho'
        simp only [St.setObs, if_true]
        rw [h5]
        refine ⟨?_, h.2⟩
        cases hn : y.note with
        | false => rfl
        | true => exact (h4 hn).symm.trans h.1
      · simpa [St.setObs, ho] using c2 o' ho'
    · intro o' ho' hact
      by_cases ho : o' = o
      · subst ho
        simp only [St.setObs, if_true] at ho' hact ⊢
        obtain ⟨h6, h7⟩ := h3 hact
        rw [h7] at ho'
        have h := c3 o' ho' h6
        cases hn : y.note with
        | false => rfl
        | true => exact (h4 hn).symm.trans h
      · simp only [St.setObs, ho, if_false] at ho' hact ⊢
        exact c3 o' ho' hact

theorem afterSend_ne (x : Obs) (v : Val) : ∀ w, afterSend x v ≠ .take w ∧ afterSend x v ≠ .push w := by
  intro w
  unfold afterSend
  split
  · split
    · simp
    · split <;> simp
  · simp

theorem invP_step {s s' : St} {a : Act} (hA : InvA s) (h : InvP s) (hcov : covers s a) (hg : Calm s a) (he : exec s a = some s') : InvP s' := by
  cases a with
  | start o i once =>
    simp only [exec] at he
    split at he <;> simp only [Option.some.injEq, reduceCtorEq] at he
    rename_i hp
    subst he
    refine invP_move h o _ s.trace (by simp) (by simp) (by simp [active]) (by simp) ?_
    intro t ss hr ho
    have := (hA.sends t ss hr).2 o ho
    rw [hp] at this; cases this
  | register o r =>
    simp only [exec] at he
    split at he
    · rename_i hp
      obtain ⟨hp, hfree⟩ := hp
      have hidle : s.ref = .idle := by
        unfold St.free at hfree
        cases hr : s.ref <;> simp_all
      obtain ⟨ha, hb, hc⟩ := h
      cases r with
      | none =>
        simp only [Option.some.injEq] at he
        subst he
        refine ⟨?_, ?_, by simp [St.setObs, hidle]⟩
        · intro o' v; by_cases ho : o' = o
          · subst ho; simp [St.setObs]
          · simpa [St.setObs, ho] using ha o' v
        · intro o' v; by_cases ho : o' = o
          · subst ho; simp [St.setObs]
          · simpa [St.setObs, ho] using hb o' v
      | some r =>
        simp only [Option.some.injEq] at he
        subst he
        refine ⟨?_, ?_, by simp [St.setObs, hidle]⟩
        · intro o' v; by_cases ho : o' = o
          · subst ho; simp [St.setObs]
          · simpa [St.setObs, ho] using ha o' v
        · intro o' v; by_cases ho : o' = o
          · subst ho; simp [St.setObs]
          · simpa [St.setObs, ho] using hb o' v
    · cases he
  | cancelCtx o =>
    simp only [exec] at he
    split at he <;> simp only [Option.some.injEq, reduceCtorEq] at he
    subst he
    exact invP_move h o _ _ (by intro v hv; exact h.take o v hv) (by intro v hv; exact h.push o v hv) (fun h => ⟨h, rfl⟩) (fun h => h) (fun _ _ _ _ => rfl)
  | seeDone o =>
    simp only [exec] at he
    split at he <;> simp only [Option.some.injEq, reduceCtorEq] at he
    rename_i hp
    subst he
    exact invP_move h o _ s.trace (by simp) (by simp) (fun _ => ⟨by rw [hp.1]; rfl, rfl⟩) (fun h => h) (fun _ _ _ _ => rfl)
  | recv o =>
    simp only [exec] at he
    split at he <;> simp only [Option.some.injEq, reduceCtorEq] at he
    rename_i hp
    subst he
    exact invP_move h o _ s.trace (by simp) (by simp) (fun _ => ⟨by rw [hp.1]; rfl, rfl⟩) (by simp) (fun _ _ _ _ => rfl)
  | get o =>
    simp only [exec] at he
    split at he
    · rename_i hp
      split at he <;> simp only [Option.some.injEq] at he <;> subst he <;>
      exact invP_move h o _ s.trace (by simp) (by simp) (fun _ => ⟨by rw [hp.1]; rfl, rfl⟩) (fun h => h) (fun _ _ _ _ => rfl)
    · cases he
  | check o =>
    simp only [exec] at he
    split at he <;> simp only [Option.some.injEq, reduceCtorEq] at he
    rename_i w hp
    subst he
    refine invP_move h o _ s.trace ?_ ?_ (fun _ => ⟨by rw [hp]; rfl, rfl⟩) (fun h => h) (fun _ _ _ _ => rfl)
    · intro v hv; simp only at hv ⊢; split at hv
      · assumption
      · cases hv
    · intro v hv; simp only at hv ⊢; split at hv
      · cases hv
      · cases ho : (s.obs o).out <;> simp_all
  | take o =>
    simp only [exec] at he
    split at he
    · rename_i w hp
      split at he <;> simp only [Option.some.injEq, reduceCtorEq] at he
      subst he
      exact invP_move h o _ s.trace (by simp) (by simp) (fun _ => ⟨by rw [hp]; rfl, rfl⟩) (fun h => h) (fun _ _ _ _ => rfl)
    · cases he
  | takeDone o =>
    simp only [exec] at he
    split at he
    · rename_i w hp
      split at he <;> simp only [Option.some.injEq, reduceCtorEq] at he
      subst he
      exact invP_move h o _ s.trace (fun v hv => absurd hv (afterSend_ne _ _ v).1) (fun v hv => absurd hv (afterSend_ne _ _ v).2)
        (fun _ => ⟨by rw [hp]; rfl, rfl⟩) (fun h => h) (fun _ _ _ _ => rfl)
    · cases he
  | push o =>
    simp only [exec] at he
    split at he
    · rename_i w hp
      split at he <;> simp only [Option.some.injEq, reduceCtorEq] at he
      subst he
      exact invP_move h o _ _ (fun v hv => absurd hv (afterSend_ne _ _ v).1) (fun v hv => absurd hv (afterSend_ne _ _ v).2)
        (fun _ => ⟨by rw [hp]; rfl, rfl⟩) (fun h => h) (fun _ _ _ _ => rfl)
    · cases he
  | pushDone o =>
    simp only [exec] at he
    split at he
    · rename_i w hp
      split at he <;> simp only [Option.some.injEq, reduceCtorEq] at he
      subst he
      exact invP_move h o _ s.trace (fun v hv => absurd hv (afterSend_ne _ _ v).1) (fun v hv => absurd hv (afterSend_ne _ _ v).2)
        (fun _ => ⟨by rw [hp]; rfl, rfl⟩) (fun h => h) (fun _ _ _ _ => rfl)
    · cases he
  | cancel o =>
    simp only [exec] at he
    split at he
    · simp only [Option.some.injEq] at he
      subst he
      obtain ⟨a, b, c⟩ := invP_move h o { s.obs o with pc := .close, noteClosed := true } s.trace (by simp) (by simp) (by simp [active]) (fun h => h) (fun _ _ _ _ => rfl)
      exact ⟨a, b, c⟩
    · cases he
  | close o =>
    simp only [exec] at he
    split at he <;> simp only [Option.some.injEq, reduceCtorEq] at he
    subst he
    exact invP_move h o _ _ (by simp) (by simp) (by simp [active]) (fun h => h) (fun _ _ _ _ => rfl)
  | consume o =>
    simp only [exec] at he
    split at he <;> simp only [Option.some.injEq, reduceCtorEq] at he
    subst he
    exact invP_move h o _ _ (fun v hv => absurd hv (hg v)) (fun v hv => rfl) (fun h => ⟨h, rfl⟩) (fun h => h) (fun _ _ _ _ => rfl)
  | refStart order =>
    simp only [exec] at he
    split at he <;> simp only [Option.some.injEq, reduceCtorEq] at he
    subst he
    obtain ⟨a, b, c⟩ := h
    refine ⟨a, b, ?_⟩
    intro t ss hr
    cases hr
    exact ⟨hcov.1, by simp, fun o _ ho => hg o ho⟩
  | refInput r =>
    obtain ⟨a, b, c⟩ := h
    simp only [exec] at he
    split at he
    · rename_i i todo hr
      obtain ⟨c1, c2, c3⟩ := c _ _ hr
      split at he <;> simp only [Option.some.injEq] at he <;> subst he
      · refine ⟨a, b, ?_⟩
        intro t ss hr'
        cases hr'
        exact ⟨(List.nodup_cons.mp c1).2, by simp, fun o ho => c3 o (List.mem_cons_of_mem _ ho)⟩
      · refine ⟨a, b, ?_⟩
        intro t ss hr'
        cases hr'
        refine ⟨(List.nodup_cons.mp c1).2, ?_, fun o ho => c3 o (List.mem_cons_of_mem _ ho)⟩
        intro o ho
        obtain ⟨h1, h2⟩ := (hA.mem o i).mp ho
        refine ⟨c3 o (by rw [h1]; simp) h2, ?_⟩
        show (s.obs o).input ∉ todo
        rw [h1]
        exact (List.nodup_cons.mp c1).1
    · cases he
  | refSend =>
    simp only [exec] at he
    split at he
    · rename_i todo o rest hr
      obtain ⟨hn, hs⟩ := hA.sends _ _ hr
      have hnc := hA.opened o (hs o (by simp))
      simp only [hnc, Bool.false_eq_true, if_false] at he
      split at he <;> simp only [Option.some.injEq, reduceCtorEq] at he
      subst he
      obtain ⟨a, b, c⟩ := h
      obtain ⟨c1, c2, c3⟩ := c _ _ hr
      refine ⟨?_, ?_, ?_⟩
      · intro o' v; by_cases ho : o' = o
        · subst ho; simpa [St.setObs] using a o' v
        · simpa [St.setObs, ho] using a o' v
      · intro o' v; by_cases ho : o' = o
        · subst ho; simpa [St.setObs] using b o' v
        · simpa [St.setObs, ho] using b o' v
      · intro t ss hr'
        cases hr'
        refine ⟨c1, ?_, ?_⟩
        · intro o' ho'
          have hne : o' ≠ o := fun h => (List.nodup_cons.mp hn).1 (h ▸ ho')
          simpa [St.setObs, hne] using c2 o' (List.mem_cons_of_mem _ ho')
        · intro o' ho' hact
          by_cases ho : o' = o
          · subst ho
            have := (c2 o' (by simp)).2
            simp only [St.setObs, if_true] at ho'
            exact absurd ho' this
          · simp only [St.setObs, ho, if_false] at ho' hact ⊢
            exact c3 o' ho' hact
    · cases he
  | refAbort =>
    simp only [exec] at he
    split at he
    · split at he <;> simp only [Option.some.injEq, reduceCtorEq] at he
      subst he
      exact ⟨h.take, h.push, by intro t ss hr; cases hr⟩
    · cases he
  | refEnd =>
    simp only [exec] at he
    split at he <;> simp only [Option.some.injEq, reduceCtorEq] at he
    subst he
    exact ⟨h.take, h.push, by intro t ss hr; cases hr⟩
  | stopClient =>
    simp only [exec] at he
    split at he <;> simp only [Option.some.injEq, reduceCtorEq] at he
    subst he
    exact ⟨h.take, h.push, h.empty⟩

theorem invP {s : St} (h : Reach Calm s) : InvP s := by
  induction h with
  | init => exact ⟨by simp, by simp, by simp⟩
  | step hr hcov hg he ih => exact invP_step (invA hr) ih hcov hg he

/-- A step of the mesh client's own goroutines is possible. -/
def CanStep (s : St) (a : Act) : Prop := ∃ s', exec s a = some s'

/-- **C167** (partial) No goroutine of the client gets stuck, in runs where the consumer does not race
with the draining of its channel and refreshes do not overtake pending notifications: a refresh in
progress can always go on, and when none is in progress every observer can go on, unless it waits for
a notification that is not due. -/
theorem C167_progress_partial {s : St} (h : Reach Calm s) :
    (s.ref ≠ .idle → CanStep s .refSend ∨ CanStep s .refEnd ∨ ∃ r, CanStep s (.refInput r)) ∧
    (s.ref = .idle → ∀ o, (s.obs o).pc ≠ .idle → (s.obs o).pc ≠ .finished → (s.obs o).pc ≠ .crashed →
      CanStep s (.register o none) ∨ CanStep s (.recv o) ∨ CanStep s (.get o) ∨ CanStep s (.check o) ∨ CanStep s (.take o) ∨
      CanStep s (.push o) ∨ CanStep s (.cancel o) ∨ CanStep s (.close o) ∨ ((s.obs o).pc = .wait ∧ (s.obs o).note = false)) := by
  obtain ⟨a, b, c⟩ := invP h
  have hA := invA h
  constructor
  · intro hr
    cases hb : s.ref with
    | idle => exact absurd hb hr
    | crashed => exact absurd hb hA.alive
    | busy todo sends =>
      cases sends with
      | nil =>
        cases todo with
        | nil => right; left; exact ⟨_, by simp [exec, hb]; rfl⟩
        | cons i todo =>
          right; right
          refine ⟨(s.results i).bind (·.resp), ?_⟩
          exact ⟨_, by simp [exec, hb]; rfl⟩
      | cons o rest =>
        left
        have h1 := ((c _ _ hb).2.1 o (by simp)).1
        have h2 := hA.opened o ((hA.sends _ _ hb).2 o (by simp))
        exact ⟨_, by simp [exec, hb, h1, h2]; rfl⟩
  · intro hr o h1 h2 h3
    have hfree : s.free = true := by simp [St.free, hr]
    cases hp : (s.obs o).pc with
    | idle => exact absurd hp h1
    | finished => exact absurd hp h2
    | crashed => exact absurd hp h3
    | register => left; exact ⟨_, by simp [exec, hp, hfree]; rfl⟩
    | wait =>
      cases hn : (s.obs o).note with
      | true => right; left; exact ⟨_, by simp [exec, hp, hn]; rfl⟩
      | false => simp
    | get =>
      right; right; left
      cases hres : s.results (s.obs o).input with
      | none => exact ⟨_, by simp [exec, hp, hfree, hres]; rfl⟩
      | some v => exact ⟨_, by simp [exec, hp, hfree, hres]; rfl⟩
    | drain v => right; right; right; left; exact ⟨_, by simp [exec, hp]; rfl⟩
    | take v =>
      right; right; right; right; left
      have := a o v hp
      exact ⟨_, by simp [exec, hp, this]; rfl⟩
    | push v =>
      right; right; right; right; right; left
      have := b o v hp
      exact ⟨_, by simp [exec, hp, this]; rfl⟩
    | cancel => right; right; right; right; right; right; left; exact ⟨_, by simp [exec, hp, hfree]; rfl⟩
    | close => right; right; right; right; right; right; right; left; exact ⟨_, by simp [exec, hp]; rfl⟩

end Verif.Res
