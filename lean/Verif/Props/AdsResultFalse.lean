/-
C35 continued: concrete runs. Schedules that meet the conditions of the theorems, and schedules in
which updates are lost or goroutines stay blocked for ever.
-/
import Verif.Props.AdsResultLive

namespace Verif.Res

/-! ### Running concrete schedules of observers 0 and 1 on input 0 -/

def okAct : Act → Bool
  | .start o i _ => decide (o ≤ 1) && decide (i = 0)
  | .refStart order => decide (order = [0])
  | _ => true

def run (g : St → Act → Bool) : St → List Act → Option St
  | s, [] => some s
  | s, a :: as => if okAct a && g s a then (exec s a).bind fun t => run g t as else none

structure Small (s : St) : Prop where
  input : ∀ o, (s.obs o).input = 0
  idle : ∀ o, 1 < o → (s.obs o).pc = .idle

theorem small_set {s : St} (h : Small s) (o : Nat) (y : Obs) (h1 : y.input = (s.obs o).input)
    (h2 : (s.obs o).pc = .idle → y.pc = .idle) : Small (s.setObs o y) := by
  refine ⟨?_, ?_⟩
  · intro o'
    by_cases ho : o' = o
    · simp [St.setObs, ho, h1, h.input o]
    · simp [St.setObs, ho, h.input o']
  · intro o' hl
    by_cases ho : o' = o
    · subst ho; simp [St.setObs, h2 (h.idle o' hl)]
    · simp [St.setObs, ho, h.idle o' hl]

theorem small_step {s s' : St} {a : Act} (h : Small s) (hok : okAct a = true) (he : exec s a = some s') : Small s' := by
  have other : ∀ (t : St), t.obs = s.obs → Small t := fun t ht => ⟨by rw [ht]; exact h.input, by rw [ht]; exact h.idle⟩
  have other' : ∀ (o : Nat) (y : Obs) (t : St), t.obs = (s.setObs o y).obs → y.input = (s.obs o).input →
      ((s.obs o).pc = .idle → y.pc = .idle) → Small t := fun o y t ht h1 h2 => by
    have := small_set h o y h1 h2
    exact ⟨by rw [ht]; exact this.input, by rw [ht]; exact this.idle⟩
  cases a with
  | start o i once =>
    simp only [okAct, Bool.and_eq_true, decide_eq_true_eq] at hok
    simp only [exec] at he
    split at he <;> simp only [Option.some.injEq, reduceCtorEq] at he
    subst he
    refine ⟨?_, ?_⟩
    · intro o'
      by_cases ho : o' = o
      · simp [St.setObs, ho, hok.2]
      · simp [St.setObs, ho, h.input o']
    · intro o' hl
      have ho : o' ≠ o := by omega
      simp [St.setObs, ho, h.idle o' hl]
  | register o r =>
    simp only [exec] at he
    split at he
    · rename_i hp
      cases r <;> simp only [Option.some.injEq] at he <;> subst he <;>
        exact other' o _ _ rfl rfl (by rw [hp.1]; simp)
    · cases he
  | cancelCtx o =>
    simp only [exec] at he
    split at he <;> simp only [Option.some.injEq, reduceCtorEq] at he
    subst he
    exact other' o _ _ rfl rfl (fun h => h)
  | seeDone o =>
    simp only [exec] at he
    split at he <;> simp only [Option.some.injEq, reduceCtorEq] at he
    rename_i hp
    subst he
    exact other' o _ _ rfl rfl (by rw [hp.1]; simp)
  | recv o =>
    simp only [exec] at he
    split at he <;> simp only [Option.some.injEq, reduceCtorEq] at he
    rename_i hp
    subst he
    exact other' o _ _ rfl rfl (by rw [hp.1]; simp)
  | get o =>
    simp only [exec] at he
    split at he
    · rename_i hp
      split at he <;> simp only [Option.some.injEq] at he <;> subst he <;>
        exact other' o _ _ rfl rfl (by rw [hp.1]; simp)
    · cases he
  | check o =>
    simp only [exec] at he
    split at he <;> simp only [Option.some.injEq, reduceCtorEq] at he
    rename_i v hp
    subst he
    exact other' o _ _ rfl rfl (by rw [hp]; simp)
  | take o =>
    simp only [exec] at he
    split at he
    · rename_i v hp
      split at he <;> simp only [Option.some.injEq, reduceCtorEq] at he
      subst he
      exact other' o _ _ rfl rfl (by rw [hp]; simp)
    · cases he
  | takeDone o =>
    simp only [exec] at he
    split at he
    · rename_i v hp
      split at he <;> simp only [Option.some.injEq, reduceCtorEq] at he
      subst he
      exact other' o _ _ rfl rfl (by rw [hp]; simp)
    · cases he
  | push o =>
    simp only [exec] at he
    split at he
    · rename_i v hp
      split at he <;> simp only [Option.some.injEq, reduceCtorEq] at he
      subst he
      exact other' o _ _ rfl rfl (by rw [hp]; simp)
    · cases he
  | pushDone o =>
    simp only [exec] at he
    split at he
    · rename_i v hp
      split at he <;> simp only [Option.some.injEq, reduceCtorEq] at he
      subst he
      exact other' o _ _ rfl rfl (by rw [hp]; simp)
    · cases he
  | cancel o =>
    simp only [exec] at he
    split at he
    · rename_i hp
      simp only [Option.some.injEq] at he
      subst he
      exact other' o _ _ rfl rfl (by rw [hp.1]; simp)
    · cases he
  | close o =>
    simp only [exec] at he
    split at he <;> simp only [Option.some.injEq, reduceCtorEq] at he
    rename_i hp
    subst he
    exact other' o _ _ rfl rfl (by rw [hp]; simp)
  | consume o =>
    simp only [exec] at he
    split at he <;> simp only [Option.some.injEq, reduceCtorEq] at he
    subst he
    exact other' o _ _ rfl rfl (fun h => h)
  | refStart order =>
    simp only [exec] at he
    split at he <;> simp only [Option.some.injEq, reduceCtorEq] at he
    subst he
    exact other _ rfl
  | refInput r =>
    simp only [exec] at he
    split at he
    · split at he <;> simp only [Option.some.injEq] at he <;> subst he <;> exact other _ rfl
    · cases he
  | refSend =>
    simp only [exec] at he
    split at he
    · rename_i todo o rest hr
      split at he
      · simp only [Option.some.injEq] at he
        subst he
        exact other _ rfl
      · split at he <;> simp only [Option.some.injEq, reduceCtorEq] at he
        subst he
        exact other' o { s.obs o with note := true } _ rfl rfl (fun h => h)
    · cases he
  | refAbort =>
    simp only [exec] at he
    split at he
    · split at he <;> simp only [Option.some.injEq, reduceCtorEq] at he
      subst he
      exact other _ rfl
    · cases he
  | refEnd =>
    simp only [exec] at he
    split at he <;> simp only [Option.some.injEq, reduceCtorEq] at he
    subst he
    exact other _ rfl
  | stopClient =>
    simp only [exec] at he
    split at he <;> simp only [Option.some.injEq, reduceCtorEq] at he
    subst he
    exact other _ rfl

theorem run_reach {g : St → Act → Prop} {gb : St → Act → Bool} (hgb : ∀ s a, Small s → InvA s → gb s a = true → g s a) :
    ∀ (as : List Act) (s s' : St), Reach g s → Small s → run gb s as = some s' → Reach g s' := by
  intro as
  induction as with
  | nil => intro s s' h _ he; cases he; exact h
  | cons a as ih =>
    intro s s' h hs he
    simp only [run] at he
    split at he
    · rename_i hok
      rw [Bool.and_eq_true] at hok
      obtain ⟨t, ht, he⟩ := Option.bind_eq_some_iff.mp he
      refine ih t s' (.step h ?_ (hgb s a hs (invA h) hok.2) ht) (small_step hs hok.1 ht) he
      unfold covers
      split
      · rename_i order
        simp only [okAct, decide_eq_true_eq] at hok
        rw [hok.1]
        refine ⟨by simp, fun i hi => ?_⟩
        cases hr : s.reg i with
        | nil => exact absurd hr hi
        | cons o l =>
          have := ((invA h).mem o i).mp (by rw [hr]; simp)
          rw [hs.input o] at this
          simp [this.1]
      · trivial
    · cases he

theorem small_init : Small {} := ⟨fun _ => rfl, fun _ _ => rfl⟩

def Any : St → Act → Prop := fun _ _ => True

theorem run_any {as : List Act} {s' : St} (h : run (fun _ _ => true) {} as = some s') : Reach Any s' :=
  run_reach (fun _ _ _ _ _ => trivial) as _ _ .init small_init h

def noOverwriteB (s : St) : Act → Bool
  | .register o none => (s.results (s.obs o).input).isNone
  | .register o (some r) => decide (s.reg (s.obs o).input = []) || decide ((s.results (s.obs o).input).bind (·.resp) = some r)
  | _ => true

theorem run_noOverwrite {as : List Act} {s' : St} (h : run noOverwriteB {} as = some s') : Reach NoOverwrite s' := by
  refine run_reach ?_ as _ _ .init small_init h
  intro s a _ _ hb
  unfold noOverwriteB at hb
  unfold NoOverwrite
  split <;> simp_all

def calmB (s : St) : Act → Bool
  | .consume o => match (s.obs o).pc with
    | .take _ => false
    | _ => true
  | .refStart _ => !(s.obs 0).note && !(s.obs 1).note
  | _ => true

theorem run_calm {as : List Act} {s' : St} (h : run calmB {} as = some s') : Reach Calm s' := by
  refine run_reach ?_ as _ _ .init small_init h
  intro s a hs _ hb
  unfold calmB at hb
  unfold Calm
  split
  · intro v hv
    simp [hv] at hb
  · intro o ho
    rcases Nat.lt_or_ge 1 o with hl | hl
    · rw [hs.idle o hl] at ho; cases ho
    · have : o = 0 ∨ o = 1 := by omega
      simp only [Bool.and_eq_true, Bool.not_eq_true'] at hb
      rcases this with rfl | rfl
      · exact hb.1
      · exact hb.2
  · trivial

/-! ### A run that meets the hypotheses -/

def r1 : Resp := ⟨1, false⟩
def r2 : Resp := ⟨2, false⟩

/-- One listener observer, a first result, a refresh with a changed one, both delivered. -/
def goodRun : List Act :=
  [.start 0 0 false, .register 0 (some r1), .recv 0, .get 0, .check 0, .push 0, .consume 0,
   .refStart [0], .refInput (some r2), .refSend, .refEnd, .recv 0, .get 0, .check 0, .push 0]

def goodState : St := (run (fun _ _ => true) {} goodRun).getD {}

example : (run noOverwriteB {} goodRun).isSome = true := by decide +kernel
example : (run calmB {} goodRun).isSome = true := by decide +kernel
/-- The observer is settled and the last response put into its channel is the latest one. -/
example : goodState.trace = [.pushed 0 ⟨2, some r2⟩, .received 0 ⟨1, some r1⟩, .pushed 0 ⟨1, some r1⟩] ∧
    Settled goodState 0 ∧ (goodState.obs 0).ctxDone = false ∧ goodState.clientDone = false ∧
    goodState.results (goodState.obs 0).input = some ⟨2, some r2⟩ := by
  refine ⟨by decide +kernel, ⟨by decide +kernel, by decide +kernel, by decide +kernel⟩, by decide +kernel, by decide +kernel, by decide +kernel⟩

/-! ### Lost update: a new observer's registration replaces the stored result -/

/-- Observer 0 has `r1`; the resources change; before the refresh runs, observer 1 registers and stores
`r2`; the refresh then finds nothing changed. -/
def overwriteRun : List Act :=
  [.start 0 0 false, .register 0 (some r1), .recv 0, .get 0, .check 0, .push 0, .consume 0,
   .start 1 0 false, .register 1 (some r2),
   .refStart [0], .refInput (some r2), .refEnd, .recv 1, .get 1, .check 1, .push 1]

/-- **C167** is false without the condition: observer 0 is settled on `r1` although the latest result is
`r2`, and the refresh has already run. -/
theorem C167_overwrite_false : ¬ ∀ s : St, Reach Any s → ∀ o v, Settled s o → (s.obs o).ctxDone = false → s.clientDone = false →
    s.results (s.obs o).input = some v → ∃ w, lastPushed o s.trace = some w ∧ w.resp = v.resp := by
  intro H
  have h1 : (run (fun _ _ => true) {} overwriteRun).isSome = true := by decide +kernel
  obtain ⟨s, hs⟩ := Option.isSome_iff_exists.mp h1
  have e : ∀ {α : Type} (f : St → α), f s = f ((run (fun _ _ => true) {} overwriteRun).getD {}) := by
    intro α f; rw [hs]; rfl
  have := H s (run_any hs) 0 ⟨2, some r2⟩
    ⟨by rw [e (·.ref)]; decide +kernel, by rw [e (fun s => (s.obs 0).pc)]; decide +kernel, by rw [e (fun s => (s.obs 0).note)]; decide +kernel⟩
    (by rw [e (fun s => (s.obs 0).ctxDone)]; decide +kernel) (by rw [e (·.clientDone)]; decide +kernel)
    (by rw [e (fun s => s.results (s.obs 0).input)]; decide +kernel)
  obtain ⟨w, hw, hr⟩ := this
  rw [e (fun s => lastPushed 0 s.trace)] at hw
  have hl : lastPushed 0 ((run (fun _ _ => true) {} overwriteRun).getD {}).trace = some ⟨1, some r1⟩ := by decide +kernel
  rw [hl] at hw
  cases hw
  revert hr
  decide

/-! ### The consumer races with the draining: the observer blocks for ever -/

/-- The observer's channel holds `r1`; it is about to replace it by `r2`, has seen the channel non-empty,
and then the consumer takes `r1`. -/
def drainRun : List Act :=
  [.start 0 0 false, .register 0 (some r1), .recv 0, .get 0, .check 0, .push 0,
   .refStart [0], .refInput (some r2), .refSend, .refEnd, .recv 0, .get 0, .check 0, .consume 0]

/-- The observer waits to receive from its own, empty channel. -/
def Blocked (o : Nat) (s : St) : Prop := ∃ v, (s.obs o).pc = .take v ∧ (s.obs o).out = none ∧ (s.obs o).ctxDone = false

/-- Every action but the caller's cancellation. -/
def NotCancelled (o : Nat) : St → Act → Prop := fun _ a => a ≠ .cancelCtx o

theorem blocked_set {s : St} {o o' : Nat} {y : Obs} (h : Blocked o s) (hn : o = o' → ∃ v, y.pc = .take v ∧ y.out = none ∧ y.ctxDone = false) :
    Blocked o (s.setObs o' y) := by
  by_cases ho : o = o'
  · obtain ⟨v, h⟩ := hn ho
    exact ⟨v, by simpa [St.setObs, ho] using h⟩
  · obtain ⟨v, h⟩ := h
    exact ⟨v, by simpa [St.setObs, ho] using h⟩

theorem blocked_step {s s' : St} {a : Act} {o : Nat} (h : Blocked o s) (ha : a ≠ .cancelCtx o) (he : exec s a = some s') :
    Blocked o s' ∧ (∀ v, Ev.pushed o v ∈ s'.trace → Ev.pushed o v ∈ s.trace) ∧ ∀ v, Ev.received o v ∈ s'.trace → Ev.received o v ∈ s.trace := by
  obtain ⟨v, hp, ho, hc⟩ := id h
  have other : ∀ (t : St), t.obs = s.obs → Blocked o t := fun t ht => by unfold Blocked; rw [ht]; exact h
  have other' : ∀ (o' : Nat) (y : Obs) (t : St), t.obs = (s.setObs o' y).obs → (o = o' → y.pc = .take v ∧ y.out = none ∧ y.ctxDone = false) →
      Blocked o t := fun o' y t ht hy => by
    have := blocked_set (y := y) (o' := o') h (fun e => ⟨v, hy e⟩)
    unfold Blocked at this ⊢; rw [ht]; exact this
  cases a with
  | start o' i once =>
    simp only [exec] at he
    split at he <;> simp only [Option.some.injEq, reduceCtorEq] at he
    rename_i hq
    subst he
    exact ⟨other' o' _ _ rfl (by rintro rfl; rw [hp] at hq; cases hq), fun _ h => h, fun _ h => h⟩
  | register o' r =>
    simp only [exec] at he
    split at he
    · rename_i hq
      cases r <;> simp only [Option.some.injEq] at he <;> subst he <;>
        exact ⟨other' o' _ _ rfl (by rintro rfl; rw [hp] at hq; cases hq.1), fun _ h => h, fun _ h => h⟩
    · cases he
  | cancelCtx o' =>
    simp only [exec] at he
    split at he <;> simp only [Option.some.injEq, reduceCtorEq] at he
    subst he
    exact ⟨other' o' _ _ rfl (by rintro rfl; exact absurd rfl ha), (by simp), (by simp)⟩
  | seeDone o' =>
    simp only [exec] at he
    split at he <;> simp only [Option.some.injEq, reduceCtorEq] at he
    rename_i hq
    subst he
    exact ⟨other' o' _ _ rfl (by rintro rfl; rw [hp] at hq; cases hq.1), fun _ h => h, fun _ h => h⟩
  | recv o' =>
    simp only [exec] at he
    split at he <;> simp only [Option.some.injEq, reduceCtorEq] at he
    rename_i hq
    subst he
    exact ⟨other' o' _ _ rfl (by rintro rfl; rw [hp] at hq; cases hq.1), fun _ h => h, fun _ h => h⟩
  | get o' =>
    simp only [exec] at he
    split at he
    · rename_i hq
      split at he <;> simp only [Option.some.injEq] at he <;> subst he <;>
        exact ⟨other' o' _ _ rfl (by rintro rfl; rw [hp] at hq; cases hq.1), fun _ h => h, fun _ h => h⟩
    · cases he
  | check o' =>
    simp only [exec] at he
    split at he <;> simp only [Option.some.injEq, reduceCtorEq] at he
    rename_i v hq
    subst he
    exact ⟨other' o' _ _ rfl (by rintro rfl; rw [hp] at hq; cases hq), fun _ h => h, fun _ h => h⟩
  | take o' =>
    simp only [exec] at he
    split at he
    · rename_i v hq
      split at he <;> simp only [Option.some.injEq, reduceCtorEq] at he
      rename_i hs
      subst he
      exact ⟨other' o' _ _ rfl (by rintro rfl; rw [ho] at hs; cases hs), fun _ h => h, fun _ h => h⟩
    · cases he
  | takeDone o' =>
    simp only [exec] at he
    split at he
    · rename_i v hq
      split at he <;> simp only [Option.some.injEq, reduceCtorEq] at he
      rename_i hs
      subst he
      exact ⟨other' o' _ _ rfl (by rintro rfl; rw [hc] at hs; cases hs), fun _ h => h, fun _ h => h⟩
    · cases he
  | push o' =>
    simp only [exec] at he
    split at he
    · rename_i w hq
      split at he <;> simp only [Option.some.injEq, reduceCtorEq] at he
      subst he
      have hne : o ≠ o' := by rintro rfl; rw [hp] at hq; cases hq
      exact ⟨other' o' _ _ rfl (fun e => absurd e hne), (by simp [hne]), (by simp)⟩
    · cases he
  | pushDone o' =>
    simp only [exec] at he
    split at he
    · rename_i w hq
      split at he <;> simp only [Option.some.injEq, reduceCtorEq] at he
      subst he
      exact ⟨other' o' _ _ rfl (by rintro rfl; rw [hp] at hq; cases hq), fun _ h => h, fun _ h => h⟩
    · cases he
  | cancel o' =>
    simp only [exec] at he
    split at he
    · rename_i hq
      simp only [Option.some.injEq] at he
      subst he
      exact ⟨other' o' _ _ rfl (by rintro rfl; rw [hp] at hq; cases hq.1), fun _ h => h, fun _ h => h⟩
    · cases he
  | close o' =>
    simp only [exec] at he
    split at he <;> simp only [Option.some.injEq, reduceCtorEq] at he
    rename_i hq
    subst he
    exact ⟨other' o' _ _ rfl (by rintro rfl; rw [hp] at hq; cases hq), (by simp), (by simp)⟩
  | consume o' =>
    simp only [exec] at he
    split at he <;> simp only [Option.some.injEq, reduceCtorEq] at he
    rename_i w hw
    subst he
    have hne : o ≠ o' := by rintro rfl; rw [ho] at hw; cases hw
    exact ⟨other' o' _ _ rfl (fun e => absurd e hne), (by simp), (by simp [hne])⟩
  | refStart order =>
    simp only [exec] at he
    split at he <;> simp only [Option.some.injEq, reduceCtorEq] at he
    subst he
    exact ⟨other _ rfl, fun _ h => h, fun _ h => h⟩
  | refInput r =>
    simp only [exec] at he
    split at he
    · split at he <;> simp only [Option.some.injEq] at he <;> subst he <;> exact ⟨other _ rfl, fun _ h => h, fun _ h => h⟩
    · cases he
  | refSend =>
    simp only [exec] at he
    split at he
    · rename_i todo o' rest hr
      split at he
      · simp only [Option.some.injEq] at he
        subst he
        exact ⟨other _ rfl, fun _ h => h, fun _ h => h⟩
      · split at he <;> simp only [Option.some.injEq, reduceCtorEq] at he
        subst he
        exact ⟨other' o' { s.obs o' with note := true } _ rfl (by rintro rfl; exact ⟨hp, ho, hc⟩), fun _ h => h, fun _ h => h⟩
    · cases he
  | refAbort =>
    simp only [exec] at he
    split at he
    · split at he <;> simp only [Option.some.injEq, reduceCtorEq] at he
      subst he
      exact ⟨other _ rfl, fun _ h => h, fun _ h => h⟩
    · cases he
  | refEnd =>
    simp only [exec] at he
    split at he <;> simp only [Option.some.injEq, reduceCtorEq] at he
    subst he
    exact ⟨other _ rfl, fun _ h => h, fun _ h => h⟩
  | stopClient =>
    simp only [exec] at he
    split at he <;> simp only [Option.some.injEq, reduceCtorEq] at he
    subst he
    exact ⟨other _ rfl, fun _ h => h, fun _ h => h⟩

theorem blocked_steps {s t : St} {o : Nat} (h : Steps (NotCancelled o) s t) (hs : Blocked o s) :
    Blocked o t ∧ (∀ v, Ev.pushed o v ∈ t.trace → Ev.pushed o v ∈ s.trace) ∧ ∀ v, Ev.received o v ∈ t.trace → Ev.received o v ∈ s.trace := by
  induction h with
  | refl => exact ⟨hs, fun _ h => h, fun _ h => h⟩
  | step _ _ hg he ih =>
    obtain ⟨b1, b2, b3⟩ := ih
    obtain ⟨c1, c2, c3⟩ := blocked_step b1 hg he
    exact ⟨c1, fun v h => b2 v (c2 v h), fun v h => b3 v (c3 v h)⟩

/-- **C167** is false: there is a run after which, whatever any goroutine does (short of the caller
cancelling), observer 0's consumer never receives anything but the outdated result, although
a newer one has been computed. -/
theorem C167_drain_false : ∃ s, Reach Any s ∧ s.results (s.obs 0).input = some ⟨2, some r2⟩ ∧
    ∀ t, Steps (NotCancelled 0) s t → ∀ v, Ev.received 0 v ∈ t.trace → v = ⟨1, some r1⟩ := by
  have h1 : (run (fun _ _ => true) {} drainRun).isSome = true := by decide +kernel
  obtain ⟨s, hs⟩ := Option.isSome_iff_exists.mp h1
  have e : ∀ {α : Type} (f : St → α), f s = f ((run (fun _ _ => true) {} drainRun).getD {}) := by
    intro α f; rw [hs]; rfl
  refine ⟨s, run_any hs, by rw [e (fun s => s.results (s.obs 0).input)]; decide +kernel, ?_⟩
  intro t ht v hv
  have hb : Blocked 0 s := by
    refine ⟨⟨2, some r2⟩, ?_⟩
    rw [e (fun s => (s.obs 0).pc), e (fun s => (s.obs 0).out), e (fun s => (s.obs 0).ctxDone)]
    decide +kernel
  have := (blocked_steps ht hb).2.2 v hv
  rw [e (·.trace)] at this
  have hl : ((run (fun _ _ => true) {} drainRun).getD {}).trace = [.received 0 ⟨1, some r1⟩, .pushed 0 ⟨1, some r1⟩] := by decide +kernel
  rw [hl] at this
  simpa using this

/-! ### The refresher blocks with the lock held: every observer of the API stops -/

/-- A refresh has notified observer 0, which has taken the notification but not the read lock; a second
refresh notifies it (the channel has room), a third one finds the channel full and waits, holding the
lock the observer needs. -/
def lockRun : List Act :=
  [.start 0 0 false, .register 0 (some r1), .recv 0,
   .refStart [0], .refInput (some r2), .refSend, .refEnd,
   .refStart [0], .refInput (some r1)]

/-- The refresher waits for observer 0, which waits for the refresher's lock. -/
def Deadlock (s : St) : Prop := ∃ todo rest, s.ref = .busy todo (0 :: rest) ∧ (s.obs 0).note = true ∧ (s.obs 0).noteClosed = false ∧
  ((s.obs 0).pc = .get ∨ (s.obs 0).pc = .cancel) ∧ s.clientDone = false

/-- Every action but stopping the client. -/
def NotStopped : St → Act → Prop := fun _ a => a ≠ .stopClient

theorem deadlock_step {s s' : St} {a : Act} (h : Deadlock s) (ha : a ≠ .stopClient) (he : exec s a = some s') : Deadlock s' := by
  obtain ⟨todo, rest, hr, hn, hnc, hp, hcd⟩ := id h
  have hfree : s.free = false := by simp [St.free, hr]
  have other' : ∀ (o' : Nat) (y : Obs) (t : St), t.obs = (s.setObs o' y).obs → t.ref = s.ref → t.clientDone = s.clientDone →
      (0 = o' → y.note = true ∧ y.noteClosed = false ∧ y.pc = (s.obs 0).pc) → Deadlock t := by
    intro o' y t h1 h2 h3 h4
    refine ⟨todo, rest, by rw [h2, hr], ?_⟩
    rw [h1, h3]
    by_cases ho : 0 = o'
    · obtain ⟨k1, k2, k3⟩ := h4 ho
      simp only [St.setObs, ho, if_true, k1, k2]
      rw [k3]
      exact ⟨trivial, trivial, hp, hcd⟩
    · simp only [St.setObs, ho, if_false]
      exact ⟨hn, hnc, hp, hcd⟩
  have key : ∀ {o' : Nat} {q : PC}, (s.obs o').pc = q → q ≠ .get → q ≠ .cancel → 0 ≠ o' := by
    rintro o' q hq h1 h2 rfl
    rcases hp with hp | hp <;> rw [hp] at hq
    · exact h1 hq.symm
    · exact h2 hq.symm
  cases a with
  | start o' i once =>
    simp only [exec] at he
    split at he <;> simp only [Option.some.injEq, reduceCtorEq] at he
    rename_i hq
    subst he
    exact other' o' _ _ rfl rfl rfl (fun e => absurd e (key hq (by simp) (by simp)))
  | register o' r => simp [exec, hfree] at he
  | cancelCtx o' =>
    simp only [exec] at he
    split at he <;> simp only [Option.some.injEq, reduceCtorEq] at he
    subst he
    exact other' o' _ _ rfl rfl rfl (by rintro rfl; exact ⟨hn, hnc, rfl⟩)
  | seeDone o' =>
    simp only [exec] at he
    split at he <;> simp only [Option.some.injEq, reduceCtorEq] at he
    rename_i hq
    subst he
    exact other' o' _ _ rfl rfl rfl (fun e => absurd e (key hq.1 (by simp) (by simp)))
  | recv o' =>
    simp only [exec] at he
    split at he <;> simp only [Option.some.injEq, reduceCtorEq] at he
    rename_i hq
    subst he
    exact other' o' _ _ rfl rfl rfl (fun e => absurd e (key hq.1 (by simp) (by simp)))
  | get o' => simp [exec, hfree] at he
  | check o' =>
    simp only [exec] at he
    split at he <;> simp only [Option.some.injEq, reduceCtorEq] at he
    rename_i v hq
    subst he
    exact other' o' _ _ rfl rfl rfl (fun e => absurd e (key hq (by simp) (by simp)))
  | take o' =>
    simp only [exec] at he
    split at he
    · rename_i v hq
      split at he <;> simp only [Option.some.injEq, reduceCtorEq] at he
      subst he
      exact other' o' _ _ rfl rfl rfl (fun e => absurd e (key hq (by simp) (by simp)))
    · cases he
  | takeDone o' =>
    simp only [exec] at he
    split at he
    · rename_i v hq
      split at he <;> simp only [Option.some.injEq, reduceCtorEq] at he
      subst he
      exact other' o' _ _ rfl rfl rfl (fun e => absurd e (key hq (by simp) (by simp)))
    · cases he
  | push o' =>
    simp only [exec] at he
    split at he
    · rename_i w hq
      split at he <;> simp only [Option.some.injEq, reduceCtorEq] at he
      subst he
      exact other' o' _ _ rfl rfl rfl (fun e => absurd e (key hq (by simp) (by simp)))
    · cases he
  | pushDone o' =>
    simp only [exec] at he
    split at he
    · rename_i w hq
      split at he <;> simp only [Option.some.injEq, reduceCtorEq] at he
      subst he
      exact other' o' _ _ rfl rfl rfl (fun e => absurd e (key hq (by simp) (by simp)))
    · cases he
  | cancel o' => simp [exec, hfree] at he
  | close o' =>
    simp only [exec] at he
    split at he <;> simp only [Option.some.injEq, reduceCtorEq] at he
    rename_i hq
    subst he
    exact other' o' _ _ rfl rfl rfl (fun e => absurd e (key hq (by simp) (by simp)))
  | consume o' =>
    simp only [exec] at he
    split at he <;> simp only [Option.some.injEq, reduceCtorEq] at he
    subst he
    exact other' o' _ _ rfl rfl rfl (by rintro rfl; exact ⟨hn, hnc, rfl⟩)
  | refStart order => simp [exec, hr] at he
  | refInput r => simp [exec, hr] at he
  | refSend => simp [exec, hr, hn, hnc] at he
  | refAbort => simp [exec, hr, hcd] at he
  | refEnd => simp [exec, hr] at he
  | stopClient => exact absurd rfl ha

theorem deadlock_steps {s t : St} (h : Steps NotStopped s t) (hs : Deadlock s) : Deadlock t := by
  induction h with
  | refl => exact hs
  | step _ _ hg he ih => exact deadlock_step ih hg he

/-- **C167** is false: there is a run after which, until the whole client is stopped, the refresher never
finishes, no API call registers, and no observer of that API can read a result. -/
theorem C167_deadlock_false : ∃ s, Reach Any s ∧ ∀ t, Steps NotStopped s t →
    t.ref ≠ .idle ∧ (∀ o r, ¬ CanStep t (.register o r)) ∧ ∀ o, ¬ CanStep t (.get o) ∧ ¬ CanStep t (.cancel o) := by
  have h1 : (run (fun _ _ => true) {} lockRun).isSome = true := by decide +kernel
  obtain ⟨s, hs⟩ := Option.isSome_iff_exists.mp h1
  have e : ∀ {α : Type} (f : St → α), f s = f ((run (fun _ _ => true) {} lockRun).getD {}) := by
    intro α f; rw [hs]; rfl
  refine ⟨s, run_any hs, ?_⟩
  have hd : Deadlock s := by
    refine ⟨[], [], ?_⟩
    rw [e (·.ref), e (fun s => (s.obs 0).note), e (fun s => (s.obs 0).noteClosed), e (fun s => (s.obs 0).pc), e (·.clientDone)]
    decide +kernel
  intro t ht
  obtain ⟨todo, rest, hr, _⟩ := deadlock_steps ht hd
  have hfree : t.free = false := by simp [St.free, hr]
  refine ⟨by rw [hr]; simp, ?_, ?_⟩
  · rintro o r ⟨u, hu⟩; simp [exec, hfree] at hu
  · intro o
    exact ⟨by rintro ⟨u, hu⟩; simp [exec, hfree] at hu, by rintro ⟨u, hu⟩; simp [exec, hfree] at hu⟩

/-- The same deadlock arises when an observer leaves after its first response while a refresh wants
to notify it a second time. -/
def leaveRun : List Act :=
  [.start 0 0 true, .register 0 (some r1), .recv 0, .get 0, .check 0, .push 0,
   .refStart [0], .refInput (some r2), .refSend, .refEnd,
   .refStart [0], .refInput (some r1)]

example : ∃ s, Reach Any s ∧ Deadlock s := by
  have h1 : (run (fun _ _ => true) {} leaveRun).isSome = true := by decide +kernel
  obtain ⟨s, hs⟩ := Option.isSome_iff_exists.mp h1
  have e : ∀ {α : Type} (f : St → α), f s = f ((run (fun _ _ => true) {} leaveRun).getD {}) := by
    intro α f; rw [hs]; rfl
  refine ⟨s, run_any hs, [], [], ?_⟩
  rw [e (·.ref), e (fun s => (s.obs 0).note), e (fun s => (s.obs 0).noteClosed), e (fun s => (s.obs 0).pc), e (·.clientDone)]
  decide +kernel

/-! ### A refresh that computes no response crashes callers -/

/-- While the client reconnects its resources count as uninitialised and the computed response is nil;
a refresh stores it and notifies observer 0. -/
def nilRun : List Act :=
  [.start 0 0 true, .register 0 (some ⟨1, true⟩), .recv 0, .get 0, .check 0, .push 0, .consume 0,
   .refStart [0], .refInput none, .refSend, .refEnd, .recv 0, .get 0, .check 0, .push 0]

/-- **C167** is false: an observer can dereference a nil response, which ends the process. -/
theorem C167_nil_false : ∃ s, Reach Any s ∧ (s.obs 0).pc = .crashed := by
  have h1 : (run (fun _ _ => true) {} nilRun).isSome = true := by decide +kernel
  obtain ⟨s, hs⟩ := Option.isSome_iff_exists.mp h1
  have e : ∀ {α : Type} (f : St → α), f s = f ((run (fun _ _ => true) {} nilRun).getD {}) := by
    intro α f; rw [hs]; rfl
  exact ⟨s, run_any hs, by rw [e (fun s => (s.obs 0).pc)]; decide +kernel⟩

end Verif.Res
