/-
C35: published results reach the observers.
-/
import Verif.Ads.Result

namespace Verif.Res

/-! ### Specification, on the trace of events only -/

/-- No observer's channel gets, and no consumer receives, an older result after a newer one. -/
def InOrder (trace : List Ev) : Prop :=
  trace.Pairwise fun new old => ∀ o v w,
    (new = .pushed o v → old = .pushed o w → w.ver ≤ v.ver) ∧
    (new = .received o v → old = .received o w → w.ver ≤ v.ver)

/-- Nothing is put into a result channel once it is closed, and it is closed once. -/
def QuietAfterClose (trace : List Ev) : Prop :=
  trace.Pairwise fun new old => ∀ o, old = .closed o → new ≠ .closed o ∧ ∀ v, new ≠ .pushed o v

/-- What a consumer receives was put into its channel. -/
def Genuine (trace : List Ev) : Prop := ∀ o v, .received o v ∈ trace → .pushed o v ∈ trace

/-- The last response put into the channel of `o`. -/
def lastPushed (o : Nat) : List Ev → Option Val
  | [] => none
  | .pushed o' v :: r => if o' = o then some v else lastPushed o r
  | _ :: r => lastPushed o r

/-! ### Invariants -/

def held : PC → Option Val
  | .drain v => some v
  | .take v => some v
  | .push v => some v
  | _ => none

def active : PC → Bool
  | .idle | .register | .close | .finished => false
  | _ => true

def fresh : PC → Bool
  | .idle | .register => true
  | _ => false

structure InvA (s : St) : Prop where
  mem : ∀ o i, o ∈ s.reg i ↔ (s.obs o).input = i ∧ active (s.obs o).pc = true
  nodup : ∀ i, (s.reg i).Nodup
  opened : ∀ o, active (s.obs o).pc = true → (s.obs o).noteClosed = false
  fresh : ∀ o, fresh (s.obs o).pc = true → (s.obs o).noteClosed = false
  sends : ∀ todo sends, s.ref = .busy todo sends → sends.Nodup ∧ ∀ o ∈ sends, active (s.obs o).pc = true
  alive : s.ref ≠ .crashed

theorem invA_init : InvA {} := by
  constructor <;> simp [active]

theorem active_afterSend (x : Obs) (v : Val) : active (afterSend x v) = true := by
  unfold afterSend
  split
  · split
    · rfl
    · split <;> rfl
  · rfl

theorem fresh_afterSend (x : Obs) (v : Val) : Res.fresh (afterSend x v) = false := by
  unfold afterSend
  split
  · split
    · rfl
    · split <;> rfl
  · rfl

theorem held_afterSend (x : Obs) (v : Val) : held (afterSend x v) = none := by
  unfold afterSend
  split
  · split
    · rfl
    · split <;> rfl
  · rfl

/-- A step that only moves one observer between active places and changes nothing of its
registration. -/
theorem invA_move {s : St} (h : InvA s) (o : Nat) (x : Obs) (tr : List Ev)
    (h1 : active (s.obs o).pc = true) (h2 : active x.pc = true) (h3 : x.input = (s.obs o).input)
    (h4 : x.noteClosed = (s.obs o).noteClosed) : InvA { s.setObs o x with trace := tr } := by
  obtain ⟨a, b, c, d, e, f⟩ := h
  constructor <;> simp only [St.setObs]
  · intro o' i
    rw [a]
    by_cases ho : o' = o
    · subst ho; simp [h1, h2, h3]
    · simp [ho]
  · exact b
  · intro o'
    by_cases ho : o' = o
    · subst ho; simp [h4, c o' h1]
    · simpa [ho] using c o'
  · intro o'
    by_cases ho : o' = o
    · subst ho; simp [h4, c o' h1]
    · simpa [ho] using d o'
  · intro todo sends hr
    obtain ⟨e1, e2⟩ := e todo sends hr
    refine ⟨e1, fun o' ho' => ?_⟩
    by_cases ho : o' = o
    · subst ho; simpa using h2
    · simpa [ho] using e2 o' ho'
  · exact f

theorem invA_step {s s' : St} {a : Act} (h : InvA s) (he : exec s a = some s') : InvA s' := by
  obtain ⟨ha, hb, hc, hd, hs, hf⟩ := h
  have h : InvA s := ⟨ha, hb, hc, hd, hs, hf⟩
  cases a with
  | start o i once =>
    simp only [exec] at he
    split at he <;> simp only [Option.some.injEq, reduceCtorEq] at he
    rename_i hp
    subst he
    have hd0 := hd o (by rw [hp]; rfl)
    constructor <;> simp only [St.setObs]
    · intro o' j; rw [ha]; by_cases ho : o' = o
      · subst ho; simp [active, hp]
      · simp [ho]
    · exact hb
    · intro o'; by_cases ho : o' = o
      · subst ho; simp [active]
      · simpa [ho] using hc o'
    · intro o'; by_cases ho : o' = o
      · subst ho; simp [hd0]
      · simpa [ho] using hd o'
    · intro t ss hr
      refine ⟨(hs t ss hr).1, fun o' ho' => ?_⟩
      have := (hs t ss hr).2 o' ho'
      by_cases ho : o' = o
      · subst ho; rw [hp] at this; cases this
      · simpa [ho] using this
    · exact hf
  | register o r =>
    simp only [exec] at he
    split at he
    · rename_i hp
      obtain ⟨hp, hfree⟩ := hp
      have hidle : s.ref = .idle := by
        unfold St.free at hfree
        cases hr : s.ref <;> simp_all
      have hnot : ∀ i, o ∉ s.reg i := by
        intro i hm
        have := ((ha o i).mp hm).2
        rw [hp] at this; cases this
      have key : ∀ (x : Obs) (res : Nat → Option Val) (ver : Nat), active x.pc = true → x.input = (s.obs o).input →
          x.noteClosed = (s.obs o).noteClosed →
          InvA (({ s with reg := fun k => if k = (s.obs o).input then s.reg (s.obs o).input ++ [o] else s.reg k, results := res, ver := ver } : St).setObs o x) := by
        intro x res ver h1 h2 h3
        have hd0 := hd o (by rw [hp]; rfl)
        constructor <;> simp only [St.setObs]
        · intro o' i
          by_cases ho : o' = o
          · subst ho
            simp only [if_true, h1, h2, and_true]
            by_cases hi : i = (s.obs o').input
            · subst hi; simp
            · simp only [hi, if_false]
              constructor
              · intro hm; exact absurd hm (hnot i)
              · intro hm; exact absurd hm.symm hi
          · simp only [ho, if_false]
            rw [← ha]
            by_cases hi : i = (s.obs o).input
            · subst hi; simp [ho]
            · simp [hi]
        · intro i
          by_cases hi : i = (s.obs o).input
          · subst hi
            simp only [if_true]
            rw [List.nodup_append]
            exact ⟨hb _, by simp, by intro a ha' b hb' hab; simp at hb'; subst hb'; subst hab; exact hnot _ ha'⟩
          · simpa [hi] using hb i
        · intro o'
          by_cases ho : o' = o
          · subst ho; simp [h3, hd0]
          · simpa [ho] using hc o'
        · intro o'
          by_cases ho : o' = o
          · subst ho; simp [h3, hd0]
          · simpa [ho] using hd o'
        · intro t ss hr; rw [hidle] at hr; cases hr
        · exact hf
      cases r with
      | none => simp only [Option.some.injEq] at he; subst he; exact key _ _ _ rfl rfl rfl
      | some r => simp only [Option.some.injEq] at he; subst he; exact key _ _ _ rfl rfl rfl
    · cases he
  | cancelCtx o =>
    simp only [exec] at he
    split at he <;> simp only [Option.some.injEq, reduceCtorEq] at he
    subst he
    constructor <;> simp only [St.setObs]
    · intro o' j; rw [ha]; by_cases ho : o' = o
      · subst ho; simp
      · simp [ho]
    · exact hb
    · intro o'; by_cases ho : o' = o
      · subst ho; simpa using hc o'
      · simpa [ho] using hc o'
    · intro o'; by_cases ho : o' = o
      · subst ho; simpa using hd o'
      · simpa [ho] using hd o'
    · intro t ss hr
      refine ⟨(hs t ss hr).1, fun o' ho' => ?_⟩
      have := (hs t ss hr).2 o' ho'
      by_cases ho : o' = o
      · subst ho; simpa using this
      · simpa [ho] using this
    · exact hf
  | seeDone o =>
    simp only [exec] at he
    split at he <;> simp only [Option.some.injEq, reduceCtorEq] at he
    rename_i hp
    subst he
    exact invA_move h o _ _ (by rw [hp.1]; rfl) rfl rfl rfl
  | recv o =>
    simp only [exec] at he
    split at he <;> simp only [Option.some.injEq, reduceCtorEq] at he
    rename_i hp
    subst he
    exact invA_move h o _ _ (by rw [hp.1]; rfl) rfl rfl rfl
  | get o =>
    simp only [exec] at he
    split at he
    · rename_i hp
      split at he <;> simp only [Option.some.injEq] at he <;> subst he <;>
        exact invA_move h o _ _ (by rw [hp.1]; rfl) rfl rfl rfl
    · cases he
  | check o =>
    simp only [exec] at he
    split at he <;> simp only [Option.some.injEq, reduceCtorEq] at he
    rename_i v hp
    subst he
    exact invA_move h o _ _ (by rw [hp]; rfl) (by show active (if _ then _ else _) = true; split <;> rfl) rfl rfl
  | take o =>
    simp only [exec] at he
    split at he
    · rename_i v hp
      split at he <;> simp only [Option.some.injEq, reduceCtorEq] at he
      subst he
      exact invA_move h o _ _ (by rw [hp]; rfl) rfl rfl rfl
    · cases he
  | takeDone o =>
    simp only [exec] at he
    split at he
    · rename_i v hp
      split at he <;> simp only [Option.some.injEq, reduceCtorEq] at he
      subst he
      exact invA_move h o _ _ (by rw [hp]; rfl) (active_afterSend _ _) rfl rfl
    · cases he
  | push o =>
    simp only [exec] at he
    split at he
    · rename_i v hp
      split at he <;> simp only [Option.some.injEq, reduceCtorEq] at he
      subst he
      exact invA_move h o _ _ (by rw [hp]; rfl) (active_afterSend _ _) rfl rfl
    · cases he
  | pushDone o =>
    simp only [exec] at he
    split at he
    · rename_i v hp
      split at he <;> simp only [Option.some.injEq, reduceCtorEq] at he
      subst he
      exact invA_move h o _ _ (by rw [hp]; rfl) (active_afterSend _ _) rfl rfl
    · cases he
  | cancel o =>
    simp only [exec] at he
    split at he
    · rename_i hp
      obtain ⟨hp, hfree⟩ := hp
      have hidle : s.ref = .idle := by
        unfold St.free at hfree
        cases hr : s.ref <;> simp_all
      simp only [Option.some.injEq] at he
      subst he
      constructor <;> simp only [St.setObs]
      · intro o' i
        by_cases ho : o' = o
        · subst ho
          simp only [if_true, active, Bool.false_eq_true, and_false, iff_false]
          by_cases hi : i = (s.obs o').input
          · subst hi
            simp only [if_true]
            exact (hb _).not_mem_erase
          · simp only [hi, if_false]
            rw [ha]
            exact fun h => hi h.1.symm
        · simp only [ho, if_false]
          rw [← ha]
          by_cases hi : i = (s.obs o).input
          · subst hi
            simp only [if_true]
            exact List.mem_erase_of_ne ho
          · simp [hi]
      · intro i
        by_cases hi : i = (s.obs o).input
        · subst hi; simpa using (hb _).erase o
        · simpa [hi] using hb i
      · intro o'
        by_cases ho : o' = o
        · subst ho; simp [active]
        · simpa [ho] using hc o'
      · intro o'
        by_cases ho : o' = o
        · subst ho; simp [Res.fresh]
        · simpa [ho] using hd o'
      · intro t ss hr; rw [hidle] at hr; cases hr
      · exact hf
    · cases he
  | close o =>
    simp only [exec] at he
    split at he <;> simp only [Option.some.injEq, reduceCtorEq] at he
    rename_i hp
    subst he
    constructor <;> simp only [St.setObs]
    · intro o' j; rw [ha]; by_cases ho : o' = o
      · subst ho; simp [active, hp]
      · simp [ho]
    · exact hb
    · intro o'; by_cases ho : o' = o
      · subst ho; simp [active]
      · simpa [ho] using hc o'
    · intro o'; by_cases ho : o' = o
      · subst ho; simp [Res.fresh]
      · simpa [ho] using hd o'
    · intro t ss hr
      refine ⟨(hs t ss hr).1, fun o' ho' => ?_⟩
      have := (hs t ss hr).2 o' ho'
      by_cases ho : o' = o
      · subst ho; rw [hp] at this; cases this
      · simpa [ho] using this
    · exact hf
  | consume o =>
    simp only [exec] at he
    split at he <;> simp only [Option.some.injEq, reduceCtorEq] at he
    subst he
    constructor <;> simp only [St.setObs]
    · intro o' j; rw [ha]; by_cases ho : o' = o
      · subst ho; simp
      · simp [ho]
    · exact hb
    · intro o'; by_cases ho : o' = o
      · subst ho; simpa using hc o'
      · simpa [ho] using hc o'
    · intro o'; by_cases ho : o' = o
      · subst ho; simpa using hd o'
      · simpa [ho] using hd o'
    · intro t ss hr
      refine ⟨(hs t ss hr).1, fun o' ho' => ?_⟩
      have := (hs t ss hr).2 o' ho'
      by_cases ho : o' = o
      · subst ho; simpa using this
      · simpa [ho] using this
    · exact hf
  | refStart order =>
    simp only [exec] at he
    split at he <;> simp only [Option.some.injEq, reduceCtorEq] at he
    subst he
    exact ⟨ha, hb, hc, hd, by intro t ss hr; cases hr; simp, by simp⟩
  | refInput r =>
    simp only [exec] at he
    split at he
    · split at he <;> simp only [Option.some.injEq] at he <;> subst he
      · exact ⟨ha, hb, hc, hd, by intro t ss hr; cases hr; simp, by simp⟩
      · rename_i i todo _ _
        refine ⟨ha, hb, hc, hd, ?_, by simp⟩
        intro t ss hr
        cases hr
        exact ⟨hb i, fun o ho => ((ha o i).mp ho).2⟩
    · cases he
  | refSend =>
    simp only [exec] at he
    split at he
    · rename_i todo o rest hr
      obtain ⟨hs1, hs2⟩ := hs _ _ hr
      have hact := hs2 o (by simp)
      have hnc := hc o hact
      simp only [hnc, Bool.false_eq_true, if_false] at he
      split at he <;> simp only [Option.some.injEq, reduceCtorEq] at he
      subst he
      constructor <;> simp only [St.setObs]
      · intro o' j; rw [ha]; by_cases ho : o' = o
        · subst ho; simp
        · simp [ho]
      · exact hb
      · intro o'; by_cases ho : o' = o
        · subst ho; simpa using hc o'
        · simpa [ho] using hc o'
      · intro o'; by_cases ho : o' = o
        · subst ho; simpa using hd o'
        · simpa [ho] using hd o'
      · intro t ss hr'
        cases hr'
        refine ⟨(List.nodup_cons.mp hs1).2, fun o' ho' => ?_⟩
        have := hs2 o' (by simp [ho'])
        by_cases ho : o' = o
        · subst ho; simpa using this
        · simpa [ho] using this
      · simp
    · cases he
  | refAbort =>
    simp only [exec] at he
    split at he
    · split at he <;> simp only [Option.some.injEq, reduceCtorEq] at he
      subst he
      exact ⟨ha, hb, hc, hd, (by intro t ss hr; cases hr), by simp⟩
    · cases he
  | refEnd =>
    simp only [exec] at he
    split at he <;> simp only [Option.some.injEq, reduceCtorEq] at he
    subst he
    exact ⟨ha, hb, hc, hd, (by intro t ss hr; cases hr), by simp⟩
  | stopClient =>
    simp only [exec] at he
    split at he <;> simp only [Option.some.injEq, reduceCtorEq] at he
    subst he
    exact h.casesOn fun a b c d e f => ⟨a, b, c, d, e, f⟩

theorem invA {g : St → Act → Prop} {s : St} (h : Reach g s) : InvA s := by
  induction h with
  | init => exact invA_init
  | step _ _ _ he ih => exact invA_step ih he

end Verif.Res
