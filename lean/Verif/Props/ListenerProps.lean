import Verif.Ads.ListenerProps
/-
C105: listener properties.
-/
namespace Verif.Props.LProps
open Verif Verif.Ads.LProps

/-- the successful responses -/
def oks : List Resp → List Nat
  | [] => []
  | .ok v :: rs => v :: oks rs
  | .err _ :: rs => oks rs

theorem oks_append (a b : List Resp) : oks (a ++ b) = oks a ++ oks b := by
  induction a with
  | nil => rfl
  | cons x a ih => cases x <;> simp [oks, ih]

/-- what holds in every state: the entry has the last received response, the callbacks that ran are those of the call that created it,
once for every successful response; returned results were received -/
structure LInv (s : St) : Prop where
  hist : s.recvd ++ s.chan = s.hist
  resp : ∀ o r, s.entry = some (o, r) → r = s.recvd.getLast?
  none : s.entry = none → s.recvd = [] ∧ s.cbs = []
  cbs : ∀ o r, s.entry = some (o, r) → s.cbs = (oks s.recvd).map fun v => (o, v)
  ret : ∀ id r, phaseOf s.calls id = some (.returned r) → r ∈ s.recvd

theorem phase_set (calls : List (Nat × Phase)) (id id' : Nat) (p : Phase) :
    phaseOf (setPhase calls id p) id' = if id' = id then (phaseOf calls id).map (fun _ => p) else phaseOf calls id' := by
  unfold phaseOf setPhase
  induction calls with
  | nil => by_cases h : id' = id <;> simp [h]
  | cons c calls ih =>
    by_cases hc : c.1 = id
    · simp only [List.map_cons, if_pos hc]
      by_cases h : id' = id
      · subst h
        rw [List.find?_cons_of_pos (by simp), List.find?_cons_of_pos (by simpa using hc)]; simp
      · rw [List.find?_cons_of_neg (by simpa using Ne.symm h)]
        rw [ih, if_neg h, if_neg h, List.find?_cons_of_neg]
        simpa using fun h' => h (h'.symm.trans hc)
    · simp only [List.map_cons, if_neg hc]
      by_cases h' : c.1 = id'
      · have hne : id' ≠ id := fun h => hc (h'.trans h)
        rw [if_neg hne, List.find?_cons_of_pos (by simpa using h'), List.find?_cons_of_pos (by simpa using h')]
      · rw [List.find?_cons_of_neg (by simpa using h'), ih]
        by_cases h : id' = id
        · rw [if_pos h, if_pos h, List.find?_cons_of_neg (by simpa using hc)]
        · rw [if_neg h, if_neg h, List.find?_cons_of_neg (by simpa using h')]

theorem phase_append (calls : List (Nat × Phase)) (id id' : Nat) (p : Phase) (h : phaseOf calls id = none) :
    phaseOf (calls ++ [(id, p)]) id' = if id' = id then some p else phaseOf calls id' := by
  unfold phaseOf at h ⊢
  rw [List.find?_append]
  by_cases h' : id' = id
  · subst h'
    rw [if_pos rfl]
    have : calls.find? (fun x => decide (x.1 = id')) = none := by simpa using h
    rw [this]; simp
  · rw [if_neg h']
    have hn : [(id, p)].find? (fun x => decide (x.1 = id')) = none := by
      rw [List.find?_cons_of_neg (by simpa using Ne.symm h')]; rfl
    rw [hn, Option.or_none]

theorem isNone_of_not_isSome {α : Type} {o : Option α} (h : ¬ o.isSome = true) : o = none := by cases o with
  | none => rfl
  | some => exact absurd rfl h

theorem linv_step {s s' : St} {a : Act} (ih : LInv s) (he : exec s a = some s') : LInv s' := by
  cases a with
  | call id sub =>
    simp only [exec] at he
    by_cases hp : (phaseOf s.calls id).isSome = true
    · rw [if_pos hp] at he; cases he
    · rw [if_neg hp] at he
      have hp' := isNone_of_not_isSome hp
      have R : ∀ p, (∀ r, p ≠ .returned r) → ∀ id' r, phaseOf (s.calls ++ [(id, p)]) id' = some (.returned r) → r ∈ s.recvd := by
        intro p hpr id' r h
        rw [phase_append _ _ _ _ hp'] at h
        split at h
        · injection h with h; exact absurd h (hpr r)
        · exact ih.ret id' r h
      cases hent : s.entry with
      | some e =>
        rw [hent] at he; injection he with he; subst he
        exact ⟨ih.hist, fun o r h => ih.resp o r (hent.trans h), fun h => absurd h (by simp), fun o r h => ih.cbs o r (hent.trans h),
          R _ (by intro r h; cases h)⟩
      | none =>
        rw [hent] at he
        obtain ⟨h1, h2⟩ := ih.none hent
        cases sub with
        | true =>
          simp only [if_true] at he; injection he with he; subst he
          refine ⟨ih.hist, ?_, (by intro h; cases h), ?_, R _ (by intro r h; cases h)⟩
          · intro o r h; injection h with h; injection h with _ h; subst h; simp only [h1]; rfl
          · intro o r _; simp only [h1, h2]; rfl
        | false =>
          simp only [Bool.false_eq_true, if_false] at he; injection he with he; subst he
          refine ⟨ih.hist, ?_, (by intro h; cases h), ?_, R _ (by intro r h; cases h)⟩
          · intro o r h; injection h with h; injection h with _ h; subst h; simp only [h1]; rfl
          · intro o r _; simp only [h1, h2]; rfl
  | push r =>
    simp only [exec] at he
    split at he
    · injection he with he; subst he
      exact ⟨by simp only; rw [← List.append_assoc, ih.hist], ih.resp, ih.none, ih.cbs, ih.ret⟩
    · cases he
  | receive =>
    simp only [exec] at he
    split at he
    · cases hent : s.entry with
      | none => rw [hent] at he; cases he
      | some e =>
        obtain ⟨o, r0⟩ := e
        cases hch : s.chan with
        | nil => rw [hent, hch] at he; cases he
        | cons r c =>
          rw [hent, hch] at he
          simp only at he
          injection he with he; subst he
          refine ⟨?_, ?_, (by intro h; cases h), ?_, ?_⟩
          · have := ih.hist; rw [hch] at this; simp only; rw [List.append_assoc]; exact this
          · intro o' r' h; injection h with h; injection h with _ h; subst h; simp
          · intro o' r' h; injection h with h; injection h with h _; subst h
            have := ih.cbs o r0 hent
            simp only [oks_append, List.map_append]
            cases r with
            | ok v => simp only [oks, List.map_cons, List.map_nil]; rw [this]
            | err e => simp only [oks, List.map_nil, List.append_nil]; exact this
          · intro id r' h; exact List.mem_append_left _ (ih.ret id r' h)
    · cases he
  | stopWatcher =>
    simp only [exec] at he
    split at he
    · split at he
      · injection he with he; subst he
        exact ⟨ih.hist, ih.resp, ih.none, ih.cbs, ih.ret⟩
      · cases he
    · cases he
  | cancel id =>
    simp only [exec] at he; injection he with he; subst he
    exact ⟨ih.hist, ih.resp, ih.none, ih.cbs, ih.ret⟩
  | poll id =>
    simp only [exec] at he
    split at he
    · rename_i o r hph hent
      injection he with he; subst he
      refine ⟨ih.hist, ih.resp, ih.none, ih.cbs, ?_⟩
      intro id' r' h
      simp only at h
      rw [phase_set] at h
      split at h
      · rw [hph] at h; injection h with h; injection h with h; subst h
        exact List.mem_of_getLast? (ih.resp o _ hent).symm
      · exact ih.ret id' r' h
    · cases he
  | timeout id =>
    simp only [exec] at he
    split at he
    · rename_i hph _
      injection he with he; subst he
      refine ⟨ih.hist, ih.resp, ih.none, ih.cbs, ?_⟩
      intro id' r' h
      simp only at h
      rw [phase_set] at h
      split at h
      · rw [hph] at h; cases h
      · exact ih.ret id' r' h
    · cases he

theorem linv_reach {guard : St → Act → Prop} {s : St} (h : Reach guard s) : LInv s := by
  induction h with
  | init => exact ⟨rfl, (by intro o r h; cases h), fun _ => ⟨rfl, rfl⟩, (by intro o r h; cases h), (by intro id r h; cases h)⟩
  | step _ _ he ih => exact linv_step ih he

/-- **C105** A result is always the response of the mesh that was received last when the call looked: nothing invented, no older
response. -/
theorem C105_latest {s s' : St} (h : Reach (fun _ _ => True) s) (id : Nat) (he : exec s (.poll id) = some s') :
    ∃ r, phaseOf s'.calls id = some (.returned r) ∧ s.recvd.getLast? = some r ∧ s.recvd <+: s.hist := by
  have hi := linv_reach h
  simp only [exec] at he
  split at he
  · rename_i o r hph hent
    injection he with he; subst he
    refine ⟨r, ?_, (hi.resp o _ hent).symm, ⟨_, hi.hist⟩⟩
    simp only; rw [phase_set, if_pos rfl, hph]; rfl
  · cases he

/-- **C105** The callbacks of the first call are run once for every successful response received, in order – and no others. -/
theorem C105_callbacks {s : St} (h : Reach (fun _ _ => True) s) (o : Nat) (r : Option Resp) (he : s.entry = some (o, r)) :
    s.cbs = (oks s.recvd).map fun v => (o, v) := (linv_reach h).cbs o r he

/-- the first call succeeds in subscribing and its context is never cancelled -/
def Lasting (s : St) : Act → Prop
  | .call id sub => s.entry = none → sub = true ∧ id ∉ s.cancelled
  | .cancel id => ∀ o r, s.entry = some (o, r) → id ≠ o
  | _ => True

theorem lasting_reach {s : St} (h : Reach Lasting s) : ∀ o r, s.entry = some (o, r) → s.watcher = true ∧ o ∉ s.cancelled := by
  induction h with
  | init => intro o r h; cases h
  | step hr hg he ih =>
    rename_i s s' a
    cases a <;> simp only [exec] at he
    case call id sub =>
      split at he
      · cases he
      · cases hent : s.entry with
        | some e => rw [hent] at he; injection he with he; subst he; intro o r h; exact ih o r (hent.trans h)
        | none =>
          rw [hent, (hg hent).1] at he; injection he with he; subst he
          intro o r h; injection h with h; injection h with h _; subst h; exact ⟨rfl, (hg hent).2⟩
    case push r => split at he <;> cases he; exact ih
    case receive =>
      split at he
      · rename_i hw
        split at he
        · rename_i o0 _ r0 c hent _
          injection he with he; subst he
          intro o r h; injection h with h; injection h with h _; subst h; exact ih _ _ hent
        · cases he
      · cases he
    case stopWatcher =>
      split at he
      · rename_i o r hent
        split at he
        · rename_i hc; exact absurd hc.2 (ih o r hent).2
        · cases he
      · cases he
    case cancel id =>
      injection he with he; subst he
      intro o r h
      refine ⟨(ih o r h).1, ?_⟩
      intro hm
      rcases List.mem_cons.mp hm with h1 | h1
      · exact hg o r h h1.symm
      · exact (ih o r h).2 h1
    case poll id => split at he <;> cases he; exact ih
    case timeout id => split at he <;> cases he; exact ih

/-- **C203** (partial) If the first call could subscribe and its context lasts, no response gets stuck, and every call that waits can
return as soon as one was received. -/
theorem C203_served_partial {s : St} (h : Reach Lasting s) (hent : s.entry ≠ none) :
    (s.chan ≠ [] → ∃ s', exec s .receive = some s' ∧ s'.chan.length + 1 = s.chan.length) ∧
    (∀ id, phaseOf s.calls id = some .waiting → s.recvd ≠ [] → ∃ s', exec s (.poll id) = some s') := by
  cases he : s.entry with
  | none => exact absurd he hent
  | some e =>
    obtain ⟨o, r⟩ := e
    have hl := lasting_reach h o r he
    refine ⟨?_, ?_⟩
    · intro hc
      cases hch : s.chan with
      | nil => exact absurd hch hc
      | cons x c => exact ⟨_, by simp only [exec]; rw [if_pos hl.1, he, hch], by simp⟩
    · intro id hp hr
      have := (linv_reach h).resp o r he
      cases hg : s.recvd.getLast? with
      | none => exact absurd (List.getLast?_eq_none_iff.mp hg) hr
      | some x =>
        rw [hg] at this; subst this
        exact ⟨_, by simp only [exec]; rw [hp, he]⟩

/-- **C203 is false of the code**: if the first call could not subscribe, no later call ever succeeds. -/
theorem C203_never_again_false (s : St) (o : Nat) (h1 : s.entry = some (o, none)) (h2 : s.watcher = false)
    (h3 : ∀ id r, phaseOf s.calls id ≠ some (.returned r)) (as : List Act) (s' : St) (h : run s as = some s') :
    ∀ id r, phaseOf s'.calls id ≠ some (.returned r) := by
  induction as generalizing s with
  | nil => injection h with h; subst h; exact h3
  | cons a as ih =>
    simp only [run] at h
    cases he : exec s a with
    | none => rw [he] at h; cases h
    | some t =>
      rw [he] at h
      refine ih t ?_ ?_ ?_ h <;> cases a <;> simp only [exec, h1, h2] at he
      case refine_1.call id sub => split at he <;> cases he; rfl
      case refine_1.push => cases he
      case refine_1.receive => cases he
      case refine_1.stopWatcher => simp at he
      case refine_1.cancel => cases he; rfl
      case refine_1.poll id => split at he <;> first | (cases he; done) | (rename_i hx; cases hx)
      case refine_1.timeout id => split at he <;> cases he; rfl
      case refine_2.call id sub => split at he <;> cases he; rfl
      case refine_2.push => cases he
      case refine_2.receive => cases he
      case refine_2.stopWatcher => simp at he
      case refine_2.cancel => cases he; rfl
      case refine_2.poll id => split at he <;> first | (cases he; done) | (rename_i hx; cases hx)
      case refine_2.timeout id => split at he <;> cases he; rfl
      case refine_3.call id sub =>
        split at he
        · cases he
        · rename_i hp
          cases he
          intro id' r hx
          simp only at hx
          rw [phase_append _ _ _ _ (isNone_of_not_isSome hp)] at hx
          split at hx
          · cases hx
          · exact h3 id' r hx
      case refine_3.push => cases he
      case refine_3.receive => cases he
      case refine_3.stopWatcher => simp at he
      case refine_3.cancel => cases he; exact h3
      case refine_3.poll id => split at he <;> first | (cases he; done) | (rename_i hx; cases hx)
      case refine_3.timeout id =>
        split at he
        · rename_i hp _
          cases he
          intro id' r hx
          simp only at hx
          rw [phase_set] at hx
          split at hx
          · rw [hp] at hx; cases hx
          · exact h3 id' r hx
        · cases he

/-- such a state: the first call failed -/
example : ∃ s, run {} [.call 0 false] = some s ∧ s.entry = some (0, none) ∧ s.watcher = false ∧ phaseOf s.calls 0 = some .failed :=
  ⟨_, rfl, rfl, rfl, rfl⟩

/-- **C203 is false of the code**: when the context of the first call ends, later calls – with contexts of their own – get the old
response and no update reaches them any more, -/
theorem C203_stale_false : ∃ s, run {} [.call 0 true, .push (.ok 1), .receive, .poll 0, .push (.ok 2), .cancel 0, .stopWatcher, .call 1 true,
    .poll 1] = some s ∧ phaseOf s.calls 1 = some (.returned (.ok 1)) ∧ s.hist = [.ok 1, .ok 2] ∧ exec s .receive = none :=
  ⟨_, rfl, by decide, by decide, by decide⟩

/-- and the callbacks of later calls are never run. -/
theorem C203_callback_ignored_false : ∃ s, run {} [.call 0 true, .call 1 true, .push (.ok 1), .receive, .poll 1] = some s ∧
    phaseOf s.calls 1 = some (.returned (.ok 1)) ∧ s.cbs = [(0, 1)] := ⟨_, rfl, by decide, by decide⟩

/-- a history with errors and updates -/
example : ∃ s, Reach Lasting s ∧ s.entry ≠ none ∧ s.recvd = [.err 5, .ok 2] ∧ s.cbs = [(0, 2)] ∧ s.chan = [.ok 3] :=
  ⟨_, .step (a := .push (.ok 3)) (.step (a := .receive) (.step (a := .receive) (.step (a := .push (.ok 2)) (.step (a := .push (.err 5))
    (.step (a := .call 0 true) .init (fun _ => ⟨rfl, by simp⟩) rfl) trivial rfl) trivial rfl) trivial rfl) trivial rfl) trivial rfl,
    by decide, by decide, by decide, by decide⟩

end Verif.Props.LProps
