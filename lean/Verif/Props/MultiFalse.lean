import Verif.Props.MultiClose
/-! # C51 The multi-listener: what fails, and examples -/
namespace Verif.Net
open Verif.Tunnel (upd)

/-- Run a list of steps. -/
def mrun (L : Lis) : MSt → List MAct → Option MSt
  | st, [] => some st
  | st, a :: as => (mexec L st a).bind fun st' => mrun L st' as

/-- Run a list of steps, all of which satisfy a (decidable) guard. -/
theorem mrun_reach {L : Lis} {guard : MSt → MAct → Prop} (as : List MAct) : ∀ (st st' : MSt), MReach L guard st →
    (∀ (xs : List MAct) a ys s, as = xs ++ a :: ys → mrun L st xs = some s → guard s a) →
    mrun L st as = some st' → MReach L guard st' := by
  induction as with
  | nil => intro st st' h _ hr; simp only [mrun, Option.some.injEq] at hr; exact hr ▸ h
  | cons a as ih =>
    intro st st' h hg hr
    simp only [mrun, Option.bind_eq_some_iff] at hr
    obtain ⟨s, h1, h2⟩ := hr
    refine ih s st' (h.step (hg [] a as st rfl rfl) h1) ?_ h2
    intro xs b ys s' he hx
    refine hg (a :: xs) b ys s' (by rw [he]; rfl) ?_
    simp only [mrun, h1, Option.bind_some]; exact hx

theorem mrun_all {L : Lis} {as : List MAct} {st' : MSt} (h : mrun L .init as = some st') : MReach L MAll st' :=
  mrun_reach as _ _ .init (fun _ _ _ _ _ _ => trivial) h

/-- Listeners whose id is their address. -/
def plain : Lis := { key := fun l => l, addr := fun l => l }

/-- The result of a run, for the examples: its trace (newest first) and whether it was possible. -/
def mtrace (L : Lis) (as : List MAct) : Option (List MEv) := (mrun L .init as).map (·.tr)

theorem of_mtrace {L : Lis} {as : List MAct} {tr : List MEv} (h : mtrace L as = some tr) :
    ∃ st, MReach L MAll st ∧ st.tr = tr ∧ mrun L .init as = some st := by
  simp only [mtrace, Option.map_eq_some_iff] at h
  obtain ⟨st, h1, h2⟩ := h
  exact ⟨st, mrun_all h1, h2, h1⟩

/-! ## Falsified -/

/-- Two overlapping `AddListener` calls for one address (listener 7) both succeed: the id has two registrations. -/
theorem C170_unique_false : ¬ ∀ (L : Lis) (st : MSt), MReach L MAll st → ∀ k r r', Live L st.tr r k → Live L st.tr r' k → r = r' := by
  intro h
  obtain ⟨st, h1, h2, _⟩ := of_mtrace (L := plain) (as := [.add 0 7, .add 1 7, .store 0, .store 1])
    (tr := [.added 1 7, .added 0 7]) (by decide +kernel)
  have := h plain st h1 7 0 1 ⟨⟨7, by rw [h2]; simp, rfl⟩, by rw [h2]; simp⟩ ⟨⟨7, by rw [h2]; simp, rfl⟩, by rw [h2]; simp⟩
  cases this

/-- A listener with an id of its own survives `Close`: the stored wrapper has no `ID()`, so `Close` looks for the
address and removes nothing. -/
theorem C170_closeId_false : ¬ ∀ (L : Lis) (st : MSt), MReach L Serial st → MEv.closed ∈ st.tr → ∀ r k, ¬ Live L st.tr r k := by
  intro h
  let L : Lis := { key := fun l => l + 100, addr := fun l => l }
  have hr : mrun L .init [.add 0 7, .store 0, .closeCall 0, .closeRemove 0, .closeChan 0, .closeEnd 0]
      = some { MSt.init with regs := [{ lid := 7, cancelled := false, gor := .accepting }], map := [(107, 0)]
                             chanClosed := true, closed := true, tr := [.closed, .added 0 7]
                             op := upd (upd (upd (upd (upd (upd (fun _ => .idle) 0 (.adding 7)) 0 .idle) 0 (.closing [7])) 0 (.closing [])) 0 .closingEnd) 0 .idle } := rfl
  refine h L _ (mrun_reach _ _ _ .init ?_ hr) (by simp) 0 107 ⟨⟨7, by simp, rfl⟩, by simp⟩
  intro xs a ys s he hs
  have hnil : ∀ (x : MAct) zs, [] ≠ x :: zs := by simp
  match xs, he with
  | [], he => cases he; cases hs; intro _ t'; simp [MSt.init, Op.busy]
  | [_], he => cases he; rintro ⟨t, ⟨l, h1⟩ | h1⟩ <;> cases h1
  | [_, _], he =>
    cases he; cases hs
    intro _ t'
    by_cases ht : t' = 0 <;> simp [upd, ht, Op.busy, MSt.init]
  | [_, _, _], he => cases he; rintro ⟨t, ⟨l, h1⟩ | h1⟩ <;> cases h1
  | [_, _, _, _], he => cases he; rintro ⟨t, ⟨l, h1⟩ | h1⟩ <;> cases h1
  | [_, _, _, _, _], he => cases he; rintro ⟨t, ⟨l, h1⟩ | h1⟩ <;> cases h1
  | _ :: _ :: _ :: _ :: _ :: _ :: _, he => simp at he

/-- An `AddListener` that overlaps `Close` leaves its listener registered after `Close` returned. -/
theorem C170_race_false : ¬ ∀ (st : MSt), MReach plain MAll st → MEv.closed ∈ st.tr → ∀ r k, ¬ Live plain st.tr r k := by
  intro h
  obtain ⟨st, h1, h2, _⟩ := of_mtrace (L := plain) (as := [.add 0 7, .closeCall 1, .store 0, .closeChan 1, .closeEnd 1])
    (tr := [.closed, .added 0 7]) (by decide +kernel)
  exact h st h1 (by rw [h2]; simp) 0 7 ⟨⟨7, by rw [h2]; simp, rfl⟩, by rw [h2]; simp⟩

/-- `Close` with a connection that a listener accepted but nobody has received yet: the listener's goroutine sends on
the closed channel and the process panics.  No two calls overlap. -/
theorem C170_panic_false : ¬ ∀ (st : MSt), MReach plain MAll st → MEv.panicked ∉ st.tr := by
  intro h
  obtain ⟨st, h1, h2, _⟩ := of_mtrace (L := plain)
    (as := [.add 0 7, .store 0, .incoming 0, .closeCall 0, .closeRemove 0, .closeChan 0, .send 0])
    (tr := [.panicked, .removed 0, .arrived 0 0, .added 0 7]) (by decide +kernel)
  exact h st h1 (by rw [h2]; simp)

/-- Two overlapping `Close` calls close the channel twice and panic. -/
theorem C170_doubleClose_false : ¬ ∀ (st : MSt), MReach plain MAll st → (∀ r l, MEv.added r l ∉ st.tr) → MEv.panicked ∉ st.tr := by
  intro h
  obtain ⟨st, h1, h2, _⟩ := of_mtrace (L := plain) (as := [.closeCall 0, .closeCall 1, .closeChan 0, .closeChan 1])
    (tr := [.panicked]) (by decide +kernel)
  exact h st h1 (by rw [h2]; simp) (by rw [h2]; simp)

/-- A connection that is in the channel when `Close` returns, with no `Accept` waiting, stays there: whatever happens
next, no `Accept` returns it (and nobody closes it). -/
theorem C170_lost_false : ∃ st, MReach plain MAll st ∧ MEv.closed ∈ st.tr ∧ MEv.arrived 0 0 ∈ st.tr
    ∧ ∀ as st', mrun plain st as = some st' → ∀ c r, MEv.returned c r ∉ st'.tr := by
  have hr : ∃ st, mrun plain .init [.add 0 7, .store 0, .incoming 0, .send 0, .closeCall 0, .closeRemove 0, .closeChan 0, .closeEnd 0]
      = some st := ⟨_, rfl⟩
  obtain ⟨st, hr⟩ := hr
  have h0 := hr
  cases h0
  refine ⟨_, mrun_all hr, by simp [MSt.init, MSt.del, MSt.lookup, plain], by simp [MSt.init, MSt.del, MSt.lookup, plain], ?_⟩
  have key : ∀ (as : List MAct) (s s' : MSt), (s.closed = true ∧ (∀ t, s.op t ≠ .accepting) ∧ ∀ c r, MEv.returned c r ∉ s.tr) →
      mrun plain s as = some s' → ∀ c r, MEv.returned c r ∉ s'.tr := by
    intro as
    induction as with
    | nil => intro s s' h hx; simp only [mrun, Option.some.injEq] at hx; exact hx ▸ h.2.2
    | cons a as ih =>
      intro s s' ⟨h1, h2, h3⟩ hx
      simp only [mrun, Option.bind_eq_some_iff] at hx
      obtain ⟨s1, hx1, hx2⟩ := hx
      refine ih s1 s' ?_ hx2
      have hu : ∀ (t : Nat) (o : Op), o ≠ .accepting → ∀ t', upd s.op t o t' ≠ .accepting := by
        intro t o ho t'
        unfold upd
        split
        · exact ho
        · exact h2 t'
      have hd : ∀ k, (∀ c r, MEv.returned c r ∉ (s.del k).tr) := by
        intro k
        unfold MSt.del
        split
        · exact h3
        · simpa using h3
      unfold mexec at hx1
      split at hx1
      · cases hx1
      · cases a with
        | remove l =>
          cases hx1
          obtain ⟨a1, _, a3, _⟩ := del_op s (plain.key l)
          exact ⟨a3.trans h1, by rw [a1]; exact h2, hd _⟩
        | closeRemove t =>
          simp only at hx1
          split at hx1
          · cases hx1
            rename_i l _ _
            obtain ⟨a1, _, a3, _⟩ := del_op s (plain.addr l)
            exact ⟨a3.trans h1, hu _ _ (by simp), hd _⟩
          · cases hx1
        | acceptRecv t =>
          simp only at hx1
          rw [if_neg (h2 t)] at hx1
          cases hx1
        | acceptCall t =>
          simp only [h1, if_true] at hx1
          split at hx1
          · cases hx1; exact ⟨rfl, h2, by simpa using h3⟩
          · cases hx1
        | _ =>
          simp only [h1, if_true] at hx1
          repeat' split at hx1
          all_goals first
            | (cases hx1; done)
            | (cases hx1; exact ⟨rfl, h2, by simpa using h3⟩)
            | (cases hx1; exact ⟨h1, h2, by simpa using h3⟩)
            | (cases hx1; exact ⟨h1, hu _ _ (by simp), by simpa using h3⟩)
            | (cases hx1; exact ⟨rfl, hu _ _ (by simp), by simpa using h3⟩)
  intro as st' hx
  refine key as _ st' ⟨rfl, ?_, ?_⟩ hx
  · intro t
    by_cases ht : t = 0 <;> simp [upd, ht, MSt.init]
  · simp [MSt.init, MSt.del, MSt.lookup, plain]

/-! ## Examples: the hypotheses are met -/

/-- Two listeners, two connections each returned once, one listener removed, the other still there. -/
example : mtrace plain
    [.add 0 7, .store 0, .add 0 8, .store 0, .add 1 7, .acceptCall 1, .incoming 0, .incoming 1, .send 1, .acceptRecv 1,
     .acceptCall 1, .send 0, .acceptRecv 1, .remove 7, .netClose 0, .stop 0, .add 0 7, .store 0]
    = some [.added 2 7, .netClosed 7, .removed 0, .returned 0 0, .returned 1 1, .arrived 1 1, .arrived 0 0, .dup 7,
            .added 1 8, .added 0 7] := by decide +kernel

/-- A serial run through `Close` (hypotheses of `C170_unique_partial`, `C170_close_partial`, `C170_nopanic_partial`): the
listener is removed, its goroutine ends, the connection is returned, then `Close`. -/
def closeRun : List MAct :=
  [.add 0 7, .store 0, .acceptCall 1, .incoming 0, .send 0, .acceptRecv 1, .remove 7, .netClose 0, .stop 0,
   .closeCall 0, .closeChan 0, .closeEnd 0]

example : mtrace plain closeRun = some [.closed, .netClosed 7, .removed 0, .returned 0 0, .arrived 0 0, .added 0 7] := by
  decide +kernel

example : ∃ st, MReach plain Drained st ∧ MEv.closed ∈ st.tr ∧ MEv.returned 0 0 ∈ st.tr := by
  obtain ⟨st, hr⟩ : ∃ st, mrun plain .init closeRun = some st := ⟨_, rfl⟩
  refine ⟨st, ?_, ?_, ?_⟩
  · refine mrun_reach _ _ _ .init ?_ hr
    have hnot : ∀ (s : MSt) (a : MAct), (∀ t l, a ≠ .add t l) → (∀ t, a ≠ .closeCall t) → Drained s a := by
      intro s a h1 h2
      refine ⟨?_, fun t h => absurd h (h2 t)⟩
      rintro ⟨t, ⟨l, h⟩ | h⟩
      · exact absurd h (h1 t l)
      · exact absurd h (h2 t)
    intro xs a ys s he hs
    match xs, he with
    | [], he =>
      cases he; cases hs
      refine ⟨fun _ t' => by simp [MSt.init, Op.busy], fun t h => by cases h⟩
    | [_, _, _, _, _, _, _, _, _], he =>
      cases he; cases hs
      refine ⟨?_, ?_⟩
      · intro _ t'
        by_cases h0 : t' = 0 <;> by_cases h1 : t' = 1 <;>
          simp [upd, h0, h1, Op.busy, MSt.init, MSt.del, MSt.lookup, plain]
      · intro _ _ r g hg
        have hg : [Reg.mk 7 true .gone][r]? = some g := hg
        cases r with
        | zero => simp at hg; rw [← hg]
        | succ r => simp at hg
    | [_], he => cases he; exact hnot _ _ (by simp) (by simp)
    | [_, _], he => cases he; exact hnot _ _ (by simp) (by simp)
    | [_, _, _], he => cases he; exact hnot _ _ (by simp) (by simp)
    | [_, _, _, _], he => cases he; exact hnot _ _ (by simp) (by simp)
    | [_, _, _, _, _], he => cases he; exact hnot _ _ (by simp) (by simp)
    | [_, _, _, _, _, _], he => cases he; exact hnot _ _ (by simp) (by simp)
    | [_, _, _, _, _, _, _], he => cases he; exact hnot _ _ (by simp) (by simp)
    | [_, _, _, _, _, _, _, _], he => cases he; exact hnot _ _ (by simp) (by simp)
    | [_, _, _, _, _, _, _, _, _, _], he => cases he; exact hnot _ _ (by simp) (by simp)
    | [_, _, _, _, _, _, _, _, _, _, _], he => cases he; exact hnot _ _ (by simp) (by simp)
    | _ :: _ :: _ :: _ :: _ :: _ :: _ :: _ :: _ :: _ :: _ :: _ :: _, he => simp [closeRun] at he
  · have : mtrace plain closeRun = some [.closed, .netClosed 7, .removed 0, .returned 0 0, .arrived 0 0, .added 0 7] := by
      decide +kernel
    simp only [mtrace, hr, Option.map_some, Option.some.injEq] at this
    rw [this]; simp
  · have : mtrace plain closeRun = some [.closed, .netClosed 7, .removed 0, .returned 0 0, .arrived 0 0, .added 0 7] := by
      decide +kernel
    simp only [mtrace, hr, Option.map_some, Option.some.injEq] at this
    rw [this]; simp

end Verif.Net
