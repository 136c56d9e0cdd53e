import Verif.Props.ConnPoolMain
/-! # C40 A connection that failed is never handed out again -/
namespace Verif.Pool
open Verif.Tunnel (upd)

/-- Further steps from a state. -/
inductive PSteps (g : PSt → PAct → Prop) (st0 : PSt) : PSt → Prop
  | refl : PSteps g st0 st0
  | step {st st' : PSt} (a : PAct) : PSteps g st0 st → g st a → pexec st a = some st' → PSteps g st0 st'

/-- No wrapper the pool or a caller can reach has connection `r`. -/
structure Lost (r : Nat) (st : PSt) : Prop where
  old : r < st.nextR
  buf : ∀ w ∈ st.buf, st.raw w ≠ r
  own : ∀ w, st.own w = true → st.raw w ≠ r
  th : ∀ i, r ∉ (st.ths i).holds st.raw

theorem Lost.discard {r st w} (h : Lost r st) : Lost r (st.discard w) := by
  unfold PSt.discard
  split
  · exact h
  · exact ⟨h.old, h.buf, h.own, h.th⟩

theorem Lost.step {r loc st st' a} (hl : Lost r st) (h : PInv loc st) (hg : CloseOnce st a)
    (hx : pexec st a = some st') :
    Lost r st' ∧ ∃ new, st'.tr = new ++ st.tr ∧ ∀ j w, PEv.handed j w r ∉ new := by
  obtain ⟨o, b, w0, t⟩ := hl
  have bW := h.bufW
  have oW := h.ownW
  have tW := h.thW
  cases a with
  | getLock i =>
    simp only [pexec] at hx
    split at hx
    · injection hx with hx; subst hx
      refine ⟨⟨o, b, w0, ?_⟩, [], rfl, by simp⟩
      grind [upd, PTh.holds]
    · cases hx
  | pruneRecv i =>
    simp only [pexec] at hx
    split at hx
    · rename_i h1 h2
      injection hx with hx; subst hx
      refine ⟨⟨o, ?_, w0, ?_⟩, [], rfl, by simp⟩ <;> grind [upd, PTh.holds]
    · rename_i h1 h2
      injection hx with hx; subst hx
      refine ⟨⟨o, ?_, w0, ?_⟩, [], rfl, by simp⟩ <;> grind [upd, PTh.holds]
    · cases hx
  | pruneBack i =>
    simp only [pexec] at hx
    split at hx
    · rename_i h1
      split at hx
      · injection hx with hx; subst hx
        refine ⟨⟨o, ?_, w0, ?_⟩, [], rfl, by simp⟩ <;> grind [upd, PTh.holds]
      · split at hx
        · injection hx with hx; subst hx
          have := t i
          refine ⟨⟨o, ?_, w0, ?_⟩, [], rfl, by simp⟩ <;> grind [upd, PTh.holds]
        · cases hx
    · rename_i h1
      split at hx
      · injection hx with hx; subst hx
        have := t i
        refine ⟨⟨o, ?_, w0, ?_⟩, [], rfl, by simp⟩ <;> grind [upd, PTh.holds]
      · split at hx
        · injection hx with hx; subst hx
          have := t i
          refine ⟨⟨o, ?_, w0, ?_⟩, [], rfl, by simp⟩ <;> grind [upd, PTh.holds]
        · cases hx
    · cases hx
  | getUnlock i =>
    simp only [pexec] at hx
    split at hx
    · injection hx with hx; subst hx
      refine ⟨⟨o, b, w0, ?_⟩, [], rfl, by simp⟩
      grind [upd, PTh.holds]
    · cases hx
  | getRecv i ok =>
    simp only [pexec] at hx
    split at hx
    · injection hx with hx; subst hx
      refine ⟨⟨o, b, w0, ?_⟩, [_], rfl, by simp⟩
      grind [upd, PTh.holds]
    · split at hx
      · rename_i h2
        injection hx with hx; subst hx
        refine ⟨⟨o, ?_, w0, ?_⟩, [], rfl, by simp⟩ <;> grind [upd, PTh.holds]
      · split at hx
        · injection hx with hx; subst hx
          refine ⟨⟨o, b, w0, ?_⟩, [_], rfl, by simp⟩
          grind [upd, PTh.holds]
        · split at hx
          · injection hx with hx; subst hx
            refine ⟨⟨Nat.lt_succ_of_lt o, ?_, ?_, ?_⟩, [_], rfl, ?_⟩
            · grind [upd]
            · grind [upd]
            · intro j
              have h1 := t j
              have h2 := tW j
              by_cases hj : j = i
              · simp [upd, hj, PTh.holds]
              · simp only [upd, if_neg hj]
                cases hs : st.ths j <;> simp only [hs, PTh.holds, PTh.wraps] at h1 h2 ⊢ <;> grind [upd]
            · intro j w' hm
              simp only [List.mem_singleton, PEv.handed.injEq] at hm
              omega
          · injection hx with hx; subst hx
            refine ⟨⟨o, b, w0, ?_⟩, [_], rfl, by simp⟩
            grind [upd, PTh.holds]
    · cases hx
  | getAcq i =>
    simp only [pexec] at hx
    split at hx
    · rename_i w h1
      injection hx with hx; subst hx
      have h2 : st.raw w ≠ r := by
        have := t i
        rw [h1] at this
        simp only [PTh.holds, List.mem_singleton] at this
        exact fun h => this h.symm
      refine ⟨⟨o, b, ?_, ?_⟩, [_], rfl, ?_⟩
      · grind [upd]
      · grind [upd, PTh.holds]
      · intro j w' hm
        simp only [List.mem_singleton, PEv.handed.injEq] at hm
        exact h2 hm.2.2.symm
    · cases hx
  | userClose i w failed =>
    simp only [CloseOnce] at hg
    simp only [pexec] at hx
    split at hx
    · split at hx
      · injection hx with hx; subst hx
        have hd := Lost.discard (w := w) ⟨o, b, w0, t⟩
        refine ⟨⟨hd.old, hd.buf, ?_, hd.th⟩, [_], rfl, by simp⟩
        have e1 : (st.discard w).raw = st.raw := by simp only [PSt.discard]; split <;> rfl
        intro x hx'
        show (st.discard w).raw x ≠ r
        rw [e1]
        apply w0
        simp only [upd] at hx'
        split at hx'
        · simp at hx'
        · exact hx'
      · injection hx with hx; subst hx
        refine ⟨⟨o, b, ?_, ?_⟩, [_], rfl, by simp⟩
        · grind [upd]
        · have := w0 w hg
          grind [upd, PTh.holds]
    · cases hx
  | putLock i =>
    simp only [pexec] at hx
    split at hx
    · rename_i h1 h2
      injection hx with hx; subst hx
      have := t i
      refine ⟨⟨o, b, w0, ?_⟩, [], rfl, by simp⟩
      grind [upd, PTh.holds]
    · cases hx
  | putSend i =>
    simp only [pexec] at hx
    split at hx
    · rename_i r' h1
      have h3 : r' ≠ r := by
        have := t i
        rw [h1] at this
        simp only [PTh.holds, List.mem_singleton] at this
        exact fun h => this h.symm
      split at hx
      · split at hx
        · injection hx with hx; subst hx
          refine ⟨⟨o, ?_, ?_, ?_⟩, [], rfl, by simp⟩
          · grind [upd]
          · grind [upd]
          · intro j
            have h1 := t j
            have h2 := tW j
            by_cases hj : j = i
            · simp [upd, hj, PTh.holds]
            · simp only [upd, if_neg hj]
              cases hs : st.ths j <;> simp only [hs, PTh.holds, PTh.wraps] at h1 h2 ⊢ <;> grind [upd]
        · injection hx with hx; subst hx
          refine ⟨⟨o, b, w0, ?_⟩, [], rfl, by simp⟩
          grind [upd, PTh.holds]
      · injection hx with hx; subst hx
        refine ⟨⟨o, b, w0, ?_⟩, [], rfl, by simp⟩
        grind [upd, PTh.holds]
    · cases hx
  | putRel i =>
    simp only [pexec] at hx
    split at hx
    · injection hx with hx; subst hx
      refine ⟨⟨o, b, w0, ?_⟩, [], rfl, by simp⟩
      grind [upd, PTh.holds]
    · cases hx
  | timerFire w =>
    simp only [pexec] at hx
    split at hx
    · injection hx with hx; subst hx
      refine ⟨Lost.discard ⟨o, b, w0, t⟩, [], ?_, by simp⟩
      simp only [PSt.discard]; split <;> rfl
    · cases hx
  | closeStart i =>
    simp only [pexec] at hx
    split at hx
    · split at hx
      · split at hx
        · injection hx with hx; subst hx
          refine ⟨⟨o, b, w0, ?_⟩, [], rfl, by simp⟩
          grind [upd, PTh.holds]
        · cases hx
      · injection hx with hx; subst hx
        exact ⟨⟨o, b, w0, t⟩, [_], rfl, by simp⟩
    · cases hx
  | closeChan i =>
    simp only [pexec] at hx
    split at hx
    · injection hx with hx; subst hx
      refine ⟨⟨o, b, w0, ?_⟩, [], rfl, by simp⟩
      grind [upd, PTh.holds]
    · cases hx
  | drain i err =>
    simp only [pexec] at hx
    split at hx
    · rename_i w rest h1 h2
      have hb : Lost r { st with buf := rest } := ⟨o, fun x hx => b x (by rw [h2]; simp [hx]), w0, t⟩
      split at hx
      · injection hx with hx; subst hx
        have hd := hb.discard (w := w)
        refine ⟨⟨hd.old, hd.buf, hd.own, ?_⟩, [_], rfl, by simp⟩
        intro j
        have := hd.th j
        have e : (PSt.discard { st with buf := rest } w).ths = st.ths := by simp only [PSt.discard]; split <;> rfl
        simp only [upd]
        split
        · simp [PTh.holds]
        · rw [e] at this; exact this
      · injection hx with hx; subst hx
        refine ⟨hb.discard, [], ?_, by simp⟩
        simp only [PSt.discard]; split <;> rfl
    · injection hx with hx; subst hx
      refine ⟨⟨o, b, w0, ?_⟩, [_], rfl, by simp⟩
      grind [upd, PTh.holds]
    · cases hx

/-- **C182** (partial: callers close a connection they got at most once).  A connection on which a read or write failed is
closed when its caller closes it, and is never handed out again, whatever happens afterwards. -/
theorem C182_failed_not_reused_partial {cap : Nat} {st st1 st2 : PSt} {i w : Nat} (h : PReach CloseOnce cap st)
    (hw : CloseOnce st (.userClose i w true)) (hx : pexec st (.userClose i w true) = some st1)
    (h2 : PSteps CloseOnce st1 st2) :
    st1.rclosed (st.raw w) = true ∧
      ∃ new, st2.tr = new ++ st1.tr ∧ ∀ j w', PEv.handed j w' (st.raw w) ∉ new := by
  obtain ⟨⟨loc, hl⟩, hcap⟩ := h.inv (fun _ _ h => h)
  have h1 : PReach CloseOnce cap st1 := .step _ h hw hx
  have hw' : st.own w = true := hw
  have hloc := hl.ownLoc w hw'
  have e : st1 = { st.discard w with own := upd st.own w false, tr := .back w (st.raw w) :: st.tr } := by
    simp only [pexec] at hx
    split at hx
    · simp only [if_true] at hx
      injection hx with hx; exact hx.symm
    · cases hx
  have hraw : (st.discard w).raw = st.raw := by simp only [PSt.discard]; split <;> rfl
  have hbuf : (st.discard w).buf = st.buf := by simp only [PSt.discard]; split <;> rfl
  have hths : (st.discard w).ths = st.ths := by simp only [PSt.discard]; split <;> rfl
  have hnr : (st.discard w).nextR = st.nextR := by simp only [PSt.discard]; split <;> rfl
  have hrc : st1.rclosed (st.raw w) = true := by
    rw [e]
    show (st.discard w).rclosed (st.raw w) = true
    unfold PSt.discard
    split
    · rename_i hc; exact (hl.wcl w hc).2
    · simp [upd]
  have hlost : Lost (st.raw w) st1 := by
    rw [e]
    refine ⟨?_, ?_, ?_, ?_⟩
    · show st.raw w < (st.discard w).nextR
      rw [hnr]
      apply Nat.lt_of_not_le
      intro hge
      rw [(hl.fresh _).mp hge] at hloc
      simp at hloc
    · show ∀ x ∈ (st.discard w).buf, (st.discard w).raw x ≠ st.raw w
      rw [hraw, hbuf]
      intro x hx he
      have := hl.bufLoc x hx
      rw [he, hloc] at this
      simp at this
    · show ∀ x, upd st.own w false x = true → (st.discard w).raw x ≠ st.raw w
      rw [hraw]
      intro x hx he
      simp only [upd] at hx
      split at hx
      · simp at hx
      · rename_i hxw
        have := hl.ownLoc x hx
        rw [he, hloc] at this
        simp only [Loc.user.injEq] at this
        exact hxw this.symm
    · show ∀ j, st.raw w ∉ ((st.discard w).ths j).holds (st.discard w).raw
      rw [hraw, hths]
      intro j hj
      have := hl.thLoc j _ hj
      rw [hloc] at this
      simp at this
  refine ⟨hrc, ?_⟩
  have key : Lost (st.raw w) st2 ∧ PReach CloseOnce cap st2 ∧
      ∃ new, st2.tr = new ++ st1.tr ∧ ∀ j w', PEv.handed j w' (st.raw w) ∉ new := by
    induction h2 with
    | refl => exact ⟨hlost, h1, [], rfl, by simp⟩
    | step a _ hg hx' ih =>
      obtain ⟨i1, i2, new, i3, i4⟩ := ih
      obtain ⟨⟨loc', hl'⟩, _⟩ := i2.inv (fun _ _ h => h)
      obtain ⟨j1, new', j2, j3⟩ := i1.step hl' hg hx'
      refine ⟨j1, .step a i2 hg hx', new' ++ new, by rw [j2, i3, List.append_assoc], ?_⟩
      intro j w' hm
      rcases List.mem_append.mp hm with hm | hm
      · exact j3 j w' hm
      · exact i4 j w' hm
  exact key.2.2

/-! non-vacuity: a connection fails, another `Get` follows -/
example : ∃ st st1 st2, PReach CloseOnce 2 st ∧ CloseOnce st (.userClose 0 0 true) ∧
    pexec st (.userClose 0 0 true) = some st1 ∧ PSteps CloseOnce st1 st2 ∧ PEv.handed 0 1 1 ∈ st2.tr := by
  refine ⟨_, _, _, .step (.getRecv 0 true) (.step (.getUnlock 0) (.step (.getLock 0) .init trivial rfl) trivial rfl)
    trivial rfl, rfl, rfl,
    .step (.getRecv 0 true) (.step (.getUnlock 0) (.step (.getLock 0) .refl trivial rfl) trivial rfl) trivial rfl, ?_⟩
  decide

/-- Guard: closing an idle connection never reports an error. -/
def CleanDrain (_ : PSt) : PAct → Prop
  | .drain _ err => err = false
  | _ => True

/-- **C40** `Close` of the pool fails only if closing one of its connections failed. -/
theorem C40_close_succeeds {cap : Nat} {st : PSt} (h : PReach CleanDrain cap st) :
    PEv.closeErr ∉ st.tr := by
  induction h with
  | init => simp [PSt.init]
  | step a _ hg hx ih =>
    cases a <;> simp only [pexec] at hx <;> (repeat' split at hx) <;>
      first
      | (cases hx; done)
      | (injection hx with hx; subst hx; simp only [PSt.discard]; split <;> grind [CleanDrain])
      | (injection hx with hx; subst hx; grind [CleanDrain])

/-- Non-vacuity: `Close` of a pool with an idle connection, all of whose closes succeed. -/
example : (prunG (fun _ a => match a with | .drain _ e => !e | _ => true) (PSt.init 2)
    (runGetNew 0 ++ runPut 0 0 ++ [.closeStart 1, .closeChan 1, .drain 1 false, .drain 1 false])).map
      (fun st => (st.tr, st.rclosed 0)) = some ([.closed, .back 0 0, .handed 0 0 0], true) := by decide +kernel

end Verif.Pool
