import Verif.Props.ConnPoolUse
/-! # C40 continued: main theorem on usability, non-vacuity and counterexamples -/
namespace Verif.Pool
open Verif.Tunnel (upd)

theorem Calm.once {st a} (h : Calm st a) : CloseOnce st a := by
  cases a <;> first | exact h | trivial

theorem PReach.uinv {cap st} (h : PReach Calm cap st) : UInv st := by
  induction h with
  | init => exact UInv.init cap
  | step a hr ga hx ih =>
    obtain ⟨⟨loc, hl⟩, _⟩ := hr.inv (fun _ _ h => h.once)
    have hs := hl.sep
    have hc := hr.cinv
    cases a with
    | getLock i => exact ih.getLock hs hc ga hx
    | pruneRecv i => exact ih.pruneRecv hs hc ga hx
    | pruneBack i => exact ih.pruneBack hs hc ga hx
    | getUnlock i => exact ih.getUnlock hs hc ga hx
    | getRecv i ok => exact ih.getRecv hs hc ga hx
    | getAcq i => exact ih.getAcq hs hc ga hx
    | userClose i w f => exact ih.userClose hs hc ga hx
    | putLock i => exact ih.putLock hs hc ga hx
    | putSend i => exact ih.putSend hs hc ga hx
    | putRel i => exact ih.putRel hs hc ga hx
    | timerFire w => exact ih.timerFire hs hc ga hx
    | closeStart i => exact ih.closeStart hs hc ga hx
    | closeChan i => exact ih.closeChan hs hc ga hx
    | drain i e => exact ih.drain hs hc ga hx

/-- **C182** (partial: see `Calm`)  A connection in a caller's hands has not been closed by the
pool and has no deadline in the past, in every interleaving in which callers close once, idle
timers do not fire during a `Get`, and no `Get` receives between the send and the `Release` of
a `Put`.  The three `_false` theorems below show that each restriction is needed. -/
theorem C182_usable_partial {cap : Nat} {st : PSt} (h : PReach Calm cap st) : OutUsable st := by
  intro r hr
  obtain ⟨⟨loc, hl⟩, _⟩ := h.inv (fun _ _ h => h.once)
  obtain ⟨w, hw⟩ := (hl.out r).1 hr
  obtain ⟨h1, h2⟩ := hl.locOwn w r hw
  have := h.uinv.own w h1
  rw [h2] at this
  exact this

/-! ### Concrete runs -/

/-- Boolean guards used to certify concrete runs. -/
def onceB (st : PSt) : PAct → Bool
  | .userClose _ w _ => st.own w
  | _ => true

def prunG (gb : PSt → PAct → Bool) (st : PSt) : List PAct → Option PSt
  | [] => some st
  | a :: as => if gb st a then (pexec st a).bind fun st' => prunG gb st' as else none

theorem prunG_reach {g : PSt → PAct → Prop} {gb : PSt → PAct → Bool}
    (hgb : ∀ st a, gb st a = true → g st a) {cap} : ∀ {as st st'}, PReach g cap st →
      prunG gb st as = some st' → PReach g cap st'
  | [], _, _, h, hx => by injection hx with hx; exact hx ▸ h
  | a :: as, st, st', h, hx => by
    simp only [prunG] at hx
    split at hx
    · rename_i hg
      cases he : pexec st a with
      | none => rw [he] at hx; cases hx
      | some st1 =>
        rw [he] at hx
        exact prunG_reach hgb (.step a h (hgb _ _ hg) he) hx
    · cases hx

theorem onceB_ok (st : PSt) (a : PAct) (h : onceB st a = true) : CloseOnce st a := by
  cases a <;> first | exact h | trivial

/-- Sequential `Get` on an empty pool by goroutine `i`. -/
def runGetNew (i : Nat) : List PAct := [.getLock i, .getUnlock i, .getRecv i true]
/-- Sequential `Get` on a pool with one idle connection. -/
def runGetOld (i : Nat) : List PAct :=
  [.getLock i, .pruneRecv i, .pruneBack i, .getUnlock i, .getRecv i true, .getAcq i]
/-- Sequential `Close` of wrapper `w` with an empty pool. -/
def runPut (i w : Nat) : List PAct := [.userClose i w false, .putLock i, .putSend i, .putRel i]

/-- Non-vacuity: a connection is created, given back, and handed out again. -/
example : (prunG onceB (PSt.init 2) (runGetNew 0 ++ runPut 0 0 ++ runGetOld 1)).map (·.tr) =
    some [.handed 1 1 0, .back 0 0, .handed 0 0 0] := by decide +kernel

/-- Without `CloseOnce`: closing the same connection twice makes two callers share it. -/
def runTwice : List PAct :=
  runGetNew 0 ++ runPut 0 0 ++
  [.userClose 0 0 false, .putLock 0, .pruneRecv 0, .pruneBack 0, .putSend 0, .putRel 0] ++
  [.getLock 1, .pruneRecv 1, .pruneBack 1, .pruneRecv 1, .pruneBack 1, .getUnlock 1,
   .getRecv 1 true, .getAcq 1] ++ runGetOld 2

theorem C182_exclusive_false : ∃ st, PReach Anything 2 st ∧ ¬ Exclusive st.tr := by
  have hs : ((prunG (fun _ _ => true) (PSt.init 2) runTwice).map (·.tr)).isSome = true := by
    decide +kernel
  have ht : (prunG (fun _ _ => true) (PSt.init 2) runTwice).map (·.tr) =
      some [.handed 2 2 0, .handed 1 1 0, .back 0 0, .back 0 0, .handed 0 0 0] := by decide +kernel
  cases he : prunG (fun _ _ => true) (PSt.init 2) runTwice with
  | none => rw [he] at hs; cases hs
  | some st =>
    rw [he] at ht
    injection ht with ht
    refine ⟨st, prunG_reach (fun _ _ _ => trivial) .init he, ?_⟩
    intro hex
    have := hex [] _ 2 2 0 ht
    revert this
    decide

/-- The idle timer fires between the prune and the receive of a `Get`: a closed connection
is handed out. -/
def runTimer : List PAct :=
  runGetNew 0 ++ runPut 0 0 ++
  [.getLock 1, .pruneRecv 1, .pruneBack 1, .getUnlock 1, .timerFire 1, .getRecv 1 true, .getAcq 1]

theorem C182_usable_timer_false : ∃ st, PReach CloseOnce 2 st ∧
    ∃ r, outAfter st.tr r = true ∧ st.rclosed r = true := by
  have ht : (prunG onceB (PSt.init 2) runTimer).map (fun st => (outAfter st.tr 0, st.rclosed 0)) =
      some (true, true) := by decide +kernel
  cases he : prunG onceB (PSt.init 2) runTimer with
  | none => rw [he] at ht; cases ht
  | some st =>
    rw [he] at ht
    injection ht with ht
    injection ht with h1 h2
    exact ⟨st, prunG_reach onceB_ok .init he, 0, h1, h2⟩

/-- `Put` sends to the channel before `Release`: a `Get` that receives in between hands out a
connection whose deadline is then set to the past and whose idle timer is then armed. -/
def runRelease : List PAct :=
  runGetNew 0 ++ [.userClose 0 0 false, .getLock 1, .getUnlock 1, .putLock 0, .putSend 0,
    .getRecv 1 true, .getAcq 1, .putRel 0]

theorem C182_usable_release_false : ∃ st, PReach CloseOnce 2 st ∧ (∀ i, st.ths i = .idle) ∧
    ∃ w r, outAfter st.tr r = true ∧ st.raw w = r ∧ st.past r = true ∧ st.timer w = true := by
  have ht : (prunG onceB (PSt.init 2) runRelease).map
      (fun st => (outAfter st.tr 0, st.raw 1, st.past 0, st.timer 1)) =
      some (true, 0, true, true) := by decide +kernel
  have hi : ∀ i st, prunG onceB (PSt.init 2) runRelease = some st → st.ths i = .idle := by
    intro i st h
    injection h with h
    subst h
    show upd (upd _ _ _) _ _ i = _
    simp only [upd]
    split
    · rfl
    · split <;> (try rfl)
  cases he : prunG onceB (PSt.init 2) runRelease with
  | none => rw [he] at ht; cases ht
  | some st =>
    rw [he] at ht
    injection ht with ht
    simp only [Prod.mk.injEq] at ht
    exact ⟨st, prunG_reach onceB_ok .init he, fun i => hi i st he, 1, 0, ht.1, ht.2.1, ht.2.2.1,
      ht.2.2.2⟩

/-- `Close` returns at the first error and leaves the other idle connections open; a second
`Close` reports success without closing them. -/
def runDrain : List PAct :=
  runGetNew 0 ++ runGetNew 1 ++ runPut 0 0 ++
  [.userClose 1 1 false, .putLock 1, .pruneRecv 1, .pruneBack 1, .putSend 1, .putRel 1] ++
  [.closeStart 0, .closeChan 0, .drain 0 true, .closeStart 0]

theorem C182_close_leaks_false : ∃ st, PReach CloseOnce 2 st ∧
    st.tr.head? = some .closed ∧ outAfter st.tr 1 = false ∧ 1 < st.nextR ∧ st.rclosed 1 = false := by
  have ht : (prunG onceB (PSt.init 2) runDrain).map
      (fun st => (st.tr.head?, outAfter st.tr 1, decide (1 < st.nextR), st.rclosed 1)) =
      some (some .closed, false, true, false) := by decide +kernel
  cases he : prunG onceB (PSt.init 2) runDrain with
  | none => rw [he] at ht; cases ht
  | some st =>
    rw [he] at ht
    injection ht with ht
    simp only [Prod.mk.injEq, decide_eq_true_eq] at ht
    exact ⟨st, prunG_reach onceB_ok .init he, ht.1, ht.2.1, ht.2.2.1, ht.2.2.2⟩

/-- A `Get` stuck in the prune loop: it waits, with the mutex, for a connection that another
`Get` took. -/
structure Stuck (b : Nat) (st : PSt) : Prop where
  mu : st.mu = some b
  pc : ∃ n, st.ths b = .gPrune (n + 1)
  buf : st.buf = []
  mt : ∀ i, (st.ths i).locks = true ↔ st.mu = some i

theorem Stuck.step {b st st' a} (h : Stuck b st) (hx : pexec st a = some st') : Stuck b st' := by
  obtain ⟨h1, ⟨n, h2⟩, h3, h4⟩ := h
  have hl : ∀ i, i ≠ b → (st.ths i).locks = false := by
    intro i hi
    cases hh : (st.ths i).locks with
    | false => rfl
    | true => rw [(h4 i).1 hh] at h1; injection h1 with h1; exact absurd h1 hi
  cases a <;> simp only [pexec] at hx <;> (repeat' split at hx) <;>
    first
    | (cases hx; done)
    | (exfalso; grind [PTh.locks])
    | (injection hx with hx; subst hx; refine ⟨?_, ⟨n, ?_⟩, ?_, ?_⟩ <;> grind [upd, PTh.locks])
    | (injection hx with hx; subst hx; simp only [PSt.discard]; split <;>
        (refine ⟨?_, ⟨n, ?_⟩, ?_, ?_⟩ <;> grind [upd, PTh.locks]))

/-- Two `Get`s on a pool with one idle connection. -/
def runStuck : List PAct :=
  runGetNew 0 ++ runPut 0 0 ++
  [.getLock 1, .pruneRecv 1, .pruneBack 1, .getUnlock 1, .getLock 2, .getRecv 1 true, .getAcq 1]

/-- Two concurrent `Get`s can deadlock the pool for ever: the second one keeps the mutex and
never returns, whatever the callers do afterwards. -/
theorem C182_get_returns_false : ∃ st, PReach CloseOnce 2 st ∧ st.mu = some 2 ∧
    ∀ st', PRun Anything st st' → st'.mu = some 2 ∧ ∃ n, st'.ths 2 = .gPrune (n + 1) := by
  have ht : (prunG onceB (PSt.init 2) runStuck).map
      (fun st => (st.mu, st.ths 2, st.buf)) = some (some 2, .gPrune 1, []) := by decide +kernel
  cases he : prunG onceB (PSt.init 2) runStuck with
  | none => rw [he] at ht; cases ht
  | some st =>
    rw [he] at ht
    injection ht with ht
    simp only [Prod.mk.injEq] at ht
    have hr := prunG_reach onceB_ok .init he
    refine ⟨st, hr, ht.1, ?_⟩
    intro st' hrun
    have hs : Stuck 2 st' := by
      induction hrun with
      | refl => exact ⟨ht.1, ⟨0, ht.2.1⟩, ht.2.2, hr.cinv.muTh⟩
      | step a _ _ hx ih => exact ih.step hx
    exact ⟨hs.mu, hs.pc⟩

/-! Non-vacuity of `Calm`. -/

def PAct.thread : PAct → Nat
  | .getLock i | .pruneRecv i | .pruneBack i | .getUnlock i | .getRecv i _ | .getAcq i
  | .userClose i _ _ | .putLock i | .putSend i | .putRel i | .closeStart i | .closeChan i
  | .drain i _ => i
  | .timerFire _ => 0

def calmB (st : PSt) (a : PAct) : Bool :=
  decide (a.thread < 3) && match a with
  | .userClose _ w _ => st.own w
  | .timerFire _ => (List.range 3).all fun i => !(st.ths i).getting
  | .getRecv _ _ => (List.range 3).all fun i => match st.ths i with | .pRel _ => false | _ => true
  | _ => true

/-- Goroutines from 3 on are idle. -/
def Small (st : PSt) : Prop := ∀ i, 3 ≤ i → st.ths i = .idle

theorem Small.step {st st' a} (h : Small st) (ha : a.thread < 3) (hx : pexec st a = some st') :
    Small st' := by
  cases a <;> simp only [pexec] at hx <;> (repeat' split at hx) <;>
    first
    | (cases hx; done)
    | (injection hx with hx; subst hx; intro j hj; have := h j hj; grind [upd, PAct.thread])
    | (injection hx with hx; subst hx; intro j hj; have := h j hj; simp only [PSt.discard]; split <;> grind [upd, PAct.thread])

theorem calmB_ok {st a} (hs : Small st) (h : calmB st a = true) : Calm st a ∧ a.thread < 3 := by
  simp only [calmB, Bool.and_eq_true, decide_eq_true_eq] at h
  refine ⟨?_, h.1⟩
  have h2 := h.2
  cases a <;> first | exact h2 | trivial | skip
  · intro i w hi
    have h2 := List.all_eq_true.1 h2
    by_cases h3 : i < 3
    · have := h2 i (by simpa using h3)
      rw [hi] at this; cases this
    · rw [hs i (by omega)] at hi; cases hi
  · intro i
    have h2 := List.all_eq_true.1 h2
    by_cases h3 : i < 3
    · have := h2 i (by simpa using h3)
      cases hi : st.ths i <;> simp_all [PTh.getting]
    · rw [hs i (by omega)]; trivial

theorem prunCalm {cap} : ∀ {as st st'}, PReach Calm cap st → Small st →
      prunG calmB st as = some st' → PReach Calm cap st'
  | [], _, _, h, _, hx => by injection hx with hx; exact hx ▸ h
  | a :: as, st, st', h, hs, hx => by
    simp only [prunG] at hx
    split at hx
    · rename_i hg
      obtain ⟨h1, h2⟩ := calmB_ok hs hg
      cases he : pexec st a with
      | none => rw [he] at hx; cases hx
      | some st1 =>
        rw [he] at hx
        exact prunCalm (.step a h h1 he) (hs.step h2 he) hx
    · cases hx

/-- Non-vacuity of `C182_usable_partial`: connections are reused, a timer fires on an idle one,
and a connection is in a caller's hands. -/
example : ∃ st, PReach Calm 2 st ∧ outAfter st.tr 1 = true ∧ st.rclosed 0 = true := by
  have ht : (prunG calmB (PSt.init 2) (runGetNew 0 ++ runPut 0 0 ++ runGetOld 1 ++ runPut 1 1 ++
      [.timerFire 2] ++ [.getLock 0, .pruneRecv 0, .pruneBack 0, .getUnlock 0, .getRecv 0 true])).map
      (fun st => (outAfter st.tr 1, st.rclosed 0)) = some (true, true) := by decide +kernel
  match he : prunG calmB (PSt.init 2) (runGetNew 0 ++ runPut 0 0 ++ runGetOld 1 ++ runPut 1 1 ++
      [.timerFire 2] ++ [.getLock 0, .pruneRecv 0, .pruneBack 0, .getUnlock 0, .getRecv 0 true]) with
  | none => rw [he] at ht; cases ht
  | some st =>
    rw [he] at ht
    injection ht with ht
    simp only [Prod.mk.injEq] at ht
    exact ⟨st, prunCalm .init (fun _ _ => rfl) he, ht.1, ht.2⟩

end Verif.Pool
