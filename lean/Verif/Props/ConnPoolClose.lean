import Verif.Props.ConnPool
/-! # C40 continued: closing the pool, accounting, usability, and counterexamples -/
namespace Verif.Pool
open Verif.Tunnel (upd)

/-- Goroutines in the middle of moving pooled connections around. -/
def PTh.moving : PTh → Bool
  | .gHold _ _ | .pHold _ _ _ | .pRel _ | .gPrune (_ + 1) | .pPrune (_ + 1) _ => true
  | _ => false

/-- Goroutines inside `Close`. -/
def PTh.closing : PTh → Bool
  | .cChan | .cDrain => true
  | _ => false

structure CInv (st : PSt) : Prop where
  muTh : ∀ i, (st.ths i).locks = true ↔ st.mu = some i
  cl1 : ∀ i, (st.ths i).closing = true → st.isOpen = false
  cl2 : st.isOpen = false → ∀ i, (st.ths i).moving = false
  cl3 : .closed ∈ st.tr ∨ .closeErr ∈ st.tr → st.isOpen = false
  cl4 : st.isOpen = false → .closeErr ∈ st.tr ∨ st.buf = [] ∨ ∃ i, (st.ths i).closing = true

theorem moving_locks (t : PTh) : t.moving = true → t.locks = true := by
  cases t <;> simp [PTh.moving, PTh.locks]

theorem ex_closing (ths : Nat → PTh) (i : Nat) (x : PTh) (h : x.closing = true) :
    ∃ j, (upd ths i x j).closing = true := ⟨i, by simp [upd, h]⟩

set_option maxHeartbeats 400000 in
theorem CInv.step {st st' a} (h : CInv st) (hx : pexec st a = some st') : CInv st' := by
  obtain ⟨m, c1, c2, c3, c4⟩ := h
  cases a <;> simp only [pexec] at hx <;> (repeat' split at hx) <;>
    first
    | (cases hx; done)
    | (injection hx with hx; subst hx; simp only [PSt.discard]; split <;> constructor <;> try assumption)
    | (injection hx with hx; subst hx; constructor <;> try assumption)
  all_goals first
    | grind [upd, PTh.locks, PTh.moving, PTh.closing]
    | exact fun _ => .inr (.inr (ex_closing st.ths _ .cChan rfl))
    | (intro ho j
       change PTh.moving (upd _ _ _ j) = false
       simp only [upd]
       split
       · rfl
       · have := m j
         have := moving_locks (st.ths j)
         grind)
    | (intro ho
       rcases c4 ho with h | h | ⟨j, hj⟩
       · grind
       · grind
       · exact .inr (.inr ⟨j, by grind [upd, PTh.closing]⟩))
    | (intro ho j
       change PTh.moving (upd _ _ _ j) = false
       simp only [upd]
       split
       · rfl
       · exact c2 ho j)

theorem CInv.init (cap : Nat) : CInv (PSt.init cap) := by
  constructor <;> simp [PSt.init, PTh.locks, PTh.closing]

theorem PReach.cinv {g cap st} (h : PReach g cap st) : CInv st := by
  induction h with
  | init => exact CInv.init cap
  | step a _ _ hx ih => exact ih.step hx

theorem pexec_isOpen {st st' a} (hx : pexec st a = some st') (h : st.isOpen = false) :
    st'.isOpen = false := by
  cases a <;> simp only [pexec] at hx <;> (repeat' split at hx) <;>
    first
    | (cases hx; done)
    | (injection hx with hx; subst hx; exact h)
    | (injection hx with hx; subst hx; rfl)
    | (injection hx with hx; subst hx; simp only [PSt.discard]; split <;> exact h)

/-- Number of times a `Get` of goroutine `i` returned a connection. -/
def handedTo (i : Nat) (tr : List PEv) : Nat :=
  (tr.filter fun | .handed j _ _ => j == i | _ => false).length

/-- Program counters of a goroutine whose `Get` started on a closed pool. -/
def PTh.noGet : PTh → Bool
  | .gRecv true | .gAcq _ | .gHold _ _ => false
  | _ => true

theorem noGet_step {st st' a i} (h : st.isOpen = false) (hi : (st.ths i).noGet = true)
    (hc : CInv st) (hx : pexec st a = some st') :
    (st'.ths i).noGet = true ∧ handedTo i st'.tr = handedTo i st.tr := by
  have hm := hc.cl2 h i
  cases a <;> simp only [pexec] at hx <;> (repeat' split at hx) <;>
    first
    | (cases hx; done)
    | (injection hx with hx; subst hx
       refine ⟨?_, ?_⟩ <;> grind [upd, PTh.noGet, PTh.moving, handedTo])
    | (injection hx with hx; subst hx; simp only [PSt.discard]; split <;>
       (refine ⟨?_, ?_⟩ <;> grind [upd, PTh.noGet, PTh.moving, handedTo]))

/-- **C40** Once `Close` of the pool returned (with or without an error), a `Get` that is
called afterwards never returns a connection, whatever else happens. -/
theorem C40_get_after_close {cap : Nat} {st st' : PSt} {i : Nat} (h : PReach Anything cap st)
    (hc : .closed ∈ st.tr ∨ .closeErr ∈ st.tr) (hi : st.ths i = .idle)
    (hr : PRun Anything st st') : handedTo i st'.tr = handedTo i st.tr := by
  have ho := h.cinv.cl3 hc
  suffices hh : handedTo i st'.tr = handedTo i st.tr ∧ (st'.ths i).noGet = true
      ∧ st'.isOpen = false ∧ CInv st' from hh.1
  induction hr with
  | refl => exact ⟨rfl, by rw [hi]; rfl, ho, h.cinv⟩
  | step a _ _ hx ih =>
    obtain ⟨h1, h2, h3, h4⟩ := ih
    obtain ⟨h5, h6⟩ := noGet_step h3 h2 h4 hx
    exact ⟨h6.trans h1, h5, pexec_isOpen hx h3, h4.step hx⟩

/-- **C182** (partial: callers close at most once)  Every connection the pool ever created is
in a caller's hands, closed, idle in the pool, or being moved by an unfinished call. -/
theorem C182_accounted_partial {cap : Nat} {st : PSt} (h : PReach CloseOnce cap st) :
    Accounted st := by
  obtain ⟨⟨loc, hl⟩, _⟩ := h.inv (fun _ _ h => h)
  intro r hr
  cases hloc : loc r with
  | fresh => exact absurd ((hl.fresh r).2 hloc) (by omega)
  | user w => exact .inl ((hl.out r).2 ⟨w, hloc⟩)
  | th i =>
    refine .inr (.inr (.inr ⟨i, ?_⟩))
    intro hi
    have := hl.locTh i r hloc
    rw [hi] at this
    cases this
  | chan => exact .inr (.inr (.inl (hl.locBuf r hloc)))
  | gone => exact .inr (.inl (hl.gone r hloc))

/-- **C182** (partial: callers close at most once)  When `Close` has returned without an
error and no call is unfinished, every connection the pool ever created and that is not in a
caller's hands is closed: nothing leaks. -/
theorem C182_close_leaks_nothing_partial {cap : Nat} {st : PSt} (h : PReach CloseOnce cap st)
    (hc : .closed ∈ st.tr) (he : .closeErr ∉ st.tr) (hi : ∀ i, st.ths i = .idle) :
    ∀ r, r < st.nextR → outAfter st.tr r = false → st.rclosed r = true := by
  intro r hr ho
  have hb : st.buf = [] := by
    rcases h.cinv.cl4 (h.cinv.cl3 (.inl hc)) with h1 | h1 | ⟨i, h1⟩
    · exact absurd h1 he
    · exact h1
    · rw [hi i] at h1; cases h1
  rcases C182_accounted_partial h r hr with h1 | h1 | ⟨w, hw, _⟩ | ⟨i, h1⟩
  · rw [ho] at h1; cases h1
  · exact h1
  · rw [hb] at hw; cases hw
  · exact absurd (hi i) h1

end Verif.Pool
