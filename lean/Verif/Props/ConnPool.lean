import Verif.Pool.Channel
/-! # C40 The connection pool never shares or leaks connections -/
namespace Verif.Pool
open Verif.Tunnel (upd)

/-- Where a connection is. -/
inductive Loc
  | fresh | user (w : Nat) | th (i : Nat) | chan | gone
deriving DecidableEq

/-- Connections in the hands of a goroutine of the pool. -/
def PTh.holds (raw : Nat → Nat) : PTh → List Nat
  | .gHold _ w => [raw w]
  | .gAcq w => [raw w]
  | .pWait r => [r]
  | .pPrune _ r => [r]
  | .pHold _ w r => [raw w, r]
  | _ => []

/-- Wrappers a goroutine refers to. -/
def PTh.wraps : PTh → List Nat
  | .gHold _ w => [w]
  | .gAcq w => [w]
  | .pHold _ w _ => [w]
  | .pRel w => [w]
  | _ => []

/-- Goroutines holding the mutex. -/
def PTh.locks : PTh → Bool
  | .gPrune _ | .gHold _ _ | .pPrune _ _ | .pHold _ _ _ | .pRel _ => true
  | _ => false

/-- Wrappers received by `removeClosedConnections` and not sent back yet. -/
def PTh.pruning : PTh → Nat
  | .gHold _ _ | .pHold _ _ _ => 1
  | _ => 0

/-- Events that move no connection. -/
def PEv.neutral : PEv → Bool
  | .handed _ _ _ | .back _ _ => false
  | _ => true

structure PInv (loc : Nat → Loc) (st : PSt) : Prop where
  fresh : ∀ r, st.nextR ≤ r ↔ loc r = .fresh
  bufLoc : ∀ w ∈ st.buf, loc (st.raw w) = .chan
  bufNd : (st.buf.map st.raw).Nodup
  locBuf : ∀ r, loc r = .chan → ∃ w ∈ st.buf, st.raw w = r
  ownLoc : ∀ w, st.own w = true → loc (st.raw w) = .user w
  locOwn : ∀ w r, loc r = .user w → st.own w = true ∧ st.raw w = r
  thLoc : ∀ i r, r ∈ (st.ths i).holds st.raw → loc r = .th i
  thNd : ∀ i, ((st.ths i).holds st.raw).Nodup
  locTh : ∀ i r, loc r = .th i → r ∈ (st.ths i).holds st.raw
  gone : ∀ r, loc r = .gone → st.rclosed r = true
  bufW : ∀ w ∈ st.buf, w < st.nextW
  ownW : ∀ w, st.own w = true → w < st.nextW
  thW : ∀ i, ∀ w ∈ (st.ths i).wraps, w < st.nextW
  out : ∀ r, outAfter st.tr r = true ↔ ∃ w, loc r = .user w
  wcl : ∀ w, st.wclosed w = true → w < st.nextW ∧ st.rclosed (st.raw w) = true
  tmr : ∀ w, st.timer w = true → w < st.nextW
  excl : Exclusive st.tr
  muTh : ∀ i, (st.ths i).locks = true ↔ st.mu = some i
  capB : st.buf.length + (match st.mu with | some i => (st.ths i).pruning | none => 0) ≤ st.cap

theorem PInv.getLock {loc st st' i} (h : PInv loc st) (hx : pexec st (.getLock i) = some st') :
    PInv loc st' := by
  simp only [pexec] at hx
  split at hx
  · injection hx with hx; subst hx
    rename_i h1 h2
    obtain ⟨a, b, c, d, e, f, g, hh, k, l, m, n, o, p, wc, tm, q, r, s⟩ := h
    constructor <;> try assumption
    all_goals grind [upd, PTh.holds, PTh.wraps, PTh.locks, PTh.pruning]
  · cases hx


theorem Exclusive.cons {e : PEv} {tr : List PEv} (h : Exclusive tr)
    (he : ∀ i w r, e = .handed i w r → outAfter tr r = false) : Exclusive (e :: tr) := by
  intro h1 h2 i w r heq
  cases h1 with
  | nil =>
    simp only [List.nil_append, List.cons.injEq] at heq
    obtain ⟨a, b⟩ := heq
    subst b
    exact he i w r a
  | cons x h1 =>
    simp only [List.cons_append, List.cons.injEq] at heq
    exact h h1 h2 i w r heq.2

theorem PInv.pruneRecv {loc st st' i} (h : PInv loc st) (hx : pexec st (.pruneRecv i) = some st') :
    ∃ loc', PInv loc' st' := by
  simp only [pexec] at hx
  split at hx
  · rename_i n w rest h1 h2
    injection hx with hx; subst hx
    refine ⟨fun r => if r = st.raw w then .th i else loc r, ?_⟩
    obtain ⟨a, b, c, d, e, f, g, hh, k, l, m, n, o, p, wc, tm, q, r, s⟩ := h
    rw [h2] at b c d m s
    constructor <;> try assumption
    all_goals grind [upd, PTh.holds, PTh.wraps, PTh.locks, PTh.pruning]
  · rename_i n r0 w rest h1 h2
    injection hx with hx; subst hx
    refine ⟨fun r => if r = st.raw w then .th i else loc r, ?_⟩
    obtain ⟨a, b, c, d, e, f, g, hh, k, l, m, n, o, p, wc, tm, q, r, s⟩ := h
    rw [h2] at b c d m s
    constructor <;> try assumption
    all_goals grind [upd, PTh.holds, PTh.wraps, PTh.locks, PTh.pruning]
  · cases hx

theorem PInv.pruneBack {loc st st' i} (h : PInv loc st) (hx : pexec st (.pruneBack i) = some st') :
    ∃ loc', PInv loc' st' := by
  simp only [pexec] at hx
  split at hx
  · rename_i n0 w h1
    split at hx
    · rename_i hw
      injection hx with hx; subst hx
      refine ⟨fun r => if r = st.raw w then .gone else loc r, ?_⟩
      obtain ⟨a, b, c, d, e, f, g, hh, k, l, m, n, o, p, wc, tm, q, r, s⟩ := h
      have hr : loc (st.raw w) = .th i := g i _ (by rw [h1]; simp [PTh.holds])
      constructor <;> try assumption
      all_goals grind [upd, PTh.holds, PTh.wraps, PTh.locks, PTh.pruning, outAfter]
    · split at hx
      · rename_i hw hc
        injection hx with hx; subst hx
        refine ⟨fun r => if r = st.raw w then .chan else loc r, ?_⟩
        obtain ⟨a, b, c, d, e, f, g, hh, k, l, m, n, o, p, wc, tm, q, r, s⟩ := h
        have hr : loc (st.raw w) = .th i := g i _ (by rw [h1]; simp [PTh.holds])
        constructor <;> try assumption
        all_goals grind [upd, PTh.holds, PTh.wraps, PTh.locks, PTh.pruning, outAfter]
      · cases hx
  · rename_i n0 w r0 h1
    split at hx
    · rename_i hw
      injection hx with hx; subst hx
      refine ⟨fun r => if r = st.raw w then .gone else loc r, ?_⟩
      obtain ⟨a, b, c, d, e, f, g, hh, k, l, m, n, o, p, wc, tm, q, r, s⟩ := h
      have hr : loc (st.raw w) = .th i := g i _ (by rw [h1]; simp [PTh.holds])
      constructor <;> try assumption
      all_goals grind [upd, PTh.holds, PTh.wraps, PTh.locks, PTh.pruning, outAfter]
    · split at hx
      · rename_i hw hc
        injection hx with hx; subst hx
        refine ⟨fun r => if r = st.raw w then .chan else loc r, ?_⟩
        obtain ⟨a, b, c, d, e, f, g, hh, k, l, m, n, o, p, wc, tm, q, r, s⟩ := h
        have hr : loc (st.raw w) = .th i := g i _ (by rw [h1]; simp [PTh.holds])
        constructor <;> try assumption
        all_goals grind [upd, PTh.holds, PTh.wraps, PTh.locks, PTh.pruning, outAfter]
      · cases hx
  · cases hx

theorem PInv.getUnlock {loc st st' i} (h : PInv loc st) (hx : pexec st (.getUnlock i) = some st') :
    ∃ loc', PInv loc' st' := by
  simp only [pexec] at hx
  split at hx
  · rename_i h1
    injection hx with hx; subst hx
    refine ⟨loc, ?_⟩
    obtain ⟨a, b, c, d, e, f, g, hh, k, l, m, n, o, p, wc, tm, q, r, s⟩ := h
    constructor <;> try assumption
    all_goals grind [upd, PTh.holds, PTh.wraps, PTh.locks, PTh.pruning, outAfter]
  · cases hx

/-- Allocating a fresh wrapper for connection `r`. -/
theorem PInv.alloc {loc st} (h : PInv loc st) (r : Nat) :
    PInv loc { st with raw := upd st.raw st.nextW r, nextW := st.nextW + 1 } := by
  obtain ⟨a, b, c, d, e, f, g, hh, k, l, m, n, o, p, wc, tm, q, r', s⟩ := h
  have hraw : ∀ w, w < st.nextW → upd st.raw st.nextW r w = st.raw w := by
    intro w hw; simp only [upd]; rw [if_neg (by omega)]
  have hholds : ∀ i, (st.ths i).holds (upd st.raw st.nextW r) = (st.ths i).holds st.raw := by
    intro i
    have := o i
    cases hi : st.ths i <;> simp only [hi, PTh.wraps, PTh.holds] at this ⊢ <;>
      rw [hraw _ (this _ (by simp))]
  have hmap : st.buf.map (upd st.raw st.nextW r) = st.buf.map st.raw :=
    List.map_congr_left (fun w hw => hraw w (m w hw))
  constructor <;> try assumption
  · intro w hw; show loc (upd st.raw st.nextW r w) = _; rw [hraw w (m w hw)]; exact b w hw
  · show (st.buf.map (upd st.raw st.nextW r)).Nodup; rw [hmap]; exact c
  · intro x hx; obtain ⟨w, hw, he⟩ := d x hx
    exact ⟨w, hw, by show upd st.raw st.nextW r w = _; rw [hraw w (m w hw)]; exact he⟩
  · intro w hw; show loc (upd st.raw st.nextW r w) = _; rw [hraw w (n w hw)]; exact e w hw
  · intro w x hx; obtain ⟨h1, h2⟩ := f w x hx
    exact ⟨h1, by show upd st.raw st.nextW r w = _; rw [hraw w (n w h1)]; exact h2⟩
  · intro i x hx; change x ∈ (st.ths i).holds (upd st.raw st.nextW r) at hx
    rw [hholds] at hx; exact g i x hx
  · intro i; show ((st.ths i).holds (upd st.raw st.nextW r)).Nodup; rw [hholds]; exact hh i
  · intro i x hx; show x ∈ (st.ths i).holds (upd st.raw st.nextW r); rw [hholds]; exact k i x hx
  · intro w hw; exact Nat.lt_succ_of_lt (m w hw)
  · intro w hw; exact Nat.lt_succ_of_lt (n w hw)
  · intro i w hw; exact Nat.lt_succ_of_lt (o i w hw)
  · intro w hw
    refine ⟨Nat.lt_succ_of_lt (wc w hw).1, ?_⟩
    show st.rclosed (upd st.raw st.nextW r w) = _
    rw [hraw w (wc w hw).1]; exact (wc w hw).2
  · intro w hw; exact Nat.lt_succ_of_lt (tm w hw)

/-- A goroutine that holds nothing becomes idle, with a neutral event. -/
theorem PInv.neutral {loc st i} {e : PEv} (h : PInv loc st) (h1 : (st.ths i).locks = false)
    (h2 : (st.ths i).holds st.raw = []) (he : e.neutral = true) :
    PInv loc { st with ths := upd st.ths i .idle, tr := e :: st.tr } := by
  obtain ⟨a, b, c, d, e', f, g, hh, k, l, m, n, o, p, wc, tm, q, r, s⟩ := h
  have hq := q.cons (e := e) (by intro _ _ _ h; subst h; cases he)
  have ho : ∀ r, outAfter (e :: st.tr) r = outAfter st.tr r := by
    intro r; cases e <;> first | rfl | cases he
  constructor <;> try assumption
  all_goals grind [upd, PTh.holds, PTh.wraps, PTh.locks, PTh.pruning]

theorem PInv.getRecvNew {loc st i} (h : PInv loc st) (h1 : st.ths i = .gRecv true) :
    ∃ loc', PInv loc' { st with
            raw := upd st.raw st.nextW st.nextR, own := upd st.own st.nextW true
            nextW := st.nextW + 1, nextR := st.nextR + 1
            ths := upd st.ths i .idle, tr := .handed i st.nextW st.nextR :: st.tr } := by
  have ha := h.alloc st.nextR
  have hb : st.nextW ∉ st.buf := fun hm => absurd (h.bufW _ hm) (Nat.lt_irrefl _)
  have ho : st.own st.nextW = false := by
    cases hc : st.own st.nextW with
    | false => rfl
    | true => exact absurd (h.ownW _ hc) (Nat.lt_irrefl _)
  have hr : upd st.raw st.nextW st.nextR st.nextW = st.nextR := by simp [upd]
  obtain ⟨a, b, c, d, e, f, g, hh, k, l, m, n, o, p, wc, tm, q, r, s⟩ := ha
  dsimp only at a b c d e f g hh k l m n o p wc tm q r s
  clear h
  generalize upd st.raw st.nextW st.nextR = raw at *
  refine ⟨fun r => if r = st.nextR then .user st.nextW else loc r, ?_⟩
  have hf : loc st.nextR = .fresh := (a _).1 (Nat.le_refl _)
  have hq := q.cons (e := .handed i st.nextW st.nextR) (by
    intro i' w' r' he
    injection he with _ _ he
    subst he
    cases hz : outAfter st.tr st.nextR with
    | false => rfl
    | true => obtain ⟨w, hw⟩ := (p _).1 hz; rw [hf] at hw; cases hw)
  constructor <;> try assumption
  all_goals grind [upd, PTh.holds, PTh.wraps, PTh.locks, PTh.pruning, outAfter]

theorem PInv.getRecv {loc st st' i ok} (h : PInv loc st) (hx : pexec st (.getRecv i ok) = some st') :
    ∃ loc', PInv loc' st' := by
  simp only [pexec] at hx
  split at hx
  · rename_i h1
    injection hx with hx; subst hx
    exact ⟨loc, h.neutral (by rw [h1]; rfl) (by rw [h1]; rfl) rfl⟩
  · rename_i h1
    split at hx
    · rename_i w rest h2
      injection hx with hx; subst hx
      refine ⟨fun r => if r = st.raw w then .th i else loc r, ?_⟩
      obtain ⟨a, b, c, d, e, f, g, hh, k, l, m, n, o, p, wc, tm, q, r, s⟩ := h
      rw [h2] at b c d m s
      constructor <;> try assumption
      all_goals grind [upd, PTh.holds, PTh.wraps, PTh.locks, PTh.pruning]
    · rename_i h2
      split at hx
      · injection hx with hx; subst hx
        exact ⟨loc, h.neutral (by rw [h1]; rfl) (by rw [h1]; rfl) rfl⟩
      · split at hx
        · injection hx with hx; subst hx
          exact h.getRecvNew h1
        · injection hx with hx; subst hx
          exact ⟨loc, h.neutral (by rw [h1]; rfl) (by rw [h1]; rfl) rfl⟩
  · cases hx

theorem PInv.getAcq {loc st st' i} (h : PInv loc st) (hx : pexec st (.getAcq i) = some st') :
    ∃ loc', PInv loc' st' := by
  simp only [pexec] at hx
  split at hx
  · rename_i w h1
    injection hx with hx; subst hx
    refine ⟨fun r => if r = st.raw w then .user w else loc r, ?_⟩
    obtain ⟨a, b, c, d, e, f, g, hh, k, l, m, n, o, p, wc, tm, q, r, s⟩ := h
    have hr : loc (st.raw w) = .th i := g i _ (by rw [h1]; simp [PTh.holds])
    have hq := q.cons (e := .handed i w (st.raw w)) (by grind)
    constructor <;> try assumption
    all_goals grind [upd, PTh.holds, PTh.wraps, PTh.locks, PTh.pruning, outAfter]
  · cases hx

theorem PInv.userClose {loc st st' i w failed} (h : PInv loc st) (hg : st.own w = true) (hx : pexec st (.userClose i w failed) = some st') :
    ∃ loc', PInv loc' st' := by
  simp only [pexec] at hx
  split at hx
  · rename_i h1
    split at hx
    · rename_i hf
      injection hx with hx; subst hx
      refine ⟨fun r => if r = st.raw w then .gone else loc r, ?_⟩
      obtain ⟨a, b, c, d, e, f, g, hh, k, l, m, n, o, p, wc, tm, q, r, s⟩ := h
      have hr : loc (st.raw w) = .user w := e w hg
      have hq := q.cons (e := .back w (st.raw w)) (by intro _ _ _ h; cases h)
      simp only [PSt.discard]
      split
      all_goals constructor <;> try assumption
      all_goals grind [upd, PTh.holds, PTh.wraps, PTh.locks, PTh.pruning, outAfter]
    · rename_i hf
      injection hx with hx; subst hx
      refine ⟨fun r => if r = st.raw w then .th i else loc r, ?_⟩
      obtain ⟨a, b, c, d, e, f, g, hh, k, l, m, n, o, p, wc, tm, q, r, s⟩ := h
      have hr : loc (st.raw w) = .user w := e w hg
      have hq := q.cons (e := .back w (st.raw w)) (by intro _ _ _ h; cases h)
      constructor <;> try assumption
      all_goals grind [upd, PTh.holds, PTh.wraps, PTh.locks, PTh.pruning, outAfter]
  · cases hx

theorem PInv.putLock {loc st st' i} (h : PInv loc st) (hx : pexec st (.putLock i) = some st') :
    ∃ loc', PInv loc' st' := by
  simp only [pexec] at hx
  split at hx
  · rename_i r0 h1 h2
    injection hx with hx; subst hx
    refine ⟨loc, ?_⟩
    obtain ⟨a, b, c, d, e, f, g, hh, k, l, m, n, o, p, wc, tm, q, r, s⟩ := h
    constructor <;> try assumption
    all_goals grind [upd, PTh.holds, PTh.wraps, PTh.locks, PTh.pruning, outAfter]
  · cases hx

theorem PInv.putSendOk {loc st i r0} (h : PInv loc st) (h1 : st.ths i = .pPrune 0 r0)
    (hc : st.buf.length < st.cap) :
    ∃ loc', PInv loc' { st with
            raw := upd st.raw st.nextW r0, nextW := st.nextW + 1
            buf := st.buf ++ [st.nextW], ths := upd st.ths i (.pRel st.nextW) } := by
  have ha := h.alloc r0
  have hb : st.nextW ∉ st.buf := fun hm => absurd (h.bufW _ hm) (Nat.lt_irrefl _)
  have ho : st.own st.nextW = false := by
    cases hc : st.own st.nextW with
    | false => rfl
    | true => exact absurd (h.ownW _ hc) (Nat.lt_irrefl _)
  have hr0 : upd st.raw st.nextW r0 st.nextW = r0 := by simp [upd]
  obtain ⟨a, b, c, d, e, f, g, hh, k, l, m, n, o, p, wc, tm, q, r, s⟩ := ha
  dsimp only at a b c d e f g hh k l m n o p wc tm q r s
  clear h
  generalize upd st.raw st.nextW r0 = raw at *
  have hr : loc r0 = .th i := g i _ (by rw [h1]; simp [PTh.holds])
  refine ⟨fun r => if r = r0 then .chan else loc r, ?_⟩
  constructor <;> try assumption
  all_goals grind [upd, PTh.holds, PTh.wraps, PTh.locks, PTh.pruning]

set_option maxHeartbeats 400000 in
theorem PInv.putSend {loc st st' i} (h : PInv loc st) (hx : pexec st (.putSend i) = some st') :
    ∃ loc', PInv loc' st' := by
  simp only [pexec] at hx
  split at hx
  · rename_i r0 h1
    split at hx
    · split at hx
      · rename_i ho hc
        injection hx with hx; subst hx
        exact h.putSendOk h1 hc
      · rename_i ho hc
        injection hx with hx; subst hx
        refine ⟨fun r => if r = r0 then .gone else loc r, ?_⟩
        obtain ⟨a, b, c, d, e, f, g, hh, k, l, m, n, o, p, wc, tm, q, r, s⟩ := h
        have hr : loc r0 = .th i := g i _ (by rw [h1]; simp [PTh.holds])
        constructor <;> try assumption
        all_goals grind [upd, PTh.holds, PTh.wraps, PTh.locks, PTh.pruning, outAfter]
    · rename_i ho
      injection hx with hx; subst hx
      refine ⟨fun r => if r = r0 then .gone else loc r, ?_⟩
      obtain ⟨a, b, c, d, e, f, g, hh, k, l, m, n, o, p, wc, tm, q, r, s⟩ := h
      have hr : loc r0 = .th i := g i _ (by rw [h1]; simp [PTh.holds])
      constructor <;> try assumption
      all_goals grind [upd, PTh.holds, PTh.wraps, PTh.locks, PTh.pruning, outAfter]
  · cases hx

set_option maxHeartbeats 400000 in
theorem PInv.putRel {loc st st' i} (h : PInv loc st) (hx : pexec st (.putRel i) = some st') :
    ∃ loc', PInv loc' st' := by
  simp only [pexec] at hx
  split at hx
  · rename_i w h1
    injection hx with hx; subst hx
    refine ⟨loc, ?_⟩
    obtain ⟨a, b, c, d, e, f, g, hh, k, l, m, n, o, p, wc, tm, q, r, s⟩ := h
    have hw : w < st.nextW := o i w (by rw [h1]; simp [PTh.wraps])
    constructor <;> try assumption
    all_goals grind [upd, PTh.holds, PTh.wraps, PTh.locks, PTh.pruning]
  · cases hx

theorem PInv.timerFire {loc st st' w} (h : PInv loc st) (hx : pexec st (.timerFire w) = some st') :
    ∃ loc', PInv loc' st' := by
  simp only [pexec] at hx
  split at hx
  · rename_i h1
    injection hx with hx; subst hx
    refine ⟨loc, ?_⟩
    obtain ⟨a, b, c, d, e, f, g, hh, k, l, m, n, o, p, wc, tm, q, r, s⟩ := h
    simp only [PSt.discard]
    split
    all_goals constructor <;> try assumption
    all_goals grind [upd, PTh.holds, PTh.wraps, PTh.locks, PTh.pruning, outAfter]
  · cases hx

theorem PInv.closeStart {loc st st' i} (h : PInv loc st) (hx : pexec st (.closeStart i) = some st') :
    ∃ loc', PInv loc' st' := by
  simp only [pexec] at hx
  split at hx
  · rename_i h1
    split at hx
    · rename_i ho
      split at hx
      · rename_i h2
        injection hx with hx; subst hx
        refine ⟨loc, ?_⟩
        obtain ⟨a, b, c, d, e, f, g, hh, k, l, m, n, o, p, wc, tm, q, r, s⟩ := h
        constructor <;> try assumption
        all_goals grind [upd, PTh.holds, PTh.wraps, PTh.locks, PTh.pruning, outAfter]
      · cases hx
    · rename_i ho
      injection hx with hx; subst hx
      refine ⟨loc, ?_⟩
      obtain ⟨a, b, c, d, e, f, g, hh, k, l, m, n, o, p, wc, tm, q, r, s⟩ := h
      have hq := q.cons (e := .closed) (by intro _ _ _ h; cases h)
      constructor <;> try assumption
      all_goals grind [upd, PTh.holds, PTh.wraps, PTh.locks, PTh.pruning, outAfter]
  · cases hx

theorem PInv.closeChan {loc st st' i} (h : PInv loc st) (hx : pexec st (.closeChan i) = some st') :
    ∃ loc', PInv loc' st' := by
  simp only [pexec] at hx
  split at hx
  · rename_i h1
    injection hx with hx; subst hx
    refine ⟨loc, ?_⟩
    obtain ⟨a, b, c, d, e, f, g, hh, k, l, m, n, o, p, wc, tm, q, r, s⟩ := h
    constructor <;> try assumption
    all_goals grind [upd, PTh.holds, PTh.wraps, PTh.locks, PTh.pruning, outAfter]
  · cases hx

set_option maxHeartbeats 400000 in
theorem PInv.drain {loc st st' i err} (h : PInv loc st) (hx : pexec st (.drain i err) = some st') :
    ∃ loc', PInv loc' st' := by
  simp only [pexec] at hx
  split at hx
  · rename_i w rest h1 h2
    split at hx
    · rename_i he
      injection hx with hx; subst hx
      refine ⟨fun r => if r = st.raw w then .gone else loc r, ?_⟩
      obtain ⟨a, b, c, d, e, f, g, hh, k, l, m, n, o, p, wc, tm, q, r, s⟩ := h
      rw [h2] at b c d m s
      have hr : loc (st.raw w) = .chan := b w (by simp)
      have hq := q.cons (e := .closeErr) (by intro _ _ _ h; cases h)
      simp only [PSt.discard]
      split
      all_goals constructor <;> try assumption
      all_goals grind [upd, PTh.holds, PTh.wraps, PTh.locks, PTh.pruning, outAfter]
    · rename_i he
      injection hx with hx; subst hx
      refine ⟨fun r => if r = st.raw w then .gone else loc r, ?_⟩
      obtain ⟨a, b, c, d, e, f, g, hh, k, l, m, n, o, p, wc, tm, q, r, s⟩ := h
      rw [h2] at b c d m s
      have hr : loc (st.raw w) = .chan := b w (by simp)
      simp only [PSt.discard]
      split
      all_goals constructor <;> try assumption
      all_goals grind [upd, PTh.holds, PTh.wraps, PTh.locks, PTh.pruning, outAfter]
  · rename_i h1 h2
    injection hx with hx; subst hx
    exact ⟨loc, h.neutral (by rw [h1]; rfl) (by rw [h1]; rfl) rfl⟩
  · cases hx

theorem pexec_cap {st st' a} (hx : pexec st a = some st') : st'.cap = st.cap := by
  cases a <;> simp only [pexec] at hx <;> (repeat' split at hx) <;>
    first
    | (cases hx; done)
    | (injection hx with hx; subst hx; rfl)
    | (injection hx with hx; subst hx; simp only [PSt.discard]; split <;> rfl)

theorem PInv.step {loc st st' a} (h : PInv loc st) (hg : CloseOnce st a)
    (hx : pexec st a = some st') : ∃ loc', PInv loc' st' := by
  cases a with
  | getLock i => exact ⟨loc, h.getLock hx⟩
  | pruneRecv i => exact h.pruneRecv hx
  | pruneBack i => exact h.pruneBack hx
  | getUnlock i => exact h.getUnlock hx
  | getRecv i ok => exact h.getRecv hx
  | getAcq i => exact h.getAcq hx
  | userClose i w f => exact h.userClose hg hx
  | putLock i => exact h.putLock hx
  | putSend i => exact h.putSend hx
  | putRel i => exact h.putRel hx
  | timerFire w => exact h.timerFire hx
  | closeStart i => exact h.closeStart hx
  | closeChan i => exact h.closeChan hx
  | drain i e => exact h.drain hx

theorem PInv.init (cap : Nat) : PInv (fun _ => .fresh) (PSt.init cap) := by
  constructor <;> simp [PSt.init, PTh.holds, PTh.wraps, PTh.locks, outAfter, Exclusive]

theorem PReach.inv {g cap st} (h : PReach g cap st) (hg : ∀ st a, g st a → CloseOnce st a) :
    (∃ loc, PInv loc st) ∧ st.cap = cap := by
  induction h with
  | init => exact ⟨⟨_, PInv.init cap⟩, rfl⟩
  | step a _ ga hx ih =>
    obtain ⟨⟨loc, hl⟩, hc⟩ := ih
    exact ⟨hl.step (hg _ _ ga) hx, (pexec_cap hx).trans hc⟩

/-! ### Theorems -/

/-- **C182** (partial: callers close a connection they got at most once).  In every
interleaving of `Get`, `Close` of connections, `Close` of the pool and idle timers, a
connection is never handed to a caller while another one holds it. -/
theorem C182_exclusive_partial {cap : Nat} {st : PSt} (h : PReach CloseOnce cap st) :
    Exclusive st.tr := by
  obtain ⟨⟨_, hl⟩, _⟩ := h.inv (fun _ _ h => h)
  exact hl.excl

/-- **C40** The pool never holds more idle connections than its capacity (also with
misbehaving callers). -/
theorem C40_idle_bound {cap : Nat} {st : PSt} (h : PReach Anything cap st) :
    st.buf.length ≤ cap := by
  suffices hh : st.buf.length ≤ st.cap ∧ st.cap = cap by omega
  induction h with
  | init => exact ⟨Nat.zero_le _, rfl⟩
  | step a _ _ hx ih =>
    refine ⟨?_, (pexec_cap hx).trans ih.2⟩
    have ih := ih.1
    cases a <;> simp only [pexec] at hx <;> (repeat' split at hx) <;>
      first
      | (cases hx; done)
      | (injection hx with hx; subst hx; simp_all; done)
      | (injection hx with hx; subst hx; simp_all; omega)
      | (injection hx with hx; subst hx; simp only [PSt.discard]; split <;> simp_all <;> omega)

end Verif.Pool
