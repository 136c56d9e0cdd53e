import Verif.Props.ConnPoolClose
/-! # C40 continued: connections in callers' hands stay usable; counterexamples -/
namespace Verif.Pool
open Verif.Tunnel (upd)

/-- Wrapper a pruning or receiving goroutine has taken out of the channel. -/
def PTh.taken : PTh → Option Nat
  | .gHold _ w | .pHold _ w _ | .gAcq w => some w
  | _ => none

/-- Connection a `Put` is giving back. -/
def PTh.giving : PTh → Option Nat
  | .pWait r | .pPrune _ r | .pHold _ _ r => some r
  | _ => none

/-- Does the goroutine wait to receive from the open channel? -/
def PTh.receiving : PTh → Bool
  | .gRecv true => true
  | _ => false

/-- Receives left in the prune loop of a `Get`. -/
def PTh.left : PTh → Option Nat
  | .gPrune n | .gHold n _ => some n
  | _ => none

/-- Between start and end of a `Get`. -/
def PTh.getting : PTh → Bool
  | .gPrune _ | .gHold _ _ | .gRecv _ | .gAcq _ => true
  | _ => false

structure UInv (st : PSt) : Prop where
  own : ∀ w, st.own w = true → st.rclosed (st.raw w) = false ∧ st.past (st.raw w) = false
  ownT : ∀ w, st.own w = true → st.timer w = false ∧ st.wclosed w = false
  tmr : ∀ w, st.timer w = true → w ∈ st.buf ∨ ∃ i, (st.ths i).taken = some w
  give : ∀ i r, (st.ths i).giving = some r → st.rclosed r = false
  bufC : ∀ w, w ∈ st.buf → st.rclosed (st.raw w) = true → st.wclosed w = true
  takC : ∀ i w, (st.ths i).taken = some w → st.rclosed (st.raw w) = true → st.wclosed w = true
  acq : ∀ i w, st.ths i = .gAcq w → st.wclosed w = false
  recv : ∀ i, (st.ths i).receiving = true → ∀ w ∈ st.buf, st.wclosed w = false
  recvT : ∀ i, (st.ths i).receiving = true → ∀ j w, (st.ths j).taken = some w → st.wclosed w = false
  left : st.isOpen = true → ∀ i n, (st.ths i).left = some n → ∀ w ∈ st.buf.drop n, st.wclosed w = false
  rel : ∀ i w, st.ths i = .pRel w → w ∈ st.buf ∧ st.wclosed w = false ∧ st.timer w = false
  frR : ∀ r, st.nextR ≤ r → st.rclosed r = false ∧ st.past r = false
  frW : ∀ w, st.nextW ≤ w → st.timer w = false ∧ st.wclosed w = false
  wct : ∀ w, st.wclosed w = true → st.timer w = false

theorem UInv.init (cap : Nat) : UInv (PSt.init cap) := by
  constructor <;> simp [PSt.init, PTh.taken, PTh.giving, PTh.receiving, PTh.left]

theorem ex_taken {ths : Nat → PTh} {i w : Nat} {x : PTh} (h : ∃ j, (ths j).taken = some w)
    (hn : (ths i).taken = some w → x.taken = some w) : ∃ j, (upd ths i x j).taken = some w := by
  obtain ⟨j, hj⟩ := h
  refine ⟨j, ?_⟩
  simp only [upd]
  split
  · rename_i e; subst e; exact hn hj
  · exact hj

/-- Facts about where connections are, taken from `PInv`. -/
structure Sep (loc : Nat → Loc) (st : PSt) : Prop where
  bu : ∀ w, w ∈ st.buf → loc (st.raw w) = .chan
  ow : ∀ w, st.own w = true → loc (st.raw w) = .user w
  ta : ∀ i w, (st.ths i).taken = some w → loc (st.raw w) = .th i
  gi : ∀ i r, (st.ths i).giving = some r → loc r = .th i
  tg : ∀ i w r, (st.ths i).taken = some w → (st.ths i).giving = some r → st.raw w ≠ r
  bn : ∀ w w', w ∈ st.buf → w' ∈ st.buf → st.raw w = st.raw w' → w = w'
  fr : ∀ r, loc r ≠ .fresh → r < st.nextR
  ww : ∀ w, (w ∈ st.buf ∨ st.own w = true ∨ ∃ i, w ∈ (st.ths i).wraps) → w < st.nextW
  nd : st.buf.Nodup

theorem nodup_map_inj {α β} {f : α → β} : ∀ {l : List α}, (l.map f).Nodup → ∀ a b, a ∈ l → b ∈ l →
    f a = f b → a = b
  | [], _, a, _, ha, _, _ => by cases ha
  | x :: l, h, a, b, ha, hb, he => by
    simp only [List.map_cons, List.nodup_cons, List.mem_map, not_exists, not_and] at h
    rcases List.mem_cons.1 ha with ha | ha <;> rcases List.mem_cons.1 hb with hb | hb
    · rw [ha, hb]
    · exact absurd (ha ▸ he).symm (h.1 b hb)
    · exact absurd (hb ▸ he) (h.1 a ha)
    · exact nodup_map_inj h.2 a b ha hb he

theorem nodup_of_map {α β} {f : α → β} : ∀ {l : List α}, (l.map f).Nodup → l.Nodup
  | [], _ => List.nodup_nil
  | x :: l, h => by
    simp only [List.map_cons, List.nodup_cons, List.mem_map, not_exists, not_and] at h
    exact List.nodup_cons.2 ⟨fun hx => h.1 x hx rfl, nodup_of_map h.2⟩

theorem PInv.sep {loc st} (h : PInv loc st) : Sep loc st := by
  refine ⟨h.bufLoc, h.ownLoc, ?_, ?_, ?_, fun w w' => nodup_map_inj h.bufNd w w', ?_, ?_,
    nodup_of_map h.bufNd⟩
  · intro i w hw
    apply h.thLoc i
    cases hi : st.ths i <;> simp_all [PTh.taken, PTh.holds]
  · intro i r hr
    apply h.thLoc i
    cases hi : st.ths i <;> simp_all [PTh.giving, PTh.holds]
  · intro i w r hw hr
    have := h.thNd i
    cases hi : st.ths i <;> simp_all [PTh.giving, PTh.taken, PTh.holds]
  · intro r hr
    have := h.fresh r
    apply Nat.lt_of_not_le
    intro hle
    exact hr (this.1 hle)
  · rintro w (hw | hw | ⟨i, hw⟩)
    · exact h.bufW w hw
    · exact h.ownW w hw
    · exact h.thW i w hw

theorem mem_drop_tail {α} {x w : α} {l : List α} {n : Nat} (h : x ∈ l.drop n) :
    x ∈ (w :: l).drop n := by
  have : l.drop n = (w :: l).drop (n + 1) := rfl
  rw [this] at h
  rw [← List.drop_drop] at h
  exact (List.drop_sublist 1 _).subset (by simpa [List.drop_drop, Nat.add_comm] using h)

theorem mem_drop_append {α} {x w : α} {l : List α} {n : Nat} (h : x ∈ (l ++ [w]).drop n) :
    x ∈ l.drop n ∨ x = w := by
  rw [List.drop_append] at h
  rcases List.mem_append.1 h with h | h
  · exact .inl h
  · exact .inr (by simpa using List.drop_subset _ _ h)

set_option maxHeartbeats 400000 in
theorem UInv.getLock {loc st st' i} (h : UInv st) (hs : Sep loc st) (hc : CInv st)
    (hg : Calm st (.getLock i)) (hx : pexec st (.getLock i) = some st') : UInv st' := by
  obtain ⟨u1, u2, u3, u4, u5, u6, u7, u8, u9, u10, u11, u12, u13, u14⟩ := h
  simp only [pexec] at hx
  clear hs hc hg
  split at hx
  · injection hx with hx; subst hx
    constructor
    case tmr => exact fun x hxt => (u3 x hxt).elim (fun h => .inl (by grind)) (fun h => .inr (ex_taken h (by grind [upd, PTh.taken, PTh.giving, PTh.receiving, PTh.left])))
    all_goals first | assumption | grind [upd, PTh.taken, PTh.giving, PTh.receiving, PTh.left]
  · cases hx

set_option maxHeartbeats 400000 in
theorem UInv.pruneRecv {loc st st' i} (h : UInv st) (hs : Sep loc st) (hc : CInv st)
    (hg : Calm st (.pruneRecv i)) (hx : pexec st (.pruneRecv i) = some st') : UInv st' := by
  obtain ⟨u1, u2, u3, u4, u5, u6, u7, u8, u9, u10, u11, u12, u13, u14⟩ := h
  simp only [pexec] at hx
  clear hs hg
  split at hx
  · rename_i n w rest h1 h2
    injection hx with hx; subst hx
    rw [h2] at u3 u5 u8 u10 u11
    constructor
    case tmr =>
      intro x hxt; rcases u3 x hxt with h | h
      · rcases List.mem_cons.1 h with h | h
        · exact .inr ⟨i, by simp [upd, PTh.taken, h]⟩
        · exact .inl h
      · exact .inr (ex_taken h (by grind [upd, PTh.taken, PTh.giving, PTh.receiving, PTh.left]))
    case rel =>
      intro j x hj
      have h5 := (hc.muTh j).1
      have h6 := (hc.muTh i).1
      grind [upd, PTh.locks]
    all_goals clear hc
    case left =>
      intro ho j m hj x hxx
      by_cases hji : j = i
      · first
        | (exfalso; grind [upd, PTh.taken, PTh.giving, PTh.receiving, PTh.left])
        | (have hm : m = n := by grind [upd, PTh.taken, PTh.giving, PTh.receiving, PTh.left]
           rw [hm] at hxx
           exact u10 ho i (n + 1) (by rw [h1]; rfl) x hxx)
      · exact u10 ho j m (by grind [upd, PTh.taken, PTh.giving, PTh.receiving, PTh.left]) x (mem_drop_tail hxx)
    all_goals first | assumption | grind [upd, PTh.taken, PTh.giving, PTh.receiving, PTh.left]
  · rename_i n r w rest h1 h2
    injection hx with hx; subst hx
    rw [h2] at u3 u5 u8 u10 u11
    constructor
    case tmr =>
      intro x hxt; rcases u3 x hxt with h | h
      · rcases List.mem_cons.1 h with h | h
        · exact .inr ⟨i, by simp [upd, PTh.taken, h]⟩
        · exact .inl h
      · exact .inr (ex_taken h (by grind [upd, PTh.taken, PTh.giving, PTh.receiving, PTh.left]))
    case rel =>
      intro j x hj
      have h5 := (hc.muTh j).1
      have h6 := (hc.muTh i).1
      grind [upd, PTh.locks]
    all_goals clear hc
    case left =>
      intro ho j m hj x hxx
      by_cases hji : j = i
      · first
        | (exfalso; grind [upd, PTh.taken, PTh.giving, PTh.receiving, PTh.left])
        | (have hm : m = n := by grind [upd, PTh.taken, PTh.giving, PTh.receiving, PTh.left]
           rw [hm] at hxx
           exact u10 ho i (n + 1) (by rw [h1]; rfl) x hxx)
      · exact u10 ho j m (by grind [upd, PTh.taken, PTh.giving, PTh.receiving, PTh.left]) x (mem_drop_tail hxx)
    all_goals first | assumption | grind [upd, PTh.taken, PTh.giving, PTh.receiving, PTh.left]
  · cases hx

set_option maxHeartbeats 400000 in
theorem UInv.pruneBack {loc st st' i} (h : UInv st) (hs : Sep loc st) (hc : CInv st)
    (hg : Calm st (.pruneBack i)) (hx : pexec st (.pruneBack i) = some st') : UInv st' := by
  obtain ⟨u1, u2, u3, u4, u5, u6, u7, u8, u9, u10, u11, u12, u13, u14⟩ := h
  simp only [pexec] at hx
  clear hs hg
  split at hx
  · rename_i n w h1
    split at hx
    · rename_i hw
      injection hx with hx; subst hx
      clear hc
      constructor
      case tmr => exact fun x hxt => (u3 x hxt).elim (fun h => .inl (by grind)) (fun h => .inr (ex_taken h (by grind [upd, PTh.taken, PTh.giving, PTh.receiving, PTh.left])))
      all_goals first | assumption | grind [upd, PTh.taken, PTh.giving, PTh.receiving, PTh.left]
    · split at hx
      · injection hx with hx; subst hx
        constructor
        case tmr =>
          intro x hxt; rcases u3 x hxt with h | h
          · exact .inl (List.mem_append_left _ h)
          · by_cases hxw : x = w
            · exact .inl (by simp [hxw])
            · exact .inr (ex_taken h (by grind [upd, PTh.taken, PTh.giving, PTh.receiving, PTh.left]))
        case left =>
          intro ho j m hj x hxx
          rcases mem_drop_append hxx with h | h
          · by_cases hji : j = i
            · first
              | (exfalso; grind [upd, PTh.taken, PTh.giving, PTh.receiving, PTh.left])
              | exact u10 ho i m (by grind [upd, PTh.taken, PTh.giving, PTh.receiving, PTh.left]) x h
            · exact u10 ho j m (by grind [upd, PTh.taken, PTh.giving, PTh.receiving, PTh.left]) x h
          · grind
        all_goals clear hc
        all_goals first | assumption | grind [upd, PTh.taken, PTh.giving, PTh.receiving, PTh.left]
      · cases hx
  · rename_i n w r h1
    split at hx
    · rename_i hw
      injection hx with hx; subst hx
      clear hc
      constructor
      case tmr => exact fun x hxt => (u3 x hxt).elim (fun h => .inl (by grind)) (fun h => .inr (ex_taken h (by grind [upd, PTh.taken, PTh.giving, PTh.receiving, PTh.left])))
      all_goals first | assumption | grind [upd, PTh.taken, PTh.giving, PTh.receiving, PTh.left]
    · split at hx
      · injection hx with hx; subst hx
        constructor
        case tmr =>
          intro x hxt; rcases u3 x hxt with h | h
          · exact .inl (List.mem_append_left _ h)
          · by_cases hxw : x = w
            · exact .inl (by simp [hxw])
            · exact .inr (ex_taken h (by grind [upd, PTh.taken, PTh.giving, PTh.receiving, PTh.left]))
        case left =>
          intro ho j m hj x hxx
          rcases mem_drop_append hxx with h | h
          · by_cases hji : j = i
            · first
              | (exfalso; grind [upd, PTh.taken, PTh.giving, PTh.receiving, PTh.left])
              | exact u10 ho i m (by grind [upd, PTh.taken, PTh.giving, PTh.receiving, PTh.left]) x h
            · exact u10 ho j m (by grind [upd, PTh.taken, PTh.giving, PTh.receiving, PTh.left]) x h
          · grind
        all_goals clear hc
        all_goals first | assumption | grind [upd, PTh.taken, PTh.giving, PTh.receiving, PTh.left]
      · cases hx
  · cases hx

set_option maxHeartbeats 400000 in
theorem UInv.getUnlock {loc st st' i} (h : UInv st) (hs : Sep loc st) (hc : CInv st)
    (hg : Calm st (.getUnlock i)) (hx : pexec st (.getUnlock i) = some st') : UInv st' := by
  obtain ⟨u1, u2, u3, u4, u5, u6, u7, u8, u9, u10, u11, u12, u13, u14⟩ := h
  simp only [pexec] at hx
  clear hs hg
  split at hx
  · rename_i h1
    injection hx with hx; subst hx
    have hlt : ∀ j w, (st.ths j).taken = some w → st.ths j = .gAcq w := by
      intro j w hj
      have h5 := (hc.muTh j).1
      have h6 := (hc.muTh i).1
      cases hh : st.ths j <;> grind [upd, PTh.taken, PTh.giving, PTh.receiving, PTh.left, PTh.locks]
    clear hc
    constructor
    case tmr => exact fun x hxt => (u3 x hxt).elim (fun h => .inl (by grind)) (fun h => .inr (ex_taken h (by grind [upd, PTh.taken, PTh.giving, PTh.receiving, PTh.left])))
    case recv => 
      intro j hj x hxx
      by_cases hji : j = i
      · cases ho : st.isOpen with
        | true => exact u10 ho i 0 (by rw [h1]; rfl) x hxx
        | false => grind [upd, PTh.taken, PTh.giving, PTh.receiving, PTh.left]
      · exact u8 j (by grind [upd, PTh.taken, PTh.giving, PTh.receiving, PTh.left]) x hxx
    case recvT =>
      intro j hj k x hk
      by_cases hki : k = i
      · grind [upd, PTh.taken, PTh.giving, PTh.receiving, PTh.left]
      · have : (st.ths k).taken = some x := by grind [upd, PTh.taken, PTh.giving, PTh.receiving, PTh.left]
        exact u7 k x (hlt k x this)
    all_goals first | assumption | grind [upd, PTh.taken, PTh.giving, PTh.receiving, PTh.left]
  · cases hx

set_option maxHeartbeats 400000 in
theorem UInv.getRecv {loc st st' i ok} (h : UInv st) (hs : Sep loc st) (hc : CInv st)
    (hg : Calm st (.getRecv i ok)) (hx : pexec st (.getRecv i ok) = some st') : UInv st' := by
  obtain ⟨u1, u2, u3, u4, u5, u6, u7, u8, u9, u10, u11, u12, u13, u14⟩ := h
  simp only [pexec] at hx
  split at hx
  · rename_i h1
    injection hx with hx; subst hx
    clear hs hc hg
    constructor
    case tmr => exact fun x hxt => (u3 x hxt).elim (fun h => .inl (by grind)) (fun h => .inr (ex_taken h (by grind [upd, PTh.taken, PTh.giving, PTh.receiving, PTh.left])))
    all_goals first | assumption | grind [upd, PTh.taken, PTh.giving, PTh.receiving, PTh.left]
  · rename_i h1
    split at hx
    · rename_i w rest h2
      injection hx with hx; subst hx
      have hg' : ∀ i w, st.ths i ≠ .pRel w := hg
      clear hs hc hg
      rw [h2] at u3 u5 u8 u10
      constructor
      case tmr =>
        intro x hxt; rcases u3 x hxt with h | h
        · rcases List.mem_cons.1 h with h | h
          · exact .inr ⟨i, by simp [upd, PTh.taken, h]⟩
          · exact .inl h
        · exact .inr (ex_taken h (by grind [upd, PTh.taken, PTh.giving, PTh.receiving, PTh.left]))
      case left =>
        intro ho j m hj x hxx
        by_cases hji : j = i
        · exfalso; grind [upd, PTh.taken, PTh.giving, PTh.receiving, PTh.left]
        · exact u10 ho j m (by grind [upd, PTh.taken, PTh.giving, PTh.receiving, PTh.left]) x (mem_drop_tail hxx)
      all_goals first | assumption | grind [upd, PTh.taken, PTh.giving, PTh.receiving, PTh.left]
    · split at hx
      · injection hx with hx; subst hx
        clear hs hc hg
        constructor
        case tmr => exact fun x hxt => (u3 x hxt).elim (fun h => .inl (by grind)) (fun h => .inr (ex_taken h (by grind [upd, PTh.taken, PTh.giving, PTh.receiving, PTh.left])))
        all_goals first | assumption | grind [upd, PTh.taken, PTh.giving, PTh.receiving, PTh.left]
      · split at hx
        · injection hx with hx; subst hx
          obtain ⟨s1, s2, s3, s4, s5, s6, s7, s8, s9⟩ := hs
          clear hc hg
          have hraw : ∀ w, w < st.nextW → upd st.raw st.nextW st.nextR w = st.raw w := by
            intro w hw; simp only [upd]; rw [if_neg (by omega)]
          have hself : upd st.raw st.nextW st.nextR st.nextW = st.nextR := by simp [upd]
          have hfr := u12 st.nextR (Nat.le_refl _)
          have hfw := u13 st.nextW (Nat.le_refl _)
          have htw : ∀ i w, (st.ths i).taken = some w → w < st.nextW := by
            intro i w hw
            refine s8 w (.inr (.inr ⟨i, ?_⟩))
            cases hi : st.ths i <;> simp_all [PTh.taken, PTh.wraps]
          have hbw : ∀ w, w ∈ st.buf → w < st.nextW := fun w hw => s8 w (.inl hw)
          have how : ∀ w, st.own w = true → w < st.nextW := fun w hw => s8 w (.inr (.inl hw))
          clear s1 s2 s3 s4 s5 s6 s7 s8 s9
          generalize upd st.raw st.nextW st.nextR = raw at *
          constructor
          case tmr => exact fun x hxt => (u3 x hxt).elim (fun h => .inl (by grind)) (fun h => .inr (ex_taken h (by grind [upd, PTh.taken, PTh.giving, PTh.receiving, PTh.left])))
          all_goals first | assumption | grind [upd, PTh.taken, PTh.giving, PTh.receiving, PTh.left]
        · injection hx with hx; subst hx
          clear hs hc hg
          constructor
          case tmr => exact fun x hxt => (u3 x hxt).elim (fun h => .inl (by grind)) (fun h => .inr (ex_taken h (by grind [upd, PTh.taken, PTh.giving, PTh.receiving, PTh.left])))
          all_goals first | assumption | grind [upd, PTh.taken, PTh.giving, PTh.receiving, PTh.left]
  · cases hx

set_option maxHeartbeats 400000 in
theorem UInv.getAcq {loc st st' i} (h : UInv st) (hs : Sep loc st) (hc : CInv st)
    (hg : Calm st (.getAcq i)) (hx : pexec st (.getAcq i) = some st') : UInv st' := by
  obtain ⟨u1, u2, u3, u4, u5, u6, u7, u8, u9, u10, u11, u12, u13, u14⟩ := h
  simp only [pexec] at hx
  split at hx
  · rename_i w h1
    injection hx with hx; subst hx
    have hww : w < st.nextW := hs.ww w (.inr (.inr ⟨i, by rw [h1]; simp [PTh.wraps]⟩))
    have hne : ∀ j w', (st.ths j).taken = some w' → w' = w → j = i := by
      intro j w' hj hw
      have e1 := hs.ta j w' hj
      have e2 := hs.ta i w (by rw [h1]; rfl)
      rw [hw, e2] at e1
      injection e1 with e1; exact e1.symm
    clear hs hc hg
    constructor
    case tmr =>
      intro x hxt
      have hxw : x ≠ w := by grind [upd]
      have hxt' : st.timer x = true := by grind [upd]
      exact (u3 x hxt').elim .inl (fun h => .inr (ex_taken h (by grind [upd, PTh.taken, PTh.giving, PTh.receiving, PTh.left])))
    all_goals first | assumption | grind [upd, PTh.taken, PTh.giving, PTh.receiving, PTh.left]
  · cases hx

set_option maxHeartbeats 400000 in
theorem UInv.userClose {loc st st' i w failed} (h : UInv st) (hs : Sep loc st) (hc : CInv st)
    (hg : Calm st (.userClose i w failed)) (hx : pexec st (.userClose i w failed) = some st') : UInv st' := by
  obtain ⟨u1, u2, u3, u4, u5, u6, u7, u8, u9, u10, u11, u12, u13, u14⟩ := h
  simp only [pexec] at hx
  have hg' : st.own w = true := hg
  split at hx
  · rename_i h1
    have hl := hs.ow w hg'
    have hrn : st.raw w < st.nextR := hs.fr _ (by rw [hl]; simp)
    have hww : w < st.nextW := hs.ww w (.inr (.inl hg'))
    have d1 : ∀ w', st.own w' = true → st.raw w' = st.raw w → w' = w := by
      intro w' hw' he
      have := hs.ow w' hw'
      rw [he, hl] at this; injection this with this; exact this.symm
    have d2 : ∀ w', w' ∈ st.buf → st.raw w' ≠ st.raw w := by
      intro w' hw' he
      have := hs.bu w' hw'
      rw [he, hl] at this; cases this
    have d3 : ∀ j w', (st.ths j).taken = some w' → st.raw w' ≠ st.raw w := by
      intro j w' hw' he
      have := hs.ta j w' hw'
      rw [he, hl] at this; cases this
    have d4 : ∀ j r, (st.ths j).giving = some r → r ≠ st.raw w := by
      intro j r hr he
      have := hs.gi j r hr
      rw [he, hl] at this; cases this
    clear hs hc hg
    split at hx
    · injection hx with hx; subst hx
      simp only [PSt.discard]
      rw [if_neg (by rw [(u2 w hg').2]; simp)]
      constructor
      case tmr => 
        intro x hxt
        exact u3 x (by grind [upd])
      case left =>
        intro ho j m hj x hxx
        have := u10 ho j m hj x hxx
        have := d2 x (List.drop_subset _ _ hxx)
        grind [upd]
      all_goals first | assumption | grind [upd, PTh.taken, PTh.giving, PTh.receiving, PTh.left]
    · injection hx with hx; subst hx
      constructor
      case tmr => exact fun x hxt => (u3 x hxt).elim (fun h => .inl (by grind)) (fun h => .inr (ex_taken h (by grind [upd, PTh.taken, PTh.giving, PTh.receiving, PTh.left])))
      all_goals first | assumption | grind [upd, PTh.taken, PTh.giving, PTh.receiving, PTh.left]
  · cases hx

set_option maxHeartbeats 400000 in
theorem UInv.putLock {loc st st' i} (h : UInv st) (hs : Sep loc st) (hc : CInv st)
    (hg : Calm st (.putLock i)) (hx : pexec st (.putLock i) = some st') : UInv st' := by
  obtain ⟨u1, u2, u3, u4, u5, u6, u7, u8, u9, u10, u11, u12, u13, u14⟩ := h
  simp only [pexec] at hx
  clear hs hc hg
  split at hx
  · injection hx with hx; subst hx
    constructor
    case tmr => exact fun x hxt => (u3 x hxt).elim (fun h => .inl (by grind)) (fun h => .inr (ex_taken h (by grind [upd, PTh.taken, PTh.giving, PTh.receiving, PTh.left])))
    all_goals first | assumption | grind [upd, PTh.taken, PTh.giving, PTh.receiving, PTh.left]
  · cases hx

set_option maxHeartbeats 400000 in
theorem UInv.putSend {loc st st' i} (h : UInv st) (hs : Sep loc st) (hc : CInv st)
    (hg : Calm st (.putSend i)) (hx : pexec st (.putSend i) = some st') : UInv st' := by
  obtain ⟨u1, u2, u3, u4, u5, u6, u7, u8, u9, u10, u11, u12, u13, u14⟩ := h
  simp only [pexec] at hx
  split at hx
  · rename_i r h1
    have hl := hs.gi i r (by rw [h1]; rfl)
    have hrn : r < st.nextR := hs.fr _ (by rw [hl]; simp)
    split at hx
    · split at hx
      · injection hx with hx; subst hx
        obtain ⟨s1, s2, s3, s4, s5, s6, s7, s8, s9⟩ := hs
        have hraw : ∀ w, w < st.nextW → upd st.raw st.nextW r w = st.raw w := by
          intro w hw; simp only [upd]; rw [if_neg (by omega)]
        have hself : upd st.raw st.nextW r st.nextW = r := by simp [upd]
        have hro := u4 i r (by rw [h1]; rfl)
        have hfw := u13 st.nextW (Nat.le_refl _)
        have htw : ∀ i w, (st.ths i).taken = some w → w < st.nextW := by
          intro i w hw
          refine s8 w (.inr (.inr ⟨i, ?_⟩))
          cases hi : st.ths i <;> simp_all [PTh.taken, PTh.wraps]
        have hbw : ∀ w, w ∈ st.buf → w < st.nextW := fun w hw => s8 w (.inl hw)
        have how : ∀ w, st.own w = true → w < st.nextW := fun w hw => s8 w (.inr (.inl hw))
        clear s1 s2 s3 s4 s5 s6 s7 s8 s9 hc hg
        generalize upd st.raw st.nextW r = raw at *
        constructor
        case tmr => exact fun x hxt => (u3 x hxt).elim (fun h => .inl (by grind)) (fun h => .inr (ex_taken h (by grind [upd, PTh.taken, PTh.giving, PTh.receiving, PTh.left])))
        case left =>
          intro ho j m hj x hxx
          rcases mem_drop_append hxx with h | h
          · by_cases hji : j = i
            · exfalso; grind [upd, PTh.taken, PTh.giving, PTh.receiving, PTh.left]
            · exact u10 ho j m (by grind [upd, PTh.taken, PTh.giving, PTh.receiving, PTh.left]) x h
          · grind
        all_goals first | assumption | grind [upd, PTh.taken, PTh.giving, PTh.receiving, PTh.left]
      · injection hx with hx; subst hx
        have d1 : ∀ w', st.own w' = true → st.raw w' ≠ r := by
          intro w' hw' he
          have := hs.ow w' hw'
          rw [he, hl] at this; cases this
        have d2 : ∀ w', w' ∈ st.buf → st.raw w' ≠ r := by
          intro w' hw' he
          have := hs.bu w' hw'
          rw [he, hl] at this; cases this
        have d3 : ∀ j w', (st.ths j).taken = some w' → st.raw w' ≠ r := by
          intro j w' hw' he
          have := hs.ta j w' hw'
          rw [he, hl] at this; injection this with this; subst this
          rw [h1] at hw'; cases hw'
        have d4 : ∀ j r', (st.ths j).giving = some r' → r' = r → j = i := by
          intro j r' hr he
          have := hs.gi j r' hr
          rw [he, hl] at this; injection this with this; exact this.symm
        clear hs hc hg
        constructor
        case tmr => exact fun x hxt => (u3 x hxt).elim (fun h => .inl (by grind)) (fun h => .inr (ex_taken h (by grind [upd, PTh.taken, PTh.giving, PTh.receiving, PTh.left])))
        all_goals first | assumption | grind [upd, PTh.taken, PTh.giving, PTh.receiving, PTh.left]
    · injection hx with hx; subst hx
      have d1 : ∀ w', st.own w' = true → st.raw w' ≠ r := by
        intro w' hw' he
        have := hs.ow w' hw'
        rw [he, hl] at this; cases this
      have d2 : ∀ w', w' ∈ st.buf → st.raw w' ≠ r := by
        intro w' hw' he
        have := hs.bu w' hw'
        rw [he, hl] at this; cases this
      have d3 : ∀ j w', (st.ths j).taken = some w' → st.raw w' ≠ r := by
        intro j w' hw' he
        have := hs.ta j w' hw'
        rw [he, hl] at this; injection this with this; subst this
        rw [h1] at hw'; cases hw'
      have d4 : ∀ j r', (st.ths j).giving = some r' → r' = r → j = i := by
        intro j r' hr he
        have := hs.gi j r' hr
        rw [he, hl] at this; injection this with this; exact this.symm
      clear hs hc hg
      constructor
      case tmr => exact fun x hxt => (u3 x hxt).elim (fun h => .inl (by grind)) (fun h => .inr (ex_taken h (by grind [upd, PTh.taken, PTh.giving, PTh.receiving, PTh.left])))
      all_goals first | assumption | grind [upd, PTh.taken, PTh.giving, PTh.receiving, PTh.left]
  · cases hx

set_option maxHeartbeats 400000 in
theorem UInv.putRel {loc st st' i} (h : UInv st) (hs : Sep loc st) (hc : CInv st)
    (hg : Calm st (.putRel i)) (hx : pexec st (.putRel i) = some st') : UInv st' := by
  obtain ⟨u1, u2, u3, u4, u5, u6, u7, u8, u9, u10, u11, u12, u13, u14⟩ := h
  simp only [pexec] at hx
  split at hx
  · rename_i w h1
    injection hx with hx; subst hx
    obtain ⟨hw1, hw2, hw3⟩ := u11 i w h1
    have hl := hs.bu w hw1
    have hrn : st.raw w < st.nextR := hs.fr _ (by rw [hl]; simp)
    have hww : w < st.nextW := hs.ww w (.inl hw1)
    have d1 : ∀ w', st.own w' = true → st.raw w' ≠ st.raw w := by
      intro w' hw' he
      have := hs.ow w' hw'
      rw [he, hl] at this; cases this
    have hmu : ∀ j w', st.ths j = .pRel w' → j = i := by
      intro j w' hj
      have h5 := (hc.muTh j).1 (by rw [hj]; rfl)
      have h6 := (hc.muTh i).1 (by rw [h1]; rfl)
      rw [h5] at h6; injection h6
    clear hs hc hg
    constructor
    case tmr =>
      intro x hxt
      by_cases hxw : x = w
      · exact .inl (by rw [hxw]; exact hw1)
      · exact (u3 x (by grind [upd])).elim .inl (fun h => .inr (ex_taken h (by grind [upd, PTh.taken, PTh.giving, PTh.receiving, PTh.left])))
    all_goals first | assumption | grind [upd, PTh.taken, PTh.giving, PTh.receiving, PTh.left]
  · cases hx

set_option maxHeartbeats 400000 in
theorem UInv.timerFire {loc st st' w} (h : UInv st) (hs : Sep loc st) (hc : CInv st)
    (hg : Calm st (.timerFire w)) (hx : pexec st (.timerFire w) = some st') : UInv st' := by
  obtain ⟨u1, u2, u3, u4, u5, u6, u7, u8, u9, u10, u11, u12, u13, u14⟩ := h
  simp only [pexec] at hx
  have hg' : ∀ i, (st.ths i).getting = false := by
    intro i
    have := (show (∀ i, _) from hg) i
    cases hi : st.ths i <;> simp_all [PTh.getting]
  split at hx
  · rename_i h1
    injection hx with hx; subst hx
    have hcl : st.wclosed w = false := by
      cases hz : st.wclosed w with
      | false => rfl
      | true => rw [u14 w hz] at h1; cases h1
    have hr1 : ∀ i, (st.ths i).receiving = false := by
      intro i; have := hg' i; cases hi : st.ths i <;> simp_all [PTh.getting, PTh.receiving]
    have hr2 : ∀ i, (st.ths i).left = none := by
      intro i; have := hg' i; cases hi : st.ths i <;> simp_all [PTh.getting, PTh.left]
    have hr3 : ∀ i w, st.ths i ≠ .gAcq w := by
      intro i w; have := hg' i; cases hi : st.ths i <;> simp_all [PTh.getting]
    have hl : loc (st.raw w) = .chan ∨ ∃ i, (st.ths i).taken = some w ∧ loc (st.raw w) = .th i :=
      (u3 w h1).elim (fun h => .inl (hs.bu w h)) (fun ⟨i, hi⟩ => .inr ⟨i, hi, hs.ta i w hi⟩)
    have hrn : st.raw w < st.nextR := hs.fr _ (by rcases hl with h | ⟨i, _, h⟩ <;> rw [h] <;> simp)
    have hww : w < st.nextW := by
      rcases u3 w h1 with h | ⟨i, h⟩
      · exact hs.ww w (.inl h)
      · refine hs.ww w (.inr (.inr ⟨i, ?_⟩))
        cases hi : st.ths i <;> simp_all [PTh.taken, PTh.wraps]
    have d1 : ∀ w', st.own w' = true → st.raw w' ≠ st.raw w := by
      intro w' hw' he
      have := hs.ow w' hw'
      rcases hl with h | ⟨i, _, h⟩ <;> (rw [he, h] at this; cases this)
    have d2 : ∀ w', w' ∈ st.buf → st.raw w' = st.raw w → w' = w := by
      intro w' hw' he
      rcases u3 w h1 with h | ⟨i, h⟩
      · exact hs.bn w' w hw' h he
      · have e1 := hs.bu w' hw'
        have e2 := hs.ta i w h
        rw [he, e2] at e1; cases e1
    have d3 : ∀ j w', (st.ths j).taken = some w' → st.raw w' = st.raw w → w' = w := by
      intro j w' hw' he
      have e1 := hs.ta j w' hw'
      rcases hl with h | ⟨i, hi, h⟩
      · rw [he, h] at e1; cases e1
      · rw [he, h] at e1
        injection e1 with e1
        subst e1
        rw [hi] at hw'; injection hw' with hw'; exact hw'.symm
    have d4 : ∀ j r, (st.ths j).giving = some r → r ≠ st.raw w := by
      intro j r hr he
      have e1 := hs.gi j r hr
      rcases hl with h | ⟨i, hi, h⟩
      · rw [he, h] at e1; cases e1
      · rw [he, h] at e1
        injection e1 with e1
        subst e1
        exact hs.tg _ w r hi hr he.symm
    clear hs hc hg hl hg'
    simp only [PSt.discard]
    rw [if_neg (by rw [hcl]; simp)]
    constructor
    case tmr => 
      intro x hxt
      exact u3 x (by grind [upd])
    all_goals first | assumption | grind [upd, PTh.taken, PTh.giving, PTh.receiving, PTh.left]
  · cases hx

set_option maxHeartbeats 400000 in
theorem UInv.closeStart {loc st st' i} (h : UInv st) (hs : Sep loc st) (hc : CInv st)
    (hg : Calm st (.closeStart i)) (hx : pexec st (.closeStart i) = some st') : UInv st' := by
  obtain ⟨u1, u2, u3, u4, u5, u6, u7, u8, u9, u10, u11, u12, u13, u14⟩ := h
  simp only [pexec] at hx
  clear hs hc hg
  split at hx
  · split at hx
    · split at hx
      · injection hx with hx; subst hx
        constructor
        case tmr => exact fun x hxt => (u3 x hxt).elim (fun h => .inl (by grind)) (fun h => .inr (ex_taken h (by grind [upd, PTh.taken, PTh.giving, PTh.receiving, PTh.left])))
        all_goals first | assumption | grind [upd, PTh.taken, PTh.giving, PTh.receiving, PTh.left]
      · cases hx
    · injection hx with hx; subst hx
      constructor <;> assumption
  · cases hx

set_option maxHeartbeats 400000 in
theorem UInv.closeChan {loc st st' i} (h : UInv st) (hs : Sep loc st) (hc : CInv st)
    (hg : Calm st (.closeChan i)) (hx : pexec st (.closeChan i) = some st') : UInv st' := by
  obtain ⟨u1, u2, u3, u4, u5, u6, u7, u8, u9, u10, u11, u12, u13, u14⟩ := h
  simp only [pexec] at hx
  clear hs hc hg
  split at hx
  · injection hx with hx; subst hx
    constructor
    case tmr => exact fun x hxt => (u3 x hxt).elim (fun h => .inl (by grind)) (fun h => .inr (ex_taken h (by grind [upd, PTh.taken, PTh.giving, PTh.receiving, PTh.left])))
    all_goals first | assumption | grind [upd, PTh.taken, PTh.giving, PTh.receiving, PTh.left]
  · cases hx

set_option maxHeartbeats 400000 in
theorem UInv.drain {loc st st' i err} (h : UInv st) (hs : Sep loc st) (hc : CInv st)
    (hg : Calm st (.drain i err)) (hx : pexec st (.drain i err) = some st') : UInv st' := by
  obtain ⟨u1, u2, u3, u4, u5, u6, u7, u8, u9, u10, u11, u12, u13, u14⟩ := h
  simp only [pexec] at hx
  split at hx
  · rename_i w rest h1 h2
    have hwb : w ∈ st.buf := by rw [h2]; simp
    have hl := hs.bu w hwb
    have hrn : st.raw w < st.nextR := hs.fr _ (by rw [hl]; simp)
    have hww : w < st.nextW := hs.ww w (.inl hwb)
    have hno := hc.cl1 i (by rw [h1]; rfl)
    have hnr : ∀ j x, st.ths j ≠ .pRel x := by
      intro j x hj
      have := hc.cl2 hno j
      rw [hj] at this; cases this
    have d1 : ∀ w', st.own w' = true → st.raw w' ≠ st.raw w := by
      intro w' hw' he
      have := hs.ow w' hw'
      rw [he, hl] at this; cases this
    have d2 : ∀ w', w' ∈ rest → st.raw w' ≠ st.raw w := by
      intro w' hw' he
      have hw2 : w' ∈ st.buf := by rw [h2]; simp [hw']
      have := hs.bn w' w hw2 hwb he
      have hn := hs.nd
      rw [h2] at hn
      subst this
      exact (List.nodup_cons.1 hn).1 hw'
    have d3 : ∀ j w', (st.ths j).taken = some w' → st.raw w' ≠ st.raw w := by
      intro j w' hw' he
      have := hs.ta j w' hw'
      rw [he, hl] at this; cases this
    have d4 : ∀ j r, (st.ths j).giving = some r → r ≠ st.raw w := by
      intro j r hr he
      have := hs.gi j r hr
      rw [he, hl] at this; cases this
    clear hs hc hg
    rw [h2] at u3 u5 u8 u10
    have hmain : UInv (({ st with buf := rest } : PSt).discard w) := by
      simp only [PSt.discard]
      split
      · rename_i hz
        have hzt := u14 w hz
        constructor
        case tmr =>
          intro x hxt
          have hxw : x ≠ w := by intro he; subst he; rw [hzt] at hxt; cases hxt
          exact (u3 x hxt).elim (fun h => .inl (by grind)) .inr
        all_goals first | assumption | grind [upd, PTh.taken, PTh.giving, PTh.receiving, PTh.left]
      · constructor
        case tmr =>
          intro x hxt
          have hxw : x ≠ w := by grind [upd]
          exact (u3 x (by grind [upd])).elim (fun h => .inl (by grind)) .inr
        all_goals first | assumption | grind [upd, PTh.taken, PTh.giving, PTh.receiving, PTh.left]
    have hths : (({ st with buf := rest } : PSt).discard w).ths = st.ths := by
      simp only [PSt.discard]; split <;> rfl
    split at hx
    · injection hx with hx; subst hx
      clear u1 u2 u3 u4 u5 u6 u7 u8 u9 u10 u11 u12 u13 u14 d1 d2 d3 d4 
      obtain ⟨u1, u2, u3, u4, u5, u6, u7, u8, u9, u10, u11, u12, u13, u14⟩ := hmain
      rw [hths] at u3 u4 u6 u7 u8 u9 u10 u11
      generalize ({ st with buf := rest } : PSt).discard w = st2 at *
      constructor
      case tmr => exact fun x hxt => (u3 x hxt).elim (fun h => .inl (by grind)) (fun h => .inr (ex_taken h (by grind [upd, PTh.taken, PTh.giving, PTh.receiving, PTh.left])))
      all_goals first | assumption | grind [upd, PTh.taken, PTh.giving, PTh.receiving, PTh.left]
    · injection hx with hx; subst hx
      exact hmain
  · injection hx with hx; subst hx
    clear hs hc hg
    constructor
    case tmr => exact fun x hxt => (u3 x hxt).elim (fun h => .inl (by grind)) (fun h => .inr (ex_taken h (by grind [upd, PTh.taken, PTh.giving, PTh.receiving, PTh.left])))
    all_goals first | assumption | grind [upd, PTh.taken, PTh.giving, PTh.receiving, PTh.left]
  · cases hx

end Verif.Pool
