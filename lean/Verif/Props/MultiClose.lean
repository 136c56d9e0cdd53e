import Verif.Props.Multi
/-! # C51 The multi-listener: one registration per id, and Close, for callers that do not overlap -/
namespace Verif.Net
open Verif.Tunnel (upd)

/-! ## Removing -/

theorem del_regs {L : Lis} {st : MSt} (h : UInv L st) (k r : Nat) {g : Reg} (hg : (st.del k).regs[r]? = some g) :
    ∃ g0, st.regs[r]? = some g0 ∧ g.lid = g0.lid ∧ g.gor = g0.gor
      ∧ (g.cancelled = false → g0.cancelled = false ∧ (k, r) ∉ st.map)
      ∧ (g.cancelled = true → g0.cancelled = true ∨ (k, r) ∈ st.map) := by
  unfold MSt.del at hg
  split at hg
  · rename_i hl
    exact ⟨g, hg, rfl, rfl, fun h => ⟨h, mlookup_none hl r⟩, .inl⟩
  · rename_i r0 hl
    have hm := mlookup_some hl
    simp only [setReg, List.getElem?_modify] at hg
    by_cases hr : r0 = r
    · subst hr
      simp only [if_true] at hg
      cases hg0 : st.regs[r0]? with
      | none => rw [hg0] at hg; cases hg
      | some g0 =>
        rw [hg0] at hg
        cases hg
        exact ⟨g0, rfl, rfl, rfl, fun h => (nomatch h), fun _ => .inr hm⟩
    · simp only [hr, if_false] at hg
      cases hg0 : st.regs[r]? with
      | none => rw [hg0] at hg; cases hg
      | some g0 =>
        rw [hg0] at hg
        cases hg
        refine ⟨g0, rfl, rfl, rfl, fun hc => ⟨hc, fun hmem => hr (map_func h hm hmem)⟩, .inl⟩

theorem del_map {st : MSt} (k k' r : Nat) : (k', r) ∈ (st.del k).map ↔ (k', r) ∈ st.map ∧ (k' ≠ k) := by
  unfold MSt.del
  split
  · rename_i hl
    constructor
    · intro h
      refine ⟨h, fun hk => ?_⟩
      subst hk; exact mlookup_none hl r h
    · exact fun h => h.1
  · simp

theorem del_op (st : MSt) (k : Nat) : (st.del k).op = st.op ∧ (st.del k).chanClosed = st.chanClosed
    ∧ (st.del k).closed = st.closed ∧ (st.del k).panicked = st.panicked ∧ (st.del k).chan = st.chan
    ∧ (st.del k).netClosed = st.netClosed := by
  unfold MSt.del; split <;> exact ⟨rfl, rfl, rfl, rfl, rfl, rfl⟩

theorem mod_gor {regs : List Reg} {r r' : Nat} {x : Gor} {g : Reg}
    (hg : (setReg regs r (fun g => { g with gor := x }))[r']? = some g) :
    ∃ g0, regs[r']? = some g0 ∧ g.lid = g0.lid ∧ g.cancelled = g0.cancelled ∧ (r' ≠ r → g.gor = g0.gor)
      ∧ (r' = r → g.gor = x) := by
  simp only [setReg, List.getElem?_modify] at hg
  cases hg0 : regs[r']? with
  | none => rw [hg0] at hg; cases hg
  | some g0 =>
    rw [hg0] at hg
    by_cases hr : r = r'
    · subst hr
      simp only [if_true] at hg
      cases hg
      exact ⟨g0, rfl, rfl, rfl, fun h => absurd rfl h, fun _ => rfl⟩
    · simp only [hr, if_false] at hg
      cases hg
      exact ⟨g0, rfl, rfl, rfl, fun _ => rfl, fun h => absurd h.symm hr⟩

theorem app_reg {regs : List Reg} {n g : Reg} {r : Nat} (h : (regs ++ [n])[r]? = some g) :
    regs[r]? = some g ∨ (r = regs.length ∧ g = n) := by
  rw [List.getElem?_append] at h
  split at h
  · exact .inl h
  · cases hr : r - regs.length
    · rw [hr] at h; simp only [List.getElem?_cons_zero, Option.some.injEq] at h
      exact .inr ⟨by omega, h.symm⟩
    · rw [hr] at h; simp at h

/-! ## One registration per id -/

/-- Calls of `AddListener` do not overlap. -/
def SerialAdd (st : MSt) (a : MAct) : Prop :=
  ∀ t l, a = .add t l → ∀ t' l', st.op t' ≠ .adding l'

structure SInv (L : Lis) (st : MSt) : Prop where
  inmap : ∀ (r : Nat) (g : Reg), st.regs[r]? = some g → g.cancelled = false → (L.key g.lid, r) ∈ st.map
  free : ∀ t l, st.op t = .adding l → ∀ r, (L.key l, r) ∉ st.map
  one : ∀ t l t' l', st.op t = .adding l → st.op t' = .adding l' → t = t'

theorem SInv.keep {L : Lis} {st st' : MSt} (h : SInv L st) (hm : st'.map = st.map)
    (hr : ∀ (r : Nat) (g : Reg), st'.regs[r]? = some g → ∃ g0, st.regs[r]? = some g0 ∧ g.lid = g0.lid ∧ g.cancelled = g0.cancelled)
    (ho : ∀ t l, st'.op t = .adding l → st.op t = .adding l) : SInv L st' := by
  refine ⟨?_, ?_, ?_⟩
  · intro r g hg hc
    obtain ⟨g0, h1, h2, h3⟩ := hr r g hg
    rw [hm, h2]; exact h.inmap r g0 h1 (h3 ▸ hc)
  · intro t l hop r; rw [hm]; exact h.free t l (ho t l hop) r
  · intro t l t' l' h1 h2; exact h.one t l t' l' (ho _ _ h1) (ho _ _ h2)

theorem upd_add {f : Nat → Op} {t t' l : Nat} {o : Op} (ho : ∀ l, o ≠ .adding l) (h : upd f t o t' = .adding l) :
    f t' = .adding l := by
  unfold upd at h
  split at h
  · exact absurd h (ho l)
  · exact h

theorem SInv.del {L : Lis} {st : MSt} (h : SInv L st) (hu : UInv L st) (k : Nat) : SInv L (st.del k) := by
  refine ⟨?_, ?_, ?_⟩
  · intro r g hg hc
    obtain ⟨g0, h1, h2, _, h3, _⟩ := del_regs hu k r hg
    obtain ⟨h4, h5⟩ := h3 hc
    rw [del_map]
    have := h.inmap r g0 h1 h4
    rw [← h2] at this
    exact ⟨this, fun hk => h5 (hk ▸ this)⟩
  · intro t l hop r hr
    rw [(del_op st k).1] at hop
    rw [del_map] at hr
    exact h.free t l hop r hr.1
  · rw [(del_op st k).1]; exact h.one

theorem SInv.step {L : Lis} {st st' : MSt} {a : MAct} (h : SInv L st) (hu : UInv L st) (hg : SerialAdd st a)
    (hx : mexec L st a = some st') : SInv L st' := by
  have self : ∀ (r : Nat) (g : Reg), st.regs[r]? = some g → ∃ g0, st.regs[r]? = some g0 ∧ g.lid = g0.lid ∧ g.cancelled = g0.cancelled :=
    fun r g h => ⟨g, h, rfl, rfl⟩
  have hmod : ∀ {r0 : Nat} {x : Gor} (r : Nat) (g : Reg), (setReg st.regs r0 (fun g => { g with gor := x }))[r]? = some g →
      ∃ g0, st.regs[r]? = some g0 ∧ g.lid = g0.lid ∧ g.cancelled = g0.cancelled := by
    intro r0 x r g hgg
    obtain ⟨g0, h1, h2, h3, _⟩ := mod_gor hgg
    exact ⟨g0, h1, h2, h3⟩
  unfold mexec at hx
  split at hx
  · cases hx
  · cases a with
    | add t l =>
      simp only at hx
      split at hx
      · split at hx
        · cases hx; exact h.keep rfl self (fun _ _ => id)
        · split at hx
          · cases hx; exact h.keep rfl self (fun _ _ => id)
          · rename_i hl
            cases hx
            refine ⟨h.inmap, ?_, ?_⟩
            · intro t' l' hop
              simp only [upd] at hop
              split at hop
              · cases hop; exact mlookup_none hl
              · exact absurd hop (hg t l rfl t' l')
            · intro t1 l1 t2 l2 h1 h2
              simp only [upd] at h1 h2
              split at h1 <;> split at h2
              · rename_i h3 h4; rw [h3, h4]
              · exact absurd h2 (hg t l rfl t2 l2)
              · exact absurd h1 (hg t l rfl t1 l1)
              · exact absurd h1 (hg t l rfl t1 l1)
      · cases hx
    | store t =>
      simp only at hx
      split at hx
      · rename_i l hop
        cases hx
        have hf : ∀ r, (L.key l, r) ∉ st.map := h.free t l hop
        refine ⟨?_, ?_, ?_⟩
        · intro r g hgg hc
          rcases app_reg hgg with h1 | ⟨h1, h2⟩
          · have h3 := h.inmap r g h1 hc
            simp only [List.mem_cons, List.mem_filter, bne_iff_ne, ne_eq]
            refine .inr ⟨h3, fun hk => hf r (hk ▸ h3)⟩
          · subst h1 h2; simp
        · intro t' l' hop'
          simp only [upd] at hop'
          split at hop'
          · cases hop'
          · rename_i hne
            exact absurd (h.one _ _ _ _ hop' hop) hne
        · intro t1 l1 t2 l2 h1 h2
          exact h.one _ _ _ _ (upd_add (by simp) h1) (upd_add (by simp) h2)
      · cases hx
    | remove l => cases hx; exact h.del hu _
    | acceptCall t =>
      simp only at hx
      split at hx
      · split at hx
        · cases hx; exact h.keep rfl self (fun _ _ => id)
        · cases hx; exact h.keep rfl self (fun _ _ => upd_add (by simp))
      · cases hx
    | acceptRecv t =>
      simp only at hx
      split at hx
      · split at hx
        · cases hx; exact h.keep rfl self (fun _ _ => upd_add (by simp))
        · split at hx
          · cases hx; exact h.keep rfl self (fun _ _ => upd_add (by simp))
          · cases hx
      · cases hx
    | closeCall t =>
      simp only at hx
      split at hx
      · split at hx
        · cases hx; exact h.keep rfl self (fun _ _ => id)
        · cases hx; exact h.keep rfl self (fun _ _ => upd_add (by simp))
      · cases hx
    | closeRemove t =>
      simp only at hx
      split at hx
      · cases hx
        refine (h.del hu _).keep rfl (fun r g h => ⟨g, h, rfl, rfl⟩) ?_
        intro t' l' ho
        rw [(del_op _ _).1]
        exact upd_add (by simp) ho
      · cases hx
    | closeChan t =>
      simp only at hx
      split at hx
      · split at hx
        · cases hx; exact h.keep rfl self (fun _ _ => id)
        · cases hx; exact h.keep rfl self (fun _ _ => upd_add (by simp))
      · cases hx
    | closeEnd t =>
      simp only at hx
      split at hx
      · cases hx; exact h.keep rfl self (fun _ _ => upd_add (by simp))
      · cases hx
    | incoming r0 =>
      simp only at hx
      split at hx
      · split at hx
        · cases hx
        · cases hx; exact h.keep rfl hmod (fun _ _ => id)
      · cases hx
    | send r0 =>
      simp only at hx
      split at hx
      · split at hx
        · cases hx; exact h.keep rfl self (fun _ _ => id)
        · split at hx
          · cases hx; exact h.keep rfl hmod (fun _ _ => id)
          · cases hx
      · cases hx
    | stop r0 =>
      simp only at hx
      split at hx
      · split at hx
        · cases hx; exact h.keep rfl hmod (fun _ _ => id)
        · cases hx
      · cases hx
    | netClose r0 =>
      simp only at hx
      split at hx
      · cases hx; exact h.keep rfl self (fun _ _ => id)
      · cases hx

theorem MReach.mono {L : Lis} {g1 g2 : MSt → MAct → Prop} (hg : ∀ st a, g1 st a → g2 st a) {st} (h : MReach L g1 st) :
    MReach L g2 st := by
  induction h with
  | init => exact .init
  | step _ hgd hx ih => exact ih.step (hg _ _ hgd) hx

theorem MReach.sinv {L st} (h : MReach L SerialAdd st) : SInv L st := by
  induction h with
  | init => exact ⟨by simp [MSt.init], by simp [MSt.init], by simp [MSt.init]⟩
  | step h0 hg hx ih => exact ih.step h0.uinv hg hx

/-- **C170**, for programs whose `AddListener` calls do not overlap: at any time at most one registration with a given
id is alive. -/
theorem C170_unique_partial (L : Lis) {st : MSt} (h : MReach L SerialAdd st) (k r r' : Nat) (h1 : Live L st.tr r k)
    (h2 : Live L st.tr r' k) : r = r' := by
  obtain ⟨g, a1, a2, a3⟩ := (live_iff h.inv h.uinv r k).1 h1
  obtain ⟨g', b1, b2, b3⟩ := (live_iff h.inv h.uinv r' k).1 h2
  have := h.sinv.inmap r g a1 a3
  rw [a2] at this
  have h' := h.sinv.inmap r' g' b1 b3
  rw [b2] at h'
  exact map_func h.uinv this h'

/-! ## Close -/

/-- The thread is inside `AddListener` or `Close`. -/
def Op.busy : Op → Prop
  | .adding _ => True
  | .closing _ => True
  | .closingEnd => True
  | _ => False

/-- Calls of `AddListener` and `Close` do not overlap each other. -/
def Serial (st : MSt) (a : MAct) : Prop :=
  (∃ t, (∃ l, a = .add t l) ∨ a = .closeCall t) → ∀ t', ¬ (st.op t').busy

theorem Serial.add {st a} (h : Serial st a) : SerialAdd st a := by
  intro t l ha t' l' ho
  have := h ⟨t, .inl ⟨l, ha⟩⟩ t'
  rw [ho] at this
  exact this trivial

/-- All registrations satisfy `P`. -/
def AllReg (st : MSt) (P : Reg → Prop) : Prop := ∀ (r : Nat) (g : Reg), st.regs[r]? = some g → P g

structure CInv (L : Lis) (st : MSt) : Prop where
  one : ∀ t t', (st.op t).busy → (st.op t').busy → t = t'
  rest : ∀ t ls, st.op t = .closing ls → AllReg st fun g => g.cancelled = false → L.key g.lid ∈ ls.map L.addr
  fin : ∀ t, st.op t = .closingEnd → AllReg st fun g => g.cancelled = true
  done : st.closed = true → AllReg st fun g => g.cancelled = true
  chn : st.chanClosed = true → st.closed = true ∨ ∃ t, st.op t = .closingEnd
  idle : st.closed = true → ∀ t, ¬ (st.op t).busy

theorem upd_busy {f : Nat → Op} {t t' : Nat} {o : Op} (ho : ¬ o.busy) (h : (upd f t o t').busy) : (f t').busy := by
  unfold upd at h
  split at h
  · exact absurd h ho
  · exact h

theorem upd_busy' {f : Nat → Op} {t t' : Nat} {o : Op} (ho : (f t).busy) (h : (upd f t o t').busy) : (f t').busy := by
  unfold upd at h
  split at h
  · rename_i hh; rw [hh]; exact ho
  · exact h

theorem CInv.keep {L : Lis} {st st' : MSt} (h : CInv L st)
    (hr : ∀ (r : Nat) (g : Reg), st'.regs[r]? = some g → ∃ g0, st.regs[r]? = some g0 ∧ g.lid = g0.lid
      ∧ (g0.cancelled = true → g.cancelled = true))
    (hb : ∀ t, (st'.op t).busy → st'.op t = st.op t) (hb' : ∀ t, (st.op t).busy → st'.op t = st.op t)
    (hc : st'.closed = st.closed) (hcc : st'.chanClosed = st.chanClosed) : CInv L st' := by
  have hcf : ∀ {g g0 : Reg}, (g0.cancelled = true → g.cancelled = true) → g.cancelled = false → g0.cancelled = false := by
    intro g g0 h1 h2
    cases h3 : g0.cancelled
    · rfl
    · rw [h1 h3] at h2; cases h2
  refine ⟨?_, ?_, ?_, ?_, ?_, ?_⟩
  · intro t t' h1 h2
    exact h.one t t' (hb t h1 ▸ h1) (hb t' h2 ▸ h2)
  · intro t ls ho r g hg hcn
    obtain ⟨g0, a1, a2, a3⟩ := hr r g hg
    have := hb t (by rw [ho]; trivial)
    rw [a2]; exact h.rest t ls (this ▸ ho) r g0 a1 (hcf a3 hcn)
  · intro t ho r g hg
    obtain ⟨g0, a1, a2, a3⟩ := hr r g hg
    have := hb t (by rw [ho]; trivial)
    exact a3 (h.fin t (this ▸ ho) r g0 a1)
  · intro hcl r g hg
    obtain ⟨g0, a1, a2, a3⟩ := hr r g hg
    exact a3 (h.done (hc ▸ hcl) r g0 a1)
  · intro hh
    rcases h.chn (hcc ▸ hh) with h1 | ⟨t, h1⟩
    · exact .inl (hc.trans h1)
    · exact .inr ⟨t, (hb' t (by rw [h1]; trivial)).trans h1⟩
  · intro hcl t ht
    exact h.idle (hc ▸ hcl) t (hb t ht ▸ ht)

theorem upd_nb {f : Nat → Op} {t t' : Nat} {o : Op} (ho : ¬ o.busy) (h : (upd f t o t').busy) : upd f t o t' = f t' := by
  unfold upd at h ⊢
  split at h
  · exact absurd h ho
  · rename_i hh; simp [hh]

theorem upd_nb' {f : Nat → Op} {t t' : Nat} {o : Op} (ho : ¬ (f t).busy) (h : (f t').busy) : upd f t o t' = f t' := by
  unfold upd
  split
  · rename_i hh; rw [hh] at h; exact absurd h ho
  · rfl

theorem CInv.step {L : Lis} (hk : ∀ l, L.key l = L.addr l) {st st' : MSt} {a : MAct} (h : CInv L st) (hu : UInv L st)
    (hs : SInv L st) (hg : Serial st a) (hx : mexec L st a = some st') : CInv L st' := by
  have self : ∀ (r : Nat) (g : Reg), st.regs[r]? = some g → ∃ g0, st.regs[r]? = some g0 ∧ g.lid = g0.lid
      ∧ (g0.cancelled = true → g.cancelled = true) :=
    fun r g h => ⟨g, h, rfl, id⟩
  have hmod : ∀ {r0 : Nat} {x : Gor} (r : Nat) (g : Reg), (setReg st.regs r0 (fun g => { g with gor := x }))[r]? = some g →
      ∃ g0, st.regs[r]? = some g0 ∧ g.lid = g0.lid ∧ (g0.cancelled = true → g.cancelled = true) := by
    intro r0 x r g hgg
    obtain ⟨g0, h1, h2, h3, _⟩ := mod_gor hgg
    exact ⟨g0, h1, h2, fun h => h3.trans h⟩
  have hdel : ∀ (k r : Nat) (g : Reg), (st.del k).regs[r]? = some g →
      ∃ g0, st.regs[r]? = some g0 ∧ g.lid = g0.lid ∧ (g0.cancelled = true → g.cancelled = true) := by
    intro k r g hgg
    obtain ⟨g0, h1, h2, _, h3, h4⟩ := del_regs hu k r hgg
    refine ⟨g0, h1, h2, fun h => ?_⟩
    cases hc : g.cancelled
    · rw [(h3 hc).1] at h; cases h
    · rfl
  unfold mexec at hx
  split at hx
  · cases hx
  · cases a with
    | add t l =>
      simp only at hx
      split at hx
      · rename_i hid
        split at hx
        · cases hx; exact h.keep self (fun _ _ => rfl) (fun _ _ => rfl) rfl rfl
        · rename_i hncl
          split at hx
          · cases hx; exact h.keep self (fun _ _ => rfl) (fun _ _ => rfl) rfl rfl
          · have hq := hg ⟨t, .inl ⟨l, rfl⟩⟩
            have hno : ∀ t' : Nat, t' ≠ t → ¬ (upd st.op t (.adding l) t').busy := by
              intro t' hne
              simp only [upd, hne, if_false]; exact hq t'
            cases hx
            refine ⟨?_, ?_, ?_, h.done, ?_, ?_⟩
            · intro t1 t2 h1 h2
              by_cases e1 : t1 = t <;> by_cases e2 : t2 = t
              · rw [e1, e2]
              · exact absurd h2 (hno t2 e2)
              · exact absurd h1 (hno t1 e1)
              · exact absurd h1 (hno t1 e1)
            · intro t' ls ho
              by_cases e : t' = t
              · simp [e, upd] at ho
              · exact absurd (show Op.busy _ by simp only at ho; rw [ho]; trivial) (hno t' e)
            · intro t' ho
              by_cases e : t' = t
              · simp [e, upd] at ho
              · exact absurd (show Op.busy _ by simp only at ho; rw [ho]; trivial) (hno t' e)
            · intro hch
              rcases h.chn hch with h1 | ⟨t', h1⟩
              · exact absurd h1 hncl
              · exact absurd (show Op.busy _ by rw [h1]; trivial) (hq t')
            · intro hcl; exact absurd hcl hncl
      · cases hx
    | store t =>
      simp only at hx
      split at hx
      · rename_i l hop
        have hbt : (st.op t).busy := by rw [hop]; trivial
        have hncl : ¬ st.closed = true := fun hcl => h.idle hcl t hbt
        have hoth : ∀ t', ¬ (upd st.op t .idle t').busy := by
          intro t' hb
          have h1 := upd_busy (by simp [Op.busy]) hb
          have := h.one _ _ h1 hbt
          subst this
          simp [upd, Op.busy] at hb
        cases hx
        refine ⟨?_, ?_, ?_, ?_, ?_, ?_⟩
        · intro t1 t2 h1 _; exact absurd h1 (hoth t1)
        · intro t' ls ho; exact absurd (show Op.busy _ by simp only at ho; rw [ho]; trivial) (hoth t')
        · intro t' ho; exact absurd (show Op.busy _ by simp only at ho; rw [ho]; trivial) (hoth t')
        · intro hcl; exact absurd hcl hncl
        · intro hch
          rcases h.chn hch with h1 | ⟨t', h1⟩
          · exact absurd h1 hncl
          · have := h.one t' t (by rw [h1]; trivial) hbt
            subst this
            rw [hop] at h1; cases h1
        · intro hcl; exact absurd hcl hncl
      · cases hx
    | remove l =>
      cases hx
      obtain ⟨a1, a2, a3, _⟩ := del_op st (L.key l)
      exact h.keep (hdel _) (fun _ _ => by rw [a1]) (fun _ _ => by rw [a1]) a3 a2
    | acceptCall t =>
      simp only at hx
      split at hx
      · rename_i hid
        split at hx
        · cases hx; exact h.keep self (fun _ _ => rfl) (fun _ _ => rfl) rfl rfl
        · cases hx
          exact h.keep self (fun _ => upd_nb (by simp [Op.busy])) (fun _ => upd_nb' (by simp [hid, Op.busy])) rfl rfl
      · cases hx
    | acceptRecv t =>
      simp only at hx
      split at hx
      · rename_i hid
        split at hx
        · cases hx
          exact h.keep self (fun _ => upd_nb (by simp [Op.busy])) (fun _ => upd_nb' (by simp [hid, Op.busy])) rfl rfl
        · split at hx
          · cases hx
            exact h.keep self (fun _ => upd_nb (by simp [Op.busy])) (fun _ => upd_nb' (by simp [hid, Op.busy])) rfl rfl
          · cases hx
      · cases hx
    | closeCall t =>
      simp only at hx
      split at hx
      · rename_i hid
        split at hx
        · cases hx; exact h.keep self (fun _ _ => rfl) (fun _ _ => rfl) rfl rfl
        · rename_i hncl
          have hq := hg ⟨t, .inr rfl⟩
          have hno : ∀ (o : Op) (t' : Nat), t' ≠ t → ¬ (upd st.op t o t').busy := by
            intro o t' hne
            simp only [upd, hne, if_false]; exact hq t'
          cases hx
          refine ⟨?_, ?_, ?_, h.done, ?_, ?_⟩
          · intro t1 t2 h1 h2
            by_cases e1 : t1 = t <;> by_cases e2 : t2 = t
            · rw [e1, e2]
            · exact absurd h2 (hno _ t2 e2)
            · exact absurd h1 (hno _ t1 e1)
            · exact absurd h1 (hno _ t1 e1)
          · intro t' ls ho r g hgg hc
            by_cases e : t' = t
            · subst e
              simp only [upd, if_true, Op.closing.injEq] at ho
              subst ho
              have h1 := hs.inmap r g hgg hc
              rw [List.mem_map]
              refine ⟨g.lid, ?_, (hk _).symm⟩
              rw [List.mem_filterMap]
              exact ⟨_, h1, by simp only at hgg ⊢; rw [hgg]; rfl⟩
            · exact absurd (show Op.busy _ by simp only at ho; rw [ho]; trivial) (hno _ t' e)
          · intro t' ho
            by_cases e : t' = t
            · simp [e, upd] at ho
            · exact absurd (show Op.busy _ by simp only at ho; rw [ho]; trivial) (hno _ t' e)
          · intro hch
            rcases h.chn hch with h1 | ⟨t', h1⟩
            · exact absurd h1 hncl
            · exact absurd (show Op.busy _ by rw [h1]; trivial) (hq t')
          · intro hcl; exact absurd hcl hncl
      · cases hx
    | closeRemove t =>
      simp only at hx
      split at hx
      · rename_i l ls hop
        have hbt : (st.op t).busy := by rw [hop]; trivial
        obtain ⟨a1, a2, a3, _⟩ := del_op st (L.addr l)
        cases hx
        refine ⟨?_, ?_, ?_, ?_, ?_, ?_⟩
        · intro t1 t2 h1 h2; exact h.one _ _ (upd_busy' hbt h1) (upd_busy' hbt h2)
        · intro t' ls' ho r g hgg hc
          have e : t' = t := h.one _ _ (upd_busy' hbt (by simp only at ho; rw [ho]; trivial)) hbt
          subst e
          simp only [upd, if_true, Op.closing.injEq] at ho
          subst ho
          obtain ⟨g0, b1, b2, _, b3, _⟩ := del_regs hu (L.addr l) r hgg
          obtain ⟨b4, b5⟩ := b3 hc
          have h1 := h.rest _ _ hop r g0 b1 b4
          rw [b2]
          simp only [List.map_cons, List.mem_cons] at h1
          rcases h1 with h1 | h1
          · exact absurd (h1 ▸ hs.inmap r g0 b1 b4) b5
          · exact h1
        · intro t' ho
          have e : t' = t := h.one _ _ (upd_busy' hbt (by simp only at ho; rw [ho]; trivial)) hbt
          subst e
          simp [upd] at ho
        · intro hcl
          simp only [a3] at hcl
          exact absurd hbt (h.idle hcl t)
        · intro hch
          simp only [a2] at hch
          rcases h.chn hch with h1 | ⟨t', h1⟩
          · exact absurd hbt (h.idle h1 t)
          · have := h.one t' t (by rw [h1]; trivial) hbt
            subst this
            rw [hop] at h1; cases h1
        · intro hcl
          simp only [a3] at hcl
          exact absurd hbt (h.idle hcl t)
      · cases hx
    | closeChan t =>
      simp only at hx
      split at hx
      · rename_i hop
        have hbt : (st.op t).busy := by rw [hop]; trivial
        have hnch : ¬ st.chanClosed = true := by
          intro hch
          rcases h.chn hch with h1 | ⟨t', h1⟩
          · exact h.idle h1 t hbt
          · have := h.one t' t (by rw [h1]; trivial) hbt
            subst this
            rw [hop] at h1; cases h1
        rw [if_neg hnch] at hx
        cases hx
        refine ⟨?_, ?_, ?_, h.done, ?_, ?_⟩
        · intro t1 t2 h1 h2; exact h.one _ _ (upd_busy' hbt h1) (upd_busy' hbt h2)
        · intro t' ls' ho
          have e : t' = t := h.one _ _ (upd_busy' hbt (by simp only at ho; rw [ho]; trivial)) hbt
          subst e
          simp [upd] at ho
        · intro t' ho r g hgg
          have := h.rest _ _ hop r g hgg
          cases hc : g.cancelled
          · simp at this; rw [hc] at this; cases this
          · rfl
        · intro _; exact .inr ⟨t, by simp [upd]⟩
        · intro hcl; exact absurd hbt (h.idle hcl t)
      · cases hx
    | closeEnd t =>
      simp only at hx
      split at hx
      · rename_i hop
        have hbt : (st.op t).busy := by rw [hop]; trivial
        have hoth : ∀ t', ¬ (upd st.op t .idle t').busy := by
          intro t' hb
          have h1 := upd_busy (by simp [Op.busy]) hb
          have := h.one _ _ h1 hbt
          subst this
          simp [upd, Op.busy] at hb
        cases hx
        refine ⟨?_, ?_, ?_, fun _ => h.fin t hop, fun _ => .inl rfl, fun _ => hoth⟩
        · intro t1 t2 h1 _; exact absurd h1 (hoth t1)
        · intro t' ls ho; exact absurd (show Op.busy _ by simp only at ho; rw [ho]; trivial) (hoth t')
        · intro t' ho; exact absurd (show Op.busy _ by simp only at ho; rw [ho]; trivial) (hoth t')
      · cases hx
    | incoming r0 =>
      simp only at hx
      split at hx
      · split at hx
        · cases hx
        · cases hx; exact h.keep hmod (fun _ _ => rfl) (fun _ _ => rfl) rfl rfl
      · cases hx
    | send r0 =>
      simp only at hx
      split at hx
      · split at hx
        · cases hx; exact h.keep self (fun _ _ => rfl) (fun _ _ => rfl) rfl rfl
        · split at hx
          · cases hx; exact h.keep hmod (fun _ _ => rfl) (fun _ _ => rfl) rfl rfl
          · cases hx
      · cases hx
    | stop r0 =>
      simp only at hx
      split at hx
      · split at hx
        · cases hx; exact h.keep hmod (fun _ _ => rfl) (fun _ _ => rfl) rfl rfl
        · cases hx
      · cases hx
    | netClose r0 =>
      simp only at hx
      split at hx
      · cases hx; exact h.keep self (fun _ _ => rfl) (fun _ _ => rfl) rfl rfl
      · cases hx

theorem MReach.cinv {L : Lis} (hk : ∀ l, L.key l = L.addr l) {st} (h : MReach L Serial st) : CInv L st := by
  induction h with
  | init => constructor <;> simp [MSt.init, Op.busy, AllReg]
  | step h0 hg hx ih => exact ih.step hk h0.uinv (h0.mono (fun _ _ => Serial.add)).sinv hg hx

/-- **C170**, for programs whose `AddListener` and `Close` calls do not overlap and whose listeners have no id of their
own: after `Close` no listener is registered (each has been removed and is told to close), nothing more is added and
`Accept` returns an error. -/
theorem C170_close_partial (L : Lis) (hk : ∀ l, L.key l = L.addr l) {st : MSt} (h : MReach L Serial st)
    (hc : MEv.closed ∈ st.tr) :
    (∀ r k, ¬ Live L st.tr r k) ∧ st.map = []
    ∧ (∀ r l, MEv.added r l ∈ st.tr → st.panicked = false → ∃ st', mexec L st (.netClose r) = some st' ∧ st'.netClosed l = true)
    ∧ (∀ t l st', mexec L st (.add t l) = some st' → st'.tr = .refused :: st.tr)
    ∧ (∀ t st', mexec L st (.acceptCall t) = some st' → st'.tr = .refused :: st.tr) := by
  have hm := h.inv
  have hu := h.uinv
  have hcl := hu.clo.1 hc
  have hall := (h.cinv hk).done hcl
  refine ⟨?_, ?_, ?_, ?_, ?_⟩
  · intro r k hl
    obtain ⟨g, h1, _, h2⟩ := (live_iff hm hu r k).1 hl
    rw [hall r g h1] at h2; cases h2
  · cases hmm : st.map with
    | nil => rfl
    | cons e m =>
      obtain ⟨k, r⟩ := e
      obtain ⟨g, h1, _, h2⟩ := hu.ent k r (by rw [hmm]; simp)
      rw [hall r g h1] at h2; cases h2
  · intro r l ha hp
    obtain ⟨g, h1, h2⟩ := reg_of_added hm ha
    obtain ⟨l0, cn, go⟩ := g
    have h3 := hall r _ h1
    simp only at h3 h2
    subst h3 h2
    exact ⟨_, by simp only [mexec, hp, h1]; rfl, by simp [upd]⟩
  · intro t l st' hx
    unfold mexec at hx
    split at hx
    · cases hx
    · simp only [hcl, if_true] at hx
      split at hx
      · cases hx; rfl
      · cases hx
  · intro t st' hx
    unfold mexec at hx
    split at hx
    · cases hx
    · simp only [hcl, if_true] at hx
      split at hx
      · cases hx; rfl
      · cases hx

/-! ## No panic -/

/-- `Serial`, and `Close` is called only after every listener has been removed and its goroutine has ended. -/
def Drained (st : MSt) (a : MAct) : Prop :=
  Serial st a ∧ ∀ t, a = .closeCall t → AllReg st fun g => g.gor = .gone

theorem drained_inv {L : Lis} (hk : ∀ l, L.key l = L.addr l) {st} (h : MReach L Drained st) :
    (((∃ t ls, st.op t = .closing ls) ∨ (∃ t, st.op t = .closingEnd) ∨ st.closed = true) → AllReg st fun g => g.gor = .gone)
    ∧ st.panicked = false := by
  induction h with
  | init => simp [MSt.init]
  | @step st a st' h0 hg hx ih =>
    have hser := h0.mono (g2 := Serial) (fun _ _ h => h.1)
    have hci := hser.cinv hk
    have hui := hser.uinv
    obtain ⟨ih1, ih2⟩ := ih
    have stay : ∀ st'' : MSt, st''.regs = st.regs → st''.closed = st.closed →
        (∀ t ls, st''.op t = .closing ls → ∃ t ls, st.op t = .closing ls) →
        (∀ t, st''.op t = .closingEnd → ∃ t, st.op t = .closingEnd) → st''.panicked = false →
        (((∃ t ls, st''.op t = .closing ls) ∨ (∃ t, st''.op t = .closingEnd) ∨ st''.closed = true) →
          AllReg st'' fun g => g.gor = .gone) ∧ st''.panicked = false := by
      intro s e1 e2 e3 e4 e5
      refine ⟨?_, e5⟩
      intro hc r g hgg
      rw [e1] at hgg
      refine ih1 ?_ r g hgg
      rcases hc with ⟨t, ls, hc⟩ | ⟨t, hc⟩ | hc
      · exact .inl (e3 t ls hc)
      · exact .inr (.inl (e4 t hc))
      · exact .inr (.inr (e2 ▸ hc))
    have u1 : ∀ (t : Nat) (o : Op), (∀ ls, o ≠ .closing ls) → ∀ t' ls, upd st.op t o t' = .closing ls → ∃ t ls, st.op t = .closing ls := by
      intro t o ho t' ls hh
      unfold upd at hh
      split at hh
      · exact absurd hh (ho ls)
      · exact ⟨_, _, hh⟩
    have u2 : ∀ (t : Nat) (o : Op), o ≠ .closingEnd → ∀ t', upd st.op t o t' = .closingEnd → ∃ t, st.op t = .closingEnd := by
      intro t o ho t' hh
      unfold upd at hh
      split at hh
      · exact absurd hh ho
      · exact ⟨_, hh⟩
    -- a step of a goroutine that is not gone: nobody is closing
    have live : ∀ (r : Nat) (g : Reg), st.regs[r]? = some g → g.gor ≠ .gone →
        ¬ ((∃ t ls, st.op t = .closing ls) ∨ (∃ t, st.op t = .closingEnd) ∨ st.closed = true) := by
      intro r g h1 h2 h3
      exact h2 (ih1 h3 r g h1)
    unfold mexec at hx
    rw [if_neg (by rw [ih2]; simp)] at hx
    cases a with
    | add t l =>
      simp only at hx
      split at hx
      · split at hx
        · cases hx; exact stay _ rfl rfl (fun t ls h => ⟨t, ls, h⟩) (fun t h => ⟨t, h⟩) ih2
        · split at hx
          · cases hx; exact stay _ rfl rfl (fun t ls h => ⟨t, ls, h⟩) (fun t h => ⟨t, h⟩) ih2
          · cases hx; exact stay _ rfl rfl (u1 t _ (by simp)) (u2 t _ (by simp)) ih2
      · cases hx
    | store t =>
      simp only at hx
      split at hx
      · rename_i l hop
        have hbt : (st.op t).busy := by rw [hop]; trivial
        have hno : ¬ ((∃ t ls, st.op t = .closing ls) ∨ (∃ t, st.op t = .closingEnd) ∨ st.closed = true) := by
          rintro (⟨t', ls, h1⟩ | ⟨t', h1⟩ | h1)
          · have := hci.one t' t (by rw [h1]; trivial) hbt
            subst this; rw [hop] at h1; cases h1
          · have := hci.one t' t (by rw [h1]; trivial) hbt
            subst this; rw [hop] at h1; cases h1
          · exact hci.idle h1 t hbt
        cases hx
        refine ⟨fun hc => absurd ?_ hno, ih2⟩
        rcases hc with ⟨t', ls, hc⟩ | ⟨t', hc⟩ | hc
        · exact .inl (u1 t _ (by simp) t' ls hc)
        · exact .inr (.inl (u2 t _ (by simp) t' hc))
        · exact .inr (.inr hc)
      · cases hx
    | remove l =>
      cases hx
      obtain ⟨a1, a2, a3, a4, _⟩ := del_op st (L.key l)
      refine ⟨?_, a4.trans ih2⟩
      rw [a1, a3]
      intro hc r g hgg
      obtain ⟨g0, b1, _, b2, _⟩ := del_regs hui (L.key l) r hgg
      rw [b2]; exact ih1 hc r g0 b1
    | acceptCall t =>
      simp only at hx
      split at hx
      · split at hx
        · cases hx; exact stay _ rfl rfl (fun t ls h => ⟨t, ls, h⟩) (fun t h => ⟨t, h⟩) ih2
        · cases hx; exact stay _ rfl rfl (u1 t _ (by simp)) (u2 t _ (by simp)) ih2
      · cases hx
    | acceptRecv t =>
      simp only at hx
      split at hx
      · split at hx
        · cases hx; exact stay _ rfl rfl (u1 t _ (by simp)) (u2 t _ (by simp)) ih2
        · split at hx
          · cases hx; exact stay _ rfl rfl (u1 t _ (by simp)) (u2 t _ (by simp)) ih2
          · cases hx
      · cases hx
    | closeCall t =>
      simp only at hx
      split at hx
      · split at hx
        · cases hx; exact stay _ rfl rfl (fun t ls h => ⟨t, ls, h⟩) (fun t h => ⟨t, h⟩) ih2
        · cases hx
          exact ⟨fun _ => hg.2 t rfl, ih2⟩
      · cases hx
    | closeRemove t =>
      simp only at hx
      split at hx
      · rename_i l ls hop
        obtain ⟨a1, a2, a3, a4, _⟩ := del_op st (L.addr l)
        cases hx
        refine ⟨fun _ => ?_, a4.trans ih2⟩
        intro r g hgg
        obtain ⟨g0, b1, _, b2, _⟩ := del_regs hui (L.addr l) r hgg
        rw [b2]; exact ih1 (.inl ⟨t, _, hop⟩) r g0 b1
      · cases hx
    | closeChan t =>
      simp only at hx
      split at hx
      · rename_i hop
        have hbt : (st.op t).busy := by rw [hop]; trivial
        have hnch : ¬ st.chanClosed = true := by
          intro hch
          rcases hci.chn hch with h1 | ⟨t', h1⟩
          · exact hci.idle h1 t hbt
          · have := hci.one t' t (by rw [h1]; trivial) hbt
            subst this
            rw [hop] at h1; cases h1
        rw [if_neg hnch] at hx
        cases hx
        exact ⟨fun _ => ih1 (.inl ⟨t, _, hop⟩), ih2⟩
      · cases hx
    | closeEnd t =>
      simp only at hx
      split at hx
      · rename_i hop
        cases hx
        exact ⟨fun _ => ih1 (.inr (.inl ⟨t, hop⟩)), ih2⟩
      · cases hx
    | incoming r0 =>
      simp only at hx
      split at hx
      · rename_i l cn hgg
        split at hx
        · cases hx
        · cases hx
          exact ⟨fun hc => absurd hc (live _ _ hgg (by simp)), ih2⟩
      · cases hx
    | send r0 =>
      simp only at hx
      split at hx
      · rename_i l cn c hgg
        have hno := live _ _ hgg (by simp)
        split at hx
        · rename_i hch
          rcases hci.chn hch with h1 | h1
          · exact absurd (.inr (.inr h1)) hno
          · exact absurd (.inr (.inl h1)) hno
        · split at hx
          · cases hx
            exact ⟨fun hc => absurd hc hno, ih2⟩
          · cases hx
      · cases hx
    | stop r0 =>
      simp only at hx
      split at hx
      · rename_i l cn hgg
        split at hx
        · cases hx
          exact ⟨fun hc => absurd hc (live _ _ hgg (by simp)), ih2⟩
        · cases hx
      · cases hx
    | netClose r0 =>
      simp only at hx
      split at hx
      · cases hx; exact stay _ rfl rfl (fun t ls h => ⟨t, ls, h⟩) (fun t h => ⟨t, h⟩) ih2
      · cases hx

/-- **C170**, for programs that in addition call `Close` only after every listener has been removed and has stopped:
nothing ever panics, and after `Close` every connection a listener accepted was returned or is the one in the
channel. -/
theorem C170_nopanic_partial (L : Lis) (hk : ∀ l, L.key l = L.addr l) {st : MSt} (h : MReach L Drained st) :
    MEv.panicked ∉ st.tr
    ∧ (MEv.closed ∈ st.tr → ∀ c r, MEv.arrived c r ∈ st.tr → MEv.returned c r ∈ st.tr ∨ st.chan = some (c, r)) := by
  have hd := drained_inv hk h
  constructor
  · intro hp
    have := h.uinv.pan.1 hp
    rw [hd.2] at this; cases this
  · intro hc c r ha
    rcases C51_conserved L (h.mono (fun _ _ _ => trivial)) c r ha with h1 | h1 | ⟨g, h1, h2⟩
    · exact .inl h1
    · exact .inr h1
    · have : g.gor = .gone := hd.1 (.inr (.inr (h.uinv.clo.1 hc))) r g h1
      rw [h2] at this; cases this

end Verif.Net
