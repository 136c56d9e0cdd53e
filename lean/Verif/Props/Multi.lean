import Verif.Net.Multi
/-! # C51 The multi-listener is the union of its listeners -/
namespace Verif.Net
open Verif.Tunnel (upd)

/-- The connection the goroutine of registration `r` holds. -/
def Gor.held : Gor → Option Nat
  | .holding c => some c
  | _ => none

def MSt.held (st : MSt) (r : Nat) : Option Nat := st.regs[r]?.bind (fun g => g.gor.held)

/-- `e` is newer than `e'`; two connections of one listener are returned in the order of their arrival. -/
def Ordered (e e' : MEv) : Prop := ∀ c c' r, e = .returned c r → e' = .returned c' r → c' < c

structure MInv (st : MSt) : Prop where
  cons : ∀ c r, MEv.arrived c r ∈ st.tr ↔ (MEv.returned c r ∈ st.tr ∨ st.chan = some (c, r) ∨ st.held r = some c)
  fresh : ∀ c r, MEv.arrived c r ∈ st.tr → c < st.nc
  func : ∀ c r r', MEv.arrived c r ∈ st.tr → MEv.arrived c r' ∈ st.tr → r = r'
  o1 : ∀ c c' r, MEv.returned c r ∈ st.tr → st.chan = some (c', r) → c < c'
  o2 : ∀ c c' r, MEv.returned c r ∈ st.tr → st.held r = some c' → c < c'
  o3 : ∀ c c' r, st.chan = some (c, r) → st.held r = some c' → c < c'
  o4 : st.tr.Pairwise Ordered
  reg : ∀ r l, MEv.added r l ∈ st.tr ↔ st.regs[r]?.map Reg.lid = some l
  dom : ∀ c r, MEv.arrived c r ∈ st.tr → r < st.regs.length

theorem MInv.init : MInv .init := by
  constructor <;> simp [MSt.init, MSt.held]

/-- Steps that touch neither the connections nor the registrations' goroutines. -/
theorem MInv.keep {st st' : MSt} (h : MInv st) (es : List MEv)
    (hes : ∀ e ∈ es, (∀ c r, e ≠ .arrived c r) ∧ (∀ c r, e ≠ .returned c r) ∧ (∀ r l, e ≠ .added r l))
    (htr : st'.tr = es ++ st.tr) (hch : st'.chan = st.chan) (hnc : st'.nc = st.nc)
    (hheld : ∀ r, st'.held r = st.held r)
    (hlid : ∀ r : Nat, st'.regs[r]?.map Reg.lid = st.regs[r]?.map Reg.lid)
    (hlen : st'.regs.length = st.regs.length) : MInv st' := by
  have ha : ∀ c r, MEv.arrived c r ∈ st'.tr ↔ MEv.arrived c r ∈ st.tr := by
    intro c r; rw [htr, List.mem_append]
    exact ⟨fun h => h.elim (fun h => absurd rfl ((hes _ h).1 c r)) id, .inr⟩
  have hr : ∀ c r, MEv.returned c r ∈ st'.tr ↔ MEv.returned c r ∈ st.tr := by
    intro c r; rw [htr, List.mem_append]
    exact ⟨fun h => h.elim (fun h => absurd rfl ((hes _ h).2.1 c r)) id, .inr⟩
  have hd : ∀ c r, MEv.added c r ∈ st'.tr ↔ MEv.added c r ∈ st.tr := by
    intro c r; rw [htr, List.mem_append]
    exact ⟨fun h => h.elim (fun h => absurd rfl ((hes _ h).2.2 c r)) id, .inr⟩
  refine ⟨?_, ?_, ?_, ?_, ?_, ?_, ?_, ?_, ?_⟩
  · intro c r; rw [ha, hr, hch, hheld]; exact h.cons c r
  · intro c r; rw [ha, hnc]; exact h.fresh c r
  · intro c r r'; rw [ha, ha]; exact h.func c r r'
  · intro c c' r; rw [hr, hch]; exact h.o1 c c' r
  · intro c c' r; rw [hr, hheld]; exact h.o2 c c' r
  · intro c c' r; rw [hch, hheld]; exact h.o3 c c' r
  · rw [htr, List.pairwise_append]
    refine ⟨?_, h.o4, ?_⟩
    · rw [List.pairwise_iff_forall_sublist]
      intro a b hab c c' r hac _
      exact absurd hac ((hes a (hab.subset (by simp))).2.1 c r)
    · intro a hae b _ c c' r hac _
      exact absurd hac ((hes a hae).2.1 c r)
  · intro r l; rw [hd, hlid]; exact h.reg r l
  · intro c r; rw [ha, hlen]; exact h.dom c r

theorem del_keep {st : MSt} (h : MInv st) (k : Nat) : MInv (st.del k) := by
  unfold MSt.del
  split
  · exact h
  · rename_i r _
    refine h.keep [.removed r] (by simp) rfl rfl rfl ?_ ?_ (by simp [setReg])
    · intro r'
      simp only [MSt.held, setReg, List.getElem?_modify]
      split <;> cases st.regs[r']? <;> simp
    · intro r'
      simp only [setReg, List.getElem?_modify]
      split <;> cases st.regs[r']? <;> simp

theorem MInv.step {L : Lis} {st st' : MSt} {a : MAct} (h : MInv st) (hx : mexec L st a = some st') : MInv st' := by
  unfold mexec at hx
  split at hx
  · cases hx
  · cases a with
    | add t l =>
      simp only at hx
      split at hx
      · split at hx
        · cases hx; exact h.keep [.refused] (by simp) rfl rfl rfl (fun _ => rfl) (fun _ => rfl) rfl
        · split at hx
          · cases hx; exact h.keep [.dup l] (by simp) rfl rfl rfl (fun _ => rfl) (fun _ => rfl) rfl
          · cases hx; exact h.keep [] (by simp) rfl rfl rfl (fun _ => rfl) (fun _ => rfl) rfl
      · cases hx
    | store t =>
      simp only at hx
      split at hx
      · rename_i l _
        cases hx
        have hh : ∀ r, MSt.held { st with op := upd st.op t .idle
                                          regs := st.regs ++ [{ lid := l, cancelled := false, gor := .accepting }]
                                          map := (L.key l, st.regs.length) :: st.map.filter (fun e => e.1 != L.key l)
                                          tr := .added st.regs.length l :: st.tr } r = st.held r := by
          intro r
          simp only [MSt.held, List.getElem?_append]
          split
          · rfl
          · rename_i hr
            have hn : st.regs[r]? = none := List.getElem?_eq_none (by omega)
            rw [hn]
            cases hrr : r - st.regs.length <;> simp [Gor.held]
        refine ⟨?_, ?_, ?_, ?_, ?_, ?_, ?_, ?_, ?_⟩
        · intro c r; rw [hh]; simpa using h.cons c r
        · intro c r; simpa using h.fresh c r
        · intro c r r'; simpa using h.func c r r'
        · intro c c' r; simpa using h.o1 c c' r
        · intro c c' r; rw [hh]; simpa using h.o2 c c' r
        · intro c c' r; rw [hh]; simpa using h.o3 c c' r
        · simp only [List.pairwise_cons]
          exact ⟨fun e _ c c' r he => by (cases he), h.o4⟩
        · intro r l'
          have := h.reg r l'
          simp only [List.mem_cons, MEv.added.injEq, List.getElem?_append]
          split
          · rename_i hr
            constructor
            · rintro (⟨h1, _⟩ | h1)
              · omega
              · exact this.1 h1
            · intro h1; exact .inr (this.2 h1)
          · rename_i hr
            have hn : st.regs[r]? = none := List.getElem?_eq_none (by omega)
            rw [hn] at this
            simp only [Option.map_none, reduceCtorEq, iff_false] at this
            simp only [this, or_false]
            by_cases hrr : r = st.regs.length
            · subst hrr; simp [eq_comm]
            · have : r - st.regs.length ≠ 0 := by omega
              simp only [hrr, false_and, false_iff]
              rw [List.getElem?_eq_none (by simp; omega)]
              simp
        · intro c r hc
          have := h.dom c r (by simpa using hc)
          simp; omega
      · cases hx
    | remove l => cases hx; exact del_keep h _
    | acceptCall t =>
      simp only at hx
      split at hx
      · split at hx
        · cases hx; exact h.keep [.refused] (by simp) rfl rfl rfl (fun _ => rfl) (fun _ => rfl) rfl
        · cases hx; exact h.keep [] (by simp) rfl rfl rfl (fun _ => rfl) (fun _ => rfl) rfl
      · cases hx
    | acceptRecv t =>
      simp only at hx
      split at hx
      · split at hx
        · rename_i c0 r0 hch
          cases hx
          have hh : ∀ r, MSt.held { st with op := upd st.op t .idle, chan := none, tr := .returned c0 r0 :: st.tr } r
              = st.held r := fun _ => rfl
          refine ⟨?_, ?_, ?_, ?_, ?_, ?_, ?_, ?_, ?_⟩
          · intro c r; rw [hh]
            have := h.cons c r
            rw [hch] at this
            simp only [List.mem_cons, reduceCtorEq, false_or, MEv.returned.injEq]
            rw [this]
            simp only [Option.some.injEq, Prod.mk.injEq]
            constructor
            · rintro (h1 | ⟨h1, h2⟩ | h1)
              · exact .inl (.inr h1)
              · exact .inl (.inl ⟨h1.symm, h2.symm⟩)
              · exact .inr h1
            · rintro ((⟨h1, h2⟩ | h1) | h1)
              · exact .inr (.inl ⟨h1.symm, h2.symm⟩)
              · exact .inl h1
              · exact .inr (.inr h1)
          · intro c r; simpa using h.fresh c r
          · intro c r r'; simpa using h.func c r r'
          · intro c c' r _ hc; cases hc
          · intro c c' r; rw [hh]
            simp only [List.mem_cons, MEv.returned.injEq]
            rintro (⟨h1, h2⟩ | h1) h3
            · subst h1 h2; exact h.o3 _ _ _ hch h3
            · exact h.o2 _ _ _ h1 h3
          · intro c c' r hc; cases hc
          · simp only [List.pairwise_cons]
            refine ⟨fun e he c c' r h1 h2 => ?_, h.o4⟩
            cases h1; subst h2
            exact h.o1 _ _ _ he hch
          · intro r l; simpa using h.reg r l
          · intro c r hc; exact h.dom c r (by simpa using hc)
        · split at hx
          · cases hx; exact h.keep [.refused] (by simp) rfl rfl rfl (fun _ => rfl) (fun _ => rfl) rfl
          · cases hx
      · cases hx
    | closeCall t =>
      simp only at hx
      split at hx
      · split at hx
        · cases hx; exact h.keep [.refused] (by simp) rfl rfl rfl (fun _ => rfl) (fun _ => rfl) rfl
        · cases hx; exact h.keep [] (by simp) rfl rfl rfl (fun _ => rfl) (fun _ => rfl) rfl
      · cases hx
    | closeRemove t =>
      simp only at hx
      split at hx
      · cases hx
        exact (del_keep h _).keep [] (by simp) rfl rfl rfl (fun _ => rfl) (fun _ => rfl) rfl
      · cases hx
    | closeChan t =>
      simp only at hx
      split at hx
      · split at hx
        · cases hx; exact h.keep [.panicked] (by simp) rfl rfl rfl (fun _ => rfl) (fun _ => rfl) rfl
        · cases hx; exact h.keep [] (by simp) rfl rfl rfl (fun _ => rfl) (fun _ => rfl) rfl
      · cases hx
    | closeEnd t =>
      simp only at hx
      split at hx
      · cases hx; exact h.keep [.closed] (by simp) rfl rfl rfl (fun _ => rfl) (fun _ => rfl) rfl
      · cases hx
    | incoming r0 =>
      simp only at hx
      split at hx
      · rename_i l cn hg
        split at hx
        · cases hx
        · cases hx
          have hh : ∀ r, MSt.held { st with regs := setReg st.regs r0 (fun g => { g with gor := .holding st.nc })
                                            nc := st.nc + 1, tr := .arrived st.nc r0 :: st.tr } r
              = if r = r0 then some st.nc else st.held r := by
            intro r
            simp only [MSt.held, setReg, List.getElem?_modify]
            by_cases hr : r = r0
            · subst hr; simp [hg, Gor.held]
            · have : ¬ r0 = r := fun h => hr h.symm
              simp [hr, this]
          have h0 : st.held r0 = none := by simp [MSt.held, hg, Gor.held]
          have hlt : ∀ c r, MEv.returned c r ∈ st.tr → c < st.nc := fun c r h1 =>
            h.fresh c r ((h.cons c r).2 (.inl h1))
          have hlt2 : ∀ c r, st.chan = some (c, r) → c < st.nc := fun c r h1 =>
            h.fresh c r ((h.cons c r).2 (.inr (.inl h1)))
          refine ⟨?_, ?_, ?_, ?_, ?_, ?_, ?_, ?_, ?_⟩
          · intro c r; rw [hh]
            have := h.cons c r
            simp only [List.mem_cons, MEv.arrived.injEq, reduceCtorEq, false_or]
            by_cases hr : r = r0
            · subst hr
              rw [h0] at this
              simp only [if_true, and_true, Option.some.injEq]
              rw [this]
              simp only [reduceCtorEq, or_false]
              constructor
              · rintro (h1 | h1 | h1)
                · exact .inr (.inr h1.symm)
                · exact .inl h1
                · exact .inr (.inl h1)
              · rintro (h1 | h1 | h1)
                · exact .inr (.inl h1)
                · exact .inr (.inr h1)
                · exact .inl h1.symm
            · simpa [hr] using this
          · intro c r hc
            simp only [List.mem_cons, MEv.arrived.injEq] at hc
            rcases hc with ⟨h1, _⟩ | h1
            · subst h1; exact Nat.lt_succ_self _
            · exact Nat.lt_succ_of_lt (h.fresh c r h1)
          · intro c r r' hc hc'
            simp only [List.mem_cons, MEv.arrived.injEq] at hc hc'
            rcases hc with ⟨h1, h2⟩ | h1 <;> rcases hc' with ⟨h3, h4⟩ | h3
            · rw [h2, h4]
            · have := h.fresh _ _ h3; omega
            · have := h.fresh _ _ h1; omega
            · exact h.func _ _ _ h1 h3
          · intro c c' r; simpa using h.o1 c c' r
          · intro c c' r h1; rw [hh]
            have h1 : MEv.returned c r ∈ st.tr := by simpa using h1
            split
            · intro h2; cases h2; exact hlt _ _ h1
            · exact h.o2 _ _ _ h1
          · intro c c' r h1; rw [hh]
            split
            · intro h2; cases h2; exact hlt2 _ _ h1
            · exact h.o3 _ _ _ h1
          · simp only [List.pairwise_cons]
            exact ⟨fun e _ c c' r he => by (cases he), h.o4⟩
          · intro r l
            have := h.reg r l
            simp only [List.mem_cons, reduceCtorEq, false_or, setReg, List.getElem?_modify]
            rw [this]
            split <;> cases st.regs[r]? <;> simp
          · intro c r hc
            simp only [List.mem_cons, MEv.arrived.injEq] at hc
            have : r0 < st.regs.length := (List.getElem?_eq_some_iff.1 hg).1
            simp only [setReg, List.length_modify]
            rcases hc with ⟨_, h1⟩ | h1
            · omega
            · exact h.dom c r h1
      · cases hx
    | send r0 =>
      simp only at hx
      split at hx
      · rename_i l cn c0 hg
        split at hx
        · cases hx; exact h.keep [.panicked] (by simp) rfl rfl rfl (fun _ => rfl) (fun _ => rfl) rfl
        · split at hx
          · rename_i hch
            have hch : st.chan = none := by simpa using hch
            cases hx
            have hh : ∀ r, MSt.held { st with regs := setReg st.regs r0 (fun g => { g with gor := .accepting })
                                              chan := some (c0, r0) } r
                = if r = r0 then none else st.held r := by
              intro r
              simp only [MSt.held, setReg, List.getElem?_modify]
              by_cases hr : r = r0
              · subst hr; simp [hg, Gor.held]
              · have : ¬ r0 = r := fun h => hr h.symm
                simp [hr, this]
            have h0 : st.held r0 = some c0 := by simp [MSt.held, hg, Gor.held]
            refine ⟨?_, h.fresh, h.func, ?_, ?_, ?_, h.o4, ?_, ?_⟩
            · intro c r; rw [hh]
              have := h.cons c r
              rw [hch] at this
              rw [this]
              simp only [Option.some.injEq, Prod.mk.injEq]
              by_cases hr : r = r0
              · subst hr; rw [h0]; simp
              · have : ¬ r0 = r := fun h => hr h.symm
                simp [hr, this]
            · intro c c' r h1 h2
              cases h2
              exact h.o2 _ _ _ h1 h0
            · intro c c' r h1; rw [hh]
              split
              · intro h2; cases h2
              · exact h.o2 _ _ _ h1
            · intro c c' r h1; rw [hh]
              cases h1
              simp
            · intro r l
              have := h.reg r l
              rw [this]
              simp only [setReg, List.getElem?_modify]
              split <;> cases st.regs[r]? <;> simp
            · intro c r hc
              simpa [setReg] using h.dom c r hc
          · cases hx
      · cases hx
    | stop r0 =>
      simp only at hx
      split at hx
      · rename_i l cn hg
        split at hx
        · cases hx
          refine h.keep [] (by simp) rfl rfl rfl ?_ ?_ (by simp [setReg])
          · intro r
            simp only [MSt.held, setReg, List.getElem?_modify]
            by_cases hr : r0 = r
            · subst hr; simp [hg, Gor.held]
            · simp [hr]
          · intro r
            simp only [setReg, List.getElem?_modify]
            split <;> cases st.regs[r]? <;> simp
        · cases hx
      · cases hx
    | netClose r0 =>
      simp only at hx
      split at hx
      · rename_i l _ _
        cases hx; exact h.keep [.netClosed l] (by simp) rfl rfl rfl (fun _ => rfl) (fun _ => rfl) rfl
      · cases hx

theorem MReach.inv {L guard st} (h : MReach L guard st) : MInv st := by
  induction h with
  | init => exact .init
  | step _ _ hx ih => exact ih.step hx

/-! ## The registry -/

/-- Registration `r` of a listener with id `k` is alive: added and not removed. -/
def Live (L : Lis) (tr : List MEv) (r k : Nat) : Prop :=
  (∃ l, MEv.added r l ∈ tr ∧ L.key l = k) ∧ MEv.removed r ∉ tr

/-- What holds of the map in every execution. -/
structure UInv (L : Lis) (st : MSt) : Prop where
  nd : (st.map.map (·.1)).Nodup
  ent : ∀ k r, (k, r) ∈ st.map → ∃ g, st.regs[r]? = some g ∧ L.key g.lid = k ∧ g.cancelled = false
  rem : ∀ r, MEv.removed r ∈ st.tr ↔ ∃ g, st.regs[r]? = some g ∧ g.cancelled = true
  net : ∀ l, MEv.netClosed l ∈ st.tr ↔ st.netClosed l = true
  clo : MEv.closed ∈ st.tr ↔ st.closed = true
  pan : MEv.panicked ∈ st.tr ↔ st.panicked = true

theorem UInv.init (L : Lis) : UInv L .init := by
  constructor <;> simp [MSt.init]

theorem mlookup_some {st : MSt} {k r : Nat} (h : st.lookup k = some r) : (k, r) ∈ st.map := by
  simp only [MSt.lookup, Option.map_eq_some_iff] at h
  obtain ⟨e, he, hp⟩ := h
  have h1 := List.mem_of_find?_eq_some he
  have h2 := List.find?_some he
  simp only [beq_iff_eq] at h2
  obtain ⟨a, b⟩ := e
  simp only at h2 hp
  rw [← h2, ← hp]; exact h1

theorem mlookup_none {st : MSt} {k : Nat} (h : st.lookup k = none) : ∀ r, (k, r) ∉ st.map := by
  intro r hr
  simp only [MSt.lookup, Option.map_eq_none_iff, List.find?_eq_none, beq_iff_eq] at h
  exact h _ hr rfl

theorem map_func {L : Lis} {st : MSt} (h : UInv L st) {k r r' : Nat} (h1 : (k, r) ∈ st.map) (h2 : (k, r') ∈ st.map) :
    r = r' := by
  have := h.nd
  clear h
  generalize st.map = m at *
  induction m with
  | nil => cases h1
  | cons x m ih =>
    simp only [List.map_cons, List.nodup_cons, List.mem_map, not_exists, not_and] at this
    rcases List.mem_cons.1 h1 with a1 | a1 <;> rcases List.mem_cons.1 h2 with a2 | a2
    · rw [← a1] at a2; cases a2; rfl
    · subst a1; exact absurd rfl (this.1 (k, r') a2)
    · subst a2; exact absurd rfl (this.1 (k, r) a1)
    · exact ih a1 a2 this.2

/-- Steps that touch neither the map nor the registrations' identity. -/
theorem UInv.keep {L : Lis} {st st' : MSt} (h : UInv L st) (es : List MEv)
    (hes : ∀ e ∈ es, (∀ r, e ≠ .removed r) ∧ (∀ l, e ≠ .netClosed l) ∧ e ≠ .closed ∧ e ≠ .panicked)
    (htr : st'.tr = es ++ st.tr) (hm : st'.map = st.map) (hn : st'.netClosed = st.netClosed)
    (hc : st'.closed = st.closed) (hp : st'.panicked = st.panicked)
    (hr : ∀ r : Nat, st'.regs[r]?.map (fun g => (g.lid, g.cancelled)) = st.regs[r]?.map (fun g => (g.lid, g.cancelled))) :
    UInv L st' := by
  have e1 : ∀ r, MEv.removed r ∈ st'.tr ↔ MEv.removed r ∈ st.tr := by
    intro r; rw [htr, List.mem_append]
    exact ⟨fun h => h.elim (fun h => absurd rfl ((hes _ h).1 r)) id, .inr⟩
  have e2 : ∀ r, MEv.netClosed r ∈ st'.tr ↔ MEv.netClosed r ∈ st.tr := by
    intro r; rw [htr, List.mem_append]
    exact ⟨fun h => h.elim (fun h => absurd rfl ((hes _ h).2.1 r)) id, .inr⟩
  have e3 : MEv.closed ∈ st'.tr ↔ MEv.closed ∈ st.tr := by
    rw [htr, List.mem_append]
    exact ⟨fun h => h.elim (fun h => absurd rfl (hes _ h).2.2.1) id, .inr⟩
  have e4 : MEv.panicked ∈ st'.tr ↔ MEv.panicked ∈ st.tr := by
    rw [htr, List.mem_append]
    exact ⟨fun h => h.elim (fun h => absurd rfl (hes _ h).2.2.2) id, .inr⟩
  refine ⟨?_, ?_, ?_, ?_, ?_, ?_⟩
  · rw [hm]; exact h.nd
  · intro k r hkr
    rw [hm] at hkr
    obtain ⟨g, h1, h2, h3⟩ := h.ent k r hkr
    have := hr r
    rw [h1] at this
    simp only [Option.map_some, Option.map_eq_some_iff, Prod.mk.injEq] at this
    obtain ⟨g', h4, h5, h6⟩ := this
    exact ⟨g', h4, by rw [h5]; exact h2, by rw [h6]; exact h3⟩
  · intro r
    rw [e1, h.rem]
    have := hr r
    constructor
    · rintro ⟨g, h1, h2⟩
      rw [h1] at this
      simp only [Option.map_some, Option.map_eq_some_iff, Prod.mk.injEq] at this
      obtain ⟨g', h4, h5, h6⟩ := this
      exact ⟨g', h4, by rw [h6]; exact h2⟩
    · rintro ⟨g, h1, h2⟩
      rw [h1] at this
      have this := this.symm
      simp only [Option.map_some, Option.map_eq_some_iff, Prod.mk.injEq] at this
      obtain ⟨g', h4, h5, h6⟩ := this
      exact ⟨g', h4, by rw [h6]; exact h2⟩
  · intro l; rw [e2, hn]; exact h.net l
  · rw [e3, hc]; exact h.clo
  · rw [e4, hp]; exact h.pan

theorem modify_keep {f : Reg → Reg} (hf : ∀ g, (f g).lid = g.lid ∧ (f g).cancelled = g.cancelled) (regs : List Reg)
    (r r' : Nat) : (setReg regs r f)[r']?.map (fun g => (g.lid, g.cancelled)) = regs[r']?.map (fun g => (g.lid, g.cancelled)) := by
  simp only [setReg, List.getElem?_modify]
  split <;> cases regs[r']? <;> simp [hf]

theorem UInv.del {L : Lis} {st : MSt} (h : UInv L st) (k : Nat) : UInv L (st.del k) := by
  unfold MSt.del
  split
  · exact h
  · rename_i r0 hl
    have hm := mlookup_some hl
    obtain ⟨g0, hg0, hk0, hc0⟩ := h.ent _ _ hm
    refine ⟨?_, ?_, ?_, ?_, ?_, ?_⟩
    · exact h.nd.sublist ((List.filter_sublist).map _)
    · intro k' r hkr
      simp only [List.mem_filter, bne_iff_ne, ne_eq] at hkr
      obtain ⟨g, h1, h2, h3⟩ := h.ent k' r hkr.1
      have hne : ¬ r0 = r := by
        intro hr; subst hr
        rw [hg0] at h1; cases h1
        exact hkr.2 (h2.symm.trans hk0)
      refine ⟨g, ?_, h2, h3⟩
      simp [setReg, List.getElem?_modify, hne, h1]
    · intro r
      simp only [List.mem_cons, MEv.removed.injEq, setReg, List.getElem?_modify]
      rw [h.rem]
      by_cases hr : r0 = r
      · subst hr; simp [hg0]
      · have : ¬ r = r0 := fun h => hr h.symm
        simp [hr, this]
    · intro l; simpa using h.net l
    · simpa using h.clo
    · simpa using h.pan

theorem UInv.step {L : Lis} {st st' : MSt} {a : MAct} (h : UInv L st) (hx : mexec L st a = some st') : UInv L st' := by
  unfold mexec at hx
  split at hx
  · cases hx
  · cases a with
    | add t l =>
      simp only at hx
      split at hx
      · split at hx
        · cases hx; exact h.keep [.refused] (by simp) rfl rfl rfl rfl rfl (fun _ => rfl)
        · split at hx
          · cases hx; exact h.keep [.dup l] (by simp) rfl rfl rfl rfl rfl (fun _ => rfl)
          · cases hx; exact h.keep [] (by simp) rfl rfl rfl rfl rfl (fun _ => rfl)
      · cases hx
    | store t =>
      simp only at hx
      split at hx
      · rename_i l _
        cases hx
        refine ⟨?_, ?_, ?_, ?_, ?_, ?_⟩
        · simp only [List.map_cons, List.nodup_cons]
          refine ⟨?_, h.nd.sublist ((List.filter_sublist).map _)⟩
          simp only [List.mem_map, List.mem_filter, bne_iff_ne, ne_eq, not_exists, not_and]
          rintro e ⟨_, he⟩; exact he
        · intro k r hkr
          rcases List.mem_cons.1 hkr with hkr | hkr
          · cases hkr
            exact ⟨{ lid := l, cancelled := false, gor := .accepting }, by simp, rfl, rfl⟩
          · simp only [List.mem_filter, bne_iff_ne, ne_eq] at hkr
            obtain ⟨g, h1, h2⟩ := h.ent k r hkr.1
            refine ⟨g, ?_, h2⟩
            rw [List.getElem?_append_left (List.getElem?_eq_some_iff.1 h1).1]; exact h1
        · intro r
          simp only [List.mem_cons, reduceCtorEq, false_or]
          rw [h.rem]
          constructor
          · rintro ⟨g, h1, h2⟩
            exact ⟨g, by rw [List.getElem?_append_left (List.getElem?_eq_some_iff.1 h1).1]; exact h1, h2⟩
          · rintro ⟨g, h1, h2⟩
            rw [List.getElem?_append] at h1
            split at h1
            · exact ⟨g, h1, h2⟩
            · cases hr : r - st.regs.length
              · rw [hr] at h1; simp only [List.getElem?_cons_zero, Option.some.injEq] at h1
                subst h1; cases h2
              · rw [hr] at h1; simp at h1
        · intro l; simpa using h.net l
        · simpa using h.clo
        · simpa using h.pan
      · cases hx
    | remove l => cases hx; exact h.del _
    | acceptCall t =>
      simp only at hx
      split at hx
      · split at hx
        · cases hx; exact h.keep [.refused] (by simp) rfl rfl rfl rfl rfl (fun _ => rfl)
        · cases hx; exact h.keep [] (by simp) rfl rfl rfl rfl rfl (fun _ => rfl)
      · cases hx
    | acceptRecv t =>
      simp only at hx
      split at hx
      · split at hx
        · rename_i c r _
          cases hx; exact h.keep [.returned c r] (by simp) rfl rfl rfl rfl rfl (fun _ => rfl)
        · split at hx
          · cases hx; exact h.keep [.refused] (by simp) rfl rfl rfl rfl rfl (fun _ => rfl)
          · cases hx
      · cases hx
    | closeCall t =>
      simp only at hx
      split at hx
      · split at hx
        · cases hx; exact h.keep [.refused] (by simp) rfl rfl rfl rfl rfl (fun _ => rfl)
        · cases hx; exact h.keep [] (by simp) rfl rfl rfl rfl rfl (fun _ => rfl)
      · cases hx
    | closeRemove t =>
      simp only at hx
      split at hx
      · cases hx; exact (h.del _).keep [] (by simp) rfl rfl rfl rfl rfl (fun _ => rfl)
      · cases hx
    | closeChan t =>
      simp only at hx
      split at hx
      · split at hx
        · cases hx
          exact ⟨h.nd, h.ent, (by intro r; simpa using h.rem r), (by intro l; simpa using h.net l), (by simpa using h.clo), by simp⟩
        · cases hx; exact h.keep [] (by simp) rfl rfl rfl rfl rfl (fun _ => rfl)
      · cases hx
    | closeEnd t =>
      simp only at hx
      split at hx
      · cases hx
        exact ⟨h.nd, h.ent, (by intro r; simpa using h.rem r), (by intro l; simpa using h.net l), (by simp), (by simpa using h.pan)⟩
      · cases hx
    | incoming r0 =>
      simp only at hx
      split at hx
      · split at hx
        · cases hx
        · cases hx
          exact h.keep [.arrived st.nc r0] (by simp) rfl rfl rfl rfl rfl (modify_keep (by simp) _ _)
      · cases hx
    | send r0 =>
      simp only at hx
      split at hx
      · split at hx
        · cases hx
          exact ⟨h.nd, h.ent, (by intro r; simpa using h.rem r), (by intro l; simpa using h.net l), (by simpa using h.clo), by simp⟩
        · split at hx
          · cases hx
            exact h.keep [] (by simp) rfl rfl rfl rfl rfl (modify_keep (by simp) _ _)
          · cases hx
      · cases hx
    | stop r0 =>
      simp only at hx
      split at hx
      · split at hx
        · cases hx
          exact h.keep [] (by simp) rfl rfl rfl rfl rfl (modify_keep (by simp) _ _)
        · cases hx
      · cases hx
    | netClose r0 =>
      simp only at hx
      split at hx
      · rename_i l _ _
        cases hx
        refine ⟨h.nd, h.ent, (by intro r; simpa using h.rem r), ?_, (by simpa using h.clo), (by simpa using h.pan)⟩
        intro l'
        simp only [List.mem_cons, MEv.netClosed.injEq, upd]
        rw [h.net]
        split <;> simp_all
      · cases hx

theorem MReach.uinv {L guard st} (h : MReach L guard st) : UInv L st := by
  induction h with
  | init => exact .init L
  | step _ _ hx ih => exact ih.step hx

theorem reg_of_added {st : MSt} (h : MInv st) {r l : Nat} (ha : MEv.added r l ∈ st.tr) :
    ∃ g, st.regs[r]? = some g ∧ g.lid = l := by
  have := (h.reg r l).1 ha
  simpa [Option.map_eq_some_iff] using this

theorem live_iff {L : Lis} {st : MSt} (hm : MInv st) (hu : UInv L st) (r k : Nat) :
    Live L st.tr r k ↔ ∃ g, st.regs[r]? = some g ∧ L.key g.lid = k ∧ g.cancelled = false := by
  constructor
  · rintro ⟨⟨l, h1, h2⟩, h3⟩
    obtain ⟨g, h4, h5⟩ := reg_of_added hm h1
    refine ⟨g, h4, by rw [h5]; exact h2, ?_⟩
    cases hc : g.cancelled
    · rfl
    · exact absurd ((hu.rem r).2 ⟨g, h4, hc⟩) h3
  · rintro ⟨g, h1, h2, h3⟩
    refine ⟨⟨g.lid, (hm.reg r g.lid).2 (by rw [h1]; rfl), h2⟩, fun hr => ?_⟩
    obtain ⟨g', h4, h5⟩ := (hu.rem r).1 hr
    rw [h1] at h4; cases h4; rw [h3] at h5; cases h5

/-! ## Every execution -/

/-- **C51** Whatever the interleaving, every connection `Accept` returned was accepted by a listener that had been
added, and no connection is returned twice. -/
theorem C51_once (L : Lis) {st : MSt} (h : MReach L MAll st) :
    (∀ c r, MEv.returned c r ∈ st.tr → MEv.arrived c r ∈ st.tr ∧ ∃ l, MEv.added r l ∈ st.tr)
    ∧ (st.tr.filterMap (fun e => match e with | .returned c _ => some c | _ => none)).Nodup := by
  have hm := h.inv
  constructor
  · intro c r hr
    have ha := (hm.cons c r).2 (.inl hr)
    refine ⟨ha, ?_⟩
    have hd := hm.dom c r ha
    exact ⟨st.regs[r].lid, (hm.reg r _).2 (by rw [List.getElem?_eq_getElem hd]; rfl)⟩
  · rw [List.Nodup, List.pairwise_filterMap]
    have hall : ∀ c r, MEv.returned c r ∈ st.tr → MEv.arrived c r ∈ st.tr := fun c r hr => (hm.cons c r).2 (.inl hr)
    have hf := hm.func
    have ho := hm.o4
    refine List.Pairwise.imp_of_mem (R := Ordered) ?_ ho
    intro a b ha hb hab c hc c' hc' hcc
    subst hcc
    cases a with
    | returned c1 r1 =>
      cases b with
      | returned c2 r2 =>
        simp only [Option.some.injEq] at hc hc'
        subst hc; subst hc'
        have := hf _ _ _ (hall _ _ ha) (hall _ _ hb)
        subst this
        exact absurd (hab _ _ _ rfl rfl) (Nat.lt_irrefl _)
      | _ => cases hc'
    | _ => cases hc

/-- **C51** Connections of one listener are returned in the order in which it accepted them (connections are numbered
in the order of their arrival; the trace has the newest event first). -/
theorem C51_order (L : Lis) {st : MSt} (h : MReach L MAll st) :
    st.tr.Pairwise (fun newer older => ∀ c c' r, newer = .returned c r → older = .returned c' r → c' < c) :=
  h.inv.o4

/-- **C51** No connection is lost on its way: what a listener accepted is returned, or is in the channel or in the
hands of that listener's goroutine. -/
theorem C51_conserved (L : Lis) {st : MSt} (h : MReach L MAll st) (c r : Nat) (ha : MEv.arrived c r ∈ st.tr) :
    MEv.returned c r ∈ st.tr ∨ st.chan = some (c, r) ∨ (∃ g, st.regs[r]? = some g ∧ g.gor = .holding c) := by
  rcases (h.inv.cons c r).1 ha with h1 | h1 | h1
  · exact .inl h1
  · exact .inr (.inl h1)
  · refine .inr (.inr ?_)
    simp only [MSt.held, Option.bind_eq_some_iff] at h1
    obtain ⟨g, hg, hc⟩ := h1
    refine ⟨g, hg, ?_⟩
    cases hgg : g.gor with
    | holding c' => rw [hgg] at hc; simp only [Gor.held, Option.some.injEq] at hc; rw [hc]
    | _ => rw [hgg] at hc; cases hc

/-- **C51** `AddListener` reports a duplicate only if a listener with that id is registered. -/
theorem C51_dup (L : Lis) {st st' : MSt} (h : MReach L MAll st) (t l : Nat) (hx : mexec L st (.add t l) = some st')
    (hd : st'.tr = .dup l :: st.tr) : ∃ r, Live L st.tr r (L.key l) := by
  unfold mexec at hx
  split at hx
  · cases hx
  · simp only at hx
    split at hx
    · split at hx
      · cases hx; simp at hd
      · split at hx
        · rename_i r hl
          obtain ⟨g, h1, h2, h3⟩ := h.uinv.ent _ _ (mlookup_some hl)
          exact ⟨r, (live_iff h.inv h.uinv r _).2 ⟨g, h1, h2, h3⟩⟩
        · cases hx; simp at hd
    · cases hx

/-- **C51** Once the listener has been closed, nothing more arrives from it. -/
theorem C51_stops (L : Lis) {st : MSt} (h : MReach L MAll st) :
    st.tr.Pairwise (fun newer older => ∀ c r l, newer = .arrived c r → MEv.added r l ∈ st.tr → older ≠ .netClosed l) := by
  induction h with
  | init => simp [MSt.init]
  | @step st a st' h0 _ hx ih =>
    have hm := h0.inv
    have hu := h0.uinv
    have hm' := hm.step hx
    -- the registrations that existed keep their listener, and the trace grows by at most one event
    have hgrow : (st'.tr = st.tr ∨ ∃ e, st'.tr = e :: st.tr ∧ ∀ c r, e = .arrived c r →
          ∃ g, st.regs[r]? = some g ∧ st.netClosed g.lid = false ∧ st'.regs[r]?.map Reg.lid = some g.lid)
        ∧ (∀ c r l, MEv.arrived c r ∈ st.tr → MEv.added r l ∈ st'.tr → MEv.added r l ∈ st.tr) := by
      have hdel : ∀ k, (st.del k).tr = st.tr ∨ ∃ e, (st.del k).tr = e :: st.tr ∧ ∀ c r, e ≠ .arrived c r := by
        intro k
        unfold MSt.del
        split
        · exact .inl rfl
        · exact .inr ⟨_, rfl, by simp⟩
      have hdeladd : ∀ k r l, MEv.added r l ∈ (st.del k).tr → MEv.added r l ∈ st.tr := by
        intro k r l
        unfold MSt.del
        split
        · exact id
        · simp
      unfold mexec at hx
      split at hx
      · cases hx
      · cases a with
        | remove l =>
          cases hx
          refine ⟨?_, fun c r l _ h2 => hdeladd _ _ _ h2⟩
          rcases hdel (L.key l) with h1 | ⟨e, h1, h2⟩
          · exact .inl h1
          · exact .inr ⟨e, h1, fun c r h3 => absurd h3 (h2 c r)⟩
        | closeRemove t =>
          simp only at hx
          split at hx
          · rename_i l ls _
            cases hx
            refine ⟨?_, fun c r l _ h2 => hdeladd _ _ _ h2⟩
            rcases hdel (L.addr l) with h1 | ⟨e, h1, h2⟩
            · exact .inl h1
            · exact .inr ⟨e, h1, fun c r h3 => absurd h3 (h2 c r)⟩
          · cases hx
        | store t =>
          simp only at hx
          split at hx
          · cases hx
            refine ⟨.inr ⟨_, rfl, fun c r h3 => nomatch h3⟩, ?_⟩
            intro c r l h1 h2
            have hd := hm.dom c r h1
            rcases List.mem_cons.1 h2 with h2 | h2
            · cases h2; omega
            · exact h2
          · cases hx
        | incoming r0 =>
          simp only at hx
          split at hx
          · rename_i l cn hg
            split at hx
            · cases hx
            · rename_i hn
              cases hx
              refine ⟨.inr ⟨_, rfl, ?_⟩, fun c r l _ h2 => by simpa using h2⟩
              intro c r h3
              cases h3
              exact ⟨_, hg, by simpa using hn, by simp [setReg, hg]⟩
          · cases hx
        | _ =>
          simp only at hx
          repeat' split at hx
          all_goals first
            | (cases hx; done)
            | (cases hx; exact ⟨.inl rfl, fun _ _ _ _ h2 => h2⟩)
            | (cases hx; exact ⟨.inr ⟨_, rfl, fun c r h3 => nomatch h3⟩, fun _ _ _ _ h2 => by simpa using h2⟩)
    obtain ⟨hg, hold⟩ := hgrow
    have ih' : st.tr.Pairwise (fun newer older => ∀ c r l, newer = .arrived c r → MEv.added r l ∈ st'.tr → older ≠ .netClosed l) := by
      refine List.Pairwise.imp_of_mem ?_ ih
      intro a b ha _ hab c r l h1 h2
      exact hab c r l h1 (hold c r l (h1 ▸ ha) h2)
    rcases hg with h1 | ⟨e, h1, h2⟩
    · rw [h1]
      rw [h1] at ih'
      exact ih'
    · have : st'.tr.Pairwise (fun newer older => ∀ c r l, newer = .arrived c r → MEv.added r l ∈ st'.tr → older ≠ .netClosed l) := by
        rw [h1, List.pairwise_cons]
        rw [h1] at ih'
        refine ⟨?_, ih'⟩
        intro b hb c r l h3 h4 h5
        rw [← h1] at h4
        obtain ⟨g, hg, hn, hl⟩ := h2 c r h3
        have h6 := (hm'.reg r l).1 h4
        rw [hl] at h6
        simp only [Option.some.injEq] at h6
        subst h5
        have := (hu.net l).1 hb
        rw [← h6, hn] at this
        cases this
      exact this

/-- **C51** A connection on a registered, open listener reaches a waiting `Accept`: with the channel empty and open,
the three steps of its way are enabled one after the other and `Accept` returns it. -/
theorem C51_serves (L : Lis) {st : MSt} (h : MReach L MAll st) (r t : Nat) (g : Reg) (hg : st.regs[r]? = some g)
    (hacc : g.gor = .accepting) (hn : st.netClosed g.lid = false) (hch : st.chan = none) (hcc : st.chanClosed = false)
    (hop : st.op t = .accepting) (hp : st.panicked = false) :
    ∃ s1 s2 s3, mexec L st (.incoming r) = some s1 ∧ mexec L s1 (.send r) = some s2
      ∧ mexec L s2 (.acceptRecv t) = some s3 ∧ s3.tr = [.returned st.nc r, .arrived st.nc r] ++ st.tr := by
  obtain ⟨l, cn, go⟩ := g
  simp only at hacc hn
  subst hacc
  refine Exists.intro ?s1 (Exists.intro ?s2 (Exists.intro ?s3 (And.intro ?_ (And.intro ?_ (And.intro ?_ ?_)))))
  · exact { st with regs := setReg st.regs r (fun g => { g with gor := .holding st.nc })
                    nc := st.nc + 1, tr := .arrived st.nc r :: st.tr }
  · exact { st with regs := setReg (setReg st.regs r (fun g => { g with gor := .holding st.nc })) r
                              (fun g => { g with gor := .accepting })
                    nc := st.nc + 1, tr := .arrived st.nc r :: st.tr, chan := some (st.nc, r) }
  · exact { st with regs := setReg (setReg st.regs r (fun g => { g with gor := .holding st.nc })) r
                              (fun g => { g with gor := .accepting })
                    nc := st.nc + 1, tr := .returned st.nc r :: .arrived st.nc r :: st.tr, chan := none
                    op := upd st.op t .idle }
  · simp [mexec, hp, hg, hn]
  · simp [mexec, hp, hcc, hch, setReg, hg]
  · simp [mexec, hp, hop]
  · rfl

end Verif.Net
