import Verif.Tunnel.Client
/-
Property theorems C231-C233: the client of the tunnel.

Specification: the trace of what can be observed (`Ev`), newest first; theorems speak about the trace, the listeners that are registered
and whether the program crashed.
-/
namespace Verif.Props.TunnelClient
open Verif.Tunnel (upd) 
open Verif.Tunnel.Client

/-- no restriction on the steps -/
def any (_ : St) (_ : Act) : Prop := True

theorem Reach.weaken {p q : St → Act → Prop} (h : ∀ s a, p s a → q s a) {s : St} (hr : Reach p s) : Reach q s := by
  induction hr with
  | init => exact .init
  | step _ hg he ih => exact .step ih (h _ _ hg) he

theorem reach_run {as : List Act} : ∀ {s s' : St}, Reach any s → run s as = some s' → Reach any s' := by
  induction as with
  | nil => intro s s' h hr; simp only [run, Option.some.injEq] at hr; exact hr ▸ h
  | cons a as ih =>
    intro s s' h hr
    simp only [run] at hr
    cases he : exec s a with
    | none => rw [he] at hr; cases hr
    | some s1 => rw [he] at hr; exact ih (.step h trivial he) hr

/-! ### the events of connections -/

/-- events of connections -/
def isConn : Ev → Bool
  | .connReq .. => true
  | .opened .. => true
  | .accepted .. => true
  | .closed .. => true
  | _ => false

/-- the part of the trace about connections -/
def ctr (s : St) : List Ev := s.tr.filter isConn

/-- what a step does to connections -/
inductive GStep (s : St) (a : Act) (s' : St) : Prop
  | same (h1 : s'.gs = s.gs) (h2 : s'.next = s.next) (h3 : ctr s' = ctr s)
  | recv (g id ident la ra : Nat) (h : s.gs g = .idle) (h1 : s'.gs = upd s.gs g (.got id ident la ra)) (h2 : s'.next = s.next)
      (h3 : ctr s' = .connReq g id ident la ra :: ctr s)
  | look (g id ident la ra : Nat) (h : s.gs g = .got id ident la ra) (h1 : s'.gs = upd s.gs g (.found id ident la ra) ∨ s'.gs = upd s.gs g .done)
      (h2 : s'.next = s.next) (h3 : ctr s' = ctr s)
  | nostream (g id ident la ra : Nat) (h : s.gs g = .found id ident la ra) (h1 : s'.gs = upd s.gs g .done) (h2 : s'.next = s.next) (h3 : ctr s' = ctr s)
  | openS (g id ident la ra : Nat) (h : s.gs g = .found id ident la ra) (h1 : s'.gs = upd s.gs g (.opened id s.next la ra))
      (h2 : s'.next = s.next + 1) (h3 : ctr s' = .opened g s.next ident :: ctr s)
  | wrap (g id x la ra : Nat) (h : s.gs g = .opened id x la ra)
      (h1 : s'.gs = upd s.gs g (.waiting id x la ra) ∨ a = .wrap g false ∧ s'.gs = upd s.gs g .done)
      (h2 : s'.next = s.next) (h3 : ctr s' = ctr s)
  | accept (g id x la ra : Nat) (h : s.gs g = .waiting id x la ra) (h1 : s'.gs = upd s.gs g .done) (h2 : s'.next = s.next)
      (h3 : ctr s' = .accepted g id x la ra :: ctr s)
  | timeout (g id x la ra : Nat) (h : s.gs g = .waiting id x la ra) (h1 : s'.gs = upd s.gs g .done) (h2 : s'.next = s.next)
      (h3 : ctr s' = .closed g x :: ctr s)

theorem closePort_conn (s : St) (id : Nat) : (s.closePort id).gs = s.gs ∧ (s.closePort id).next = s.next ∧ (s.closePort id).tr = s.tr := by
  simp only [St.closePort]; split <;> exact ⟨rfl, rfl, rfl⟩

theorem response_conn (s : St) (id port : Nat) : (s.response id port).gs = s.gs ∧ (s.response id port).next = s.next ∧ (s.response id port).tr = s.tr := by
  simp only [St.response]
  split
  · split
    · exact closePort_conn s id
    · exact ⟨rfl, rfl, rfl⟩
  · exact ⟨rfl, rfl, rfl⟩

theorem crashed_of {s s' : St} {a : Act} (he : exec s a = some s') : s.crashed = false := by
  unfold exec at he
  cases h : s.crashed with
  | true => rw [h] at he; simp at he
  | false => rfl

theorem gstep {s s' : St} {a : Act} (he : exec s a = some s') : GStep s a s' := by
  have hc := crashed_of he
  unfold exec at he
  rw [if_neg (by rw [hc]; simp)] at he
  cases a with
  | visit id ok =>
    simp only at he
    split at he
    · split at he
      · split at he <;> (simp only [Option.some.injEq] at he; subst he; exact .same rfl rfl (by simp [ctr, List.filter_cons, isConn]))
      · simp only [Option.some.injEq] at he; subst he; exact .same rfl rfl rfl
    · cases he
  | reset id =>
    simp only at he
    split at he <;> simp only [Option.some.injEq, reduceCtorEq] at he
    subst he; exact .same rfl rfl rfl
  | send id ok =>
    simp only at he
    split at he
    · split at he <;> (simp only [Option.some.injEq] at he; subst he; exact .same rfl rfl (by simp [ctr, List.filter_cons, isConn]))
    · cases he
  | runResp i =>
    simp only at he
    split at he <;> simp only [Option.some.injEq, reduceCtorEq] at he
    subst he
    rename_i id port _
    obtain ⟨h1, h2, h3⟩ := response_conn { s with resp := s.resp.eraseIdx i } id port
    exact .same h1 h2 (by simp only [ctr, h3])
  | recvConn g id ident la ra =>
    simp only at he
    split at he <;> simp only [Option.some.injEq, reduceCtorEq] at he
    rename_i hg
    subst he
    exact .recv g id ident la ra hg.2 rfl rfl (by simp [ctr, List.filter_cons, isConn])
  | look g =>
    simp only at he
    split at he <;> simp only [Option.some.injEq, reduceCtorEq] at he
    rename_i id ident la ra hg
    subst he
    refine .look g id ident la ra hg ?_ rfl rfl
    by_cases h : id ∈ s.reg
    · left; simp [h]
    · right; simp [h]
  | openS g ok =>
    simp only at he
    split at he
    · rename_i id ident la ra hg
      split at he <;> simp only [Option.some.injEq] at he <;> subst he
      · exact .openS g id ident la ra hg rfl rfl (by simp [ctr, List.filter_cons, isConn])
      · exact .nostream g id ident la ra hg rfl rfl rfl
    · cases he
  | wrap g ok =>
    simp only at he
    split at he <;> simp only [Option.some.injEq, reduceCtorEq] at he
    rename_i id x la ra hg
    subst he
    refine .wrap g id x la ra hg ?_ rfl rfl
    cases ok
    · right; exact ⟨rfl, rfl⟩
    · left; rfl
  | accept g =>
    simp only at he
    split at he
    · rename_i id x la ra hg
      split at he <;> simp only [Option.some.injEq] at he <;> subst he
      · exact .same rfl rfl rfl
      · exact .accept g id x la ra hg rfl rfl (by simp [ctr, List.filter_cons, isConn])
    · cases he
  | timeout g =>
    simp only at he
    split at he <;> simp only [Option.some.injEq, reduceCtorEq] at he
    rename_i id x la ra hg
    subst he
    exact .timeout g id x la ra hg rfl rfl (by simp [ctr, List.filter_cons, isConn])
  | closeL id =>
    simp only at he
    split at he <;> simp only [Option.some.injEq, reduceCtorEq] at he
    subst he
    obtain ⟨h1, h2, h3⟩ := closePort_conn s id
    exact .same h1 h2 (by simp only [ctr, h3])
  | _ =>
    simp only at he
    split at he <;> simp only [Option.some.injEq, reduceCtorEq] at he
    subst he
    exact .same rfl rfl (by simp [ctr, List.filter_cons, isConn])

/-- the goroutine an event of a connection request belongs to -/
def reqOf : Ev → Option Nat
  | .connReq g .. => some g
  | _ => none
/-- the goroutine that opened a stream -/
def openOf : Ev → Option Nat
  | .opened g .. => some g
  | _ => none
/-- the goroutine whose stream was accepted or closed -/
def endOf : Ev → Option Nat
  | .accepted g .. => some g
  | .closed g _ => some g
  | _ => none
/-- the stream accepted or closed -/
def endStream : Ev → Option Nat
  | .accepted _ _ x .. => some x
  | .closed _ x => some x
  | _ => none

/-- the invariant of a goroutine -/
def GOk (t : List Ev) (g : Nat) : G → Prop
  | .idle => g ∉ t.filterMap reqOf ∧ g ∉ t.filterMap openOf ∧ g ∉ t.filterMap endOf
  | .got id ident la ra => Ev.connReq g id ident la ra ∈ t ∧ g ∉ t.filterMap openOf ∧ g ∉ t.filterMap endOf
  | .found id ident la ra => Ev.connReq g id ident la ra ∈ t ∧ g ∉ t.filterMap openOf ∧ g ∉ t.filterMap endOf
  | .opened id x la ra => (∃ ident, Ev.connReq g id ident la ra ∈ t ∧ Ev.opened g x ident ∈ t) ∧ g ∉ t.filterMap endOf
  | .waiting id x la ra => (∃ ident, Ev.connReq g id ident la ra ∈ t ∧ Ev.opened g x ident ∈ t) ∧ g ∉ t.filterMap endOf
  | .done => True

/-- the invariant of the trace of connections -/
structure CInv (gs : Nat → G) (next : Nat) (t : List Ev) : Prop where
  gok : ∀ g, GOk t g (gs g)
  req : (t.filterMap reqOf).Nodup
  opn : (t.filterMap openOf).Nodup
  fin : (t.filterMap endOf).Nodup
  lt : ∀ g x i, Ev.opened g x i ∈ t → x < next
  inj : ∀ g x i g' i', Ev.opened g x i ∈ t → Ev.opened g' x i' ∈ t → g = g'
  acc : ∀ g id x la ra, Ev.accepted g id x la ra ∈ t → ∃ ident, Ev.connReq g id ident la ra ∈ t ∧ Ev.opened g x ident ∈ t
  cls : ∀ g x, Ev.closed g x ∈ t → ∃ ident, Ev.opened g x ident ∈ t

theorem GOk.cons {t : List Ev} {e : Ev} {g : Nat} {p : G} (h : GOk t g p) (h1 : reqOf e ≠ some g) (h2 : openOf e ≠ some g) (h3 : endOf e ≠ some g) :
    GOk (e :: t) g p := by
  have f : ∀ (k : Ev → Option Nat), k e ≠ some g → g ∉ t.filterMap k → g ∉ (e :: t).filterMap k := by
    intro k hk hm
    simp only [List.mem_filterMap, List.mem_cons, not_exists, not_and] at hm ⊢
    rintro x (rfl | hx)
    · exact hk
    · exact hm x hx
  cases p with
  | idle => exact ⟨f _ h1 h.1, f _ h2 h.2.1, f _ h3 h.2.2⟩
  | got _ _ _ _ => exact ⟨List.mem_cons_of_mem _ h.1, f _ h2 h.2.1, f _ h3 h.2.2⟩
  | found _ _ _ _ => exact ⟨List.mem_cons_of_mem _ h.1, f _ h2 h.2.1, f _ h3 h.2.2⟩
  | opened _ _ _ _ =>
    obtain ⟨⟨i, a, b⟩, c⟩ := h
    exact ⟨⟨i, List.mem_cons_of_mem _ a, List.mem_cons_of_mem _ b⟩, f _ h3 c⟩
  | waiting _ _ _ _ =>
    obtain ⟨⟨i, a, b⟩, c⟩ := h
    exact ⟨⟨i, List.mem_cons_of_mem _ a, List.mem_cons_of_mem _ b⟩, f _ h3 c⟩
  | done => trivial

theorem upd_self {α : Type} (f : Nat → α) (i : Nat) (a : α) : upd f i a i = a := by simp [upd]
theorem upd_ne {α : Type} (f : Nat → α) {i j : Nat} (a : α) (h : j ≠ i) : upd f i a j = f j := by simp [upd, h]

theorem CInv.step {s s' : St} {a : Act} (h : CInv s.gs s.next (ctr s)) (hs : GStep s a s') : CInv s'.gs s'.next (ctr s') := by
  cases hs with
  | same h1 h2 h3 => rw [h1, h2, h3]; exact h
  | recv g id ident la ra hg h1 h2 h3 =>
    rw [h1, h2, h3]
    have hk := h.gok g
    rw [hg] at hk
    refine ⟨?_, ?_, ?_, ?_, ?_, ?_, ?_, ?_⟩
    · intro g'
      by_cases e : g' = g
      · subst e
        rw [upd_self]
        exact ⟨List.mem_cons_self .., by simpa [List.filterMap_cons, openOf] using hk.2.1, by simpa [List.filterMap_cons, endOf] using hk.2.2⟩
      · rw [upd_ne _ _ e]
        exact (h.gok g').cons (by simp [reqOf, Ne.symm e]) (by simp [openOf]) (by simp [endOf])
    · simp only [List.filterMap_cons, reqOf, List.nodup_cons]; exact ⟨hk.1, h.req⟩
    · simpa [List.filterMap_cons, openOf] using h.opn
    · simpa [List.filterMap_cons, endOf] using h.fin
    · intro g' x i hm; exact h.lt g' x i (by simpa using hm)
    · intro a x i b j h1 h2; exact h.inj a x i b j (by simpa using h1) (by simpa using h2)
    · intro a b x l r hm
      obtain ⟨i, h1, h2⟩ := h.acc a b x l r (by simpa using hm)
      exact ⟨i, List.mem_cons_of_mem _ h1, List.mem_cons_of_mem _ h2⟩
    · intro a x hm
      obtain ⟨i, h1⟩ := h.cls a x (by simpa using hm)
      exact ⟨i, List.mem_cons_of_mem _ h1⟩
  | look g id ident la ra hg h1 h2 h3 =>
    rw [h2, h3]
    refine { h with gok := ?_ }
    intro g'
    have hk := h.gok g
    rw [hg] at hk
    rcases h1 with h1 | h1 <;> rw [h1] <;> by_cases e : g' = g
    · subst e; rw [upd_self]; exact hk
    · rw [upd_ne _ _ e]; exact h.gok g'
    · subst e; rw [upd_self]; trivial
    · rw [upd_ne _ _ e]; exact h.gok g'
  | nostream g id ident la ra hg h1 h2 h3 =>
    rw [h1, h2, h3]
    refine { h with gok := ?_ }
    intro g'
    by_cases e : g' = g
    · subst e; rw [upd_self]; trivial
    · rw [upd_ne _ _ e]; exact h.gok g'
  | openS g id ident la ra hg h1 h2 h3 =>
    rw [h1, h2, h3]
    have hk := h.gok g
    rw [hg] at hk
    refine ⟨?_, ?_, ?_, ?_, ?_, ?_, ?_, ?_⟩
    · intro g'
      by_cases e : g' = g
      · subst e
        rw [upd_self]
        exact ⟨⟨ident, List.mem_cons_of_mem _ hk.1, List.mem_cons_self ..⟩, by simpa [List.filterMap_cons, endOf] using hk.2.2⟩
      · rw [upd_ne _ _ e]
        exact (h.gok g').cons (by simp [reqOf]) (by simp [openOf, Ne.symm e]) (by simp [endOf])
    · simpa [List.filterMap_cons, reqOf] using h.req
    · simp only [List.filterMap_cons, openOf, List.nodup_cons]; exact ⟨hk.2.1, h.opn⟩
    · simpa [List.filterMap_cons, endOf] using h.fin
    · intro g' x i hm
      simp only [List.mem_cons, Ev.opened.injEq] at hm
      rcases hm with ⟨_, e, _⟩ | hm
      · omega
      · have := h.lt g' x i hm; omega
    · intro a x i b j h1 h2
      simp only [List.mem_cons, Ev.opened.injEq] at h1 h2
      rcases h1 with ⟨e1, e2, _⟩ | h1 <;> rcases h2 with ⟨f1, f2, _⟩ | h2
      · rw [e1, f1]
      · have := h.lt _ _ _ h2; omega
      · have := h.lt _ _ _ h1; omega
      · exact h.inj a x i b j h1 h2
    · intro a b x l r hm
      obtain ⟨i, h1, h2⟩ := h.acc a b x l r (by simpa using hm)
      exact ⟨i, List.mem_cons_of_mem _ h1, List.mem_cons_of_mem _ h2⟩
    · intro a x hm
      obtain ⟨i, h1⟩ := h.cls a x (by simpa using hm)
      exact ⟨i, List.mem_cons_of_mem _ h1⟩
  | wrap g id x la ra hg h1 h2 h3 =>
    rw [h2, h3]
    refine { h with gok := ?_ }
    intro g'
    have hk := h.gok g
    rw [hg] at hk
    rcases h1 with h1 | ⟨_, h1⟩ <;> rw [h1] <;> by_cases e : g' = g
    · subst e; rw [upd_self]; exact hk
    · rw [upd_ne _ _ e]; exact h.gok g'
    · subst e; rw [upd_self]; trivial
    · rw [upd_ne _ _ e]; exact h.gok g'
  | accept g id x la ra hg h1 h2 h3 =>
    rw [h1, h2, h3]
    have hk := h.gok g
    rw [hg] at hk
    refine ⟨?_, ?_, ?_, ?_, ?_, ?_, ?_, ?_⟩
    · intro g'
      by_cases e : g' = g
      · subst e; rw [upd_self]; trivial
      · rw [upd_ne _ _ e]
        exact (h.gok g').cons (by simp [reqOf]) (by simp [openOf]) (by simp [endOf, Ne.symm e])
    · simpa [List.filterMap_cons, reqOf] using h.req
    · simpa [List.filterMap_cons, openOf] using h.opn
    · simp only [List.filterMap_cons, endOf, List.nodup_cons]; exact ⟨hk.2, h.fin⟩
    · intro g' x i hm; exact h.lt g' x i (by simpa using hm)
    · intro a x i b j h1 h2; exact h.inj a x i b j (by simpa using h1) (by simpa using h2)
    · intro a b x' l r hm
      simp only [List.mem_cons, Ev.accepted.injEq] at hm
      rcases hm with ⟨rfl, rfl, rfl, rfl, rfl⟩ | hm
      · obtain ⟨⟨i, h1, h2⟩, _⟩ := hk
        exact ⟨i, List.mem_cons_of_mem _ h1, List.mem_cons_of_mem _ h2⟩
      · obtain ⟨i, h1, h2⟩ := h.acc a b x' l r hm
        exact ⟨i, List.mem_cons_of_mem _ h1, List.mem_cons_of_mem _ h2⟩
    · intro a x hm
      obtain ⟨i, h1⟩ := h.cls a x (by simpa using hm)
      exact ⟨i, List.mem_cons_of_mem _ h1⟩
  | timeout g id x la ra hg h1 h2 h3 =>
    rw [h1, h2, h3]
    have hk := h.gok g
    rw [hg] at hk
    refine ⟨?_, ?_, ?_, ?_, ?_, ?_, ?_, ?_⟩
    · intro g'
      by_cases e : g' = g
      · subst e; rw [upd_self]; trivial
      · rw [upd_ne _ _ e]
        exact (h.gok g').cons (by simp [reqOf]) (by simp [openOf]) (by simp [endOf, Ne.symm e])
    · simpa [List.filterMap_cons, reqOf] using h.req
    · simpa [List.filterMap_cons, openOf] using h.opn
    · simp only [List.filterMap_cons, endOf, List.nodup_cons]; exact ⟨hk.2, h.fin⟩
    · intro g' x i hm; exact h.lt g' x i (by simpa using hm)
    · intro a x i b j h1 h2; exact h.inj a x i b j (by simpa using h1) (by simpa using h2)
    · intro a b x l r hm
      obtain ⟨i, h1, h2⟩ := h.acc a b x l r (by simpa using hm)
      exact ⟨i, List.mem_cons_of_mem _ h1, List.mem_cons_of_mem _ h2⟩
    · intro a x' hm
      simp only [List.mem_cons, Ev.closed.injEq] at hm
      rcases hm with ⟨rfl, rfl⟩ | hm
      · obtain ⟨⟨i, _, h2⟩, _⟩ := hk
        exact ⟨i, List.mem_cons_of_mem _ h2⟩
      · obtain ⟨i, h1⟩ := h.cls a x' hm
        exact ⟨i, List.mem_cons_of_mem _ h1⟩

theorem cinv {p : St → Act → Prop} {s : St} (h : Reach p s) : CInv s.gs s.next (ctr s) := by
  induction h with
  | init => exact ⟨by intro g; simp [GOk, ctr], by simp [ctr], by simp [ctr], by simp [ctr], by simp [ctr], by simp [ctr], by simp [ctr], by simp [ctr]⟩
  | step _ _ he ih => exact ih.step (gstep he)

theorem mem_ctr {s : St} {e : Ev} : e ∈ ctr s ↔ e ∈ s.tr ∧ isConn e = true := by simp [ctr]

theorem filterMap_ctr {k : Ev → Option Nat} (hk : ∀ e, isConn e = false → k e = none) (l : List Ev) :
    (l.filter isConn).filterMap k = l.filterMap k := by
  induction l with
  | nil => rfl
  | cons e l ih =>
    cases h : isConn e with
    | true => simp only [List.filter_cons, h, if_true, List.filterMap_cons, ih]
    | false => simp only [List.filter_cons, h, Bool.false_eq_true, if_false, List.filterMap_cons, hk e h, ih]

/-- **C231** A connection that Accept of a listener returns was requested by the server for this listener, with these addresses, and its
stream was opened for that very request. -/
theorem C231_right_listener {s : St} (h : Reach any s) {g id x la ra : Nat} (ha : Ev.accepted g id x la ra ∈ s.tr) :
    ∃ ident, Ev.connReq g id ident la ra ∈ s.tr ∧ Ev.opened g x ident ∈ s.tr := by
  obtain ⟨i, h1, h2⟩ := (cinv h).acc g id x la ra (mem_ctr.2 ⟨ha, rfl⟩)
  exact ⟨i, (mem_ctr.1 h1).1, (mem_ctr.1 h2).1⟩

theorem nodup_endStream {gs : Nat → G} {next : Nat} {t : List Ev} (h : CInv gs next t) : ∀ l : List Ev, l.Sublist t → (l.filterMap endStream).Nodup := by
  intro l
  induction l with
  | nil => intro _; simp
  | cons e l ih =>
    intro hl
    have hl' : l.Sublist t := (List.sublist_cons_self e l).trans hl
    have hfin : ((e :: l).filterMap endOf).Nodup := h.fin.sublist (hl.filterMap endOf)
    have key : ∀ g x, endOf e = some g → endStream e = some x → x ∉ l.filterMap endStream := by
      intro g x hg hx hm
      have opened_of : ∀ e' ∈ t, ∀ g x, endOf e' = some g → endStream e' = some x → ∃ i, Ev.opened g x i ∈ t := by
        intro e' hm g x hg hx
        cases e' with
        | accepted g' id x' la ra =>
          simp only [endOf, endStream, Option.some.injEq] at hg hx
          subst hg hx
          obtain ⟨i, _, h2⟩ := h.acc _ _ _ _ _ hm
          exact ⟨i, h2⟩
        | closed g' x' =>
          simp only [endOf, endStream, Option.some.injEq] at hg hx
          subst hg hx
          exact h.cls _ _ hm
        | _ => simp [endOf] at hg
      simp only [List.mem_filterMap] at hm
      obtain ⟨e', he', hx'⟩ := hm
      have : ∃ g', endOf e' = some g' := by cases e' <;> simp [endOf, endStream] at hx' ⊢
      obtain ⟨g', hg'⟩ := this
      obtain ⟨i, h1⟩ := opened_of e (hl.subset (List.mem_cons_self ..)) g x hg hx
      obtain ⟨i', h2⟩ := opened_of e' (hl'.subset he') g' x hg' hx'
      have := h.inj _ _ _ _ _ h1 h2
      subst this
      simp only [List.filterMap_cons, hg, List.nodup_cons] at hfin
      exact hfin.1 (List.mem_filterMap.2 ⟨e', he', hg'⟩)
    cases hx : endStream e with
    | none => simpa [List.filterMap_cons, hx] using ih hl'
    | some x =>
      have : ∃ g, endOf e = some g := by cases e <;> simp [endOf, endStream] at hx ⊢
      obtain ⟨g, hg⟩ := this
      simp only [List.filterMap_cons, hx, List.nodup_cons]
      exact ⟨key g x hg hx, ih hl'⟩

/-- **C231** No stream is accepted twice, or accepted and closed; no connection request leads to more than one stream, and different
requests never to the same stream. -/
theorem C231_once {s : St} (h : Reach any s) :
    (s.tr.filterMap endStream).Nodup ∧ (s.tr.filterMap openOf).Nodup ∧
    ∀ g g' x i i', Ev.opened g x i ∈ s.tr → Ev.opened g' x i' ∈ s.tr → g = g' := by
  have hc := cinv h
  refine ⟨?_, ?_, ?_⟩
  · have := nodup_endStream hc _ (List.Sublist.refl _)
    rwa [show ctr s = s.tr.filter isConn from rfl, filterMap_ctr] at this
    intro e he; cases e <;> simp_all [isConn, endStream]
  · have := hc.opn
    rwa [show ctr s = s.tr.filter isConn from rfl, filterMap_ctr] at this
    intro e he; cases e <;> simp_all [isConn, openOf]
  · intro g g' x i i' h1 h2
    exact hc.inj g x i g' i' (mem_ctr.2 ⟨h1, rfl⟩) (mem_ctr.2 ⟨h2, rfl⟩)

/-! ### C232 -/

/-- `id` was asked for in the current session -/
def Asked (s : St) (id : Nat) : Prop := ∃ ok, Ev.asked s.sess id ok ∈ s.tr

/-- the call of GetTCPListener is under way -/
def Busy (s : St) (id : Nat) : Prop := s.lst id = .stored ∨ s.lst id = .sending

/-- what is known of the ports registered and not assigned -/
structure QInv (s : St) : Prop where
  up : s.loop = .up → s.connected = true
  conn : s.loop = .ctrlSet ∨ (∃ t, s.loop = .ranging t) ∨ s.loop = .handling → s.connected = true ∧ s.ctrl = true
  rng : ∀ t, s.loop = .ranging t → ∀ id ∈ s.reg, (s.mp id).inited = false → id ∈ t ∨ Asked s id ∨ Busy s id
  hdl : s.loop = .handling → ∀ id ∈ s.reg, (s.mp id).inited = false → Asked s id ∨ Busy s id

theorem closePort_q (s : St) (id : Nat) : (s.closePort id).loop = s.loop ∧ (s.closePort id).reg = s.reg ∧ (s.closePort id).sess = s.sess ∧
    (s.closePort id).connected = s.connected ∧ (s.closePort id).ctrl = s.ctrl ∧ (s.closePort id).lst = s.lst ∧ (s.closePort id).tr = s.tr ∧
    ∀ i, ((s.closePort id).mp i).inited = (s.mp i).inited := by
  simp only [St.closePort]
  split
  · simp
  · refine ⟨rfl, rfl, rfl, rfl, rfl, rfl, rfl, ?_⟩
    intro i
    by_cases h : i = id
    · subst h; simp [upd]
    · simp [upd, h]

/-- a step that changes none of what `QInv` speaks of, but for ports leaving the map or being assigned -/
theorem QInv.quiet {s s' : St} (h : QInv s) (h1 : s'.loop = s.loop) (h2 : ∀ i ∈ s'.reg, i ∈ s.reg) (h3 : s'.sess = s.sess)
    (h4 : s'.connected = s.connected) (h5 : s'.ctrl = s.ctrl) (h6 : s'.lst = s.lst) (h7 : ∀ e ∈ s.tr, e ∈ s'.tr)
    (h8 : ∀ i ∈ s'.reg, (s'.mp i).inited = false → (s.mp i).inited = false) : QInv s' := by
  have ha : ∀ i, Asked s i → Asked s' i := by rintro i ⟨ok, hm⟩; exact ⟨ok, by rw [h3]; exact h7 _ hm⟩
  refine ⟨?_, ?_, ?_, ?_⟩
  · rw [h1, h4]; exact h.up
  · rw [h1, h4, h5]; exact h.conn
  · intro t ht i hi hn
    rw [h1] at ht
    rcases h.rng t ht i (h2 i hi) (h8 i hi hn) with h | h | h
    · exact .inl h
    · exact .inr (.inl (ha i h))
    · exact .inr (.inr (by simpa only [Busy, h6] using h))
  · intro ht i hi hn
    rw [h1] at ht
    rcases h.hdl ht i (h2 i hi) (h8 i hi hn) with h | h
    · exact .inl (ha i h)
    · exact .inr (by simpa only [Busy, h6] using h)

theorem response_q (s : St) (id port : Nat) : (s.response id port).loop = s.loop ∧ (∀ i ∈ (s.response id port).reg, i ∈ s.reg) ∧
    (s.response id port).sess = s.sess ∧ (s.response id port).connected = s.connected ∧ (s.response id port).ctrl = s.ctrl ∧
    (s.response id port).lst = s.lst ∧ (s.response id port).tr = s.tr ∧
    ∀ i, ((s.response id port).mp i).inited = false → (s.mp i).inited = false := by
  simp only [St.response]
  split
  · split
    · obtain ⟨a, b, c, d, e, f, g, h⟩ := closePort_q s id
      exact ⟨a, by intro i hi; simp only [List.mem_filter] at hi; exact hi.1, c, d, e, f, g, by intro i hi; simp only at hi; rw [h] at hi; exact hi⟩
    · refine ⟨rfl, fun i hi => hi, rfl, rfl, rfl, rfl, rfl, ?_⟩
      intro i hi
      by_cases h : i = id
      · subst h; simp [upd] at hi
      · simpa [upd, h] using hi
  · exact ⟨rfl, fun i hi => hi, rfl, rfl, rfl, rfl, rfl, fun i hi => hi⟩

theorem QInv.step {s s' : St} {a : Act} (h : QInv s) (he : exec s a = some s') : QInv s' := by
  have hc := crashed_of he
  unfold exec at he
  rw [if_neg (by rw [hc]; simp)] at he
  cases a with
  | dial =>
    simp only at he
    split at he <;> simp only [Option.some.injEq, reduceCtorEq] at he
    subst he
    exact ⟨by simp, by simp, by simp, by simp⟩
  | ctrlUp =>
    simp only at he
    split at he <;> simp only [Option.some.injEq, reduceCtorEq] at he
    rename_i hl
    subst he
    exact ⟨by simp, by intro _; exact ⟨h.up hl, rfl⟩, by simp, by simp⟩
  | ctrlFail =>
    simp only at he
    split at he <;> simp only [Option.some.injEq, reduceCtorEq] at he
    subst he
    exact ⟨by simp, by simp, by simp, by simp⟩
  | startRange =>
    simp only at he
    split at he <;> simp only [Option.some.injEq, reduceCtorEq] at he
    rename_i hl
    subst he
    refine ⟨by simp, by intro _; exact h.conn (.inl hl), ?_, by simp⟩
    intro t ht i hi _
    simp only [Loop.ranging.injEq] at ht
    exact .inl (ht ▸ hi)
  | visit id ok =>
    simp only at he
    split at he
    · rename_i todo hl
      have hcn := h.conn (.inr (.inl ⟨todo, hl⟩))
      split at he
      · rename_i hreg
        split at he
        · rename_i hin
          simp only [Option.some.injEq] at he
          subst he
          refine ⟨by simp, fun _ => hcn, ?_, by simp⟩
          intro t ht i hi hn
          simp only [Loop.ranging.injEq] at ht
          subst ht
          have hne : i ≠ id := by intro e; subst e; simp only at hin hn; rw [hn] at hin; cases hin
          rcases h.rng todo hl i hi hn with h | h
          · exact .inl (by simp [h, hne])
          · exact .inr h
        · simp only [Option.some.injEq] at he
          subst he
          refine ⟨by simp, fun _ => hcn, ?_, by simp⟩
          intro t ht i hi hn
          simp only [Loop.ranging.injEq] at ht
          subst ht
          by_cases e : i = id
          · subst e; exact .inr (.inl ⟨ok, List.mem_cons_self ..⟩)
          · rcases h.rng todo hl i hi hn with h | ⟨ok', h⟩ | h
            · exact .inl (by simp [h, e])
            · exact .inr (.inl ⟨ok', List.mem_cons_of_mem _ h⟩)
            · exact .inr (.inr h)
      · rename_i hreg
        simp only [Option.some.injEq] at he
        subst he
        refine ⟨by simp, fun _ => hcn, ?_, by simp⟩
        intro t ht i hi hn
        simp only [Loop.ranging.injEq] at ht
        subst ht
        have hne : i ≠ id := by intro e; subst e; exact hreg hi
        rcases h.rng todo hl i hi hn with h | h
        · exact .inl (by simp [h, hne])
        · exact .inr h
    · cases he
  | rangeEnd =>
    simp only at he
    split at he <;> simp only [Option.some.injEq, reduceCtorEq] at he
    rename_i hl
    subst he
    refine ⟨by simp, fun _ => h.conn (.inr (.inl ⟨[], hl⟩)), by simp, ?_⟩
    intro _ i hi hn
    rcases h.rng [] hl i hi hn with h | h
    · cases h
    · exact h
  | disconnect =>
    simp only at he
    split at he <;> simp only [Option.some.injEq, reduceCtorEq] at he
    subst he
    exact ⟨by simp, by simp, by simp, by simp⟩
  | reset id =>
    simp only at he
    split at he <;> simp only [Option.some.injEq, reduceCtorEq] at he
    subst he
    exact ⟨by simp, by simp, by simp, by simp⟩
  | down =>
    simp only at he
    split at he <;> simp only [Option.some.injEq, reduceCtorEq] at he
    subst he
    exact ⟨by simp, by simp, by simp, by simp⟩
  | listen id =>
    simp only at he
    split at he <;> simp only [Option.some.injEq, reduceCtorEq] at he
    subst he
    have hb : ∀ i, Busy s i → Busy { s with lst := upd s.lst id .stored, reg := id :: s.reg } i := by
      intro i hi
      by_cases e : i = id
      · subst e; exact .inl (upd_self ..)
      · simpa only [Busy, upd_ne _ _ e] using hi
    refine ⟨h.up, h.conn, ?_, ?_⟩
    · intro t ht i hi hn
      by_cases e : i = id
      · subst e; exact .inr (.inr (.inl (upd_self ..)))
      · rcases h.rng t ht i (by simpa [e] using hi) hn with h | h | h
        · exact .inl h
        · exact .inr (.inl h)
        · exact .inr (.inr (hb i h))
    · intro ht i hi hn
      by_cases e : i = id
      · subst e; exact .inr (.inl (upd_self ..))
      · rcases h.hdl ht i (by simpa [e] using hi) hn with h | h
        · exact .inl h
        · exact .inr (hb i h)
  | check id =>
    simp only at he
    split at he <;> simp only [Option.some.injEq, reduceCtorEq] at he
    subst he
    have hb : s.connected = true ∧ s.ctrl = true → ∀ i, Busy s i →
        Busy { s with lst := upd s.lst id (if s.connected && s.ctrl then .sending else .returned) } i := by
      rintro ⟨h1, h2⟩ i hi
      by_cases e : i = id
      · subst e; right; simp [upd, h1, h2]
      · simpa only [Busy, upd_ne _ _ e] using hi
    refine ⟨h.up, h.conn, ?_, ?_⟩
    · intro t ht i hi hn
      rcases h.rng t ht i hi hn with h' | h' | h'
      · exact .inl h'
      · exact .inr (.inl h')
      · exact .inr (.inr (hb (h.conn (.inr (.inl ⟨t, ht⟩))) i h'))
    · intro ht i hi hn
      rcases h.hdl ht i hi hn with h' | h'
      · exact .inl h'
      · exact .inr (hb (h.conn (.inr (.inr ht))) i h')
  | send id ok =>
    simp only at he
    split at he
    · split at he
      · simp only [Option.some.injEq] at he
        subst he
        have hk : ∀ i, Asked s i ∨ Busy s i →
            Asked { s with lst := upd s.lst id (if ok then .returned else .failed), tr := .asked s.sess id ok :: s.tr } i ∨
            Busy { s with lst := upd s.lst id (if ok then .returned else .failed), tr := .asked s.sess id ok :: s.tr } i := by
          intro i hi
          by_cases e : i = id
          · subst e; exact .inl ⟨ok, List.mem_cons_self ..⟩
          · rcases hi with ⟨ok', hi⟩ | hi
            · exact .inl ⟨ok', List.mem_cons_of_mem _ hi⟩
            · exact .inr (by simpa only [Busy, upd_ne _ _ e] using hi)
        refine ⟨h.up, h.conn, ?_, ?_⟩
        · intro t ht i hi hn
          rcases h.rng t ht i hi hn with h' | h'
          · exact .inl h'
          · exact .inr (hk i h')
        · intro ht i hi hn
          exact hk i (h.hdl ht i hi hn)
      · simp only [Option.some.injEq] at he
        subst he
        exact h.quiet rfl (fun _ h => h) rfl rfl rfl rfl (fun _ h => h) (fun _ _ h => h)
    · cases he
  | recvResp id port =>
    simp only at he
    split at he <;> simp only [Option.some.injEq, reduceCtorEq] at he
    subst he
    exact h.quiet rfl (fun _ h => h) rfl rfl rfl rfl (fun _ h => List.mem_cons_of_mem _ h) (fun _ _ h => h)
  | runResp i =>
    simp only at he
    split at he <;> simp only [Option.some.injEq, reduceCtorEq] at he
    subst he
    rename_i id port _
    obtain ⟨a, b, c, d, e, f, g, k⟩ := response_q { s with resp := s.resp.eraseIdx i } id port
    exact h.quiet a b c d e f (fun e h => by rw [g]; exact h) (fun i _ h => k i h)
  | recvConn g id ident la ra =>
    simp only at he
    split at he <;> simp only [Option.some.injEq, reduceCtorEq] at he
    subst he
    exact h.quiet rfl (fun _ h => h) rfl rfl rfl rfl (fun _ h => List.mem_cons_of_mem _ h) (fun _ _ h => h)
  | look g =>
    simp only at he
    split at he <;> simp only [Option.some.injEq, reduceCtorEq] at he
    subst he
    exact h.quiet rfl (fun _ h => h) rfl rfl rfl rfl (fun _ h => h) (fun _ _ h => h)
  | openS g ok =>
    simp only at he
    split at he
    · split at he <;> (simp only [Option.some.injEq] at he; subst he)
      · exact h.quiet rfl (fun _ h => h) rfl rfl rfl rfl (fun _ h => List.mem_cons_of_mem _ h) (fun _ _ h => h)
      · exact h.quiet rfl (fun _ h => h) rfl rfl rfl rfl (fun _ h => h) (fun _ _ h => h)
    · cases he
  | wrap g ok =>
    simp only at he
    split at he <;> simp only [Option.some.injEq, reduceCtorEq] at he
    subst he
    exact h.quiet rfl (fun _ h => h) rfl rfl rfl rfl (fun _ h => h) (fun _ _ h => h)
  | accept g =>
    simp only at he
    split at he
    · split at he <;> (simp only [Option.some.injEq] at he; subst he)
      · exact h.quiet rfl (fun _ h => h) rfl rfl rfl rfl (fun _ h => h) (fun _ _ h => h)
      · exact h.quiet rfl (fun _ h => h) rfl rfl rfl rfl (fun _ h => List.mem_cons_of_mem _ h) (fun _ _ h => h)
    · cases he
  | timeout g =>
    simp only at he
    split at he <;> simp only [Option.some.injEq, reduceCtorEq] at he
    subst he
    exact h.quiet rfl (fun _ h => h) rfl rfl rfl rfl (fun _ h => List.mem_cons_of_mem _ h) (fun _ _ h => h)
  | closeL id =>
    simp only at he
    split at he <;> simp only [Option.some.injEq, reduceCtorEq] at he
    subst he
    obtain ⟨a, b, c, d, e, f, g, k⟩ := closePort_q s id
    exact h.quiet a (fun i hi => b ▸ hi) c d e f (fun e h => by rw [g]; exact h) (fun i _ h => (k i) ▸ h)

theorem qinv {p : St → Act → Prop} {s : St} (h : Reach p s) : QInv s := by
  induction h with
  | init => exact ⟨by simp, by simp, by simp, by simp⟩
  | step _ _ he ih => exact ih.step he

/-- **C232** Once the control stream of a connection is established and messages are handled, every registered listener for which no port
is known has been asked for in this connection, but for calls of GetTCPListener still under way. -/
theorem C232_requested {s : St} (h : Reach any s) (hl : s.loop = .handling) {id : Nat} (hr : id ∈ s.reg)
    (hn : (s.mp id).inited = false) (hb : s.lst id ≠ .stored ∧ s.lst id ≠ .sending) : ∃ ok, Ev.asked s.sess id ok ∈ s.tr := by
  rcases (qinv h).hdl hl id hr hn with h | h | h
  · exact h
  · exact absurd h hb.1
  · exact absurd h hb.2

/-- what is known of responses -/
structure AInv (s : St) : Prop where
  pend : ∀ id p, (id, p) ∈ s.resp → ∃ k, Ev.answered k id p ∈ s.tr
  ini : ∀ id, (s.mp id).inited = true → (s.mp id).addr ≠ none
  adr : ∀ id p, (s.mp id).addr = some p → p ≠ 0 ∧ ∃ k, Ev.answered k id p ∈ s.tr

theorem AInv.quiet {s s' : St} (h : AInv s) (h1 : ∀ x ∈ s'.resp, x ∈ s.resp) (h2 : ∀ e ∈ s.tr, e ∈ s'.tr)
    (h3 : ∀ i, (s'.mp i).inited = true → (s.mp i).inited = true) (h4 : ∀ i, (s'.mp i).addr = (s.mp i).addr) : AInv s' := by
  refine ⟨?_, ?_, ?_⟩
  · intro id p hm
    obtain ⟨k, hk⟩ := h.pend id p (h1 _ hm)
    exact ⟨k, h2 _ hk⟩
  · intro id hi; rw [h4]; exact h.ini id (h3 id hi)
  · intro id p hi
    rw [h4] at hi
    obtain ⟨a, k, hk⟩ := h.adr id p hi
    exact ⟨a, k, h2 _ hk⟩

theorem closePort_a (s : St) (id : Nat) : (s.closePort id).resp = s.resp ∧ ∀ i, ((s.closePort id).mp i).addr = (s.mp i).addr := by
  simp only [St.closePort]
  split
  · simp
  · refine ⟨rfl, ?_⟩
    intro i
    by_cases h : i = id
    · subst h; simp [upd]
    · simp [upd, h]

theorem AInv.step {s s' : St} {a : Act} (h : AInv s) (he : exec s a = some s') : AInv s' := by
  have hc := crashed_of he
  unfold exec at he
  rw [if_neg (by rw [hc]; simp)] at he
  have q0 : ∀ s' : St, s'.resp = s.resp → s'.tr = s.tr → s'.mp = s.mp → AInv s' := fun s' a b c =>
    h.quiet (by rw [a]; exact fun _ h => h) (by rw [b]; exact fun _ h => h) (by rw [c]; exact fun _ h => h) (by rw [c]; exact fun _ => rfl)
  have q1 : ∀ s' : St, s'.resp = s.resp → (∃ e, s'.tr = e :: s.tr) → s'.mp = s.mp → AInv s' := fun s' a ⟨e, b⟩ c =>
    h.quiet (by rw [a]; exact fun _ h => h) (by rw [b]; exact fun _ h => List.mem_cons_of_mem _ h) (by rw [c]; exact fun _ h => h)
      (by rw [c]; exact fun _ => rfl)
  cases a with
  | visit id ok =>
    simp only at he
    split at he
    · split at he
      · split at he <;> (simp only [Option.some.injEq] at he; subst he)
        · exact q0 _ rfl rfl rfl
        · exact q1 _ rfl ⟨_, rfl⟩ rfl
      · simp only [Option.some.injEq] at he; subst he; exact q0 _ rfl rfl rfl
    · cases he
  | reset id =>
    simp only at he
    split at he <;> simp only [Option.some.injEq, reduceCtorEq] at he
    subst he
    refine h.quiet (fun _ h => h) (fun _ h => h) ?_ ?_
    · intro i hi
      by_cases e : i = id
      · subst e; simp [upd] at hi
      · simpa [upd, e] using hi
    · intro i
      by_cases e : i = id
      · subst e; simp [upd]
      · simp [upd, e]
  | send id ok =>
    simp only at he
    split at he
    · split at he <;> (simp only [Option.some.injEq] at he; subst he)
      · exact q1 _ rfl ⟨_, rfl⟩ rfl
      · exact q0 _ rfl rfl rfl
    · cases he
  | recvResp id port =>
    simp only at he
    split at he <;> simp only [Option.some.injEq, reduceCtorEq] at he
    subst he
    refine ⟨?_, h.ini, ?_⟩
    · intro i p hm
      simp only [List.mem_append, List.mem_singleton, Prod.mk.injEq] at hm
      rcases hm with hm | ⟨rfl, rfl⟩
      · obtain ⟨k, hk⟩ := h.pend i p hm
        exact ⟨k, List.mem_cons_of_mem _ hk⟩
      · exact ⟨_, List.mem_cons_self ..⟩
    · intro i p hi
      obtain ⟨a, k, hk⟩ := h.adr i p hi
      exact ⟨a, k, List.mem_cons_of_mem _ hk⟩
  | runResp i =>
    simp only at he
    split at he <;> simp only [Option.some.injEq, reduceCtorEq] at he
    rename_i id port hget
    subst he
    have hmem : (id, port) ∈ s.resp := List.mem_of_getElem? hget
    have hsub : ∀ x ∈ s.resp.eraseIdx i, x ∈ s.resp := fun x hx => List.mem_of_mem_eraseIdx hx
    simp only [St.response]
    split
    · split
      · obtain ⟨a, b⟩ := closePort_a { s with resp := s.resp.eraseIdx i } id
        obtain ⟨_, _, _, _, _, _, g, k⟩ := closePort_q { s with resp := s.resp.eraseIdx i } id
        refine h.quiet (by intro x hx; rw [a] at hx; exact hsub x hx) (by intro e he; rw [g]; exact he) ?_ b
        intro i hi
        exact (k i) ▸ hi
      · rename_i hp
        refine ⟨fun a b hm => h.pend a b (hsub _ hm), ?_, ?_⟩
        · intro j hj
          by_cases e : j = id
          · subst e; simp [upd]
          · simp only [upd_ne _ _ e] at hj ⊢; exact h.ini j hj
        · intro j p hj
          by_cases e : j = id
          · subst e
            simp only [upd_self, Option.some.injEq] at hj
            subst hj
            exact ⟨hp, h.pend _ _ hmem⟩
          · simp only [upd_ne _ _ e] at hj; exact h.adr j p hj
    · exact h.quiet hsub (fun _ h => h) (fun _ h => h) (fun _ => rfl)
  | recvConn g id ident la ra =>
    simp only at he
    split at he <;> simp only [Option.some.injEq, reduceCtorEq] at he
    subst he
    exact q1 _ rfl ⟨_, rfl⟩ rfl
  | look g =>
    simp only at he
    split at he <;> simp only [Option.some.injEq, reduceCtorEq] at he
    subst he
    exact q0 _ rfl rfl rfl
  | openS g ok =>
    simp only at he
    split at he
    · split at he <;> (simp only [Option.some.injEq] at he; subst he)
      · exact q1 _ rfl ⟨_, rfl⟩ rfl
      · exact q0 _ rfl rfl rfl
    · cases he
  | wrap g ok =>
    simp only at he
    split at he <;> simp only [Option.some.injEq, reduceCtorEq] at he
    subst he
    exact q0 _ rfl rfl rfl
  | accept g =>
    simp only at he
    split at he
    · split at he <;> (simp only [Option.some.injEq] at he; subst he)
      · exact q0 _ rfl rfl rfl
      · exact q1 _ rfl ⟨_, rfl⟩ rfl
    · cases he
  | timeout g =>
    simp only at he
    split at he <;> simp only [Option.some.injEq, reduceCtorEq] at he
    subst he
    exact q1 _ rfl ⟨_, rfl⟩ rfl
  | closeL id =>
    simp only at he
    split at he <;> simp only [Option.some.injEq, reduceCtorEq] at he
    subst he
    obtain ⟨a, b⟩ := closePort_a s id
    obtain ⟨_, _, _, _, _, _, g, k⟩ := closePort_q s id
    exact h.quiet (by rw [a]; exact fun _ h => h) (by rw [g]; exact fun _ h => h) (fun i hi => (k i) ▸ hi) b
  | _ =>
    simp only at he
    split at he <;> simp only [Option.some.injEq, reduceCtorEq] at he
    subst he
    exact q0 _ rfl rfl rfl

theorem ainv {p : St → Act → Prop} {s : St} (h : Reach p s) : AInv s := by
  induction h with
  | init => exact ⟨by simp, by simp, by simp⟩
  | step _ _ he ih => exact ih.step he

/-- **C232** A listener counts as assigned only after the server named a port for it, and the address it reports is one the server named. -/
theorem C232_assigned {s : St} (h : Reach any s) (id : Nat) :
    ((s.mp id).inited = true → ∃ p, (s.mp id).addr = some p) ∧
    ∀ p, (s.mp id).addr = some p → p ≠ 0 ∧ ∃ k, Ev.answered k id p ∈ s.tr :=
  ⟨fun hi => Option.ne_none_iff_exists'.1 ((ainv h).ini id hi), (ainv h).adr id⟩

/-- every listener asked for is kept until the server refuses it -/
def RInv (s : St) : Prop := ∀ id, (s.lst id ≠ .unused → id ∈ s.reg ∨ ∃ k, Ev.answered k id 0 ∈ s.tr) ∧ (id ∈ s.reg → s.lst id ≠ .unused)

theorem RInv.quiet {s s' : St} (h : RInv s) (h1 : s'.reg = s.reg) (h2 : ∀ e ∈ s.tr, e ∈ s'.tr)
    (h3 : ∀ i, s'.lst i = .unused ↔ s.lst i = .unused) : RInv s' := by
  intro id
  refine ⟨?_, ?_⟩
  · intro hl
    rcases (h id).1 (fun hc => hl ((h3 id).2 hc)) with hr | ⟨k, hk⟩
    · exact Or.inl (h1 ▸ hr)
    · exact Or.inr ⟨k, h2 _ hk⟩
  · intro hr hc
    exact (h id).2 (h1 ▸ hr) ((h3 id).1 hc)

theorem RInv.step {s s' : St} {a : Act} (ha : AInv s) (h : RInv s) (he : exec s a = some s') : RInv s' := by
  have hc := crashed_of he
  unfold exec at he
  rw [if_neg (by rw [hc]; simp)] at he
  have q0 : ∀ s' : St, s'.reg = s.reg → s'.tr = s.tr → s'.lst = s.lst → RInv s' := fun s' a b c =>
    h.quiet a (by rw [b]; exact fun _ h => h) (by rw [c]; exact fun _ => Iff.rfl)
  have q1 : ∀ s' : St, s'.reg = s.reg → (∃ e, s'.tr = e :: s.tr) → s'.lst = s.lst → RInv s' := fun s' a ⟨e, b⟩ c =>
    h.quiet a (by rw [b]; exact fun _ h => List.mem_cons_of_mem _ h) (by rw [c]; exact fun _ => Iff.rfl)
  cases a with
  | visit id ok =>
    simp only at he
    split at he
    · split at he
      · split at he <;> (simp only [Option.some.injEq] at he; subst he)
        · exact q0 _ rfl rfl rfl
        · exact q1 _ rfl ⟨_, rfl⟩ rfl
      · simp only [Option.some.injEq] at he; subst he; exact q0 _ rfl rfl rfl
    · cases he
  | listen id =>
    simp only at he
    split at he <;> simp only [Option.some.injEq, reduceCtorEq] at he
    subst he
    intro j
    by_cases e : j = id
    · subst e
      exact ⟨fun _ => Or.inl (List.mem_cons_self ..), fun _ => by simp [upd]⟩
    · refine ⟨?_, ?_⟩
      · intro hl
        simp only [upd_ne _ _ e] at hl
        rcases (h j).1 hl with hr | hk
        · exact Or.inl (List.mem_cons_of_mem _ hr)
        · exact Or.inr hk
      · intro hr
        simp only [List.mem_cons] at hr
        simp only [upd_ne _ _ e]
        rcases hr with hr | hr
        · exact absurd hr e
        · exact (h j).2 hr
  | check id =>
    simp only at he
    split at he <;> simp only [Option.some.injEq, reduceCtorEq] at he
    rename_i hl
    subst he
    refine h.quiet rfl (fun _ h => h) ?_
    intro j
    by_cases e : j = id
    · subst e
      simp only [upd_self, hl]
      split <;> simp
    · simp only [upd_ne _ _ e]
  | send id ok =>
    simp only at he
    split at he
    · rename_i hl
      split at he <;> (simp only [Option.some.injEq] at he; subst he)
      · refine h.quiet rfl (fun _ h => List.mem_cons_of_mem _ h) ?_
        intro j
        by_cases e : j = id
        · subst e
          simp only [upd_self, hl]
          split <;> simp
        · simp only [upd_ne _ _ e]
      · exact q0 _ rfl rfl rfl
    · cases he
  | runResp i =>
    simp only at he
    split at he <;> simp only [Option.some.injEq, reduceCtorEq] at he
    rename_i id port hget
    subst he
    have hmem : (id, port) ∈ s.resp := List.mem_of_getElem? hget
    simp only [St.response]
    split
    · split
      · rename_i hp
        subst hp
        have hl : ({ s with resp := s.resp.eraseIdx i }.closePort id).lst = s.lst := by simp only [St.closePort]; split <;> rfl
        have ht : ({ s with resp := s.resp.eraseIdx i }.closePort id).tr = s.tr := by simp only [St.closePort]; split <;> rfl
        intro j
        refine ⟨?_, ?_⟩
        · intro hj
          simp only [hl] at hj
          by_cases e : j = id
          · subst e
            obtain ⟨k, hk⟩ := ha.pend _ _ hmem
            exact Or.inr ⟨k, by simp only [ht]; exact hk⟩
          · rcases (h j).1 hj with hr | ⟨k, hk⟩
            · exact Or.inl (List.mem_filter.2 ⟨hr, by simpa using e⟩)
            · exact Or.inr ⟨k, by simp only [ht]; exact hk⟩
        · intro hj
          simp only [hl]
          exact (h j).2 (List.mem_filter.1 hj).1
      · exact q0 _ rfl rfl rfl
    · exact q0 _ rfl rfl rfl
  | closeL id =>
    simp only at he
    split at he <;> simp only [Option.some.injEq, reduceCtorEq] at he
    subst he
    simp only [St.closePort]
    split <;> exact q0 _ rfl rfl rfl
  | reset id =>
    simp only at he
    split at he <;> simp only [Option.some.injEq, reduceCtorEq] at he
    subst he
    exact q0 _ rfl rfl rfl
  | openS g ok =>
    simp only at he
    split at he
    · split at he <;> (simp only [Option.some.injEq] at he; subst he)
      · exact q1 _ rfl ⟨_, rfl⟩ rfl
      · exact q0 _ rfl rfl rfl
    · cases he
  | accept g =>
    simp only at he
    split at he
    · split at he <;> (simp only [Option.some.injEq] at he; subst he)
      · exact q0 _ rfl rfl rfl
      · exact q1 _ rfl ⟨_, rfl⟩ rfl
    · cases he
  | _ =>
    simp only at he
    split at he <;> simp only [Option.some.injEq, reduceCtorEq] at he
    subst he
    first
      | exact q0 _ rfl rfl rfl
      | exact q1 _ rfl ⟨_, rfl⟩ rfl

theorem rinv {s : St} (h : Reach any s) : RInv s := by
  induction h with
  | init => intro id; exact ⟨fun h => absurd rfl h, by simp⟩
  | step hr _ he ih => exact ih.step (ainv hr) he

/-- **C232** A listener asked for stays known to the client, and is asked for again after every reconnection (`C232_requested`), until the server refuses it; only
listeners asked for are known. -/
theorem C232_kept {s : St} (h : Reach any s) {id : Nat} :
    (s.lst id ≠ .unused → (∀ k, Ev.answered k id 0 ∉ s.tr) → id ∈ s.reg) ∧ (id ∈ s.reg → s.lst id ≠ .unused) :=
  ⟨fun hl hn => ((rinv h id).1 hl).resolve_right fun ⟨k, hk⟩ => hn k hk, (rinv h id).2⟩

/-- **C232** A refusal closes the listener and makes the client forget it, and no other listener. -/
theorem C232_refused {s s' : St} {i id : Nat} (hm : s.resp[i]? = some (id, 0)) (hr : id ∈ s.reg) (he : exec s (.runResp i) = some s') :
    id ∉ s'.reg ∧ (s'.mp id).closed = true ∧ ∀ j, j ≠ id → (j ∈ s'.reg ↔ j ∈ s.reg) ∧ s'.mp j = s.mp j := by
  have hc := crashed_of he
  unfold exec at he
  rw [if_neg (by rw [hc]; simp)] at he
  simp only [hm, Option.some.injEq] at he
  subst he
  simp only [St.response]
  rw [if_pos hr, if_pos trivial]
  refine ⟨by simp, ?_, ?_⟩
  · simp only [St.closePort]
    split
    · assumption
    · simp [upd]
  · intro j hj
    refine ⟨by simp [hj], ?_⟩
    simp only [St.closePort]
    split
    · rfl
    · simp [upd, hj]

/-- the hypotheses are met: a listener the server refuses, beside another one -/
example : (run {} [.listen 7, .check 7, .listen 8, .check 8, .dial, .ctrlUp, .startRange, .visit 7 true, .visit 8 true, .rangeEnd, .recvResp 7 0, .runResp 0]).map
    (fun s => (s.reg, (s.mp 7).closed, (s.mp 8).closed, s.crashed)) = some ([8], true, false, false) := by decide +kernel

/-! ### C233 -/

/-- the server answers only what it was asked in the same connection, and a connection ends after its responses were handled -/
def Timely (s : St) : Act → Prop
  | .recvResp id _ => ∃ ok, Ev.asked s.sess id ok ∈ s.tr
  | .disconnect => s.resp = []
  | _ => True

/-- what `Timely` gives -/
structure TInv (s : St) : Prop where
  fresh : ∀ id, s.lst id = .unused → (s.mp id).inited = false ∧ id ∉ s.reg
  pend : ∀ x ∈ s.resp, s.loop = .handling ∧ Asked s x.1
  ini : ∀ id ∈ s.reg, (s.mp id).inited = true → (s.loop = .handling ∧ Asked s id) ∨ ∃ t, s.loop = .ending t ∧ id ∈ t

theorem TInv.quiet {s s' : St} (h : TInv s) (h1 : s'.loop = s.loop) (h2 : ∀ i ∈ s'.reg, i ∈ s.reg) (h3 : s'.sess = s.sess)
    (h4 : ∀ x ∈ s'.resp, x ∈ s.resp) (h5 : ∀ e ∈ s.tr, e ∈ s'.tr) (h6 : ∀ i, (s'.mp i).inited = true → (s.mp i).inited = true)
    (h7 : ∀ i, s'.lst i = .unused → s.lst i = .unused) : TInv s' := by
  have ha : ∀ i, Asked s i → Asked s' i := by rintro i ⟨ok, hm⟩; exact ⟨ok, by rw [h3]; exact h5 _ hm⟩
  refine ⟨?_, ?_, ?_⟩
  · intro id hu
    obtain ⟨a, b⟩ := h.fresh id (h7 id hu)
    refine ⟨?_, fun hm => b (h2 id hm)⟩
    cases hi : (s'.mp id).inited with
    | false => rfl
    | true => rw [h6 id hi] at a; cases a
  · intro x hx
    obtain ⟨a, b⟩ := h.pend x (h4 x hx)
    exact ⟨by rw [h1]; exact a, ha _ b⟩
  · intro id hr hi
    rw [h1]
    rcases h.ini id (h2 id hr) (h6 id hi) with ⟨a, b⟩ | h
    · exact .inl ⟨a, ha _ b⟩
    · exact .inr h

theorem TInv.step {s s' : St} {a : Act} (h : TInv s) (hg : Timely s a) (he : exec s a = some s') : TInv s' := by
  have hc := crashed_of he
  unfold exec at he
  rw [if_neg (by rw [hc]; simp)] at he
  have q0 : ∀ s' : St, s'.loop = s.loop → s'.reg = s.reg → s'.sess = s.sess → s'.resp = s.resp → (s'.tr = s.tr ∨ ∃ e, s'.tr = e :: s.tr) →
      s'.mp = s.mp → s'.lst = s.lst → TInv s' := by
    intro s' a b c d e f g
    refine h.quiet a (by rw [b]; exact fun _ h => h) c (by rw [d]; exact fun _ h => h) ?_ (by rw [f]; exact fun _ h => h) (by rw [g]; exact fun _ h => h)
    rcases e with e | ⟨_, e⟩ <;> rw [e]
    · exact fun _ h => h
    · exact fun _ h => List.mem_cons_of_mem _ h
  -- a change of the state of the connection between states in which nothing is assigned
  have q1 : ∀ l : Loop, s.loop ≠ .handling → (∀ t, s.loop ≠ .ending t) → ∀ s' : St, s'.reg = s.reg → s'.resp = s.resp → s'.mp = s.mp →
      s'.lst = s.lst → TInv s' := by
    intro _ h1 h2 s' b d f g
    refine ⟨by rw [g, b, f]; exact h.fresh, ?_, ?_⟩
    · intro x hx; rw [d] at hx; exact absurd (h.pend x hx).1 h1
    · intro id hr hi
      rw [b] at hr; rw [f] at hi
      rcases h.ini id hr hi with ⟨a, _⟩ | ⟨t, a, _⟩
      · exact absurd a h1
      · exact absurd a (h2 t)
  cases a with
  | dial =>
    simp only at he
    split at he <;> simp only [Option.some.injEq, reduceCtorEq] at he
    rename_i hl
    subst he
    exact q1 .up (by simp [hl]) (by simp [hl]) _ rfl rfl rfl rfl
  | ctrlUp =>
    simp only at he
    split at he <;> simp only [Option.some.injEq, reduceCtorEq] at he
    rename_i hl
    subst he
    exact q1 .up (by simp [hl]) (by simp [hl]) _ rfl rfl rfl rfl
  | ctrlFail =>
    simp only at he
    split at he <;> simp only [Option.some.injEq, reduceCtorEq] at he
    rename_i hl
    subst he
    exact q1 .up (by simp [hl]) (by simp [hl]) _ rfl rfl rfl rfl
  | startRange =>
    simp only at he
    split at he <;> simp only [Option.some.injEq, reduceCtorEq] at he
    rename_i hl
    subst he
    exact q1 .up (by simp [hl]) (by simp [hl]) _ rfl rfl rfl rfl
  | visit id ok =>
    simp only at he
    split at he
    · rename_i hl
      split at he
      · split at he <;> (simp only [Option.some.injEq] at he; subst he; exact q1 .up (by simp [hl]) (by simp [hl]) _ rfl rfl rfl rfl)
      · simp only [Option.some.injEq] at he; subst he; exact q1 .up (by simp [hl]) (by simp [hl]) _ rfl rfl rfl rfl
    · cases he
  | rangeEnd =>
    simp only at he
    split at he <;> simp only [Option.some.injEq, reduceCtorEq] at he
    rename_i hl
    subst he
    exact q1 .up (by simp [hl]) (by simp [hl]) _ rfl rfl rfl rfl
  | disconnect =>
    simp only at he
    split at he <;> simp only [Option.some.injEq, reduceCtorEq] at he
    subst he
    refine ⟨h.fresh, ?_, ?_⟩
    · intro x hx; rw [show s.resp = [] from hg] at hx; cases hx
    · intro id hr _; exact .inr ⟨_, rfl, hr⟩
  | reset id =>
    simp only at he
    split at he <;> simp only [Option.some.injEq, reduceCtorEq] at he
    rename_i todo hl
    subst he
    refine ⟨?_, ?_, ?_⟩
    · intro i hu
      refine ⟨?_, (h.fresh i hu).2⟩
      by_cases e : i = id
      · subst e; simp [upd]
      · simpa [upd, e] using (h.fresh i hu).1
    · intro x hx
      have := (h.pend x hx).1
      rw [hl] at this; cases this
    · intro i hr hi
      by_cases e : i = id
      · subst e; simp [upd] at hi
      · simp only [upd_ne _ _ e] at hi
        rcases h.ini i hr hi with ⟨a, _⟩ | ⟨t, a, b⟩
        · rw [hl] at a; cases a
        · rw [hl] at a
          simp only [Loop.ending.injEq] at a
          subst a
          exact .inr ⟨_, rfl, by simp [b, e]⟩
  | down =>
    simp only at he
    split at he <;> simp only [Option.some.injEq, reduceCtorEq] at he
    rename_i hl
    subst he
    refine ⟨h.fresh, ?_, ?_⟩
    · intro x hx
      have := (h.pend x hx).1
      rw [hl] at this; cases this
    · intro i hr hi
      rcases h.ini i hr hi with ⟨a, _⟩ | ⟨t, a, b⟩
      · rw [hl] at a; cases a
      · rw [hl] at a
        simp only [Loop.ending.injEq] at a
        subst a; cases b
  | listen id =>
    simp only at he
    split at he <;> simp only [Option.some.injEq, reduceCtorEq] at he
    rename_i hu
    subst he
    refine ⟨?_, h.pend, ?_⟩
    · intro i hi
      by_cases e : i = id
      · subst e; simp [upd] at hi
      · simp only [upd_ne _ _ e] at hi
        obtain ⟨a, b⟩ := h.fresh i hi
        exact ⟨a, by simp [e, b]⟩
    · intro i hr hi
      by_cases e : i = id
      · subst e; rw [(h.fresh i hu).1] at hi; cases hi
      · exact h.ini i (by simpa [e] using hr) hi
  | check id =>
    simp only at he
    split at he <;> simp only [Option.some.injEq, reduceCtorEq] at he
    subst he
    refine h.quiet rfl (fun _ h => h) rfl (fun _ h => h) (fun _ h => h) (fun _ h => h) ?_
    intro i hi
    by_cases e : i = id
    · subst e; simp only [upd_self] at hi; split at hi <;> cases hi
    · simpa only [upd_ne _ _ e] using hi
  | send id ok =>
    simp only at he
    split at he
    · split at he <;> (simp only [Option.some.injEq] at he; subst he)
      · refine h.quiet rfl (fun _ h => h) rfl (fun _ h => h) (fun _ h => List.mem_cons_of_mem _ h) (fun _ h => h) ?_
        intro i hi
        by_cases e : i = id
        · subst e; simp only [upd_self] at hi; split at hi <;> cases hi
        · simpa only [upd_ne _ _ e] using hi
      · exact q0 _ rfl rfl rfl rfl (.inl rfl) rfl rfl
    · cases he
  | recvResp id port =>
    simp only at he
    split at he <;> simp only [Option.some.injEq, reduceCtorEq] at he
    rename_i hl
    subst he
    have ha : ∀ i, Asked s i → Asked { s with resp := s.resp ++ [(id, port)], tr := .answered s.sess id port :: s.tr } i :=
      fun i ⟨ok, hk⟩ => ⟨ok, List.mem_cons_of_mem _ hk⟩
    refine ⟨h.fresh, ?_, ?_⟩
    · intro x hx
      simp only [List.mem_append, List.mem_singleton] at hx
      rcases hx with hx | rfl
      · exact ⟨(h.pend x hx).1, ha _ (h.pend x hx).2⟩
      · exact ⟨hl, ha _ hg⟩
    · intro i hr hi
      rcases h.ini i hr hi with ⟨a, b⟩ | h
      · exact .inl ⟨a, ha _ b⟩
      · exact .inr h
  | runResp i =>
    simp only at he
    split at he <;> simp only [Option.some.injEq, reduceCtorEq] at he
    rename_i id port hget
    subst he
    have hmem : (id, port) ∈ s.resp := List.mem_of_getElem? hget
    have hsub : ∀ x ∈ s.resp.eraseIdx i, x ∈ s.resp := fun x hx => List.mem_of_mem_eraseIdx hx
    simp only [St.response]
    split
    · rename_i hreg
      split
      · obtain ⟨a, _⟩ := closePort_a { s with resp := s.resp.eraseIdx i } id
        obtain ⟨b1, b2, b3, _, _, b6, b7, b8⟩ := closePort_q { s with resp := s.resp.eraseIdx i } id
        refine h.quiet b1 (by intro x hx; simp only [List.mem_filter] at hx; exact hx.1) b3 (by intro x hx; rw [a] at hx; exact hsub x hx)
          (by intro e he; rw [b7]; exact he) (fun j hj => (b8 j) ▸ hj) (by rw [b6]; exact fun _ h => h)
      · refine ⟨?_, fun x hx => h.pend x (hsub x hx), ?_⟩
        · intro j hj
          refine ⟨?_, (h.fresh j hj).2⟩
          have : j ≠ id := by intro e; subst e; exact (h.fresh j hj).2 hreg
          simpa only [upd_ne _ _ this] using (h.fresh j hj).1
        · intro j hr hj
          by_cases e : j = id
          · subst e; exact .inl (h.pend _ hmem)
          · simp only [upd_ne _ _ e] at hj; exact h.ini j hr hj
    · exact h.quiet rfl (fun _ h => h) rfl hsub (fun _ h => h) (fun _ h => h) (fun _ h => h)
  | recvConn g id ident la ra =>
    simp only at he
    split at he <;> simp only [Option.some.injEq, reduceCtorEq] at he
    subst he
    exact q0 _ rfl rfl rfl rfl (.inr ⟨_, rfl⟩) rfl rfl
  | look g =>
    simp only at he
    split at he <;> simp only [Option.some.injEq, reduceCtorEq] at he
    subst he
    exact q0 _ rfl rfl rfl rfl (.inl rfl) rfl rfl
  | openS g ok =>
    simp only at he
    split at he
    · split at he <;> (simp only [Option.some.injEq] at he; subst he)
      · exact q0 _ rfl rfl rfl rfl (.inr ⟨_, rfl⟩) rfl rfl
      · exact q0 _ rfl rfl rfl rfl (.inl rfl) rfl rfl
    · cases he
  | wrap g ok =>
    simp only at he
    split at he <;> simp only [Option.some.injEq, reduceCtorEq] at he
    subst he
    exact q0 _ rfl rfl rfl rfl (.inl rfl) rfl rfl
  | accept g =>
    simp only at he
    split at he
    · split at he <;> (simp only [Option.some.injEq] at he; subst he)
      · exact q0 _ rfl rfl rfl rfl (.inl rfl) rfl rfl
      · exact q0 _ rfl rfl rfl rfl (.inr ⟨_, rfl⟩) rfl rfl
    · cases he
  | timeout g =>
    simp only at he
    split at he <;> simp only [Option.some.injEq, reduceCtorEq] at he
    subst he
    exact q0 _ rfl rfl rfl rfl (.inr ⟨_, rfl⟩) rfl rfl
  | closeL id =>
    simp only at he
    split at he <;> simp only [Option.some.injEq, reduceCtorEq] at he
    subst he
    obtain ⟨a, _⟩ := closePort_a s id
    obtain ⟨b1, b2, b3, _, _, b6, b7, b8⟩ := closePort_q s id
    exact h.quiet b1 (fun i hi => b2 ▸ hi) b3 (by rw [a]; exact fun _ h => h) (by rw [b7]; exact fun _ h => h) (fun j hj => (b8 j) ▸ hj)
      (by rw [b6]; exact fun _ h => h)

/-- **C233** (partial: the server answers what it was asked, and connections end after their responses were handled) In every connection
every listener is asked for. -/
theorem C233_requested_partial {s : St} (h : Reach Timely s) (hl : s.loop = .handling) {id : Nat} (hr : id ∈ s.reg)
    (hb : s.lst id ≠ .stored ∧ s.lst id ≠ .sending) : ∃ ok, Ev.asked s.sess id ok ∈ s.tr := by
  have ht : TInv s := by
    clear hl hr hb
    induction h with
    | init => exact ⟨by simp, by simp, by simp⟩
    | step _ hg he ih => exact ih.step hg he
  cases hi : (s.mp id).inited with
  | false =>
    rcases (qinv h).hdl hl id hr hi with h | h | h
    · exact h
    · exact absurd h hb.1
    · exact absurd h hb.2
  | true =>
    rcases ht.ini id hr hi with ⟨_, h⟩ | ⟨t, h, _⟩
    · exact h
    · rw [hl] at h; cases h

set_option synthInstance.maxSize 512 in
/-- **C233 is false of the code** (every connection asks for every listener): a response handled after its connection has ended marks the
listener as assigned for the next connection, which then never asks for it. -/
theorem C233_late_false : ∃ s, Reach any s ∧ s.loop = .handling ∧ s.sess = 2 ∧ s.reg = [7] ∧ s.lst 7 = .returned ∧ s.resp = [] ∧
    ∀ ok, Ev.asked 2 7 ok ∉ s.tr := by
  have h : (run {} [.listen 7, .check 7, .dial, .ctrlUp, .startRange, .visit 7 true, .rangeEnd, .recvResp 7 8080, .disconnect, .reset 7, .down,
      .runResp 0, .dial, .ctrlUp, .startRange, .visit 7 true, .rangeEnd]).map
      (fun s => (s.loop, s.sess, s.reg, s.lst 7, s.resp, s.tr)) =
      some (.handling, 2, [7], .returned, [], [.answered 1 7 8080, .asked 1 7 true]) := by decide +kernel
  obtain ⟨s, h1, h2⟩ := Option.map_eq_some_iff.1 h
  simp only [Prod.mk.injEq] at h2
  obtain ⟨a, b, c, d, e, f⟩ := h2
  exact ⟨s, reach_run .init h1, a, b, c, d, e, by intro ok; rw [f]; simp⟩

/-- users do not close listeners, the server assigns a port whenever it answers, and no connection begins while GetTCPListener sends -/
def Calm (s : St) : Act → Prop
  | .closeL _ => False
  | .recvResp _ p => p ≠ 0
  | .dial => ∀ id, s.lst id ≠ .sending
  | _ => True

/-- what `Calm` gives -/
structure KInv (s : St) : Prop where
  ok : s.crashed = false
  cls : ∀ id, (s.mp id).closed = false
  resp : ∀ x ∈ s.resp, x.2 ≠ 0
  snd : ∀ id, s.lst id = .sending → s.ctrl = true

theorem KInv.step {s s' : St} {a : Act} (h : KInv s) (hg : Calm s a) (he : exec s a = some s') : KInv s' := by
  have hc := h.ok
  unfold exec at he
  rw [if_neg (by rw [hc]; simp)] at he
  cases a with
  | dial =>
    simp only at he
    split at he <;> simp only [Option.some.injEq, reduceCtorEq] at he
    subst he
    exact ⟨hc, h.cls, h.resp, fun id hi => absurd hi (hg id)⟩
  | ctrlUp =>
    simp only at he
    split at he <;> simp only [Option.some.injEq, reduceCtorEq] at he
    subst he
    exact ⟨hc, h.cls, h.resp, fun _ _ => rfl⟩
  | visit id ok =>
    simp only at he
    split at he
    · split at he
      · split at he <;> (simp only [Option.some.injEq] at he; subst he; exact ⟨hc, h.cls, h.resp, h.snd⟩)
      · simp only [Option.some.injEq] at he; subst he; exact ⟨hc, h.cls, h.resp, h.snd⟩
    · cases he
  | reset id =>
    simp only at he
    split at he <;> simp only [Option.some.injEq, reduceCtorEq] at he
    subst he
    refine ⟨hc, ?_, h.resp, h.snd⟩
    intro i
    by_cases e : i = id
    · subst e; simpa [upd] using h.cls i
    · simpa [upd, e] using h.cls i
  | listen id =>
    simp only at he
    split at he <;> simp only [Option.some.injEq, reduceCtorEq] at he
    subst he
    refine ⟨hc, h.cls, h.resp, ?_⟩
    intro i hi
    by_cases e : i = id
    · subst e; simp [upd] at hi
    · simp only [upd_ne _ _ e] at hi; exact h.snd i hi
  | check id =>
    simp only at he
    split at he <;> simp only [Option.some.injEq, reduceCtorEq] at he
    subst he
    refine ⟨hc, h.cls, h.resp, ?_⟩
    intro i hi
    by_cases e : i = id
    · subst e
      simp only [upd_self] at hi
      split at hi
      · rename_i hb; simp only [Bool.and_eq_true] at hb; exact hb.2
      · cases hi
    · simp only [upd_ne _ _ e] at hi; exact h.snd i hi
  | send id ok =>
    simp only at he
    split at he
    · rename_i hs
      split at he
      · rename_i hctrl
        simp only [Option.some.injEq] at he
        subst he
        exact ⟨hc, h.cls, h.resp, fun _ _ => hctrl⟩
      · rename_i hn
        exact absurd (h.snd id hs) hn
    · cases he
  | recvResp id port =>
    simp only at he
    split at he <;> simp only [Option.some.injEq, reduceCtorEq] at he
    subst he
    refine ⟨hc, h.cls, ?_, h.snd⟩
    intro x hx
    simp only [List.mem_append, List.mem_singleton] at hx
    rcases hx with hx | rfl
    · exact h.resp x hx
    · exact hg
  | runResp i =>
    simp only at he
    split at he <;> simp only [Option.some.injEq, reduceCtorEq] at he
    rename_i id port hget
    subst he
    have hp : port ≠ 0 := h.resp _ (List.mem_of_getElem? hget)
    have hsub : ∀ x ∈ s.resp.eraseIdx i, x.2 ≠ 0 := fun x hx => h.resp x (List.mem_of_mem_eraseIdx hx)
    simp only [St.response, if_neg hp]
    split
    · refine ⟨hc, ?_, hsub, h.snd⟩
      intro j
      by_cases e : j = id
      · subst e; simpa [upd] using h.cls j
      · simpa [upd, e] using h.cls j
    · exact ⟨hc, h.cls, hsub, h.snd⟩
  | look g =>
    simp only at he
    split at he <;> simp only [Option.some.injEq, reduceCtorEq] at he
    subst he
    exact ⟨hc, h.cls, h.resp, h.snd⟩
  | openS g ok =>
    simp only at he
    split at he
    · split at he <;> (simp only [Option.some.injEq] at he; subst he; exact ⟨hc, h.cls, h.resp, h.snd⟩)
    · cases he
  | wrap g ok =>
    simp only at he
    split at he <;> simp only [Option.some.injEq, reduceCtorEq] at he
    subst he
    exact ⟨hc, h.cls, h.resp, h.snd⟩
  | accept g =>
    simp only at he
    split at he
    · rename_i id x la ra _
      rw [if_neg (by rw [h.cls id]; simp)] at he
      simp only [Option.some.injEq] at he
      subst he
      exact ⟨hc, h.cls, h.resp, h.snd⟩
    · cases he
  | timeout g =>
    simp only at he
    split at he <;> simp only [Option.some.injEq, reduceCtorEq] at he
    subst he
    exact ⟨hc, h.cls, h.resp, h.snd⟩
  | closeL id => exact absurd hg (by simp [Calm])
  | _ =>
    simp only at he
    split at he <;> simp only [Option.some.injEq, reduceCtorEq] at he
    subst he
    exact ⟨hc, h.cls, h.resp, h.snd⟩

/-- **C233** (partial: listeners are not closed, the server assigns ports, no connection begins while GetTCPListener sends) The client never panics. -/
theorem C233_no_crash_partial {s : St} (h : Reach Calm s) : s.crashed = false := by
  have : KInv s := by
    induction h with
    | init => exact ⟨rfl, by simp, by simp, by simp⟩
    | step _ hg he ih => exact ih.step hg he
  exact this.ok

/-- **C233 is false of the code**: closing a listener and then receiving a connection for it crashes the program; so does closing it twice. -/
theorem C233_close_false :
    (∃ s, Reach any s ∧ s.crashed = true ∧ s.tr = [.opened 0 0 5, .connReq 0 7 5 1 2, .answered 1 7 8080, .asked 1 7 true]) ∧
    (∃ s, Reach any s ∧ s.crashed = true ∧ s.tr = []) := by
  have h : (run {} [.listen 7, .check 7, .dial, .ctrlUp, .startRange, .visit 7 true, .rangeEnd, .recvResp 7 8080, .runResp 0, .closeL 7,
      .recvConn 0 7 5 1 2, .look 0, .openS 0 true, .wrap 0 true, .accept 0]).map (fun s => (s.crashed, s.tr)) =
      some (true, [.opened 0 0 5, .connReq 0 7 5 1 2, .answered 1 7 8080, .asked 1 7 true]) := by decide +kernel
  have h' : (run {} [.listen 7, .check 7, .closeL 7, .closeL 7]).map (fun s => (s.crashed, s.tr)) = some (true, []) := by decide +kernel
  obtain ⟨s, h1, h2⟩ := Option.map_eq_some_iff.1 h
  obtain ⟨s', h1', h2'⟩ := Option.map_eq_some_iff.1 h'
  simp only [Prod.mk.injEq] at h2 h2'
  exact ⟨⟨s, reach_run .init h1, h2.1, h2.2⟩, ⟨s', reach_run .init h1', h2'.1, h2'.2⟩⟩

/-- **C233 is false of the code**: GetTCPListener crashes the program if the client reconnects between its check and its request. -/
theorem C233_reconnect_false : ∃ s, Reach any s ∧ s.crashed = true ∧ s.sess = 2 ∧ s.lst 7 = .sending := by
  have h : (run {} [.dial, .ctrlUp, .startRange, .rangeEnd, .listen 7, .check 7, .disconnect, .reset 7, .down, .dial, .send 7 true]).map
      (fun s => (s.crashed, s.sess, s.lst 7)) = some (true, 2, .sending) := by decide +kernel
  obtain ⟨s, h1, h2⟩ := Option.map_eq_some_iff.1 h
  simp only [Prod.mk.injEq] at h2
  exact ⟨s, reach_run .init h1, h2⟩

/-- **C233 is false of the code**: a listener GetTCPListener failed to return stays registered: the next connection asks for it, and
connections to it are opened and accepted by nobody. -/
theorem C233_failed_listener_false : ∃ s, Reach any s ∧ s.lst 7 = .failed ∧
    s.tr = [.closed 0 0, .opened 0 0 5, .connReq 0 7 5 1 2, .answered 2 7 8080, .asked 2 7 true, .asked 1 7 false] := by
  have h : (run {} [.dial, .ctrlUp, .startRange, .rangeEnd, .listen 7, .check 7, .send 7 false, .disconnect, .reset 7, .down, .dial, .ctrlUp,
      .startRange, .visit 7 true, .rangeEnd, .recvResp 7 8080, .runResp 0, .recvConn 0 7 5 1 2, .look 0, .openS 0 true, .wrap 0 true,
      .timeout 0]).map (fun s => (s.lst 7, s.tr)) =
      some (.failed, [.closed 0 0, .opened 0 0 5, .connReq 0 7 5 1 2, .answered 2 7 8080, .asked 2 7 true, .asked 1 7 false]) := by decide +kernel
  obtain ⟨s, h1, h2⟩ := Option.map_eq_some_iff.1 h
  simp only [Prod.mk.injEq] at h2
  exact ⟨s, reach_run .init h1, h2⟩

/-- the addresses named in connection requests can be resolved -/
def Resolvable (_ : St) : Act → Prop
  | .wrap _ ok => ok = true
  | _ => True

theorem opened_unique {t : List Ev} (hn : (t.filterMap openOf).Nodup) {g x x' i i' : Nat} (h1 : Ev.opened g x i ∈ t) (h2 : Ev.opened g x' i' ∈ t) : x = x' := by
  induction t with
  | nil => cases h1
  | cons e t ih =>
    have hn' : (t.filterMap openOf).Nodup := by
      cases he : openOf e with
      | none => simpa [List.filterMap_cons, he] using hn
      | some g => simp only [List.filterMap_cons, he, List.nodup_cons] at hn; exact hn.2
    rcases List.mem_cons.1 h1 with e1 | k1 <;> rcases List.mem_cons.1 h2 with e2 | k2
    · rw [← e1] at e2; simp only [Ev.opened.injEq] at e2; exact e2.2.1.symm
    · subst e1
      simp only [List.filterMap_cons, openOf, List.nodup_cons] at hn
      exact absurd (List.mem_filterMap.2 ⟨Ev.opened g x' i', k2, (rfl : openOf _ = some g)⟩) hn.1
    · subst e2
      simp only [List.filterMap_cons, openOf, List.nodup_cons] at hn
      exact absurd (List.mem_filterMap.2 ⟨Ev.opened g x i, k1, (rfl : openOf _ = some g)⟩) hn.1
    · exact ih hn' k1 k2

/-- **C233** (partial: the addresses named by the server can be resolved) Every stream opened was accepted or closed, or is waiting to be. -/
theorem C233_no_leak_partial {s : St} (h : Reach Resolvable s) {g x i : Nat} (ho : Ev.opened g x i ∈ s.tr) :
    (∃ id la ra, Ev.accepted g id x la ra ∈ s.tr) ∨ Ev.closed g x ∈ s.tr ∨
    ∃ id la ra, s.gs g = .opened id x la ra ∨ s.gs g = .waiting id x la ra := by
  have key : ∀ {s : St}, Reach Resolvable s → ∀ g x i, Ev.opened g x i ∈ ctr s → (∃ id la ra, Ev.accepted g id x la ra ∈ ctr s) ∨ Ev.closed g x ∈ ctr s ∨
      ∃ id la ra, s.gs g = .opened id x la ra ∨ s.gs g = .waiting id x la ra := by
    intro s h
    induction h with
    | init => intro g x i h; simp [ctr] at h
    | @step s s' a hr hg he ih =>
      have hci := cinv hr
      -- the stream held by a goroutine is the one it opened
      have huniq : ∀ g x i id x' la ra, Ev.opened g x i ∈ ctr s → (s.gs g = .opened id x' la ra ∨ s.gs g = .waiting id x' la ra) → x' = x := by
        intro g x i id x' la ra ho hs
        have hk := hci.gok g
        have : ∃ i', Ev.opened g x' i' ∈ ctr s := by
          rcases hs with hs | hs <;> rw [hs] at hk <;> obtain ⟨⟨i', _, h⟩, _⟩ := hk <;> exact ⟨i', h⟩
        obtain ⟨i', h2⟩ := this
        have hnd := hci.opn
        exact opened_unique hnd h2 ho
      have hnot : ∀ g x i, Ev.opened g x i ∈ ctr s → (∀ id la ra, s.gs g ≠ .opened id x la ra ∧ s.gs g ≠ .waiting id x la ra) →
          (∃ id la ra, Ev.accepted g id x la ra ∈ ctr s) ∨ Ev.closed g x ∈ ctr s := by
        intro g x i ho hn
        rcases ih g x i ho with h | h | ⟨id, la, ra, h⟩
        · exact .inl h
        · exact .inr h
        · rcases h with h | h
          · exact absurd h (hn id la ra).1
          · exact absurd h (hn id la ra).2
      intro g x i ho
      have lift : ∀ e : Ev, ctr s' = e :: ctr s → ((∃ id la ra, Ev.accepted g id x la ra ∈ ctr s) ∨ Ev.closed g x ∈ ctr s) →
          (∃ id la ra, Ev.accepted g id x la ra ∈ ctr s') ∨ Ev.closed g x ∈ ctr s' ∨
          ∃ id la ra, s'.gs g = .opened id x la ra ∨ s'.gs g = .waiting id x la ra := by
        intro e h3 h
        rw [h3]
        rcases h with ⟨a, b, c, h⟩ | h
        · exact .inl ⟨a, b, c, List.mem_cons_of_mem _ h⟩
        · exact .inr (.inl (List.mem_cons_of_mem _ h))
      -- a step of another goroutine
      have other : ∀ g' p, s'.gs = upd s.gs g' p → g ≠ g' → Ev.opened g x i ∈ ctr s → (∀ e ∈ ctr s, e ∈ ctr s') →
          (∃ id la ra, Ev.accepted g id x la ra ∈ ctr s') ∨ Ev.closed g x ∈ ctr s' ∨
          ∃ id la ra, s'.gs g = .opened id x la ra ∨ s'.gs g = .waiting id x la ra := by
        intro g' p h1 hne ho hsub
        rcases ih g x i ho with ⟨a, b, c, h⟩ | h | ⟨id, la, ra, h⟩
        · exact .inl ⟨a, b, c, hsub _ h⟩
        · exact .inr (.inl (hsub _ h))
        · refine .inr (.inr ⟨id, la, ra, ?_⟩)
          rw [h1, upd_ne _ _ hne]; exact h
      cases gstep he with
      | same h1 h2 h3 => rw [h3] at ho ⊢; rw [h1]; exact ih g x i ho
      | recv g' id ident la ra hgs h1 h2 h3 =>
        have ho' : Ev.opened g x i ∈ ctr s := by rw [h3] at ho; simpa using ho
        by_cases e : g = g'
        · subst e
          exact lift _ h3 (hnot g x i ho' (by simp [hgs]))
        · exact other g' _ h1 e ho' (by rw [h3]; exact fun _ h => List.mem_cons_of_mem _ h)
      | look g' id ident la ra hgs h1 h2 h3 =>
        rw [h3] at ho
        by_cases e : g = g'
        · subst e
          rw [h3]
          rcases hnot g x i ho (by simp [hgs]) with h | h
          · exact .inl h
          · exact .inr (.inl h)
        · rcases h1 with h1 | h1 <;> exact other g' _ h1 e ho (by rw [h3]; exact fun _ h => h)
      | nostream g' id ident la ra hgs h1 h2 h3 =>
        rw [h3] at ho
        by_cases e : g = g'
        · subst e
          rw [h3]
          rcases hnot g x i ho (by simp [hgs]) with h | h
          · exact .inl h
          · exact .inr (.inl h)
        · exact other g' _ h1 e ho (by rw [h3]; exact fun _ h => h)
      | openS g' id ident la ra hgs h1 h2 h3 =>
        rw [h3] at ho
        simp only [List.mem_cons, Ev.opened.injEq] at ho
        rcases ho with ⟨rfl, rfl, rfl⟩ | ho
        · exact .inr (.inr ⟨id, la, ra, .inl (by rw [h1, upd_self])⟩)
        · by_cases e : g = g'
          · subst e
            exact lift _ h3 (hnot g x i ho (by simp [hgs]))
          · exact other g' _ h1 e ho (by rw [h3]; exact fun _ h => List.mem_cons_of_mem _ h)
      | wrap g' id x' la ra hgs h1 h2 h3 =>
        rw [h3] at ho
        rcases h1 with h1 | ⟨ha, _⟩
        · by_cases e : g = g'
          · subst e
            have hx := huniq g x i id x' la ra ho (.inl hgs)
            subst hx
            exact .inr (.inr ⟨id, la, ra, .inr (by rw [h1, upd_self])⟩)
          · exact other g' _ h1 e ho (by rw [h3]; exact fun _ h => h)
        · subst ha
          exact absurd hg (by simp [Resolvable])
      | accept g' id x' la ra hgs h1 h2 h3 =>
        have ho' : Ev.opened g x i ∈ ctr s := by rw [h3] at ho; simpa using ho
        by_cases e : g = g'
        · subst e
          have hx := huniq g x i id x' la ra ho' (.inr hgs)
          subst hx
          rw [h3]
          exact .inl ⟨id, la, ra, List.mem_cons_self ..⟩
        · exact other g' _ h1 e ho' (by rw [h3]; exact fun _ h => List.mem_cons_of_mem _ h)
      | timeout g' id x' la ra hgs h1 h2 h3 =>
        have ho' : Ev.opened g x i ∈ ctr s := by rw [h3] at ho; simpa using ho
        by_cases e : g = g'
        · subst e
          have hx := huniq g x i id x' la ra ho' (.inr hgs)
          subst hx
          rw [h3]
          exact .inr (.inl (List.mem_cons_self ..))
        · exact other g' _ h1 e ho' (by rw [h3]; exact fun _ h => List.mem_cons_of_mem _ h)
  rcases key h g x i (mem_ctr.2 ⟨ho, rfl⟩) with ⟨a, b, c, h⟩ | h | h
  · exact .inl ⟨a, b, c, (mem_ctr.1 h).1⟩
  · exact .inr (.inl (mem_ctr.1 h).1)
  · exact .inr (.inr h)

/-- **C233 is false of the code**: a stream whose addresses cannot be resolved is neither delivered nor closed, ever. -/
theorem C233_leak_false : ∃ s, Reach any s ∧ s.gs 0 = .done ∧ s.tr = [.opened 0 0 5, .connReq 0 7 5 1 2, .answered 1 7 8080, .asked 1 7 true] := by
  have h : (run {} [.listen 7, .check 7, .dial, .ctrlUp, .startRange, .visit 7 true, .rangeEnd, .recvResp 7 8080, .runResp 0,
      .recvConn 0 7 5 1 2, .look 0, .openS 0 true, .wrap 0 false]).map (fun s => (s.gs 0, s.tr)) =
      some (.done, [.opened 0 0 5, .connReq 0 7 5 1 2, .answered 1 7 8080, .asked 1 7 true]) := by decide +kernel
  obtain ⟨s, h1, h2⟩ := Option.map_eq_some_iff.1 h
  simp only [Prod.mk.injEq] at h2
  exact ⟨s, reach_run .init h1, h2⟩

/-! ### Non-vacuity -/

theorem reach_run' {p : St → Act → Prop} {as : List Act} : ∀ {s s' : St}, Reach p s → (∀ s a, a ∈ as → p s a) → run s as = some s' → Reach p s' := by
  induction as with
  | nil => intro s s' h _ hr; simp only [run, Option.some.injEq] at hr; exact hr ▸ h
  | cons a as ih =>
    intro s s' h hp hr
    simp only [run] at hr
    cases he : exec s a with
    | none => rw [he] at hr; cases hr
    | some s1 => rw [he] at hr; exact ih (.step h (hp _ _ (List.mem_cons_self ..)) he) (fun s a hm => hp s a (List.mem_cons_of_mem _ hm)) hr

/-- two listeners, one from before and one from during the connection; two connections, one accepted, one too late -/
example : ∃ s, Reach Resolvable s ∧ s.loop = .handling ∧ (s.mp 8).addr = some 81 ∧ s.crashed = false ∧
    s.tr = [.closed 1 1, .accepted 0 7 0 1 2, .opened 1 1 6, .opened 0 0 5, .connReq 1 8 6 3 4, .connReq 0 7 5 1 2, .answered 1 8 81, .answered 1 7 80,
      .asked 1 8 true, .asked 1 7 true] := by
  have h : (run {} [.listen 7, .check 7, .dial, .ctrlUp, .startRange, .visit 7 true, .rangeEnd, .listen 8, .check 8, .send 8 true, .recvResp 7 80,
      .recvResp 8 81, .runResp 1, .runResp 0, .recvConn 0 7 5 1 2, .recvConn 1 8 6 3 4, .look 1, .look 0, .openS 0 true, .openS 1 true, .wrap 0 true,
      .wrap 1 true, .accept 0, .timeout 1]).map (fun s => (s.loop, (s.mp 8).addr, s.crashed, s.tr)) = some (.handling, some 81, false,
      [.closed 1 1, .accepted 0 7 0 1 2, .opened 1 1 6, .opened 0 0 5, .connReq 1 8 6 3 4, .connReq 0 7 5 1 2, .answered 1 8 81, .answered 1 7 80,
      .asked 1 8 true, .asked 1 7 true]) := by decide +kernel
  obtain ⟨s, h1, h2⟩ := Option.map_eq_some_iff.1 h
  simp only [Prod.mk.injEq] at h2
  refine ⟨s, reach_run' .init ?_ h1, h2⟩
  intro s a ha
  simp only [List.mem_cons, List.not_mem_nil, or_false] at ha
  rcases ha with rfl | rfl | rfl | rfl | rfl | rfl | rfl | rfl | rfl | rfl | rfl | rfl | rfl | rfl | rfl | rfl | rfl | rfl | rfl | rfl | rfl | rfl | rfl | rfl <;>
    simp [Resolvable]

end Verif.Props.TunnelClient
