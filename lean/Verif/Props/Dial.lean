import Verif.Net.Dial
/-
C72: tracked connections: ownership of the connection state, leaks, options. C74: hook order, closing.
-/
namespace Verif.Dial

/-! ### Specification -/

/-- Two connections never share a state. -/
def OwnState (s : St) : Prop := ∀ c c' st, s.stateOf c = some st → s.stateOf c' = some st → c = c'

/-- The state of a connection shows that connection's addresses. -/
def OwnAddress (s : St) : Prop := ∀ c st, s.stateOf c = some st → s.shows st = some c

/-- No dial uses a context that already holds the state of a connection. -/
def FreshCtx (s : St) : Act → Prop
  | .dial _ ctx _ _ => fromCtx s ctx = none
  | _ => True

/-- Hooks of dials do not fail after the connection was made. -/
def AfterOk (_ : St) : Act → Prop
  | .dialed _ _ afterOk => afterOk = true
  | _ => True

def anyAct (_ : St) (_ : Act) : Prop := True

/-- Every network connection made was returned or closed. -/
def NoLeak (tr : List Ev) : Prop := ∀ d c, .opened d c ∈ tr → .returned d c ∈ tr ∨ .closed c ∈ tr

/-- A connection is returned only after all: hooks ran in order, none failed. -/
def Ordered (tr : List Ev) : Prop :=
  ∀ pre d c post, tr = pre ++ .returned d c :: post →
    (post.head? = some (.opened d c) ∧ .before d true ∉ post) ∨
    (∃ post', post = .after d c true :: .opened d c :: post' ∧ .before d true ∈ post')

/-! ### Ownership -/

structure Own (s : St) : Prop where
  conn : ∀ c st, s.stateOf c = some st → c < s.nextConn ∧ st < s.nextState
  dialing : ∀ d st ctx b, s.phase d = .dialing st ctx b → st < s.nextState ∧ ∀ c, s.stateOf c ≠ some st
  two : ∀ d d' st ctx ctx' b b', s.phase d = .dialing st ctx b → s.phase d' = .dialing st ctx' b' → d = d'
  own : OwnState s
  addr : OwnAddress s

theorem own_step {s s' : St} {a : Act} (h : Own s) (hg : FreshCtx s a) (he : exec s a = some s') : Own s' := by
  obtain ⟨a1, a2, a3, a4, a5⟩ := h
  cases a with
  | dial d ctx hooks bo =>
    simp only [exec] at he
    simp only [FreshCtx] at hg
    rw [hg] at he
    split at he
    · cases he
    · rename_i hp
      simp only [ne_eq, Decidable.not_not] at hp
      split at he
      · injection he with he; subst he
        refine ⟨a1, ?_, ?_, a4, a5⟩
        · intro k st c b hk
          simp only [St.setPhase] at hk
          split at hk
          · cases hk
          · exact a2 k st c b hk
        · intro k k' st c c' b b' hk hk'
          simp only [St.setPhase] at hk hk'
          split at hk
          · cases hk
          · split at hk'
            · cases hk'
            · exact a3 k k' st c c' b b' hk hk'
      · injection he with he; subst he
        refine ⟨fun c st hc => ⟨(a1 c st hc).1, Nat.lt_succ_of_lt (a1 c st hc).2⟩, ?_, ?_, a4, a5⟩
        · intro k st c b hk
          simp only [St.setPhase] at hk
          split at hk
          · injection hk with hk; subst hk
            exact ⟨Nat.lt_succ_self _, fun c hc => by have := (a1 c _ hc).2; omega⟩
          · exact ⟨Nat.lt_succ_of_lt (a2 k st c b hk).1, (a2 k st c b hk).2⟩
        · intro k k' st c c' b b' hk hk'
          simp only [St.setPhase] at hk hk'
          split at hk <;> split at hk'
          · omega
          · injection hk with hk; subst hk
            have := (a2 k' _ c' b' hk').1; omega
          · injection hk' with hk'; subst hk'
            have := (a2 k _ c b hk).1; omega
          · exact a3 k k' st c c' b b' hk hk'
  | dialed d ok ao =>
    simp only [exec] at he
    split at he
    · rename_i st ctx hooks hp
      have clean : Own (s.setPhase d .done) := by
        refine ⟨a1, ?_, ?_, a4, a5⟩
        · intro k st c b hk
          simp only [St.setPhase] at hk
          split at hk
          · cases hk
          · exact a2 k st c b hk
        · intro k k' st c c' b b' hk hk'
          simp only [St.setPhase] at hk hk'
          split at hk
          · cases hk
          · split at hk'
            · cases hk'
            · exact a3 k k' st c c' b b' hk hk'
      split at he
      · have key : ∀ hl tr, Own { (s.setPhase d .done) with
              nextConn := s.nextConn + 1, holds := hl,
              stateOf := (fun k => if k = s.nextConn then some st else s.stateOf k),
              shows := (fun k => if k = st then some s.nextConn else s.shows k), trace := tr } := by
          intro hl tr
          obtain ⟨b1, b2⟩ := a2 d st ctx hooks hp
          refine ⟨?_, ?_, clean.two, ?_, ?_⟩
          · intro c st' hc
            simp only at hc
            split at hc
            · rename_i e; injection hc with hc; subst hc e; exact ⟨Nat.lt_succ_self _, b1⟩
            · exact ⟨Nat.lt_succ_of_lt (a1 c st' hc).1, (a1 c st' hc).2⟩
          · intro k st' c b hk
            refine ⟨(clean.dialing k st' c b hk).1, ?_⟩
            intro c' hc'
            simp only at hc'
            split at hc'
            · injection hc' with hc'
              subst hc'
              simp only [St.setPhase] at hk
              split at hk
              · cases hk
              · rename_i hne; exact hne (a3 k d _ _ _ _ _ hk hp)
            · exact (clean.dialing k st' c b hk).2 c' hc'
          · intro c c' st' hc hc'
            simp only at hc hc'
            split at hc <;> split at hc'
            · omega
            · injection hc with hc; subst hc; exact absurd hc' (b2 c')
            · injection hc' with hc'; subst hc'; exact absurd hc (b2 c)
            · exact a4 c c' st' hc hc'
          · intro c st' hc
            simp only at hc ⊢
            split at hc
            · rename_i e; injection hc with hc; subst hc e; simp
            · rw [if_neg (fun e : st' = st => b2 c (e ▸ hc))]; exact a5 c st' hc
        split at he
        · split at he
          · injection he with he; subst he; exact key _ _
          · injection he with he; subst he; exact key _ _
        · injection he with he; subst he; exact key _ _
      · injection he with he; subst he
        exact ⟨clean.conn, clean.dialing, clean.two, clean.own, clean.addr⟩
    · cases he
  | gotConn h c =>
    simp only [exec] at he
    split at he
    · injection he with he; subst he; exact ⟨a1, a2, a3, a4, a5⟩
    · cases he
  | close c hooks bo co ao =>
    simp only [exec] at he
    repeat' split at he
    all_goals first
      | (cases he; done)
      | (injection he with he; subst he; exact ⟨a1, a2, a3, a4, a5⟩)

/-- **C72** (partial) As long as no dial uses a context that already holds a connection state, every
connection has a state of its own, and that state shows the connection's addresses. -/
theorem C72_own_partial {s : St} (h : Reach FreshCtx s) : OwnState s ∧ OwnAddress s := by
  have : Own s := by
    induction h with
    | init => exact ⟨by simp, by simp, by simp, by simp [OwnState], by simp [OwnAddress]⟩
    | step _ hg he ih => exact own_step ih hg he
  exact ⟨this.own, this.addr⟩

/-- **C72** Once a context holds a connection state, no dial replaces it: only a reused connection (`GotConn`)
does. -/
theorem C72_context {s s' : St} {a : Act} {h st : Nat} (he : exec s a = some s') (ha : ∀ c, a ≠ .gotConn h c)
    (hh : s.holds h = some st) : s'.holds h = some st := by
  cases a with
  | gotConn k c =>
    simp only [exec] at he
    split at he
    · injection he with he; subst he
      have : h ≠ k := fun e => ha c (by rw [e])
      simp [this, hh]
    · cases he
  | dialed d ok ao =>
    simp only [exec] at he
    split at he
    · rename_i st' ctx hooks hp
      (repeat' split at he)
      all_goals first
        | (injection he with he; subst he; exact hh)
        | (rename_i k hn
           injection he with he; subst he
           have : h ≠ k := by intro e; subst e; rw [show (s.setPhase d .done).holds h = s.holds h from rfl, hh] at hn; cases hn
           show (if h = k then some st' else s.holds h) = some st
           rw [if_neg this]; exact hh)
    · cases he
  | dial d ctx hooks b =>
    simp only [exec] at he
    (repeat' split at he)
    all_goals first | (cases he; done) | (injection he with he; subst he; exact hh)
  | close c hooks b co ao =>
    simp only [exec] at he
    (repeat' split at he)
    all_goals first | (cases he; done) | (injection he with he; subst he; exact hh)

/-- **C72 refuted** otherwise: two dials with the same context (a redirect, a retry, a context of a server's
request) share one state, which then shows the addresses of the second connection only. -/
theorem C72_shared_state_false : ∃ s, Reach anyAct s ∧ s.stateOf 0 = some 0 ∧ s.stateOf 1 = some 0 ∧ s.shows 0 = some 1 :=
  ⟨_, .step (a := .dialed 1 true true) (.step (a := .dial 1 (some 7) false true) (.step (a := .dialed 0 true true)
    (.step (a := .dial 0 (some 7) false true) .init trivial rfl) trivial rfl) trivial rfl) trivial rfl, rfl, rfl, rfl⟩

/-- **C72 refuted** in HTTP transports: a request whose dial begins only after the request was given an idle
connection overwrites the state of that connection with the addresses of the new one. -/
theorem C72_gotConn_false : ∃ s, Reach anyAct s ∧ s.stateOf 0 = some 0 ∧ s.stateOf 1 = some 0 ∧ s.shows 0 = some 1 :=
  ⟨_, .step (a := .dialed 1 true true) (.step (a := .dial 1 (some 8) false true) (.step (a := .gotConn 8 0) (.step (a := .dialed 0 true true)
    (.step (a := .dial 0 (some 7) false true) .init trivial rfl) trivial rfl) trivial rfl) trivial rfl) trivial rfl, rfl, rfl, rfl⟩

/-! ### Leaks and order -/

theorem mem_close {s s' : St} {c : Nat} {hooks bo co ao : Bool} (he : exec s (.close c hooks bo co ao) = some s') :
    s'.phase = s.phase ∧ s'.nextConn = s.nextConn ∧ ∃ es, s'.trace = es ++ s.trace ∧
      ∀ e ∈ es, ∀ d c', e ≠ .opened d c' ∧ e ≠ .returned d c' ∧ e ≠ .after d c' true ∧ e ≠ .failed d ∧ e ≠ .before d true := by
  simp only [exec] at he
  repeat' split at he
  all_goals first
    | (cases he; done)
    | (injection he with he; subst he; refine ⟨rfl, rfl, ?_⟩
       first
         | exact ⟨[_, _, _, _], rfl, by simp⟩
         | exact ⟨[_, _, _], rfl, by simp⟩
         | exact ⟨[_, _], rfl, by simp⟩
         | exact ⟨[_], rfl, by simp⟩)

theorem noleak_step {s s' : St} {a : Act} (h : NoLeak s.trace) (hg : AfterOk s a) (he : exec s a = some s') : NoLeak s'.trace := by
  have mono : ∀ es : List Ev, (∀ e ∈ es, ∀ d c', e ≠ .opened d c') → NoLeak (es ++ s.trace) := by
    intro es hes d c hm
    rcases List.mem_append.mp hm with hm | hm
    · exact absurd rfl (hes _ hm d c)
    · rcases h d c hm with h | h
      · exact Or.inl (List.mem_append_right _ h)
      · exact Or.inr (List.mem_append_right _ h)
  cases a with
  | dial d ctx hooks bo =>
    simp only [exec] at he
    repeat' split at he
    all_goals first
      | (cases he; done)
      | (injection he with he; subst he
         first
           | exact mono [_, _] (by simp)
           | exact mono [_] (by simp)
           | exact mono [] (by simp)
           | (simp only; split
              · exact mono [_] (by simp)
              · exact mono [] (by simp)))
  | dialed d ok ao =>
    simp only [AfterOk] at hg
    subst hg
    simp only [exec] at he
    split at he
    · rename_i st ctx hooks hp
      split at he
      · have ret : ∀ es : List Ev, (∀ e ∈ es, ∀ d c', e ≠ .opened d c') →
            NoLeak (.returned d s.nextConn :: es ++ .opened d s.nextConn :: s.trace) := by
          intro es hes d' c' hm
          simp only [List.cons_append, List.mem_cons, List.mem_append, reduceCtorEq, false_or] at hm
          rcases hm with hm | hm | hm
          · exact absurd rfl (hes _ hm d' c')
          · injection hm with e1 e2; subst e1 e2; exact Or.inl (by simp)
          · rcases h d' c' hm with h | h
            · exact Or.inl (by simp [h])
            · exact Or.inr (by simp [h])
        split at he
        · simp only [if_true] at he
          injection he with he; subst he
          exact ret [.after d s.nextConn true] (by simp)
        · injection he with he; subst he
          exact ret [] (by simp)
      · injection he with he; subst he
        exact mono [_] (by simp)
    · cases he
  | gotConn h' c =>
    simp only [exec] at he
    split at he
    · injection he with he; subst he; exact h
    · cases he
  | close c hooks bo co ao =>
    obtain ⟨_, _, es, h1, h2⟩ := mem_close he
    rw [h1]
    exact mono es fun e hm d c' => (h2 e hm d c').1

/-- **C72** (partial) As long as no hook fails after the connection was made, every network connection made
is returned to the caller (or closed by it later). -/
theorem C72_noleak_partial {s : St} (h : Reach AfterOk s) : NoLeak s.trace := by
  induction h with
  | init => intro d c h; simp at h
  | step _ hg he ih => exact noleak_step ih hg he

/-- **C72 refuted**: when the hook after dialing fails, the caller gets an error and the network connection
stays open; nobody can close it. -/
theorem C72_leak_false : ∃ s, Reach anyAct s ∧ s.trace = [.failed 0, .after 0 0 false, .opened 0 0, .before 0 true] :=
  ⟨_, .step (a := .dialed 0 true false) (.step (a := .dial 0 none true true) .init trivial rfl) trivial rfl, rfl⟩

structure Ord (s : St) : Prop where
  fresh : ∀ d, s.phase d = .none → .before d true ∉ s.trace
  dialing : ∀ d st ctx b, s.phase d = .dialing st ctx b → (b = true ↔ .before d true ∈ s.trace)
  ordered : Ordered s.trace

theorem ordered_append {tr es : List Ev} (h : Ordered tr) (he : ∀ e ∈ es, ∀ d c, e ≠ .returned d c) : Ordered (es ++ tr) := by
  intro pre d c post heq
  induction es generalizing pre with
  | nil => exact h pre d c post heq
  | cons x xs ih =>
    cases pre with
    | nil =>
      simp only [List.cons_append, List.nil_append, List.cons.injEq] at heq
      exact absurd heq.1 (he x List.mem_cons_self d c)
    | cons y ys =>
      simp only [List.cons_append, List.cons.injEq] at heq
      exact ih (fun e hm => he e (List.mem_cons_of_mem _ hm)) ys heq.2

theorem ordered_ret {tr : List Ev} {d c : Nat} (h : Ordered tr)
    (hh : (tr.head? = some (.opened d c) ∧ .before d true ∉ tr) ∨
      (∃ post', tr = .after d c true :: .opened d c :: post' ∧ .before d true ∈ post')) : Ordered (.returned d c :: tr) := by
  intro pre d' c' post heq
  cases pre with
  | nil =>
    simp only [List.nil_append, List.cons.injEq, Ev.returned.injEq] at heq
    obtain ⟨⟨e1, e2⟩, e3⟩ := heq
    subst e1 e2 e3; exact hh
  | cons y ys =>
    simp only [List.cons_append, List.cons.injEq] at heq
    exact h ys d' c' post heq.2

theorem ord_step {s s' : St} {a : Act} (h : Ord s) (he : exec s a = some s') : Ord s' := by
  obtain ⟨a1, a2, a3⟩ := h
  have same : ∀ (x : St) (es : List Ev), x.phase = s.phase → x.trace = es ++ s.trace →
      (∀ e ∈ es, ∀ d c', e ≠ .returned d c' ∧ e ≠ .before d true) → Ord x := by
    intro x es h1 h2 h3
    have hb : ∀ d, .before d true ∈ x.trace ↔ .before d true ∈ s.trace := by
      intro d
      rw [h2, List.mem_append]
      constructor
      · rintro (h | h)
        · exact absurd rfl (h3 _ h d 0).2
        · exact h
      · exact Or.inr
    refine ⟨?_, ?_, ?_⟩
    · intro d hd; rw [h1] at hd; rw [hb]; exact a1 d hd
    · intro d st ctx b hd; rw [h1] at hd; rw [hb]; exact a2 d st ctx b hd
    · rw [h2]; exact ordered_append a3 fun e hm d c => (h3 e hm d c).1
  cases a with
  | dial d ctx hooks bo =>
    simp only [exec] at he
    split at he
    · cases he
    · rename_i hp
      simp only [ne_eq, Decidable.not_not] at hp
      split at he
      · injection he with he; subst he
        refine ⟨?_, ?_, ordered_append (es := [_, _]) a3 (by simp)⟩
        · intro k hk
          simp only [St.setPhase] at hk
          split at hk
          · cases hk
          · simpa using a1 k hk
        · intro k st c b hk
          simp only [St.setPhase] at hk
          split at hk
          · cases hk
          · simpa using a2 k st c b hk
      · have key : ∀ (st n : Nat), Ord { (s.setPhase d (.dialing st ctx hooks)) with
            nextState := n,
            trace := (if hooks then .before d true :: s.trace else s.trace) } := by
          intro st n
          refine ⟨?_, ?_, ?_⟩
          · intro k hk
            simp only [St.setPhase] at hk ⊢
            split at hk
            · cases hk
            · rename_i hne
              cases hooks with
              | true => simpa [hne] using a1 k hk
              | false => exact a1 k hk
          · intro k st' c b hk
            simp only [St.setPhase] at hk ⊢
            split at hk
            · rename_i e
              subst e
              injection hk with _ _ hb; subst hb
              cases hooks with
              | true => simp
              | false => simpa using a1 k hp
            · rename_i hne
              cases hooks with
              | true => simpa [hne] using a2 k st' c b hk
              | false => exact a2 k st' c b hk
          · cases hooks with
            | true => exact ordered_append (es := [_]) a3 (by simp)
            | false => exact a3
        split at he
        · injection he with he; subst he; exact key _ _
        · injection he with he; subst he; exact key _ _
  | dialed d ok ao =>
    simp only [exec] at he
    split at he
    · rename_i st ctx hooks hp
      have hb := a2 d st ctx hooks hp
      have key : ∀ (x : St) (es : List Ev), x.phase = (s.setPhase d .done).phase → x.trace = es ++ s.trace →
          (∀ e ∈ es, ∀ d, e ≠ .before d true) → Ordered x.trace → Ord x := by
        intro x es h1 h2 h3 h4
        have hbm : ∀ d, .before d true ∈ x.trace ↔ .before d true ∈ s.trace := by
          intro d
          rw [h2, List.mem_append]
          constructor
          · rintro (h | h)
            · exact absurd rfl (h3 _ h d)
            · exact h
          · exact Or.inr
        refine ⟨?_, ?_, h4⟩
        · intro k hk
          rw [h1] at hk; rw [hbm]
          simp only [St.setPhase] at hk
          split at hk
          · cases hk
          · exact a1 k hk
        · intro k st' c b hk
          rw [h1] at hk; rw [hbm]
          simp only [St.setPhase] at hk
          split at hk
          · cases hk
          · exact a2 k st' c b hk
      split at he
      · split at he
        · rename_i hh
          split at he
          · injection he with he; subst he
            refine key _ [_, _, _] rfl rfl (by simp) (ordered_ret (ordered_append (es := [_, _]) a3 (by simp)) (Or.inr ⟨_, rfl, hb.mp hh⟩))
          · injection he with he; subst he
            exact key _ [_, _, _] rfl rfl (by simp) (ordered_append (es := [_, _, _]) a3 (by simp))
        · rename_i hh
          injection he with he; subst he
          refine key _ [_, _] rfl rfl (by simp) (ordered_ret (ordered_append (es := [_]) a3 (by simp)) (Or.inl ⟨rfl, ?_⟩))
          simp only [List.mem_cons, reduceCtorEq, false_or]
          exact fun hm => hh (hb.mpr hm)
      · injection he with he; subst he
        exact key _ [_] rfl rfl (by simp) (ordered_append (es := [_]) a3 (by simp))
    · cases he
  | gotConn h' c =>
    simp only [exec] at he
    split at he
    · injection he with he; subst he; exact ⟨a1, a2, a3⟩
    · cases he
  | close c hooks bo co ao =>
    obtain ⟨h0, _, es, h1, h2⟩ := mem_close he
    exact same _ es h0 h1 fun e hm d c' => ⟨(h2 e hm d c').2.1, (h2 e hm d c').2.2.2.2⟩

/-- **C74** For every schedule and every failure: a connection is returned only after the network connection
was made, after the hook before dialing and then the one after it have succeeded, if there are hooks. -/
theorem C74_hooks {s : St} {g : St → Act → Prop} (h : Reach g s) : Ordered s.trace := by
  have : Ord s := by
    induction h with
    | init => exact ⟨by simp, by simp, by intro pre d c post h; simp at h⟩
    | step _ _ he ih => exact ord_step ih he
  exact this.ordered

/-! ### Closing -/

/-- **C74** `Close` returns no error exactly if every step succeeded, and then the hook before, the closing of
the network connection and the hook after it happened in this order. -/
theorem C74_close (s s' : St) (c : Nat) (hooks bo co ao : Bool) (he : exec s (.close c hooks bo co ao) = some s') :
    (∃ post, s'.trace = .closeOk c :: post) ↔
      co = true ∧ (hooks = true → bo = true ∧ ao = true) ∧
      s'.trace = .closeOk c :: (if hooks then [.afterClose c true, .closed c, .beforeClose c true] else [.closed c]) ++ s.trace := by
  simp only [exec] at he
  split at he
  · cases he
  · cases hooks <;> cases bo <;> cases co <;> cases ao <;> simp at he <;> subst he <;> simp

/-- **C72 refuted** in one respect: when the hook before closing fails, `Close` returns without closing the
network connection. -/
theorem C72_close_open_false : ∃ s, Reach anyAct s ∧ .closeErr 0 ∈ s.trace ∧ .closed 0 ∉ s.trace :=
  ⟨_, .step (a := .close 0 true false true true) (.step (a := .dialed 0 true true) (.step (a := .dial 0 none false true) .init trivial rfl)
    trivial rfl) trivial rfl, by decide, by decide⟩

/-! ### Options -/

/-- The order in which two dials append their options and wrap. -/
def orun (s : Opts) (l : List OAct) : Opts := l.foldl oexec s

theorem own_inv (l : List OAct) : ∀ s : Opts, s.spare = false → (∀ k x, s.own k = some x → x = k) → (∀ k x, s.got k = some x → x = k) →
    (∀ k x, (orun s l).got k = some x → x = k) := by
  induction l with
  | nil => intro s _ _ h; exact h
  | cons a r ih =>
    intro s h1 h2 h3
    refine ih (oexec s a) ?_ ?_ ?_
    · cases a <;> simp [oexec, h1]
    · cases a with
      | append d =>
        intro k x hk
        simp only [oexec, h1, Bool.false_eq_true, if_false] at hk
        split at hk
        · rename_i e; injection hk with hk; omega
        · exact h2 k x hk
      | wrap d => intro k x hk; simp only [oexec, h1, Bool.false_eq_true, if_false] at hk; exact h2 k x hk
    · cases a with
      | append d => intro k x hk; simp only [oexec, h1, Bool.false_eq_true, if_false] at hk; exact h3 k x hk
      | wrap d =>
        intro k x hk
        simp only [oexec, h1, Bool.false_eq_true, if_false] at hk
        split at hk
        · rename_i e; subst e; exact h2 k x hk
        · exact h3 k x hk

/-- **C72** (partial) Whatever the schedule, if the option slice given to the dialer has no spare capacity, a
connection gets the address and the state of its own dial. -/
theorem C72_options_partial (l : List OAct) (d x : Nat) (h : (orun { spare := false } l).got d = some x) : x = d :=
  own_inv l { spare := false } rfl (by simp) (by simp) d x h

/-- **C72 refuted** if it has spare capacity: two dials at the same time write their options to the same
place, and the first connection gets the address and the state of the second. -/
theorem C72_options_false : ∃ l, (orun { spare := true } l).got 0 = some 1 :=
  ⟨[.append 0, .append 1, .wrap 0, .wrap 1], rfl⟩

/-! ### Non-vacuity -/

example : ∃ s, Reach FreshCtx s ∧ Reach AfterOk s ∧ s.stateOf 0 = some 0 ∧ s.stateOf 1 = some 1 ∧
    s.trace = [.returned 1 1, .opened 1 1, .returned 0 0, .after 0 0 true, .opened 0 0, .before 0 true] :=
  ⟨_, .step (a := .dialed 1 true true) (.step (a := .dialed 0 true true) (.step (a := .dial 1 (some 8) false true)
      (.step (a := .dial 0 (some 7) true true) .init rfl rfl) rfl rfl) trivial rfl) trivial rfl,
    .step (a := .dialed 1 true true) (.step (a := .dialed 0 true true) (.step (a := .dial 1 (some 8) false true)
      (.step (a := .dial 0 (some 7) true true) .init trivial rfl) trivial rfl) rfl rfl) rfl rfl, rfl, rfl, rfl⟩

example : (orun { spare := false } [.append 0, .append 1, .wrap 0, .wrap 1]).got 0 = some 0 := rfl

end Verif.Dial
