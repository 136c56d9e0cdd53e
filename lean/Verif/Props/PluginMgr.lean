import Verif.Wasm.Plugin
/-
C66: the plugin manager (/repo/pkg/proxywasm/plugin_manager.go, vm.go).

The model is in Wasm/Plugin.lean.  The specification speaks about the trace of answered calls.
-/
namespace Verif.Plugin

/-! ### Specification -/

/-- All calls for one configuration that got a plugin got the same one. -/
def SamePlugin (tr : List MEv) (cfg : Config) : Prop :=
  ∀ p q, .returned cfg p ∈ tr → .returned cfg q ∈ tr → p = q

/-- Different configurations never share a plugin (an unnamed one is the same as that with the name
generated for it). -/
def OwnPlugin (tr : List MEv) : Prop :=
  ∀ cfg cfg' p, .returned cfg p ∈ tr → .returned cfg' p ∈ tr →
    cfg.rest = cfg'.rest ∧ cfg.instances = cfg'.instances ∧ (cfg.name = cfg'.name ∨ cfg.name = "" ∨ cfg'.name = "")

/-- Any schedule, any calls. -/
def anyM (_ : Mgr) (_ : MAct) : Prop := True

/-- Every configuration has a name, no two calls create the same configuration at the same time, and
`Add` is not called for one that exists. -/
def NoRace (m : Mgr) : MAct → Prop
  | .getOrCreate _ cfg => cfg.name ≠ "" ∧ ∀ c, m.calls c ≠ .toAdd cfg
  | .addDirect cfg _ _ => cfg.name ≠ "" ∧ mlook cfg m.plugins = none ∧ ∀ c, m.calls c ≠ .toAdd cfg
  | _ => True

/-- Generated names are not empty, and fewer than 2^32 plugins are made. -/
def Named (m : Mgr) : MAct → Prop
  | .add _ _ u | .addDirect _ _ u => u ≠ "" ∧ m.made + 1 < U32
  | _ => True

/-! ### Delete -/

theorem stuck_exec {m : Mgr} (h : m.locked = true) (a : MAct) : mexec m a = none := by
  cases a <;> simp only [mexec, h, Bool.true_or, if_true]
  · split <;> rfl
  · split <;> rfl

/-- **C66 refuted** for `Delete`: it takes the lock and calls `Get`, which takes it again.  From any
state in which the lock is free, a call of `Delete` begins, and after that no step of any call of
the manager is possible in any continuation: neither that `Delete` nor any later call returns. -/
theorem C66_delete_false (m : Mgr) (c : Nat) (cfg : Config) (hl : m.locked = false) (hc : m.calls c = .idle) :
    ∃ m', mexec m (.delete c cfg) = some m' ∧ m'.trace = m.trace ∧ (∀ m'', MSteps m' m'' → m'' = m') ∧
      ∀ a, mexec m' a = none := by
  refine ⟨{ (m.setCall c (.deleting cfg)) with locked := true }, ?_, rfl, ?_, ?_⟩
  · simp [mexec, hl, hc]
  · intro m'' h
    induction h with
    | refl => rfl
    | step _ he ih => subst ih; rw [stuck_exec rfl] at he; cases he
  · exact stuck_exec rfl

/-- The lock is free whenever no `Delete` was called. -/
def NoDelete (_ : Mgr) : MAct → Prop
  | .delete _ _ => False
  | _ => True

theorem acquire_fields (m : Mgr) (p : Nat) : (m.acquire p).locked = m.locked ∧ (m.acquire p).plugins = m.plugins ∧
    (m.acquire p).made = m.made ∧ (m.acquire p).trace = m.trace ∧ (m.acquire p).calls = m.calls ∧
    (m.acquire p).ensured = m.ensured := by
  unfold Mgr.acquire
  split <;> simp

theorem addUnder_locked (m : Mgr) (cfg : Config) (st : Step) (u : String) : (addUnder m cfg st u).locked = m.locked := by
  have := acquire_fields m m.made
  cases st <;> simp [addUnder, this]

theorem free_step {m m' : Mgr} {a : MAct} (h : m.locked = false) (hg : NoDelete m a) (he : mexec m a = some m') : m'.locked = false := by
  cases a with
  | get cfg =>
    simp only [mexec, h] at he
    split at he
    · simp at *
    · split at he <;> (injection he with he; subst he; first | exact h | rfl)
  | getOrCreate c cfg =>
    simp only [mexec, h] at he
    split at he
    · cases he
    · split at he <;> (injection he with he; subst he; first | exact h | rfl)
  | add c st u =>
    simp only [mexec, h] at he
    split at he
    · injection he with he; subst he
      rw [addUnder_locked]; exact h
    · cases he
  | addDirect cfg st u =>
    simp only [mexec, h] at he
    injection he with he; subst he
    rw [addUnder_locked]; exact h
  | delete c cfg => exact absurd hg (by simp [NoDelete])
  | deleteGet c =>
    simp only [mexec, h] at he
    split at he
    · injection he with he; subst he; exact h
    · cases he

theorem free {m : Mgr} {g : Mgr → MAct → Prop} (hg : ∀ m a, g m a → NoDelete m a) (h : MReach g m) : m.locked = false := by
  induction h with
  | init => rfl
  | step _ hga he ih => exact free_step ih (hg _ _ hga) he

/-! ### Same configuration, same plugin -/

theorem add_named {m : Mgr} {cfg : Config} {st : Step} {u : String} (hn : cfg.name ≠ "") :
    ((addUnder m cfg st u).plugins = m.plugins ∧ (addUnder m cfg st u).trace = .failed cfg :: m.trace) ∨
    ((addUnder m cfg st u).plugins = (cfg, m.made) :: m.plugins ∧ (addUnder m cfg st u).trace = .returned cfg m.made :: m.trace) := by
  have := acquire_fields m m.made
  cases st <;> simp [addUnder, this, hn]

theorem add_calls (m : Mgr) (cfg : Config) (st : Step) (u : String) : (addUnder m cfg st u).calls = m.calls ∧
    (addUnder m cfg st u).made = m.made + 1 := by
  have := acquire_fields m m.made
  cases st <;> simp [addUnder, this]

structure Same (m : Mgr) : Prop where
  named : ∀ c cfg, m.calls c = .toAdd cfg → cfg.name ≠ "" ∧ mlook cfg m.plugins = none
  uniq : ∀ c c' cfg, m.calls c = .toAdd cfg → m.calls c' = .toAdd cfg → c = c'
  ret : ∀ cfg p, .returned cfg p ∈ m.trace → mlook cfg m.plugins = some p

theorem mlook_cons (cfg cfg' : Config) (p : Nat) (l : List (Config × Nat)) :
    mlook cfg ((cfg', p) :: l) = if cfg' = cfg then some p else mlook cfg l := rfl

theorem same_add {m : Mgr} {cfg : Config} {st : Step} {u : String} (h : Same m) (hn : cfg.name ≠ "")
    (h0 : mlook cfg m.plugins = none) (h1 : ∀ c, m.calls c ≠ .toAdd cfg) : Same (addUnder m cfg st u) := by
  obtain ⟨a1, a2, a3⟩ := h
  obtain ⟨hc, _⟩ := add_calls m cfg st u
  rcases add_named (m := m) (st := st) (u := u) hn with ⟨hp, ht⟩ | ⟨hp, ht⟩
  · refine ⟨?_, ?_, ?_⟩
    · rw [hc, hp]; exact a1
    · rw [hc]; exact a2
    · rw [ht, hp]; intro cfg' p hm
      simp only [List.mem_cons, reduceCtorEq, false_or] at hm
      exact a3 cfg' p hm
  · refine ⟨?_, ?_, ?_⟩
    · rw [hc, hp]
      intro c cfg' hcc
      refine ⟨(a1 c cfg' hcc).1, ?_⟩
      rw [mlook_cons, if_neg (fun e : cfg = cfg' => h1 c (e ▸ hcc))]
      exact (a1 c cfg' hcc).2
    · rw [hc]; exact a2
    · rw [ht, hp]; intro cfg' p hm
      simp only [List.mem_cons, MEv.returned.injEq] at hm
      rw [mlook_cons]
      rcases hm with ⟨e1, e2⟩ | hm
      · subst e1 e2; simp
      · have := a3 cfg' p hm
        by_cases e : cfg = cfg'
        · subst e; rw [h0] at this; cases this
        · rw [if_neg e]; exact this

theorem same_step {m m' : Mgr} {a : MAct} (h : Same m) (hg : NoRace m a) (he : mexec m a = some m') : Same m' := by
  have hs := h
  obtain ⟨a1, a2, a3⟩ := h
  cases a with
  | get cfg =>
    simp only [mexec] at he
    split at he
    · cases he
    · split at he
      · rename_i p hp
        injection he with he; subst he
        refine ⟨a1, a2, ?_⟩
        intro cfg' q hm
        simp only [List.mem_cons, MEv.returned.injEq] at hm
        rcases hm with ⟨e1, e2⟩ | hm
        · subst e1 e2; exact hp
        · exact a3 cfg' q hm
      · injection he with he; subst he
        refine ⟨a1, a2, ?_⟩
        intro cfg' q hm
        simp only [List.mem_cons, reduceCtorEq, false_or] at hm
        exact a3 cfg' q hm
  | getOrCreate c cfg =>
    simp only [mexec] at he
    split at he
    · cases he
    · split at he
      · rename_i p hp
        injection he with he; subst he
        refine ⟨a1, a2, ?_⟩
        intro cfg' q hm
        simp only [List.mem_cons, MEv.returned.injEq] at hm
        rcases hm with ⟨e1, e2⟩ | hm
        · subst e1 e2; exact hp
        · exact a3 cfg' q hm
      · rename_i hp
        injection he with he; subst he
        refine ⟨?_, ?_, a3⟩
        · intro k cfg' hk
          simp only [Mgr.setCall] at hk ⊢
          split at hk
          · injection hk with hk; subst hk; exact ⟨hg.1, hp⟩
          · exact a1 k cfg' hk
        · intro k k' cfg' hk hk'
          simp only [Mgr.setCall] at hk hk'
          split at hk <;> split at hk'
          · omega
          · injection hk with hk; subst hk; exact absurd hk' (hg.2 k')
          · injection hk' with hk'; subst hk'; exact absurd hk (hg.2 k)
          · exact a2 k k' cfg' hk hk'
  | add c st u =>
    simp only [mexec] at he
    split at he
    · rename_i cfg hc
      split at he
      · cases he
      · injection he with he; subst he
        obtain ⟨hn, h0⟩ := a1 c cfg hc
        refine same_add (m := m.setCall c .idle) ⟨?_, ?_, a3⟩ hn h0 ?_
        · intro k cfg' hk
          simp only [Mgr.setCall] at hk ⊢
          split at hk
          · cases hk
          · exact a1 k cfg' hk
        · intro k k' cfg' hk hk'
          simp only [Mgr.setCall] at hk hk'
          split at hk
          · cases hk
          · split at hk'
            · cases hk'
            · exact a2 k k' cfg' hk hk'
        · intro k hk
          simp only [Mgr.setCall] at hk
          split at hk
          · cases hk
          · rename_i hne; exact hne (a2 k c cfg hk hc)
    · cases he
  | addDirect cfg st u =>
    simp only [mexec] at he
    split at he
    · cases he
    · injection he with he; subst he
      exact same_add hs hg.1 hg.2.1 hg.2.2
  | delete c cfg =>
    simp only [mexec] at he
    split at he
    · cases he
    · injection he with he; subst he
      refine ⟨?_, ?_, a3⟩
      · intro k cfg' hk
        simp only [Mgr.setCall] at hk ⊢
        split at hk
        · cases hk
        · exact a1 k cfg' hk
      · intro k k' cfg' hk hk'
        simp only [Mgr.setCall] at hk hk'
        split at hk
        · cases hk
        · split at hk'
          · cases hk'
          · exact a2 k k' cfg' hk hk'
  | deleteGet c =>
    simp only [mexec] at he
    split at he
    · split at he
      · cases he
      · injection he with he; subst he
        refine ⟨?_, ?_, ?_⟩
        · intro k cfg' hk
          simp only [Mgr.setCall] at hk ⊢
          split at hk
          · cases hk
          · exact a1 k cfg' hk
        · intro k k' cfg' hk hk'
          simp only [Mgr.setCall] at hk hk'
          split at hk
          · cases hk
          · split at hk'
            · cases hk'
            · exact a2 k k' cfg' hk hk'
        · intro cfg' q hm
          simp only [List.mem_cons, reduceCtorEq, false_or] at hm
          exact a3 cfg' q hm
    · cases he

theorem same {m : Mgr} (h : MReach NoRace m) : Same m := by
  induction h with
  | init => exact ⟨by simp, by simp, by simp⟩
  | step _ hg he ih => exact same_step ih hg he

/-- **C66** (partial) As long as no two calls create the same named configuration at the same time, all
calls for one configuration get the same plugin, and from then on `Get` finds it. -/
theorem C66_same_partial {m : Mgr} (h : MReach NoRace m) (cfg : Config) : SamePlugin m.trace cfg ∧
    ∀ p m', .returned cfg p ∈ m.trace → mexec m (.get cfg) = some m' → m'.trace = .returned cfg p :: m.trace := by
  have h := same h
  constructor
  · intro p q hp hq
    have h1 := h.ret cfg p hp
    rw [h.ret cfg q hq] at h1
    injection h1 with h1; exact h1.symm
  · intro p m' hp he
    have h1 := h.ret cfg p hp
    simp only [mexec] at he
    split at he
    · cases he
    · rw [h1] at he
      injection he with he; subst he; rfl

/-! ### Different configurations; the number of plugins and instances -/

def Matches (cfg k : Config) : Prop := k.rest = cfg.rest ∧ k.instances = cfg.instances ∧ (cfg.name = "" ∨ k = cfg)

structure Own (m : Mgr) : Prop where
  empty : ∀ e ∈ m.plugins, e.1.name ≠ ""
  fresh : ∀ e ∈ m.plugins, e.2 < m.made
  users : ∀ p ∈ m.users, p < m.made
  owner : ∀ cfg p, .returned cfg p ∈ m.trace → ∃ k, (k, p) ∈ m.plugins ∧ Matches cfg k
  entry : ∀ cfg cfg' p, (cfg, p) ∈ m.plugins → (cfg', p) ∈ m.plugins → cfg = cfg'
  anon : ∀ cfg p, cfg.name = "" → m.trace.count (.returned cfg p) ≤ 1
  count : ∀ cfg p, (cfg, p) ∈ m.plugins → m.ensured p = cfg.instances
  ref : m.refCount = m.users.length
  ulen : m.users.length ≤ m.made
  small : m.made < U32

theorem mlook_mem {cfg : Config} {p : Nat} : ∀ {l : List (Config × Nat)}, mlook cfg l = some p → (cfg, p) ∈ l
  | [], h => by simp [mlook] at h
  | (k, v) :: r, h => by
    simp only [mlook] at h
    split at h
    · rename_i e; injection h with h; subst e h; exact List.mem_cons_self
    · exact List.mem_cons_of_mem _ (mlook_mem h)

theorem acquire_new {m : Mgr} (h : Own m) (hs : m.made + 1 < U32) : (m.acquire m.made).users = m.made :: m.users ∧
    (m.acquire m.made).refCount = (m.made :: m.users).length := by
  have hn : m.made ∉ m.users := fun hm => by have := h.users _ hm; omega
  have := h.ulen
  simp only [Mgr.acquire, hn, if_false, List.length_cons, h.ref, inc, true_and]
  exact Nat.mod_eq_of_lt (by omega)

theorem own_add {m : Mgr} {cfg : Config} {st : Step} {u : String} (h : Own m) (hu : u ≠ "") (hs : m.made + 1 < U32) :
    Own (addUnder m cfg st u) := by
  obtain ⟨hU, hR⟩ := acquire_new h hs
  have hf := acquire_fields m m.made
  obtain ⟨a1, a2, a3, a4, a5, a6, a7, a8, a9, a10⟩ := h
  have failed : ∀ x : Mgr, x.plugins = m.plugins → x.made = m.made + 1 → x.trace = .failed cfg :: m.trace →
      x.ensured = m.ensured → (x.users = m.users ∧ x.refCount = m.refCount ∨
        x.users = m.made :: m.users ∧ x.refCount = (m.made :: m.users).length) → Own x := by
    intro x h1 h2 h3 h4 h5
    refine ⟨by rw [h1]; exact a1, by rw [h1, h2]; intro e he; have := a2 e he; omega, ?_, ?_, by rw [h1]; exact a5, ?_, by rw [h1, h4]; exact a7, ?_, ?_, by omega⟩
    · intro p hp
      rcases h5 with ⟨h5, _⟩ | ⟨h5, _⟩ <;> rw [h5] at hp
      · have := a3 p hp; omega
      · rcases List.mem_cons.mp hp with e | hp
        · omega
        · have := a3 p hp; omega
    · rw [h1, h3]; intro c p hm
      simp only [List.mem_cons, reduceCtorEq, false_or] at hm
      exact a4 c p hm
    · rw [h3]; intro c p hc
      rw [List.count_cons]
      have := a6 c p hc
      simpa using this
    · rcases h5 with ⟨h5, h6⟩ | ⟨h5, h6⟩ <;> rw [h5, h6]
      exact a8
    · rw [h2]
      rcases h5 with ⟨h5, h6⟩ | ⟨h5, h6⟩ <;> rw [h5]
      · omega
      · simp only [List.length_cons]; omega
  cases st with
  | vmErr => exact failed _ rfl rfl rfl rfl (Or.inl ⟨rfl, rfl⟩)
  | codeErr => exact failed _ hf.2.1 rfl rfl hf.2.2.2.2.2 (Or.inr ⟨hU, hR⟩)
  | moduleErr => exact failed _ hf.2.1 rfl rfl hf.2.2.2.2.2 (Or.inr ⟨hU, hR⟩)
  | configErr => exact failed _ hf.2.1 rfl rfl hf.2.2.2.2.2 (Or.inr ⟨hU, hR⟩)
  | ok =>
    simp only [addUnder]
    generalize hk : (if cfg.name = "" then { cfg with name := u } else cfg) = k
    have hkn : k.name ≠ "" := by
      rw [← hk]; split
      · exact hu
      · assumption
    have hkm : Matches cfg k := by
      rw [← hk]; unfold Matches; split
      · rename_i e; exact ⟨rfl, rfl, Or.inl e⟩
      · exact ⟨rfl, rfl, Or.inr rfl⟩
    have hki : k.instances = cfg.instances := hkm.2.1
    refine ⟨?_, ?_, ?_, ?_, ?_, ?_, ?_, ?_, ?_, hs⟩
    · intro e he
      rcases List.mem_cons.mp he with e1 | he
      · subst e1; exact hkn
      · exact a1 e he
    · intro e he
      rcases List.mem_cons.mp he with e1 | he
      · subst e1; exact Nat.lt_succ_self _
      · exact Nat.lt_succ_of_lt (a2 e he)
    · intro p hp
      have hp : p ∈ m.made :: m.users := hU ▸ hp
      rcases List.mem_cons.mp hp with e1 | hp
      · subst e1; exact Nat.lt_succ_self _
      · exact Nat.lt_succ_of_lt (a3 p hp)
    · intro c p hm
      simp only [List.mem_cons, MEv.returned.injEq] at hm
      rcases hm with ⟨e1, e2⟩ | hm
      · subst e1 e2; exact ⟨k, List.mem_cons_self, hkm⟩
      · obtain ⟨k', h1, h2⟩ := a4 c p hm
        exact ⟨k', List.mem_cons_of_mem _ h1, h2⟩
    · intro c c' p h1 h2
      simp only [List.mem_cons, Prod.mk.injEq] at h1 h2
      rcases h1 with ⟨e1, e2⟩ | h1 <;> rcases h2 with ⟨e3, e4⟩ | h2
      · rw [e1, e3]
      · subst e2; have := a2 _ h2; simp at this
      · subst e4; have := a2 _ h1; simp at this
      · exact a5 c c' p h1 h2
    · intro c p hc
      simp only [List.count_cons]
      split
      · rename_i e
        simp only [beq_iff_eq, MEv.returned.injEq] at e
        obtain ⟨e1, e2⟩ := e
        rw [List.count_eq_zero.mpr]
        · exact Nat.le_refl _
        · intro hm
          obtain ⟨k', h1, _⟩ := a4 c p hm
          have := a2 _ h1
          simp at this; omega
      · exact a6 c p hc
    · intro c p hm
      simp only [List.mem_cons, Prod.mk.injEq] at hm
      show (if p = m.made then cfg.instances else m.ensured p) = c.instances
      rcases hm with ⟨e1, e2⟩ | hm
      · rw [if_pos e2, e1, hki]
      · have := a2 _ hm
        rw [if_neg (by simp at this; omega)]; exact a7 c p hm
    · exact hR.trans (by rw [← hU])
    · show (m.acquire m.made).users.length ≤ m.made + 1
      rw [hU]; simp only [List.length_cons]; omega

theorem own_ret {m : Mgr} {cfg : Config} {p : Nat} (h : Own m) (hp : mlook cfg m.plugins = some p) :
    Own { m with trace := .returned cfg p :: m.trace } := by
  obtain ⟨a1, a2, a3, a4, a5, a6, a7, a8, a9, a10⟩ := h
  refine ⟨a1, a2, a3, ?_, a5, ?_, a7, a8, a9, a10⟩
  · intro c q hm
    simp only [List.mem_cons, MEv.returned.injEq] at hm
    rcases hm with ⟨e1, e2⟩ | hm
    · subst e1 e2; exact ⟨c, mlook_mem hp, rfl, rfl, Or.inr rfl⟩
    · exact a4 c q hm
  · intro c q hc
    rw [List.count_cons, if_neg]
    · exact a6 c q hc
    · intro e
      simp only [beq_iff_eq, MEv.returned.injEq] at e
      have := a1 _ (mlook_mem hp)
      exact this (e.1 ▸ hc)

theorem own_other {m : Mgr} {e : MEv} (h : Own m) (he : ∀ cfg p, e ≠ .returned cfg p) : Own { m with trace := e :: m.trace } := by
  obtain ⟨a1, a2, a3, a4, a5, a6, a7, a8, a9, a10⟩ := h
  refine ⟨a1, a2, a3, ?_, a5, ?_, a7, a8, a9, a10⟩
  · intro c q hm
    rcases List.mem_cons.mp hm with e1 | hm
    · exact absurd e1.symm (he c q)
    · exact a4 c q hm
  · intro c q hc
    rw [List.count_cons, if_neg]
    · exact a6 c q hc
    · intro e1; exact he c q (by simpa using e1)

theorem own_call {m : Mgr} {c : Nat} {x : Call} {b : Bool} (h : Own m) : Own { (m.setCall c x) with locked := b } := by
  obtain ⟨a1, a2, a3, a4, a5, a6, a7, a8, a9, a10⟩ := h
  exact ⟨a1, a2, a3, a4, a5, a6, a7, a8, a9, a10⟩

theorem own_step {m m' : Mgr} {a : MAct} (h : Own m) (hg : Named m a) (he : mexec m a = some m') : Own m' := by
  cases a with
  | get cfg =>
    simp only [mexec] at he
    split at he
    · cases he
    · split at he
      · rename_i p hp; injection he with he; subst he; exact own_ret h hp
      · injection he with he; subst he; exact own_other h (by simp)
  | getOrCreate c cfg =>
    simp only [mexec] at he
    split at he
    · cases he
    · split at he
      · rename_i p hp; injection he with he; subst he; exact own_ret h hp
      · injection he with he; subst he; exact own_call (b := m.locked) h
  | add c st u =>
    simp only [mexec] at he
    split at he
    · split at he
      · cases he
      · injection he with he; subst he
        exact own_add (own_call (b := m.locked) h) hg.1 hg.2
    · cases he
  | addDirect cfg st u =>
    simp only [mexec] at he
    split at he
    · cases he
    · injection he with he; subst he; exact own_add h hg.1 hg.2
  | delete c cfg =>
    simp only [mexec] at he
    split at he
    · cases he
    · injection he with he; subst he; exact own_call h
  | deleteGet c =>
    simp only [mexec] at he
    split at he
    · split at he
      · cases he
      · injection he with he; subst he; exact own_other (own_call (b := m.locked) h) (by simp)
    · cases he

theorem own {m : Mgr} (h : MReach Named m) : Own m := by
  induction h with
  | init => exact ⟨by simp, by simp, by simp, by simp, by simp, by simp, by simp, rfl, by simp, by decide +kernel⟩
  | step _ hg he ih => exact own_step ih hg he

/-- **C67** In every run and schedule (fewer than 2^32 plugins): different configurations never share a
plugin; a configuration without a name gets a new plugin for every call; a plugin asks for exactly
the number of instances its configuration says; and the VM's count of users is the number of
plugins that acquired it. -/
theorem C67_own {m : Mgr} (h : MReach Named m) :
    OwnPlugin m.trace ∧ (∀ cfg p, cfg.name = "" → m.trace.count (.returned cfg p) ≤ 1) ∧
    (∀ cfg p, .returned cfg p ∈ m.trace → m.ensured p = cfg.instances) ∧ m.refCount = m.users.length := by
  have h := own h
  refine ⟨?_, h.anon, ?_, h.ref⟩
  · intro c c' p h1 h2
    obtain ⟨k, e1, x1, x2, x3⟩ := h.owner c p h1
    obtain ⟨k', e2, y1, y2, y3⟩ := h.owner c' p h2
    have := h.entry k k' p e1 e2
    subst this
    refine ⟨x1.symm.trans y1, x2.symm.trans y2, ?_⟩
    rcases x3 with x3 | x3
    · exact Or.inr (Or.inl x3)
    · rcases y3 with y3 | y3
      · exact Or.inr (Or.inr y3)
      · exact Or.inl (by rw [← x3, ← y3])
  · intro c p h1
    obtain ⟨k, e1, x1, x2, x3⟩ := h.owner c p h1
    rw [h.count k p e1, x2]

/-! ### Refutations -/

/-- **C66 refuted** without the condition: two calls of `GetOrCreate` that both miss create two plugins
for the same configuration; the first caller's plugin is no longer in the manager, so nothing
ever closes it. -/
theorem C66_two_false : ∃ m cfg p q, MReach Named m ∧ cfg.name ≠ "" ∧ .returned cfg p ∈ m.trace ∧ .returned cfg q ∈ m.trace ∧ p ≠ q ∧
    mlook cfg m.plugins = some q ∧ p ∈ m.users :=
  ⟨_, ⟨"stats", 1, 0⟩, 0, 1,
    .step (a := .add 1 .ok "u") (.step (a := .add 0 .ok "u") (.step (a := .getOrCreate 1 ⟨"stats", 1, 0⟩)
      (.step (a := .getOrCreate 0 ⟨"stats", 1, 0⟩) .init trivial rfl) trivial rfl) ⟨by decide, by decide⟩ rfl) ⟨by decide, by decide⟩ rfl,
    by decide, by decide, by decide, by decide, by decide, by decide⟩

/-- **C66 refuted**: a creation that fails after the VM was acquired leaves the plugin, which nobody has,
registered as a user of the VM. -/
theorem C66_leak_false : ∃ m cfg, MReach Named m ∧ m.trace = [.failed cfg] ∧ m.users = [0] ∧ m.refCount = 1 :=
  ⟨_, ⟨"stats", 1, 0⟩, .step (a := .addDirect ⟨"stats", 1, 0⟩ .moduleErr "u") .init ⟨by decide, by decide⟩ rfl, rfl, rfl, by decide⟩

/-- **C66 refuted** as far as the default goes: for a configuration that leaves the number of instances
open, the plugin is created with no instance (the default is computed and then ignored), and
every `GetInstance` fails. -/
theorem C66_noInstances_false : ∃ m cfg p, MReach Named m ∧ cfg.instances = 0 ∧ .returned cfg p ∈ m.trace ∧
    ∀ (s s' : St) (ok : Nat → Bool), exec {} (.ensure 0 (m.ensured p)) = some s → exec s (.get ok) = some s' → s'.trace = [.refused] :=
  ⟨_, ⟨"stats", 0, 0⟩, 0,
    .step (a := .addDirect ⟨"stats", 0, 0⟩ .ok "u") .init ⟨by decide, by decide⟩ rfl, rfl, by decide, by
      intro s s' ok h1 h2
      have : exec {} (.ensure 0 0) = some s := h1
      simp only [exec, ensureRead, St.setPhase] at this
      simp at this
      subst this
      simp [exec, getLoop] at h2
      subst h2; rfl⟩

/-! ### Non-vacuity -/

/-- Two calls for one configuration and one for another, meeting both conditions. -/
example : ∃ m, MReach NoRace m ∧ MReach Named m ∧
    m.trace = [.returned ⟨"auth", 2, 0⟩ 1, .returned ⟨"stats", 1, 0⟩ 0, .returned ⟨"stats", 1, 0⟩ 0] :=
  ⟨_,
    .step (a := .addDirect ⟨"auth", 2, 0⟩ .ok "u") (.step (a := .getOrCreate 1 ⟨"stats", 1, 0⟩) (.step (a := .add 0 .ok "u")
      (.step (a := .getOrCreate 0 ⟨"stats", 1, 0⟩) .init ⟨by decide, by simp⟩ rfl) trivial rfl)
      ⟨by decide, by intro c; show (if c = 0 then Call.idle else if c = 0 then _ else Call.idle) ≠ _; split <;> simp⟩ rfl)
      ⟨by decide, by decide, by intro c; show (if c = 0 then Call.idle else if c = 0 then _ else Call.idle) ≠ _; split <;> simp⟩ rfl,
    .step (a := .addDirect ⟨"auth", 2, 0⟩ .ok "u") (.step (a := .getOrCreate 1 ⟨"stats", 1, 0⟩) (.step (a := .add 0 .ok "u")
      (.step (a := .getOrCreate 0 ⟨"stats", 1, 0⟩) .init trivial rfl) ⟨by decide, by decide⟩ rfl) trivial rfl) ⟨by decide, by decide⟩ rfl,
    rfl⟩

end Verif.Plugin
