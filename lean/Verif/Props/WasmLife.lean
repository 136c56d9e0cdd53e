/-
Property theorems C229, C230: the life of a filter's code.
-/
import Verif.Wasm.Life

namespace Verif.Props.Life
open Verif.Life

/-! ### Specification -/

/-- an instance has been started completely: booted, root context, VM, and the configuration of the plugin, in this order -/
def Started (size i : Nat) : List Ev :=
  [⟨i, none, .boot, true⟩, ⟨i, none, .root, true⟩, ⟨i, none, .vmStart, true⟩, ⟨i, none, .configure size, true⟩]

/-- what was called for a filter's context -/
def ofFilter (f : Nat) (tr : List Ev) : List (Kind × Bool) := (tr.filter fun e => e.ctx = some f).map fun e => (e.kind, e.ok)

/-- what was called for an instance as a whole -/
def ofInstance (i : Nat) (tr : List Ev) : List (Kind × Bool) := (tr.filter fun e => e.inst = i ∧ e.ctx = none).map fun e => (e.kind, e.ok)

/-- ending a context: done, log, delete, in this order, up to the first failure (or to a failure of the host after done) -/
inductive Ending : List (Kind × Bool) → Prop where
  | done : Ending [(.done, false)]
  | host : Ending [(.done, true)]
  | log : Ending [(.done, true), (.log, false)]
  | delete : Ending [(.done, true), (.log, true), (.delete, false)]
  | ok : Ending [(.done, true), (.log, true), (.delete, true)]

/-- the life of a filter's context: created once; if this succeeded callbacks follow, and then nothing or its end -/
inductive FilterLife : List (Kind × Bool) → Prop where
  | none : FilterLife []
  | failed : FilterLife [(.create, false)]
  | used (calls : List (Kind × Bool)) (h : ∀ c ∈ calls, c.1 = .call) : FilterLife ((.create, true) :: calls)
  | ended (calls e : List (Kind × Bool)) (h : ∀ c ∈ calls, c.1 = .call) (he : Ending e) : FilterLife ((.create, true) :: calls ++ e)

/-- the life of an instance: starting up to the first failure; if there was none, in use until its root context is ended and it stops -/
inductive InstanceLife (size : Nat) : List (Kind × Bool) → Prop where
  | none : InstanceLife size []
  | boot : InstanceLife size [(.boot, false)]
  | root : InstanceLife size [(.boot, true), (.root, false)]
  | vm : InstanceLife size [(.boot, true), (.root, true), (.vmStart, false)]
  | config : InstanceLife size [(.boot, true), (.root, true), (.vmStart, true), (.configure size, false)]
  | used : InstanceLife size [(.boot, true), (.root, true), (.vmStart, true), (.configure size, true)]
  | ended (e : List (Kind × Bool)) (he : Ending e) :
      InstanceLife size ([(.boot, true), (.root, true), (.vmStart, true), (.configure size, true)] ++ e ++ [(.halt, true)])

/-! ### Lemmas -/

def any : St → Act → Prop := fun _ _ => True

theorem ofFilter_append (f : Nat) (a b : List Ev) : ofFilter f (a ++ b) = ofFilter f a ++ ofFilter f b := by
  simp [ofFilter]

theorem ofInstance_append (i : Nat) (a b : List Ev) : ofInstance i (a ++ b) = ofInstance i a ++ ofInstance i b := by
  simp [ofInstance]

theorem ofFilter_start (f i size : Nat) (o : StartOut) : ofFilter f (startCalls i size o) = [] := by
  cases o <;> simp [ofFilter, startCalls]

theorem ofFilter_stopRoot (f i : Nat) (o : StopOut) : ofFilter f (stopCalls i none o) = [] := by
  cases o <;> simp [ofFilter, stopCalls]

theorem ofFilter_stop_ne {f g i : Nat} (h : g ≠ f) (o : StopOut) : ofFilter f (stopCalls i (some g) o) = [] := by
  cases o <;> simp [ofFilter, stopCalls, h]

theorem ofFilter_stop (f i : Nat) (o : StopOut) : Ending (ofFilter f (stopCalls i (some f) o)) := by
  cases o <;> simp [ofFilter, stopCalls] <;> constructor

theorem ofInstance_stop (i : Nat) (o : StopOut) : Ending (ofInstance i (stopCalls i none o)) := by
  cases o <;> simp [ofInstance, stopCalls] <;> constructor

theorem ofInstance_stop_ne {i j : Nat} (h : j ≠ i) (o : StopOut) : ofInstance i (stopCalls j none o) = [] := by
  cases o <;> simp [ofInstance, stopCalls, h]

theorem ofInstance_stopFilter (i j f : Nat) (o : StopOut) : ofInstance i (stopCalls j (some f) o) = [] := by
  cases o <;> simp [ofInstance, stopCalls]

theorem ofInstance_start_ne {i j : Nat} (h : j ≠ i) (size : Nat) (o : StartOut) : ofInstance i (startCalls j size o) = [] := by
  cases o <;> simp [ofInstance, startCalls, h]

theorem ofInstance_start (i size : Nat) (o : StartOut) : InstanceLife size (ofInstance i (startCalls i size o)) := by
  cases o <;> simp [ofInstance, startCalls] <;> constructor

theorem setFilter_self (s : St) (f : Nat) (x : Nat × Phase) : (s.setFilter f x).filters f = some x := by simp [St.setFilter]

theorem setFilter_ne (s : St) {f g : Nat} (x : Nat × Phase) (h : g ≠ f) : (s.setFilter f x).filters g = s.filters g := by
  simp [St.setFilter, h]

/-! ### Filters -/

def PhaseOk (l : List (Kind × Bool)) : Option (Nat × Phase) → Prop
  | none => l = []
  | some (_, .acquired) => l = []
  | some (_, .failed) => l = [(.create, false)]
  | some (_, .open_) => ∃ calls, l = (.create, true) :: calls ∧ ∀ c ∈ calls, c.1 = .call
  | some (_, .closed) => ∃ calls e, l = (.create, true) :: calls ++ e ∧ (∀ c ∈ calls, c.1 = .call) ∧ Ending e

theorem phases {size : Nat} {g : St → Act → Prop} {s : St} (h : Reach size g s) : ∀ f, PhaseOk (ofFilter f s.tr) (s.filters f) := by
  induction h with
  | init => intro f; simp [PhaseOk, ofFilter]
  | @step s s' a _ _ he ih =>
    intro f
    cases a with
    | add o =>
      simp only [exec, Option.some.injEq] at he
      subst he
      simp only [ofFilter_append, ofFilter_start, List.append_nil]
      exact ih f
    | drop i o =>
      simp only [exec] at he
      split at he <;> simp only [Option.some.injEq, reduceCtorEq] at he
      subst he
      have : ofFilter f [⟨i, none, .halt, true⟩] = [] := by simp [ofFilter]
      simp only [ofFilter_append, ofFilter_stopRoot, this, List.append_nil]
      exact ih f
    | acquire f' i =>
      simp only [exec] at he
      split at he <;> simp only [Option.some.injEq, reduceCtorEq] at he
      rename_i hc
      subst he
      by_cases hf : f = f'
      · subst hf
        have := ih f
        rw [hc.2] at this
        simp only [setFilter_self]
        exact this
      · simp only [setFilter_ne _ _ hf]
        exact ih f
    | create f' ok =>
      simp only [exec] at he
      split at he <;> simp only [Option.some.injEq, reduceCtorEq] at he
      rename_i i hf'
      subst he
      by_cases hf : f = f'
      · subst hf
        have := ih f
        rw [hf'] at this
        simp only [PhaseOk] at this
        simp only [setFilter_self, ofFilter_append, this, List.nil_append]
        cases ok
        · simp [PhaseOk, ofFilter]
        · simp [PhaseOk, ofFilter]
      · have : ofFilter f [⟨i, some f', .create, ok⟩] = [] := by simp [ofFilter, Ne.symm hf]
        simp only [setFilter_ne _ _ hf, ofFilter_append, this, List.append_nil]
        exact ih f
    | call f' ok =>
      simp only [exec] at he
      split at he <;> simp only [Option.some.injEq, reduceCtorEq] at he
      rename_i i hf'
      subst he
      by_cases hf : f = f'
      · subst hf
        have := ih f
        rw [hf'] at this
        obtain ⟨calls, h1, h2⟩ := this
        simp only [hf', ofFilter_append, h1]
        refine ⟨calls ++ [(.call, ok)], by simp [ofFilter], ?_⟩
        intro c hc
        rcases List.mem_append.1 hc with h | h
        · exact h2 c h
        · simp only [List.mem_singleton] at h; rw [h]
      · have : ofFilter f [⟨i, some f', .call, ok⟩] = [] := by simp [ofFilter, Ne.symm hf]
        simp only [ofFilter_append, this, List.append_nil]
        exact ih f
    | close f' o =>
      simp only [exec] at he
      split at he <;> simp only [Option.some.injEq, reduceCtorEq] at he
      rename_i i hf'
      subst he
      by_cases hf : f = f'
      · subst hf
        have := ih f
        rw [hf'] at this
        obtain ⟨calls, h1, h2⟩ := this
        simp only [setFilter_self, ofFilter_append, h1]
        exact ⟨calls, _, rfl, h2, ofFilter_stop f i o⟩
      · simp only [setFilter_ne _ _ hf, ofFilter_append, ofFilter_stop_ne (Ne.symm hf), List.append_nil]
        exact ih f

/-- **C229** Whatever happens, the calls for a filter's context come in the order the ABI prescribes: its creation, once; only if that
succeeded callbacks of its stream; and then at most once its end - done, log, delete, up to the first failure - after which nothing follows. -/
theorem C229_filter {size : Nat} {s : St} (h : Reach size any s) (f : Nat) : FilterLife (ofFilter f s.tr) := by
  have := phases h f
  revert this
  cases s.filters f with
  | none => intro h; simp only [PhaseOk] at h; rw [h]; exact .none
  | some x =>
    obtain ⟨i, p⟩ := x
    cases p with
    | acquired => intro h; simp only [PhaseOk] at h; rw [h]; exact .none
    | failed => intro h; simp only [PhaseOk] at h; rw [h]; exact .failed
    | open_ => rintro ⟨c, h, hc⟩; rw [h]; exact .used c hc
    | closed => rintro ⟨c, e, h, hc, he⟩; rw [h]; exact .ended c e hc he

/-! ### Instances -/

structure Inv (size : Nat) (s : St) : Prop where
  live : ∀ i ∈ s.insts, i < s.next ∧ ofInstance i s.tr = [(.boot, true), (.root, true), (.vmStart, true), (.configure size, true)]
  fresh : ∀ i, s.next ≤ i → ofInstance i s.tr = []
  shape : ∀ i, InstanceLife size (ofInstance i s.tr)
  conf : ∀ i, (Kind.configure size, true) ∈ ofInstance i s.tr → i ∈ s.insts ∨ (Kind.halt, true) ∈ ofInstance i s.tr
  sub : ∀ i ∈ s.insts, (Started size i).Sublist s.tr
  fsub : ∀ f i p, s.filters f = some (i, p) → (Started size i).Sublist s.tr
  nodup : s.insts.Nodup

theorem ofInstance_one_filter (i j f : Nat) (k : Kind) (ok : Bool) : ofInstance i [⟨j, some f, k, ok⟩] = [] := by simp [ofInstance]

theorem inv_append {size : Nat} {s s' : St} {l : List Ev} (hi : Inv size s) (h1 : s'.insts = s.insts) (h2 : s'.next = s.next)
    (h3 : s'.tr = s.tr ++ l) (h4 : ∀ i, ofInstance i l = [])
    (h5 : ∀ f i p, s'.filters f = some (i, p) → (∃ q, s.filters f = some (i, q)) ∨ i ∈ s.insts) : Inv size s' := by
  have hsub : ∀ {l' : List Ev}, l'.Sublist s.tr → l'.Sublist s'.tr := fun h => by
    rw [h3]; exact h.trans (List.sublist_append_left _ _)
  have ho : ∀ i, ofInstance i s'.tr = ofInstance i s.tr := fun i => by rw [h3, ofInstance_append, h4, List.append_nil]
  refine ⟨?_, ?_, ?_, ?_, ?_, ?_, ?_⟩
  · intro i h; rw [h1] at h; rw [ho, h2]; exact hi.live i h
  · intro i h; rw [h2] at h; rw [ho]; exact hi.fresh i h
  · intro i; rw [ho]; exact hi.shape i
  · intro i h; rw [ho] at h ⊢; rw [h1]; exact hi.conf i h
  · intro i h; rw [h1] at h; exact hsub (hi.sub i h)
  · intro f i p h
    rcases h5 f i p h with ⟨q, h⟩ | h
    · exact hsub (hi.fsub f i q h)
    · exact hsub (hi.sub i h)
  · rw [h1]; exact hi.nodup

theorem inv {size : Nat} {g : St → Act → Prop} {s : St} (h : Reach size g s) : Inv size s := by
  induction h with
  | init => exact ⟨by simp, by simp [ofInstance], fun _ => .none, by simp [ofInstance], by simp, by simp, by simp⟩
  | @step s s' a _ _ he ih =>
    cases a with
    | add o =>
      simp only [exec, Option.some.injEq] at he
      subst he
      have hlt : ∀ i ∈ s.insts, s.next ≠ i := fun i h => Nat.ne_of_gt (ih.live i h).1
      refine ⟨?_, ?_, ?_, ?_, ?_, ?_, ?_⟩
      · intro i h
        simp only at h
        by_cases ho : o = .ok
        · rw [if_pos ho] at h
          rcases List.mem_append.1 h with h | h
          · simp only [ofInstance_append, ofInstance_start_ne (hlt i h), List.append_nil]
            exact ⟨Nat.lt_succ_of_lt (ih.live i h).1, (ih.live i h).2⟩
          · simp only [List.mem_singleton] at h
            subst h
            subst ho
            simp only [ofInstance_append, ih.fresh _ (Nat.le_refl _), List.nil_append]
            exact ⟨Nat.lt_succ_self _, by simp [ofInstance, startCalls]⟩
        · rw [if_neg ho] at h
          simp only [ofInstance_append, ofInstance_start_ne (hlt i h), List.append_nil]
          exact ⟨Nat.lt_succ_of_lt (ih.live i h).1, (ih.live i h).2⟩
      · intro i h
        simp only at h
        simp only [ofInstance_append, ih.fresh i (Nat.le_of_succ_le h), List.nil_append]
        exact ofInstance_start_ne (Nat.ne_of_lt h) size o
      · intro i
        by_cases hi : s.next = i
        · subst hi
          simp only [ofInstance_append, ih.fresh _ (Nat.le_refl _), List.nil_append]
          exact ofInstance_start _ size o
        · simp only [ofInstance_append, ofInstance_start_ne hi, List.append_nil]
          exact ih.shape i
      · intro i h
        by_cases hi : s.next = i
        · subst hi
          simp only [ofInstance_append, ih.fresh _ (Nat.le_refl _), List.nil_append] at h ⊢
          cases o <;> simp [ofInstance, startCalls] at h ⊢
        · simp only [ofInstance_append, ofInstance_start_ne hi, List.append_nil] at h ⊢
          rcases ih.conf i h with h | h
          · left; split
            · exact List.mem_append_left _ h
            · exact h
          · right; exact h
      · intro i h
        simp only at h
        by_cases ho : o = .ok
        · rw [if_pos ho] at h
          rcases List.mem_append.1 h with h | h
          · exact (ih.sub i h).trans (List.sublist_append_left _ _)
          · simp only [List.mem_singleton] at h
            subst h; subst ho
            exact List.sublist_append_right _ _
        · rw [if_neg ho] at h
          exact (ih.sub i h).trans (List.sublist_append_left _ _)
      · intro f i p h
        exact (ih.fsub f i p h).trans (List.sublist_append_left _ _)
      · simp only
        split
        · rw [List.nodup_append]
          refine ⟨ih.nodup, by simp, ?_⟩
          intro a ha b hb
          simp only [List.mem_singleton] at hb
          subst hb
          exact Ne.symm (hlt a ha)
        · exact ih.nodup
    | drop i o =>
      simp only [exec] at he
      split at he <;> simp only [Option.some.injEq, reduceCtorEq] at he
      rename_i hmem
      subst he
      have hhalt : ∀ j, ofInstance j [⟨i, none, .halt, true⟩] = if i = j then [(.halt, true)] else [] := by
        intro j; by_cases h : i = j <;> simp [ofInstance, h]
      have hmem' : ∀ j, j ∈ s.insts.filter (· ≠ i) ↔ j ∈ s.insts ∧ j ≠ i := by intro j; simp
      refine ⟨?_, ?_, ?_, ?_, ?_, ?_, ?_⟩
      · intro j h
        simp only at h
        obtain ⟨h1, h2⟩ := (hmem' j).1 h
        simp only [ofInstance_append, ofInstance_stop_ne (Ne.symm h2), hhalt, if_neg (Ne.symm h2), List.append_nil]
        exact ih.live j h1
      · intro j h
        have hne : i ≠ j := fun e => Nat.lt_irrefl _ (Nat.lt_of_lt_of_le (e ▸ (ih.live i hmem).1) h)
        simp only [ofInstance_append, ofInstance_stop_ne hne, hhalt, if_neg hne, List.append_nil]
        exact ih.fresh j h
      · intro j
        by_cases hij : i = j
        · subst hij
          simp only [ofInstance_append, hhalt, if_true, (ih.live i hmem).2]
          exact .ended _ (ofInstance_stop i o)
        · simp only [ofInstance_append, ofInstance_stop_ne hij, hhalt, if_neg hij, List.append_nil]
          exact ih.shape j
      · intro j h
        by_cases hij : i = j
        · subst hij
          right
          simp [ofInstance_append, hhalt]
        · simp only [ofInstance_append, ofInstance_stop_ne hij, hhalt, if_neg hij, List.append_nil] at h ⊢
          rcases ih.conf j h with h | h
          · left; exact (hmem' j).2 ⟨h, Ne.symm hij⟩
          · right; exact h
      · intro j h
        exact ((ih.sub j ((hmem' j).1 h).1).trans (List.sublist_append_left _ _)).trans (List.sublist_append_left _ _)
      · intro f j p h
        exact ((ih.fsub f j p h).trans (List.sublist_append_left _ _)).trans (List.sublist_append_left _ _)
      · exact ih.nodup.filter _
    | acquire f' i =>
      simp only [exec] at he
      split at he <;> simp only [Option.some.injEq, reduceCtorEq] at he
      rename_i hc
      subst he
      refine inv_append (l := []) ih rfl rfl (by simp [St.setFilter]) (fun _ => rfl) ?_
      intro f j p h
      by_cases hf : f = f'
      · subst hf
        simp only [setFilter_self, Option.some.injEq, Prod.mk.injEq] at h
        right; rw [← h.1]; exact hc.1
      · simp only [setFilter_ne _ _ hf] at h
        exact .inl ⟨p, h⟩
    | create f' ok =>
      simp only [exec] at he
      split at he <;> simp only [Option.some.injEq, reduceCtorEq] at he
      rename_i i hf'
      subst he
      refine inv_append (l := [_]) ih rfl rfl rfl (fun _ => ofInstance_one_filter _ _ _ _ _) ?_
      intro f j p h
      by_cases hf : f = f'
      · subst hf
        simp only [setFilter_self, Option.some.injEq, Prod.mk.injEq] at h
        left; rw [← h.1]; exact ⟨_, hf'⟩
      · simp only [setFilter_ne _ _ hf] at h
        exact .inl ⟨p, h⟩
    | call f' ok =>
      simp only [exec] at he
      split at he <;> simp only [Option.some.injEq, reduceCtorEq] at he
      subst he
      exact inv_append (l := [_]) ih rfl rfl rfl (fun _ => ofInstance_one_filter _ _ _ _ _) fun f j p h => .inl ⟨p, h⟩
    | close f' o =>
      simp only [exec] at he
      split at he <;> simp only [Option.some.injEq, reduceCtorEq] at he
      rename_i i hf'
      subst he
      refine inv_append ih rfl rfl rfl (fun _ => ofInstance_stopFilter _ _ _ _) ?_
      intro f j p h
      by_cases hf : f = f'
      · subst hf
        simp only [setFilter_self, Option.some.injEq, Prod.mk.injEq] at h
        left; rw [← h.1]; exact ⟨_, hf'⟩
      · simp only [setFilter_ne _ _ hf] at h
        exact .inl ⟨p, h⟩

/-- **C229** Whatever happens, an instance is booted, its root context created, its VM started and configured with the plugin's
configuration, up to the first failure; if there was none, it is used until its root context is ended and it is stopped. -/
theorem C229_instance {size : Nat} {s : St} (h : Reach size any s) (i : Nat) : InstanceLife size (ofInstance i s.tr) := (inv h).shape i

/-- **C229** The instances filters are made from are exactly those completely started and not stopped. -/
theorem C229_running {size : Nat} {s : St} (h : Reach size any s) (i : Nat) :
    i ∈ s.insts ↔ (Kind.configure size, true) ∈ ofInstance i s.tr ∧ (Kind.halt, true) ∉ ofInstance i s.tr := by
  constructor
  · intro hi
    rw [((inv h).live i hi).2]
    simp
  · rintro ⟨h1, h2⟩
    exact ((inv h).conf i h1).resolve_right h2

/-- where an event of an appended list is -/
theorem split_append {α : Type} {t l a b : List α} {e : α} (h : t ++ l = a ++ e :: b) :
    (∃ b', t = a ++ e :: b' ∧ b = b' ++ l) ∨ ∃ a', a = t ++ a' ∧ l = a' ++ e :: b := by
  rcases List.append_eq_append_iff.1 h with ⟨as, h1, h2⟩ | ⟨bs, h1, h2⟩
  · exact .inr ⟨as, h1, h2⟩
  · cases bs with
    | nil => simp only [List.append_nil, List.nil_append] at h1 h2; exact .inr ⟨[], by simp [h1], h2.symm⟩
    | cons x bs => simp only [List.cons_append, List.cons.injEq] at h2; obtain ⟨rfl, rfl⟩ := h2; exact .inl ⟨bs, h1, rfl⟩

/-- events a step appends for filters are for the instance of a filter -/
theorem appended {size : Nat} {s s' : St} {a : Act} (he : exec size s a = some s') :
    ∃ l, s'.tr = s.tr ++ l ∧ ∀ e ∈ l, e.ctx ≠ none → ∃ f p, s.filters f = some (e.inst, p) ∧ (p = .acquired ∨ p = .open_) := by
  cases a with
  | add o =>
    simp only [exec, Option.some.injEq] at he
    subst he
    refine ⟨_, rfl, ?_⟩
    intro e h h'
    cases o <;> simp [startCalls] at h <;> (try rcases h with h | h | h | h) <;> (try rcases h with h | h | h) <;> (try rcases h with h | h) <;>
      simp_all
  | drop i o =>
    simp only [exec] at he
    split at he <;> simp only [Option.some.injEq, reduceCtorEq] at he
    subst he
    refine ⟨stopCalls i none o ++ [⟨i, none, .halt, true⟩], by simp, ?_⟩
    intro e h h'
    cases o <;> simp [stopCalls] at h <;> (try rcases h with h | h | h | h) <;> (try rcases h with h | h | h) <;> (try rcases h with h | h) <;>
      simp_all
  | acquire f i =>
    simp only [exec] at he
    split at he <;> simp only [Option.some.injEq, reduceCtorEq] at he
    subst he
    exact ⟨[], by simp [St.setFilter], by simp⟩
  | create f ok =>
    simp only [exec] at he
    split at he <;> simp only [Option.some.injEq, reduceCtorEq] at he
    rename_i i hf
    subst he
    refine ⟨_, rfl, ?_⟩
    intro e h _
    simp only [List.mem_singleton] at h
    subst h
    exact ⟨f, _, hf, .inl rfl⟩
  | call f ok =>
    simp only [exec] at he
    split at he <;> simp only [Option.some.injEq, reduceCtorEq] at he
    rename_i i hf
    subst he
    refine ⟨_, rfl, ?_⟩
    intro e h _
    simp only [List.mem_singleton] at h
    subst h
    exact ⟨f, _, hf, .inr rfl⟩
  | close f o =>
    simp only [exec] at he
    split at he <;> simp only [Option.some.injEq, reduceCtorEq] at he
    rename_i i hf
    subst he
    refine ⟨_, rfl, ?_⟩
    intro e h _
    have : e.inst = i := by
      cases o <;> simp [stopCalls] at h <;> (try rcases h with h | h | h) <;> (try rcases h with h | h) <;> simp_all
    exact ⟨f, _, this ▸ hf, .inr rfl⟩

/-- **C229** Before any call for a filter, the instance it is made in has been started completely, with the plugin's configuration. -/
theorem C229_started {size : Nat} {s : St} (h : Reach size any s) : ∀ a e b, s.tr = a ++ e :: b → e.ctx ≠ none →
    (Started size e.inst).Sublist a := by
  induction h with
  | init => intro a e b h; simp at h
  | @step s s' act hr _ he ih =>
    intro a e b htr hctx
    obtain ⟨l, hl, hev⟩ := appended he
    rw [hl] at htr
    rcases split_append htr with ⟨b', h1, _⟩ | ⟨a', h1, h2⟩
    · exact ih a e b' h1 hctx
    · obtain ⟨f, p, hf, _⟩ := hev e (h2 ▸ by simp) hctx
      rw [h1]
      exact ((inv hr).fsub f _ p hf).trans (List.sublist_append_left _ _)

/-! ### C230 -/

/-- an instance is only dropped while no filter uses it -/
def IdleOnly (s : St) : Act → Prop
  | .drop i _ => ∀ f p, s.filters f = some (i, p) → p = .closed ∨ p = .failed
  | _ => True

theorem halted {size : Nat} {s : St} (h : Reach size IdleOnly s) (i : Nat) (hh : (Kind.halt, true) ∈ ofInstance i s.tr) :
    ∀ f p, s.filters f = some (i, p) → p = .closed ∨ p = .failed := by
  induction h with
  | init => simp [ofInstance] at hh
  | @step s s' a hr hg he ih =>
    intro f p hf
    cases a with
    | add o =>
      simp only [exec, Option.some.injEq] at he
      subst he
      simp only [ofInstance_append, List.mem_append] at hh
      rcases hh with hh | hh
      · exact ih hh f p hf
      · simp only [ofInstance, List.mem_map, List.mem_filter] at hh
        obtain ⟨e, ⟨hm, _⟩, hk⟩ := hh
        have hk' : e.kind = .halt := (Prod.mk.inj hk).1
        have : ∀ x ∈ startCalls s.next size o, x.kind ≠ .halt := by
          intro x hx
          cases o <;> simp only [startCalls, List.mem_cons, List.not_mem_nil, or_false] at hx <;>
            (first | (rcases hx with rfl | rfl | rfl | rfl <;> simp) | (rcases hx with rfl | rfl | rfl <;> simp) | (rcases hx with rfl | rfl <;> simp) | (rcases hx with rfl; simp))
        exact absurd hk' (this e hm)
    | drop j o =>
      simp only [exec] at he
      split at he <;> simp only [Option.some.injEq, reduceCtorEq] at he
      subst he
      by_cases hij : j = i
      · subst hij
        exact hg f p hf
      · simp only [ofInstance_append, ofInstance_stop_ne hij, List.append_nil, List.mem_append] at hh
        rcases hh with hh | hh
        · exact ih hh f p hf
        · simp [ofInstance, hij] at hh
    | acquire f' j =>
      simp only [exec] at he
      split at he <;> simp only [Option.some.injEq, reduceCtorEq] at he
      rename_i hc
      subst he
      by_cases hff : f = f'
      · subst hff
        simp only [setFilter_self, Option.some.injEq, Prod.mk.injEq] at hf
        exfalso
        have := ((inv hr).live j hc.1).2
        rw [hf.1] at this
        simp only [St.setFilter] at hh
        rw [this] at hh
        simp at hh
      · simp only [setFilter_ne _ _ hff] at hf
        exact ih hh f p hf
    | create f' ok =>
      simp only [exec] at he
      split at he <;> simp only [Option.some.injEq, reduceCtorEq] at he
      rename_i j hf'
      subst he
      simp only [ofInstance_append, ofInstance_one_filter, List.append_nil] at hh
      by_cases hff : f = f'
      · subst hff
        simp only [setFilter_self, Option.some.injEq, Prod.mk.injEq] at hf
        have := ih hh f .acquired (hf.1 ▸ hf')
        simp at this
      · simp only [setFilter_ne _ _ hff] at hf
        exact ih hh f p hf
    | call f' ok =>
      simp only [exec] at he
      split at he <;> simp only [Option.some.injEq, reduceCtorEq] at he
      subst he
      simp only [ofInstance_append, ofInstance_one_filter, List.append_nil] at hh
      exact ih hh f p hf
    | close f' o =>
      simp only [exec] at he
      split at he <;> simp only [Option.some.injEq, reduceCtorEq] at he
      rename_i j hf'
      subst he
      simp only [ofInstance_append, ofInstance_stopFilter, List.append_nil] at hh
      by_cases hff : f = f'
      · subst hff
        simp only [setFilter_self, Option.some.injEq, Prod.mk.injEq] at hf
        exact .inl hf.2.symm
      · simp only [setFilter_ne _ _ hff] at hf
        exact ih hh f p hf

/-- every event a step appends is for the instance of an active filter, a running instance, or the next new one -/
theorem appended_inst {size : Nat} {s s' : St} {a : Act} (he : exec size s a = some s') (l : List Ev) (hl : s'.tr = s.tr ++ l) (e : Ev)
    (h : e ∈ l) (hc : e.ctx = none) : e.inst ∈ s.insts ∨ e.inst = s.next := by
  cases a with
  | add o =>
    simp only [exec, Option.some.injEq] at he
    subst he
    have := List.append_cancel_left hl
    subst this
    right
    cases o <;> simp [startCalls] at h <;> (try rcases h with h | h | h | h) <;> (try rcases h with h | h | h) <;> (try rcases h with h | h) <;>
      simp_all
  | drop i o =>
    simp only [exec] at he
    split at he <;> simp only [Option.some.injEq, reduceCtorEq] at he
    rename_i hm
    subst he
    simp only [List.append_assoc] at hl
    have := List.append_cancel_left hl
    subst this
    left
    have : e.inst = i := by
      cases o <;> simp [stopCalls] at h <;> (try rcases h with h | h | h | h) <;> (try rcases h with h | h | h) <;> (try rcases h with h | h) <;>
        simp_all
    rw [this]; exact hm
  | acquire f i =>
    simp only [exec] at he
    split at he <;> simp only [Option.some.injEq, reduceCtorEq] at he
    subst he
    have : l = [] := by simpa [St.setFilter] using hl
    subst this; simp at h
  | create f ok =>
    simp only [exec] at he
    split at he <;> simp only [Option.some.injEq, reduceCtorEq] at he
    subst he
    have := List.append_cancel_left hl
    subst this
    simp only [List.mem_singleton] at h
    subst h; simp at hc
  | call f ok =>
    simp only [exec] at he
    split at he <;> simp only [Option.some.injEq, reduceCtorEq] at he
    subst he
    have := List.append_cancel_left hl
    subst this
    simp only [List.mem_singleton] at h
    subst h; simp at hc
  | close f o =>
    simp only [exec] at he
    split at he <;> simp only [Option.some.injEq, reduceCtorEq] at he
    subst he
    have := List.append_cancel_left hl
    subst this
    cases o <;> simp [stopCalls] at h <;> (try rcases h with h | h | h) <;> (try rcases h with h | h) <;> simp_all

theorem guard_mono {size : Nat} {g g' : St → Act → Prop} (hg : ∀ s a, g s a → g' s a) {s : St} (h : Reach size g s) : Reach size g' s := by
  induction h with
  | init => exact .init
  | step _ h1 h2 ih => exact .step ih (hg _ _ h1) h2

/-- **C230** (partial: instances are dropped only while no filter uses them) After an instance has been stopped nothing is called in it. -/
theorem C230_after_stop_partial {size : Nat} {s : St} (h : Reach size IdleOnly s) :
    ∀ a i b, s.tr = a ++ ⟨i, none, .halt, true⟩ :: b → ∀ e ∈ b, e.inst ≠ i := by
  induction h with
  | init => intro a i b h; simp at h
  | @step s s' act hr hg he ih =>
    intro a i b htr e heb
    obtain ⟨l, hl, hev⟩ := appended he
    have htr' := htr
    rw [hl] at htr'
    rcases split_append htr' with ⟨b', h1, h2⟩ | ⟨a', h1, h2⟩
    · rw [h2] at heb
      rcases List.mem_append.1 heb with hb | hb
      · exact ih a i b' h1 e hb
      · have hin : (Kind.halt, true) ∈ ofInstance i s.tr := by
          rw [h1]; simp [ofInstance]
        intro hei
        by_cases hc : e.ctx = none
        · rcases appended_inst he l hl e hb hc with h | h
          · rw [hei] at h
            have := ((inv hr).live i h).2
            rw [this] at hin; simp at hin
          · rw [hei] at h
            have := (inv hr).fresh i (Nat.le_of_eq h.symm)
            rw [this] at hin; simp at hin
        · obtain ⟨f, p, hf, hp⟩ := hev e hb hc
          rw [hei] at hf
          rcases halted hr i hin f p hf with h | h <;> rcases hp with h' | h' <;> simp [h] at h'
    · -- the instance is stopped in this step: the stop is the last call
      cases act with
      | drop j o =>
        simp only [exec] at he
        split at he <;> simp only [Option.some.injEq, reduceCtorEq] at he
        subst he
        simp only [List.append_assoc] at hl
        have := List.append_cancel_left hl
        rw [← this] at h2
        have hb : b = [] := by
          cases o <;> simp [stopCalls] at h2 <;>
            (rcases a' with _ | ⟨x, _ | ⟨y, _ | ⟨z, _ | ⟨w, a'⟩⟩⟩⟩ <;> simp_all)
        rw [hb] at heb; simp at heb
      | add o =>
        simp only [exec, Option.some.injEq] at he
        subst he
        have := List.append_cancel_left hl
        rw [← this] at h2
        have hm : (⟨i, none, .halt, true⟩ : Ev) ∈ startCalls s.next size o := by rw [h2]; simp
        cases o <;> simp [startCalls] at hm
      | acquire f j =>
        simp only [exec] at he
        split at he <;> simp only [Option.some.injEq, reduceCtorEq] at he
        subst he
        have : l = [] := by simpa [St.setFilter] using hl
        subst this; simp at h2
      | create f ok =>
        simp only [exec] at he
        split at he <;> simp only [Option.some.injEq, reduceCtorEq] at he
        subst he
        have := List.append_cancel_left hl
        rw [← this] at h2
        rcases a' with _ | ⟨x, a'⟩ <;> simp at h2
      | call f ok =>
        simp only [exec] at he
        split at he <;> simp only [Option.some.injEq, reduceCtorEq] at he
        subst he
        have := List.append_cancel_left hl
        rw [← this] at h2
        rcases a' with _ | ⟨x, a'⟩ <;> simp at h2
      | close f o =>
        simp only [exec] at he
        split at he <;> simp only [Option.some.injEq, reduceCtorEq] at he
        subst he
        have := List.append_cancel_left hl
        rw [← this] at h2
        rename_i j _
        have hm : (⟨i, none, .halt, true⟩ : Ev) ∈ stopCalls j (some f) o := by rw [h2]; simp
        cases o <;> simp [stopCalls] at hm

/-- the context of every filter can be created -/
def Creates (_ : St) : Act → Prop
  | .create _ ok => ok = true
  | _ => True

/-- **C230** (partial: filter contexts can be created) An instance is held exactly for the filters being made or in use. -/
theorem C230_released_partial {size : Nat} {s : St} (h : Reach size Creates s) :
    ∀ f, f ∈ s.held ↔ ∃ i p, s.filters f = some (i, p) ∧ (p = .acquired ∨ p = .open_) := by
  induction h with
  | init => intro f; simp
  | @step s s' a _ hg he ih =>
    intro f
    cases a with
    | add o => simp only [exec, Option.some.injEq] at he; subst he; exact ih f
    | drop i o =>
      simp only [exec] at he
      split at he <;> simp only [Option.some.injEq, reduceCtorEq] at he
      subst he; exact ih f
    | acquire f' i =>
      simp only [exec] at he
      split at he <;> simp only [Option.some.injEq, reduceCtorEq] at he
      subst he
      by_cases hf : f = f'
      · subst hf
        simp only [setFilter_self, List.mem_cons, true_or, true_iff]
        exact ⟨i, .acquired, rfl, .inl rfl⟩
      · simp only [setFilter_ne _ _ hf, List.mem_cons, hf, false_or]
        exact ih f
    | create f' ok =>
      simp only [Creates] at hg
      subst hg
      simp only [exec] at he
      split at he <;> simp only [Option.some.injEq, reduceCtorEq] at he
      rename_i i hf'
      subst he
      by_cases hf : f = f'
      · subst hf
        simp only [setFilter_self]
        constructor
        · intro _; exact ⟨i, .open_, rfl, .inr rfl⟩
        · intro _; exact (ih f).2 ⟨i, _, hf', .inl rfl⟩
      · simp only [setFilter_ne _ _ hf]; exact ih f
    | call f' ok =>
      simp only [exec] at he
      split at he <;> simp only [Option.some.injEq, reduceCtorEq] at he
      subst he; exact ih f
    | close f' o =>
      simp only [exec] at he
      split at he <;> simp only [Option.some.injEq, reduceCtorEq] at he
      subst he
      by_cases hf : f = f'
      · subst hf
        simp only [setFilter_self, List.mem_filter]
        simp
      · simp only [setFilter_ne _ _ hf]
        rw [← ih f]
        simp [St.setFilter, hf]

theorem reach_run {size : Nat} : ∀ {l : List Act} {s s' : St}, Reach size any s → run size s l = some s' → Reach size any s'
  | [], s, s', h, hr => by injection hr with hr; exact hr ▸ h
  | a :: l, s, s', h, hr => by
    simp only [run] at hr
    cases he : exec size s a with
    | none => rw [he] at hr; cases hr
    | some t => rw [he] at hr; exact reach_run (.step h trivial he) hr

/-- **C230 is false of the code**: reducing the number of instances stops one that filters of open streams still use; their callbacks, and the
end of their contexts, are then called in the stopped instance. -/
theorem C230_after_stop_false : ∃ s, Reach 5 any s ∧
    s.tr.drop 5 = [⟨0, none, .done, true⟩, ⟨0, none, .log, true⟩, ⟨0, none, .delete, true⟩, ⟨0, none, .halt, true⟩, ⟨0, some 7, .call, true⟩] := by
  have h : (run 5 {} [.add .ok, .acquire 7 0, .create 7 true, .drop 0 .ok, .call 7 true]).map (fun s => s.tr.drop 5) = some
      [⟨0, none, .done, true⟩, ⟨0, none, .log, true⟩, ⟨0, none, .delete, true⟩, ⟨0, none, .halt, true⟩, ⟨0, some 7, .call, true⟩] := by
    decide +kernel
  obtain ⟨s, h1, h2⟩ := Option.map_eq_some_iff.1 h
  exact ⟨s, reach_run .init h1, h2⟩

/-- **C230 is false of the code**: an instance that runs but refuses its configuration is never stopped: it is not used, and no step stops it. -/
theorem C230_refused_false : ∃ s, Reach 5 any s ∧ ofInstance 0 s.tr = [(.boot, true), (.root, true), (.vmStart, true), (.configure 5, false)] ∧
    s.insts = [] ∧ ∀ s', Reach 5 any s' → (Kind.boot, true) ∈ ofInstance 0 s'.tr → (Kind.configure 5, false) ∈ ofInstance 0 s'.tr →
      (Kind.halt, true) ∉ ofInstance 0 s'.tr := by
  have h : (run 5 {} [.add .configErr]).map (fun s => (ofInstance 0 s.tr, s.insts)) = some
      ([(.boot, true), (.root, true), (.vmStart, true), (.configure 5, false)], []) := by decide +kernel
  obtain ⟨s, h1, h2⟩ := Option.map_eq_some_iff.1 h
  simp only [Prod.mk.injEq] at h2
  refine ⟨s, reach_run .init h1, h2.1, h2.2, ?_⟩
  intro s' hr _ hc hh
  have := C229_instance hr 0
  revert hc hh this
  generalize ofInstance 0 s'.tr = l
  intro hc hh this
  cases this with
  | ended e he => cases he <;> simp at hc
  | _ => simp_all

/-- **C230 is false of the code**: an instance acquired for a filter whose context cannot be created is not given back, then or later. -/
theorem C230_released_false : ∃ s, Reach 5 any s ∧ s.held = [7] ∧ s.filters 7 = some (0, .failed) ∧
    ∀ a s', exec 5 s a = some s' → 7 ∈ s'.held := by
  have h : (run 5 {} [.add .ok, .acquire 7 0, .create 7 false]).map (fun s => (s.held, s.filters 7)) = some ([7], some (0, .failed)) := by
    decide +kernel
  obtain ⟨s, h1, h2⟩ := Option.map_eq_some_iff.1 h
  simp only [Prod.mk.injEq] at h2
  refine ⟨s, reach_run .init h1, h2.1, h2.2, ?_⟩
  intro a s' he
  cases a with
  | add o => simp only [exec, Option.some.injEq] at he; subst he; simp [h2.1]
  | drop i o =>
    simp only [exec] at he
    split at he <;> simp only [Option.some.injEq, reduceCtorEq] at he
    subst he; simp [h2.1]
  | acquire f' i =>
    simp only [exec] at he
    split at he <;> simp only [Option.some.injEq, reduceCtorEq] at he
    subst he; simp [St.setFilter, h2.1]
  | create f' ok =>
    simp only [exec] at he
    split at he <;> simp only [Option.some.injEq, reduceCtorEq] at he
    subst he; simp [St.setFilter, h2.1]
  | call f' ok =>
    simp only [exec] at he
    split at he <;> simp only [Option.some.injEq, reduceCtorEq] at he
    subst he; simp [h2.1]
  | close f' o =>
    simp only [exec] at he
    split at he <;> simp only [Option.some.injEq, reduceCtorEq] at he
    rename_i i hf'
    subst he
    have : f' ≠ 7 := by intro e; rw [e, h2.2] at hf'; simp at hf'
    simp [St.setFilter, h2.1, Ne.symm this]

/-! ### Non-vacuity -/

/-- two instances, one of which cannot be started; two filters in the other; one ends with a failing log; the instance is stopped at the end -/
example : ∃ s, Reach 5 IdleOnly s ∧ s.insts = [] ∧ ofFilter 7 s.tr = [(.create, true), (.call, true), (.call, false), (.done, true), (.log, false)] ∧
    ofFilter 8 s.tr = [(.create, false)] ∧ (ofInstance 1 s.tr).length = 8 ∧ s.tr.length = 17 := by
  refine ⟨?s, ?r, ?_⟩
  case s => exact (run 5 {} [.add .vmErr, .add .ok, .acquire 7 1, .create 7 true, .call 7 true, .acquire 8 1, .call 7 false, .create 8 false,
    .close 7 .logErr, .drop 1 .ok]).get (by decide +kernel)
  case r =>
    have step : ∀ {s s'} (a : Act), Reach 5 IdleOnly s → IdleOnly s a → exec 5 s a = some s' → Reach 5 IdleOnly s' :=
      fun a h1 h2 h3 => .step h1 h2 h3
    refine step (.drop 1 .ok) (step (.close 7 .logErr) (step (.create 8 false) (step (.call 7 false) (step (.acquire 8 1) (step (.call 7 true)
      (step (.create 7 true) (step (.acquire 7 1) (step (.add .ok) (step (.add .vmErr) .init trivial rfl) trivial rfl) trivial rfl) trivial rfl)
      trivial rfl) trivial rfl) trivial rfl) trivial rfl) trivial rfl) ?_ rfl
    intro f p hf
    by_cases h7 : f = 7
    · subst h7; simp [St.setFilter] at hf; simp [← hf]
    · by_cases h8 : f = 8
      · subst h8; simp [St.setFilter] at hf; simp [← hf]
      · simp [St.setFilter, h7, h8] at hf
  decide +kernel

end Verif.Props.Life
