import Verif.Wasm.Metrics
/-
C43: metric ids identify metrics.  Statements are about the trace of calls and what they
returned or recorded (newest first).
-/
namespace Verif.Wasm.Metrics

/-- The trace of a history (newest call first). -/
abbrev Trace := List (Op × Out)

/-- `i` was returned by a definition of the metric `name` with `labels`. -/
def Defined (tr : Trace) (name : String) (labels : Labels) (i : Int) : Prop :=
  0 < i ∧ ∃ k, (Op.define (some k) name labels, Out.id i) ∈ tr

/-- A definition of `name` of kind `k` with the label keys `ks` occurs in the trace. -/
def Shape (tr : Trace) (name : String) (k : Kind) (ks : List String) : Prop :=
  ∃ l o, (Op.define (some k) name l, o) ∈ tr ∧ keys l = ks

theorem Defined.mono {tr n l i} (x) (h : Defined tr n l i) : Defined (x :: tr) n l i := by
  obtain ⟨h0, k, h1⟩ := h
  exact ⟨h0, k, List.mem_cons_of_mem _ h1⟩

theorem Shape.mono {tr n l i} (x) (h : Shape tr n l i) : Shape (x :: tr) n l i := by
  obtain ⟨h0, k, h1, h2⟩ := h
  exact ⟨h0, k, List.mem_cons_of_mem _ h1, h2⟩

structure Inv (tr : Trace) (st : St) : Prop where
  lat0 : 0 ≤ st.latest
  latn : st.latest ≤ tr.length
  ent : ∀ i e, st.byID i = some e → e.id = i ∧ 0 < i ∧ i ≤ st.latest ∧
    Defined tr e.name e.labels i ∧ e.vec.name = e.name ∧ Shape tr e.name e.vec.kind e.vec.keys
  nam : ∀ n e, st.byName n = some e → e.name = n ∧ st.byID e.id = some e
  dfn : ∀ n l i, Defined tr n l i → i ≤ st.latest ∧
    (∀ e, st.byID i = some e → e.name = n ∧ e.labels = l) ∧
    (st.byID i = none → ∃ o, (Op.remove i, o) ∈ tr)
  uniq : ∀ n l n' l' i, Defined tr n l i → Defined tr n' l' i → n = n' ∧ l = l'

theorem inv_addMetric {tr : Trace} {st : St} {name : String} {vec : MVec} {labels : Labels} {k : Kind}
    (h : Inv tr st) (hlen : tr.length < 2147483647) (hv : vec.name = name)
    (hs : Shape ((Op.define (some k) name labels, Out.id (incr st.latest)) :: tr) name vec.kind vec.keys) :
    Inv ((Op.define (some k) name labels, Out.id (incr st.latest)) :: tr)
      (addMetric st name vec labels).1 := by
  have h1 := h.lat0
  have h2 := h.latn
  have hi : incr st.latest = st.latest + 1 := by
    unfold incr; rw [if_neg]; omega
  have hsplit : ∀ n l i, Defined ((Op.define (some k) name labels, Out.id (incr st.latest)) :: tr) n l i →
      (n = name ∧ l = labels ∧ i = st.latest + 1) ∨ Defined tr n l i := by
    rintro n l i ⟨h0, k', hm⟩
    rcases List.mem_cons.mp hm with hm | hm
    · left; simp only [Prod.mk.injEq, Op.define.injEq, Out.id.injEq] at hm
      exact ⟨hm.1.2.1, hm.1.2.2, hm.2.trans hi⟩
    · exact Or.inr ⟨h0, k', hm⟩
  have hnew : Defined ((Op.define (some k) name labels, Out.id (incr st.latest)) :: tr) name labels
      (st.latest + 1) := ⟨by omega, k, by rw [hi]; exact List.mem_cons_self⟩
  refine ⟨?_, ?_, ?_, ?_, ?_, ?_⟩
  · simp only [addMetric, hi]; omega
  · simp only [addMetric, hi, List.length_cons]; omega
  · intro i e he
    simp only [addMetric, hi, set] at he ⊢
    split at he
    · rename_i hii
      injection he with he
      subst he
      subst hii
      exact ⟨rfl, by omega, by omega, hi ▸ hnew, hv, hi ▸ hs⟩
    · obtain ⟨a, b, c, d, e1, f⟩ := h.ent i e he
      exact ⟨a, b, by omega, hi ▸ d.mono _, e1, hi ▸ f.mono _⟩
  · intro n e he
    simp only [addMetric, hi, set] at he ⊢
    split at he
    · rename_i hii
      injection he with he
      subst he
      simp [hii]
    · obtain ⟨a, b⟩ := h.nam n e he
      obtain ⟨_, _, c, _⟩ := h.ent _ _ b
      refine ⟨a, ?_⟩
      rw [if_neg (by omega)]
      exact b
  · intro n l i hd
    simp only [addMetric, hi, set]
    rcases hsplit n l i hd with ⟨rfl, rfl, rfl⟩ | hd
    · refine ⟨by omega, ?_, by simp⟩
      intro e he
      simp only [if_true] at he
      injection he with he
      subst he
      exact ⟨rfl, rfl⟩
    · obtain ⟨a, b, c⟩ := h.dfn n l i hd
      refine ⟨by omega, ?_, ?_⟩
      · intro e he
        rw [if_neg (by omega)] at he
        exact b e he
      · intro he
        rw [if_neg (by omega)] at he
        obtain ⟨o, ho⟩ := c he
        exact ⟨o, List.mem_cons_of_mem _ ho⟩
  · intro n l n' l' i hd hd'
    rcases hsplit n l i hd with ⟨rfl, rfl, rfl⟩ | hd
    · rcases hsplit n' l' _ hd' with ⟨rfl, rfl, _⟩ | hd'
      · exact ⟨rfl, rfl⟩
      · have := (h.dfn _ _ _ hd').1; omega
    · rcases hsplit n' l' i hd' with ⟨_, _, hii⟩ | hd'
      · have := (h.dfn _ _ _ hd).1; omega
      · exact h.uniq _ _ _ _ _ hd hd'

/-- Adding an event that defines nothing new. -/
theorem inv_same {tr : Trace} {st : St} {op : Op} {out : Out} (h : Inv tr st)
    (hd : ∀ n l i, Defined ((op, out) :: tr) n l i → Defined tr n l i) : Inv ((op, out) :: tr) st := by
  refine ⟨h.lat0, ?_, ?_, h.nam, ?_, ?_⟩
  · have := h.latn; simp only [List.length_cons]; omega
  · intro i e he
    obtain ⟨a, b, c, d, e1, f⟩ := h.ent i e he
    exact ⟨a, b, c, d.mono _, e1, f.mono _⟩
  · intro n l i hx
    obtain ⟨a, b, c⟩ := h.dfn n l i (hd _ _ _ hx)
    refine ⟨a, b, fun hn => ?_⟩
    obtain ⟨o, ho⟩ := c hn
    exact ⟨o, List.mem_cons_of_mem _ ho⟩
  · intro n l n' l' i h1 h2
    exact h.uniq _ _ _ _ _ (hd _ _ _ h1) (hd _ _ _ h2)

theorem inv_step {valid} {tr : Trace} {st : St} (h : Inv tr st) (hlen : tr.length < 2147483647)
    (op : Op) : Inv ((op, (step valid st op).2) :: tr) (step valid st op).1 := by
  cases op with
  | define k name labels =>
    cases k with
    | none =>
      apply inv_same h
      rintro n l i ⟨h0, k, hm⟩
      rcases List.mem_cons.mp hm with hm | hm
      · simp at hm
      · exact ⟨h0, k, hm⟩
    | some k =>
      simp only [step, add]
      cases hn : st.byName name with
      | none =>
        simp only
        split
        · apply inv_same h
          rintro n l i ⟨h0, k, hm⟩
          rcases List.mem_cons.mp hm with hm | hm
          · simp only [Prod.mk.injEq, Out.id.injEq] at hm; omega
          · exact ⟨h0, k, hm⟩
        · have h' : Inv tr { st with reg := set st.reg name true } := ⟨h.lat0, h.latn, h.ent, h.nam, h.dfn, h.uniq⟩
          have := inv_addMetric (k := k) (labels := labels) (vec := ⟨k, name, keys labels⟩) h' hlen rfl
            ⟨labels, _, List.mem_cons_self, rfl⟩
          exact this
      | some e =>
        simp only
        obtain ⟨a, b⟩ := h.nam _ _ hn
        obtain ⟨e0, e1, e2, e3, e4, e5⟩ := h.ent _ _ b
        split
        · rename_i hl
          apply inv_same h
          rintro n l i ⟨h0, k', hm⟩
          rcases List.mem_cons.mp hm with hm | hm
          · simp only [Prod.mk.injEq, Op.define.injEq, Out.id.injEq] at hm
            rw [hm.1.2.1, hm.1.2.2, hm.2, ← a, ← hl]
            exact e3
          · exact ⟨h0, k', hm⟩
        · subst a
          have := inv_addMetric (k := k) (labels := labels) (vec := e.vec) h hlen e4 (e5.mono _)
          exact this
  | remove id =>
    have hd : ∀ o n l i, Defined ((Op.remove id, o) :: tr) n l i → Defined tr n l i := by
      rintro o n l i ⟨h0, k, hm⟩
      rcases List.mem_cons.mp hm with hm | hm
      · simp at hm
      · exact ⟨h0, k, hm⟩
    simp only [step]
    cases hb : st.byID id with
    | none => exact inv_same h (hd _)
    | some e =>
      simp only
      refine ⟨h.lat0, ?_, ?_, ?_, ?_, ?_⟩
      · have := h.latn; simp only [List.length_cons]; omega
      · intro i e' he
        simp only [set] at he
        split at he
        · cases he
        · obtain ⟨a, b, c, d, e1, f⟩ := h.ent i e' he
          exact ⟨a, b, c, d.mono _, e1, f.mono _⟩
      · intro n e' he
        simp only [set] at he ⊢
        split at he
        · cases he
        · rename_i hne
          obtain ⟨a, b⟩ := h.nam n e' he
          refine ⟨a, ?_⟩
          rw [if_neg]
          · exact b
          · intro hc
            rw [hc, hb] at b
            injection b with b
            subst b
            exact hne a.symm
      · intro n l i hx
        obtain ⟨a, b, c⟩ := h.dfn n l i (hd _ _ _ _ hx)
        refine ⟨a, ?_, ?_⟩
        · intro e' he
          simp only [set] at he
          split at he
          · cases he
          · exact b e' he
        · intro hz
          by_cases hii : i = id
          · subst hii; exact ⟨_, List.mem_cons_self⟩
          · simp only [set, if_neg hii] at hz
            obtain ⟨o, ho⟩ := c hz
            exact ⟨o, List.mem_cons_of_mem _ ho⟩
      · intro n l n' l' i h1 h2
        exact h.uniq _ _ _ _ _ (hd _ _ _ _ h1) (hd _ _ _ _ h2)
  | record id v =>
    have hd : ∀ o n l i, Defined ((Op.record id v, o) :: tr) n l i → Defined tr n l i := by
      rintro o n l i ⟨h0, k, hm⟩
      rcases List.mem_cons.mp hm with hm | hm
      · simp at hm
      · exact ⟨h0, k, hm⟩
    simp only [step]
    cases hb : st.byID id with
    | none => exact inv_same h (hd _)
    | some e =>
      simp only
      split
      · exact inv_same h (hd _)
      · split <;> exact inv_same h (hd _)

theorem inv_init (reg) : Inv [] (St.init reg) := by
  refine ⟨Int.le_refl _, Int.le_refl _, ?_, ?_, ?_, ?_⟩
  · intro i e he; cases he
  · intro i e he; cases he
  · rintro n l i ⟨_, _, h⟩; cases h
  · rintro n l _ _ i ⟨_, _, h⟩; cases h

theorem run_length (valid reg) : ∀ ops, (run valid reg ops).2.length = ops.length
  | [] => rfl
  | op :: ops => by simp only [run, List.length_cons, run_length valid reg ops]

theorem inv_run (valid reg) : ∀ ops : List Op, ops.length ≤ 2147483647 →
    Inv (run valid reg ops).2 (run valid reg ops).1
  | [], _ => inv_init reg
  | op :: ops, hl => by
    simp only [List.length_cons] at hl
    have ih := inv_run valid reg ops (by omega)
    have := run_length valid reg ops
    exact inv_step ih (by omega) op

/-- **C43** Ids are unique and never reused: in every history of fewer than 2^31 calls, whatever
was removed in between, two definitions that returned the same id defined the same name and
labels.  (The counter is an `int32` and wraps later.) -/
theorem C43_ids_unique (valid reg) (ops : List Op) (hl : ops.length ≤ 2147483647)
    {n l n' l' i} (h : Defined (run valid reg ops).2 n l i) (h' : Defined (run valid reg ops).2 n' l' i) :
    n = n' ∧ l = l' :=
  (inv_run valid reg ops hl).uniq _ _ _ _ _ h h'

/-- All definitions of `n` seen so far have the same kind and the same label keys. -/
def Consistent (tr : Trace) (n : String) (k : Kind) (ks : List String) : Prop :=
  ∀ k' l o, (Op.define (some k') n l, o) ∈ tr → k' = k ∧ keys l = ks

/-- **C196** Recording through an id reaches the metric it was defined for: the sample carries
the name, kind and labels of the definition.  (Partial: the filters use one kind and one set of
label keys per name, see the counterexamples below.) -/
theorem C196_record_reaches_partial (valid reg) (ops : List Op) (hl : ops.length ≤ 2147483647)
    {k n l i v} (hpos : 0 < i)
    (hdef : (Op.define (some k) n l, Out.id i) ∈ (run valid reg ops).2)
    (hrem : ∀ o, (Op.remove i, o) ∉ (run valid reg ops).2)
    (hcons : Consistent (run valid reg ops).2 n k (keys l))
    (hv : k = .counter → 0 ≤ v) :
    (run valid reg (.record i v :: ops)).2.head? = some (.record i v, .sample k n l v) := by
  have inv := inv_run valid reg ops hl
  obtain ⟨_, d1, d2⟩ := inv.dfn n l i ⟨hpos, k, hdef⟩
  simp only [run, List.head?_cons, step]
  cases hb : (run valid reg ops).1.byID i with
  | none =>
    obtain ⟨o, ho⟩ := d2 hb
    exact absurd ho (hrem o)
  | some e =>
    obtain ⟨rfl, rfl⟩ := d1 e hb
    obtain ⟨_, _, _, _, e4, ⟨l', o', hm, hk⟩⟩ := inv.ent _ _ hb
    obtain ⟨c1, c2⟩ := hcons _ _ _ hm
    simp only
    rw [if_neg (by rw [← hk, c2]; simp), if_neg]
    · rw [c1, e4]
    · rintro ⟨h1, h2⟩
      have := hv (c1.symm.trans h1)
      omega

/-- **C43** Without any assumption on kinds and keys: recording through an id that was not
removed never reaches a metric with another name or other label values, and is never reported as
an unknown metric. -/
theorem C43_record_never_elsewhere (valid reg) (ops : List Op) (hl : ops.length ≤ 2147483647)
    {k n l i v} (hpos : 0 < i)
    (hdef : (Op.define (some k) n l, Out.id i) ∈ (run valid reg ops).2)
    (hrem : ∀ o, (Op.remove i, o) ∉ (run valid reg ops).2) :
    (run valid reg (.record i v :: ops)).2.head? = some (.record i v, .panic) ∨
    ∃ k', (run valid reg (.record i v :: ops)).2.head? = some (.record i v, .sample k' n l v) := by
  have inv := inv_run valid reg ops hl
  obtain ⟨_, d1, d2⟩ := inv.dfn n l i ⟨hpos, k, hdef⟩
  simp only [run, List.head?_cons, step]
  cases hb : (run valid reg ops).1.byID i with
  | none =>
    obtain ⟨o, ho⟩ := d2 hb
    exact absurd ho (hrem o)
  | some e =>
    obtain ⟨rfl, rfl⟩ := d1 e hb
    obtain ⟨_, _, _, _, e4, _⟩ := inv.ent _ _ hb
    simp only
    split
    · exact Or.inl rfl
    · split
      · exact Or.inl rfl
      · exact Or.inr ⟨e.vec.kind, by rw [e4]⟩

/-- Every sample ever recorded through an id belongs to a definition that returned this id. -/
theorem C43_samples_are_defined (valid reg) (ops : List Op) (hl : ops.length ≤ 2147483647)
    {i v k n l} (h : (Op.record i v, Out.sample k n l v) ∈ (run valid reg ops).2) :
    Defined (run valid reg ops).2 n l i := by
  induction ops with
  | nil => cases h
  | cons op ops ih =>
    simp only [List.length_cons] at hl
    simp only [run] at h ⊢
    rcases List.mem_cons.mp h with h | h
    · simp only [Prod.mk.injEq] at h
      obtain ⟨rfl, h⟩ := h
      simp only [step] at h
      have inv := inv_run valid reg ops (by omega)
      cases hb : (run valid reg ops).1.byID i with
      | none => rw [hb] at h; cases h
      | some e =>
        rw [hb] at h
        simp only at h
        split at h
        · cases h
        · split at h
          · cases h
          · simp only [Out.sample.injEq] at h
            obtain ⟨_, rfl, rfl, _⟩ := h
            obtain ⟨_, _, _, e3, e4, _⟩ := inv.ent _ _ hb
            rw [e4]
            exact e3.mono _
    · exact (ih (by omega) h).mono _

/-! ### Removed ids stay removed -/

theorem gone_stays (valid reg) (ops : List Op) (more : List Op)
    (hl : (more ++ ops).length ≤ 2147483647) {i : Int} (hpos : 0 < i)
    (hi : i ≤ (run valid reg ops).1.latest) (hn : (run valid reg ops).1.byID i = none) :
    i ≤ (run valid reg (more ++ ops)).1.latest ∧ (run valid reg (more ++ ops)).1.byID i = none := by
  induction more with
  | nil => exact ⟨hi, hn⟩
  | cons op more ih =>
    simp only [List.cons_append, List.length_cons] at hl
    obtain ⟨a, b⟩ := ih (by omega)
    have inv := inv_run valid reg (more ++ ops) (by omega)
    have hlen := run_length valid reg (more ++ ops)
    have h1 := inv.latn
    have h2 := inv.lat0
    have hinc : incr (run valid reg (more ++ ops)).1.latest = (run valid reg (more ++ ops)).1.latest + 1 := by
      unfold incr; rw [if_neg]; omega
    simp only [List.cons_append, run]
    cases op with
    | define k name labels =>
      cases k with
      | none => exact ⟨a, b⟩
      | some k =>
        simp only [step, add]
        split
        · split
          · exact ⟨a, b⟩
          · simp only [addMetric, hinc, set]
            refine ⟨by omega, ?_⟩
            rw [if_neg (by omega)]; exact b
        · split
          · exact ⟨a, b⟩
          · simp only [addMetric, hinc, set]
            refine ⟨by omega, ?_⟩
            rw [if_neg (by omega)]; exact b
    | remove id =>
      simp only [step]
      split
      · exact ⟨a, b⟩
      · simp only [set]
        refine ⟨a, ?_⟩
        split
        · rfl
        · exact b
    | record id v =>
      simp only [step]
      split
      · exact ⟨a, b⟩
      · split
        · exact ⟨a, b⟩
        · split <;> exact ⟨a, b⟩

/-- **C43** After an id has been removed, recording through it fails, and it does so for ever:
no later definition revives the id. -/
theorem C43_removed (valid reg) (ops more : List Op) {n l i v}
    (hl : (more ++ .remove i :: ops).length ≤ 2147483647)
    (hdef : Defined (run valid reg ops).2 n l i) :
    (run valid reg (.record i v :: (more ++ .remove i :: ops))).2.head? =
      some (.record i v, .invalid) := by
  have hl2 := hl
  simp only [List.length_append, List.length_cons] at hl2
  have inv := inv_run valid reg ops (by omega)
  obtain ⟨d0, d1, d2⟩ := inv.dfn _ _ _ hdef
  have hg : i ≤ (run valid reg (.remove i :: ops)).1.latest ∧
      (run valid reg (.remove i :: ops)).1.byID i = none := by
    simp only [run, step]
    split
    · rename_i h; exact ⟨d0, h⟩
    · exact ⟨d0, by simp [set]⟩
  have := gone_stays valid reg (.remove i :: ops) more hl hdef.1 hg.1 hg.2
  simp only [run, List.head?_cons, step]
  rw [this.2]

/-! ### Defining again -/

/-- The operation neither defines `n` with other labels nor removes an id of `n`. -/
def Quiet (tr : Trace) (n : String) (l : Labels) : Op → Prop
  | .define _ n' l' => n' = n → l' = l
  | .remove i => ∀ l', ¬ Defined tr n l' i
  | .record _ _ => True

/-- A history in which every operation is quiet with respect to what happened before it. -/
def QuietHist (valid : MVec → Bool) (reg : String → Bool) (ops : List Op) (n : String) (l : Labels) : List Op → Prop
  | [] => True
  | op :: more => Quiet (run valid reg (more ++ ops)).2 n l op ∧ QuietHist valid reg ops n l more

/-- **C196** Defining the same metric again returns the same id.  (Partial: as long as the same
name is not defined with other labels in between and no id of this name is removed.) -/
theorem C196_define_again_partial (valid reg) (ops more : List Op) {k k' n l i}
    (hl : (more ++ ops).length < 2147483647) (hpos : 0 < i)
    (hdef : (run valid reg (.define (some k) n l :: ops)).2.head? = some (.define (some k) n l, .id i))
    (hq : QuietHist valid reg (.define (some k) n l :: ops) n l more) :
    (run valid reg (.define (some k') n l :: (more ++ .define (some k) n l :: ops))).2.head? =
      some (.define (some k') n l, .id i) := by
  have key : ∃ e, (run valid reg (more ++ .define (some k) n l :: ops)).1.byName n = some e ∧
      e.labels = l ∧ e.id = i := by
    induction more with
    | nil =>
      simp only [run, List.head?_cons, step, List.nil_append, add] at hdef ⊢
      split
      · rename_i e he
        simp only [he] at hdef
        split
        · rename_i hle
          rw [if_pos hle] at hdef
          simp at hdef
          exact ⟨e, he, hle, hdef⟩
        · rename_i hle
          rw [if_neg hle] at hdef
          have hn : e.name = n := by
            have inv := inv_run valid reg ops (by simp only [List.nil_append] at hl; omega)
            exact (inv.nam _ _ he).1
          simp [addMetric] at hdef
          simp only [addMetric, set, hn, if_true]
          exact ⟨_, rfl, rfl, hdef⟩
      · rename_i he
        simp only [he] at hdef
        split
        · rename_i hc
          rw [if_pos hc] at hdef
          simp at hdef
          omega
        · rename_i hc
          rw [if_neg hc] at hdef
          simp [addMetric] at hdef
          simp only [addMetric, set, if_true]
          exact ⟨_, rfl, rfl, hdef⟩
    | cons op more ih =>
      simp only [List.cons_append, List.length_cons, List.length_append] at hl
      obtain ⟨hq1, hq2⟩ := hq
      obtain ⟨e, h1, h2, h3⟩ := ih (by simp only [List.length_append]; omega) hq2
      have inv := inv_run valid reg (more ++ .define (some k) n l :: ops)
        (by simp only [List.length_append, List.length_cons]; omega)
      generalize hR : run valid reg (more ++ .define (some k) n l :: ops) = R at h1 inv hq1
      simp only [List.cons_append, run, hR]
      cases op with
      | define kk name labels =>
        cases kk with
        | none => exact ⟨e, h1, h2, h3⟩
        | some kk =>
          by_cases hname : name = n
          · subst hname
            have hlab : labels = l := hq1 rfl
            subst hlab
            simp only [step, add, h1]
            rw [if_pos h2]
            exact ⟨e, h1, h2, h3⟩
          · simp only [step, add]
            split
            · rename_i e' he'
              have hn := (inv.nam _ _ he').1
              split
              · exact ⟨e, h1, h2, h3⟩
              · simp only [addMetric, set]
                rw [if_neg (by rw [hn]; exact fun h => hname h.symm)]
                exact ⟨e, h1, h2, h3⟩
            · split
              · exact ⟨e, h1, h2, h3⟩
              · simp only [addMetric, set]
                rw [if_neg (fun h => hname h.symm)]
                exact ⟨e, h1, h2, h3⟩
      | remove id =>
        simp only [step]
        split
        · exact ⟨e, h1, h2, h3⟩
        · rename_i e' he'
          obtain ⟨_, _, _, hd', _⟩ := inv.ent _ _ he'
          simp only [set]
          rw [if_neg]
          · exact ⟨e, h1, h2, h3⟩
          · intro hc
            rw [← hc] at hd'
            exact hq1 _ hd'
      | record id v =>
        simp only [step]
        split
        · exact ⟨e, h1, h2, h3⟩
        · split
          · exact ⟨e, h1, h2, h3⟩
          · split <;> exact ⟨e, h1, h2, h3⟩
  obtain ⟨e, h1, h2, h3⟩ := key
  generalize more ++ Op.define (some k) n l :: ops = H at h1
  simp only [run, List.head?_cons, step, add, h1]
  rw [if_pos h2, h3]

/-- **C43** A definition that fails (`-1`, `0`) changes nothing: it defines no metric. -/
theorem C43_failed_define (valid reg) (ops : List Op) {k n l i} (hl : ops.length ≤ 2147483646)
    (h : (run valid reg (.define k n l :: ops)).2.head? = some (.define k n l, .id i)) (hi : i ≤ 0)
    (op : Op) : (run valid reg (op :: .define k n l :: ops)).2.head? =
      (run valid reg (op :: ops)).2.head? := by
  have key : (run valid reg (.define k n l :: ops)).1 = (run valid reg ops).1 := by
    have inv := inv_run valid reg ops (by omega)
    have hlen := run_length valid reg ops
    have h1 := inv.latn
    have h2 := inv.lat0
    have hinc : incr (run valid reg ops).1.latest = (run valid reg ops).1.latest + 1 := by
      unfold incr; rw [if_neg]; omega
    cases k with
    | none => rfl
    | some k =>
      simp only [run, List.head?_cons, step, add] at h ⊢
      split
      · rename_i e he
        simp only [he] at h
        split
        · rfl
        · rename_i hc
          rw [if_neg hc] at h
          simp [addMetric] at h
          omega
      · rename_i he
        simp only [he] at h
        split
        · rfl
        · rename_i hc
          rw [if_neg hc] at h
          simp [addMetric] at h
          omega
  show some (op, (step valid (run valid reg (.define k n l :: ops)).1 op).2) =
    some (op, (step valid (run valid reg ops).1 op).2)
  rw [key]

/-! ### Counterexamples (each a complete history from a fresh handler and an empty registry) -/

/-- A fresh registry accepting everything. -/
abbrev outs (ops : List Op) : List Out :=
  (run (fun _ => true) (fun _ => false) ops.reverse).2.reverse.map (·.2)

/-- **C196 (fails)** The same metric, defined again after the same name was defined with other
labels, gets another id. -/
theorem C196_define_again_false :
    outs [.define (some .counter) "requests" [("code", "200")],
          .define (some .counter) "requests" [("code", "404")],
          .define (some .counter) "requests" [("code", "200")]] = [.id 1, .id 2, .id 3] := by decide +kernel

/-- **C196 (fails)** A removed metric can never be defined again: the vector stays registered. -/
theorem C196_redefine_removed_false :
    outs [.define (some .counter) "requests" [], .remove 1, .define (some .counter) "requests" []] =
      [.id 1, .unit, .id (-1)] := by decide +kernel

/-- **C196 (fails)** Removing one id makes other labels of the same name undefinable. -/
theorem C196_remove_blocks_others_false :
    outs [.define (some .counter) "requests" [("code", "200")],
          .define (some .counter) "requests" [("code", "404")], .remove 1,
          .define (some .counter) "requests" [("code", "404")], .record 2 1] =
      [.id 1, .id 2, .unit, .id (-1), .sample .counter "requests" [("code", "404")] 1] := by decide +kernel

/-- **C196 (fails)** A gauge defined under the name of a counter is recorded in the counter. -/
theorem C196_kind_false :
    outs [.define (some .counter) "requests" [], .define (some .gauge) "requests" [], .record 1 5,
          .define (some .gauge) "requests" [("code", "200")]] =
      [.id 1, .id 1, .sample .counter "requests" [] 5, .id 2] := by decide +kernel

/-- **C196 (fails)** Defining a name with other label keys succeeds, recording through the id
panics. -/
theorem C196_label_keys_false :
    outs [.define (some .counter) "requests" [("code", "200")],
          .define (some .counter) "requests" [("source", "a")], .record 2 1] =
      [.id 1, .id 2, .panic] := by decide +kernel

/-! ### The hypotheses are satisfiable -/

/-- A history with two metrics under one name, a removal and records. -/
def sampleOps : List Op :=
  [.record 2 3, .remove 3, .define (some .gauge) "conns" [], .define (some .counter) "requests" [("code", "404")],
   .define (some .counter) "requests" [("code", "200")]]

example : (run (fun _ => true) (fun _ => false) (.record 2 7 :: sampleOps)).2.head? =
    some (.record 2 7, .sample .counter "requests" [("code", "404")] 7) := by
  apply C196_record_reaches_partial (fun _ => true) (fun _ => false) sampleOps (by decide) (by decide)
    (by decide +kernel)
  · intro o ho
    have hr : (run (fun _ => true) (fun _ => false) sampleOps).2 =
      [(.record 2 3, .sample .counter "requests" [("code", "404")] 3), (.remove 3, .unit),
       (.define (some .gauge) "conns" [], .id 3),
       (.define (some .counter) "requests" [("code", "404")], .id 2),
       (.define (some .counter) "requests" [("code", "200")], .id 1)] := by decide +kernel
    rw [hr] at ho
    simp at ho
  · intro k' l o ho
    have hr : (run (fun _ => true) (fun _ => false) sampleOps).2 =
      [(.record 2 3, .sample .counter "requests" [("code", "404")] 3), (.remove 3, .unit),
       (.define (some .gauge) "conns" [], .id 3),
       (.define (some .counter) "requests" [("code", "404")], .id 2),
       (.define (some .counter) "requests" [("code", "200")], .id 1)] := by decide +kernel
    rw [hr] at ho
    simp at ho
    rcases ho with ⟨⟨rfl, rfl⟩, rfl⟩ | ⟨⟨rfl, rfl⟩, rfl⟩ <;> simp [keys]
  · intro _; decide

/-- Defining again after unrelated calls. -/
example : outs [.define (some .counter) "requests" [("code", "200")], .define (some .gauge) "conns" [],
    .remove 2, .define (some .counter) "requests" [("code", "200")]] = [.id 1, .id 2, .unit, .id 1] := by
  decide +kernel

example : outs [.define (some .counter) "requests" [], .remove 1, .define (some .gauge) "conns" [],
    .record 1 4, .record (-1) 4] = [.id 1, .unit, .id 2, .invalid, .invalid] := by decide +kernel

end Verif.Wasm.Metrics
