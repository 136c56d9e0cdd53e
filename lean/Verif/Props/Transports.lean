import Verif.Exp.Transports
/-
Property C263: transports and servers of Java and mobile programs live as long as the program wants.
-/
namespace Verif.Exp.Transports

/-- the transport was handed out and the program has not closed it (specification) -/
def J.inUse (s : J) (i : Nat) : Prop := i < s.created ∧ i ∉ s.closed
/-- the transport was handed out and the program has not closed it (specification) -/
def M.inUse (s : M) (i : Nat) : Prop := i < s.transports.length ∧ i ∉ s.closed

/-- a run -/
def J.run (ops : List JOp) : J := ops.foldl J.op {}
/-- a run -/
def M.run (ops : List MOp) : M := ops.foldl M.op {}

theorem J.run_snoc (ops : List JOp) (o : JOp) : J.run (ops ++ [o]) = (J.run ops).op o := by simp [J.run]

/-- induction from the end -/
theorem snoc_ind {α : Type} {P : List α → Prop} (h0 : P []) (h1 : ∀ l a, P l → P (l ++ [a])) : ∀ l, P l := by
  intro l
  rw [← List.reverse_reverse l]
  induction l.reverse with
  | nil => exact h0
  | cons a l ih => rw [List.reverse_cons]; exact h1 _ a ih

/-- **C263**, Java: the connection to the mesh is there exactly as long as no transport was closed and none could not be made; in particular transports in use have it in
programs that close none -/
theorem C263_java_partial (ops : List JOp) : (J.run ops).mesh = true ↔ ((J.run ops).closed = [] ∧ .create false ∉ ops) := by
  induction ops using snoc_ind with
  | h0 => simp [J.run, J.mesh]
  | h1 ops o ih =>
    rw [J.run_snoc]
    cases o with
    | create ok =>
      cases ok
      · simp [J.op, J.mesh]
      · simp only [J.op, J.mesh] at ih ⊢
        rw [ih]; simp
    | close i =>
      simp only [J.op]
      split
      · simp [J.mesh]
      · rw [ih]; simp

/-- **C263**, Java: a transport that was closed has returned from waiting -/
theorem C263_await (ops : List JOp) (i : Nat) (h : i ∈ (J.run ops).closed) : (J.run ops).awaitReturns i = true := by
  have := C263_java_partial ops
  cases hc : (J.run ops).cancelled
  · have hm := this.1 (by simp [J.mesh, hc])
    rw [hm.1] at h; simp at h
  · exact hc

/-- **C263** is false of the code: closing one transport takes the mesh from all others, whatever else happens, -/
theorem C263_java_false (ops : List JOp) (i : Nat) (hi : i < (J.run ops).created) (later : List JOp) :
    (J.run (ops ++ [.close i] ++ later)).mesh = false ∧ ∀ j, (J.run (ops ++ [.close i] ++ later)).awaitReturns j = true := by
  have hstay : ∀ (l : List JOp) (s : J), s.cancelled = true → (l.foldl J.op s).cancelled = true := by
    intro l
    induction l with
    | nil => intro s h; exact h
    | cons o l ih =>
      intro s h
      apply ih
      cases o with
      | create ok => cases ok <;> simp [J.op, h]
      | close i => simp only [J.op]; split <;> simp [h]
  have : (J.run (ops ++ [.close i] ++ later)).cancelled = true := by
    simp only [J.run, List.foldl_append, List.foldl_cons, List.foldl_nil]
    apply hstay
    have hi' : i < (List.foldl J.op {} ops).created := hi
    simp [J.op, hi']
  exact ⟨by unfold J.mesh; rw [this]; rfl, fun _ => this⟩

/-- **C263** is false of the code: and so does a transport that could not be made. A second transport is in use in both cases -/
theorem C263_failed_false : (J.run [.create true, .create true, .create false]).mesh = false ∧ (J.run [.create true, .create true, .create false]).inUse 1 ∧
    (J.run [.create true, .create true, .close 0]).mesh = false ∧ (J.run [.create true, .create true, .close 0]).inUse 1 :=
  ⟨rfl, ⟨by decide, by decide⟩, rfl, ⟨by decide, by decide⟩⟩

theorem M.all_cancelled (ops : List MOp) : ∀ b ∈ (M.run ops).transports, b = true := by
  induction ops using snoc_ind with
  | h0 => simp [M.run]
  | h1 ops o ih =>
    have : M.run (ops ++ [o]) = (M.run ops).op o := by simp [M.run]
    rw [this]
    intro b hb
    cases o with
    | create ok =>
      cases ok
      · exact ih b hb
      · simp only [M.op, List.mem_append, List.mem_singleton] at hb
        rcases hb with hb | hb
        · exact ih b hb
        · exact hb
    | close i =>
      simp only [M.op] at hb
      split at hb
      · rcases List.mem_or_eq_of_mem_set hb with h | h
        · exact ih b h
        · exact h
      · exact ih b hb

/-- **C263** is false of the code: no transport of a mobile program that is in use ever has the mesh, and waiting for its end returns at once -/
theorem C263_mobile_false (ops : List MOp) (i : Nat) (h : (M.run ops).inUse i) : (M.run ops).mesh i = false ∧ (M.run ops).awaitReturns i = true := by
  have hb := M.all_cancelled ops ((M.run ops).transports[i]'h.1) (List.getElem_mem h.1)
  refine ⟨?_, ?_⟩
  · simp [M.mesh, List.getD_eq_getElem?_getD, List.getElem?_eq_getElem h.1, hb]
  · simp [M.awaitReturns, List.getD_eq_getElem?_getD, List.getElem?_eq_getElem h.1, hb]

/-- **C263**, mobile: what holds: a transport that was closed has no mesh any more, and waiting for its end returns -/
theorem C263_mobile_partial (ops : List MOp) (i : Nat) (h : i ∈ (M.run ops).closed) : (M.run ops).mesh i = false ∧ (M.run ops).awaitReturns i = true := by
  have hlt : ∀ ops : List MOp, ∀ i ∈ (M.run ops).closed, i < (M.run ops).transports.length := by
    intro ops
    induction ops using snoc_ind with
    | h0 => simp [M.run]
    | h1 ops o ih =>
      have : M.run (ops ++ [o]) = (M.run ops).op o := by simp [M.run]
      rw [this]
      intro i hi
      cases o with
      | create ok =>
        cases ok
        · exact ih i hi
        · have := ih i hi
          simp only [M.op, List.length_append, List.length_singleton]; omega
      | close j =>
        simp only [M.op] at hi ⊢
        by_cases hj : j < (M.run ops).transports.length
        · rw [if_pos hj] at hi ⊢
          simp only [List.length_set]
          rcases List.mem_cons.1 hi with rfl | hi
          · exact hj
          · exact ih i hi
        · rw [if_neg hj] at hi ⊢; exact ih i hi
  have hl := hlt ops i h
  have hb := M.all_cancelled ops ((M.run ops).transports[i]'hl) (List.getElem_mem hl)
  refine ⟨?_, ?_⟩
  · simp [M.mesh, List.getD_eq_getElem?_getD, List.getElem?_eq_getElem hl, hb]
  · simp [M.awaitReturns, List.getD_eq_getElem?_getD, List.getElem?_eq_getElem hl, hb]

/-- **C263**: a server that cannot be started, or ends, within a second is reported with its error -/
theorem C263_server_partial (t : Nat) (e : String) (h : t < 1000) : (listenAndServe (some (t, e))).2 = some e := by simp [listenAndServe, h]

/-- **C263** is false of the code: a server that ends later is reported as if nothing had happened, before it has ended -/
theorem C263_server_false (t : Nat) (e : String) (h : 1000 ≤ t) : (listenAndServe (some (t, e))).2 = none ∧ (listenAndServe (some (t, e))).1 ≤ t := by
  refine ⟨?_, h⟩
  simp only [listenAndServe]
  rw [if_neg (by omega)]

/-- the hypotheses are met -/
example : (J.run [.create true, .create true]).inUse 1 ∧ (J.run [.create true, .create true]).mesh = true := ⟨⟨by decide, by decide⟩, rfl⟩
example : (M.run [.create true, .create false, .create true, .close 0]).inUse 1 := ⟨by decide, by decide⟩
example : 0 ∈ (M.run [.create true, .create false, .create true, .close 0]).closed := by decide
example : (J.run [.create true, .close 0]).closed = [0] := rfl

end Verif.Exp.Transports
