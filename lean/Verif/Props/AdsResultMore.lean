import Verif.Props.AdsResultFalse
/-
More about C35: replacing an unread result, complete refreshes, closing, and results after
cancellation.
-/
namespace Verif.Res

/-- Actions of observer `o`'s goroutine itself. -/
def Own (o : Nat) : St → Act → Prop := fun _ a => a = .check o ∨ a = .take o ∨ a = .push o

/-- **C35** A newer result replaces an unread one: from every state in which an observer goroutine
holds a result to be sent, its own steps alone (with no help from the consumer) can put it into
the result channel. -/
theorem C35_replaces (s : St) (o : Nat) (v : Val) (hd : (s.obs o).pc = .drain v) :
    ∃ t, Steps (Own o) s t ∧ (t.obs o).out = some v := by
  have push : ∀ s : St, (s.obs o).pc = .push v → (s.obs o).out = none →
      ∃ t, exec s (.push o) = some t ∧ (t.obs o).out = some v := by
    intro s h1 h2
    refine ⟨_, by simp only [exec, h1, h2, Option.isNone_none, if_true]; rfl, ?_⟩
    simp [St.setObs]
  cases ho : (s.obs o).out with
  | none =>
    have h1 : exec s (.check o) = some (s.setObs o { (s.obs o) with pc := .push v }) := by
      simp [exec, hd, ho]
    obtain ⟨t, ht, hv⟩ := push (s.setObs o { (s.obs o) with pc := .push v }) (by simp [St.setObs]) (by simp [St.setObs, ho])
    have st1 : Steps (Own o) s _ := .step (a := .check o) .refl trivial (Or.inl rfl) h1
    exact ⟨t, .step (a := .push o) st1 trivial (Or.inr (Or.inr rfl)) ht, hv⟩
  | some w =>
    have h1 : exec s (.check o) = some (s.setObs o { (s.obs o) with pc := .take v }) := by
      simp [exec, hd, ho]
    let s1 := s.setObs o { (s.obs o) with pc := .take v }
    have h2 : exec s1 (.take o) = some (s1.setObs o { (s1.obs o) with pc := .drain v, out := none }) := by
      simp [exec, s1, St.setObs, ho]
    let s2 := s1.setObs o { (s1.obs o) with pc := .drain v, out := none }
    have h3 : exec s2 (.check o) = some (s2.setObs o { (s2.obs o) with pc := .push v }) := by
      simp [exec, s2, St.setObs]
    obtain ⟨t, ht, hv⟩ := push (s2.setObs o { (s2.obs o) with pc := .push v }) (by simp [St.setObs]) (by simp [St.setObs, s2])
    have st1 : Steps (Own o) s s1 := .step (a := .check o) .refl trivial (Or.inl rfl) h1
    have st2 : Steps (Own o) s s2 := .step (a := .take o) st1 trivial (Or.inr (Or.inl rfl)) h2
    have st3 : Steps (Own o) s _ := .step (a := .check o) st2 trivial (Or.inl rfl) h3
    exact ⟨t, .step (a := .push o) st3 trivial (Or.inr (Or.inr rfl)) ht, hv⟩

/-- **C35** The consumer sees its channel closed exactly when the observer goroutine has ended. -/
theorem C35_closed {g : St → Act → Prop} {s : St} (h : Reach g s) (o : Nat) :
    (s.obs o).outClosed = true ↔ .closed o ∈ s.trace := by
  induction h with
  | init => simp
  | step _ _ _ he ih =>
    rename_i s s' a _ _ _
    cases a <;> simp only [exec] at he <;> (repeat' split at he) <;>
      first
      | (cases he; done)
      | (injection he with he; subst he; simp only [St.setObs]; grind)

/-! ### Refreshes -/

/-- A run given by its actions. -/
inductive Via : St → List Act → St → Prop where
  | nil {s : St} : Via s [] s
  | cons {s t u : St} {a : Act} {as : List Act} : exec s a = some t → Via t as u → Via s (a :: as) u

/-- The results computed during a run of a refresh, in order. -/
def computed : List Act → List (Option Resp)
  | [] => []
  | .refInput r :: as => r :: computed as
  | _ :: as => computed as

theorem busy_step {s t : St} {a : Act} {todo sends : List Nat} (hb : s.ref = .busy todo sends) (h : exec s a = some t)
    (ha : a ≠ .refAbort) :
    (∃ r i rest, a = .refInput r ∧ todo = i :: rest ∧ (∃ ss, t.ref = .busy rest ss) ∧
      (t.results i).bind (·.resp) = r ∧ ∀ k, k ≠ i → t.results k = s.results k) ∨
    ((∀ r, a ≠ .refInput r) ∧ t.results = s.results ∧
      ((∃ ss, t.ref = .busy todo ss) ∨ t.ref = .crashed ∨ (t.ref = .idle ∧ todo = []))) := by
  have hf : s.free = false := by simp [St.free, hb]
  cases a <;> simp only [exec, hf, hb] at h <;> (repeat' split at h) <;>
    first
    | (cases h; done)
    | (injection h with h; subst h; first
        | (exfalso; simp_all; done)
        | (right; refine ⟨by simp, rfl, ?_⟩; simp_all [St.setObs]; done)
        | (left; rename_i heq _; injection heq with e1 e2; subst e1; exact ⟨_, _, _, rfl, rfl, ⟨_, rfl⟩, by simp_all, by simp_all⟩))

/-- **C35** A refresh that runs to its end (not cut short by the client's end) computes the result of
every input it started with, once, and afterwards exactly these results are stored. -/
theorem C35_refresh {s t : St} {order : List Nat} {as : List Act} (hn : order.Nodup) (ho : s.ref = .busy order [])
    (hv : Via s as t) (hend : t.ref = .idle) (hfirst : ∀ pre post u, as = pre ++ post → post ≠ [] → Via s pre u → u.ref ≠ .idle)
    (ha : Act.refAbort ∉ as) :
    (computed as).length = order.length ∧
    ∀ k (hk : k < order.length), ((t.results order[k]).bind (·.resp)) = ((computed as)[k]?).bind id := by
  have key : ∀ (as : List Act) (s : St) (order : List Nat) (ss : List Nat), order.Nodup → s.ref = .busy order ss → Via s as t →
      (∀ pre post u, as = pre ++ post → post ≠ [] → Via s pre u → u.ref ≠ .idle) → Act.refAbort ∉ as →
      (computed as).length = order.length ∧
      (∀ k (hk : k < order.length), ((t.results order[k]).bind (·.resp)) = ((computed as)[k]?).bind id) ∧
      ∀ i, i ∉ order → t.results i = s.results i := by
    intro as
    induction as with
    | nil =>
      intro s order ss _ hb hv _ _
      cases hv
      rw [hb] at hend; cases hend
    | cons a as ih =>
      intro s order ss hnd hb hv hfirst hab
      cases hv with
      | cons he hv =>
        rename_i t1
        simp only [List.mem_cons, not_or] at hab
        have hfirst' : ∀ pre post u, as = pre ++ post → post ≠ [] → Via t1 pre u → u.ref ≠ .idle := by
          intro pre post u h1 h2 h3
          exact hfirst (a :: pre) post u (by rw [h1]; rfl) h2 (.cons he h3)
        rcases busy_step hb he (Ne.symm hab.1) with ⟨r, i, rest, rfl, rfl, ⟨ss', hb'⟩, hr, hoth⟩ | ⟨hni, hres, h⟩
        · obtain ⟨i1, i2, i3⟩ := ih t1 rest ss' (List.nodup_cons.mp hnd).2 hb' hv hfirst' hab.2
          have hi : i ∉ rest := (List.nodup_cons.mp hnd).1
          refine ⟨by simp [computed, i1], ?_, ?_⟩
          · intro k hk
            cases k with
            | zero => simp only [List.getElem_cons_zero, computed, List.getElem?_cons_zero, Option.bind_some, id]; rw [i3 i hi, hr]
            | succ k => simp only [List.getElem_cons_succ, computed, List.getElem?_cons_succ]; exact i2 k (by simpa using hk)
          · intro j hj
            simp only [List.mem_cons, not_or] at hj
            rw [i3 j hj.2, hoth j hj.1]
        · have hc : computed (a :: as) = computed as := by
            cases a <;> first | rfl | exact absurd rfl (hni _)
          rcases h with ⟨ss', hb'⟩ | hcr | ⟨hid, rfl⟩
          · obtain ⟨i1, i2, i3⟩ := ih t1 order ss' hnd hb' hv hfirst' hab.2
            rw [hc]
            exact ⟨i1, i2, fun j hj => by rw [i3 j hj, hres]⟩
          · -- a crashed refresher never becomes idle
            exfalso
            have crash : ∀ (as : List Act) (s : St), s.ref = .crashed → Via s as t → t.ref = .crashed := by
              intro as
              induction as with
              | nil => intro s h hv; cases hv; exact h
              | cons a as ih =>
                intro s h hv
                cases hv with
                | cons he hv =>
                  refine ih _ ?_ hv
                  have hf : s.free = false := by simp [St.free, h]
                  cases a <;> simp only [exec, hf, h] at he <;> (repeat' split at he) <;>
                    first
                    | (cases he; done)
                    | (injection he with he; subst he; simp_all [St.setObs]; done)
            rw [crash as t1 hcr hv] at hend
            cases hend
          · have has : as = [] := Classical.byContradiction fun hne =>
              hfirst [a] as t1 rfl hne (.cons he .nil) hid
            subst has
            cases hv
            rw [hc]
            refine ⟨rfl, fun k hk => absurd hk (Nat.not_lt_zero _), fun j _ => by rw [hres]⟩
  obtain ⟨h1, h2, _⟩ := key as s order [] hn ho hv hfirst ha
  exact ⟨h1, h2⟩

/-- A refresh of two inputs. -/
example : ∃ s t, s.ref = .busy [1, 0] [] ∧ Via s [.refInput (some ⟨7, false⟩), .refInput none, .refEnd] t ∧ t.ref = .idle :=
  ⟨{ ref := .busy [1, 0] [] }, _, rfl, .cons rfl (.cons rfl (.cons rfl .nil)), rfl⟩

/-! ### After cancellation -/

def lateRun : List Act :=
  [.start 0 0 false, .register 0 (some ⟨1, false⟩), .recv 0, .get 0, .check 0, .cancelCtx 0, .push 0]

/-- **C167** (negation) A result can be put into the channel after the caller has cancelled: the goroutine
that is ready to send chooses at random between the cancelled context and the channel. -/
theorem C167_cancelled_false : ∃ s, Reach Any s ∧ s.trace = [.pushed 0 ⟨1, some ⟨1, false⟩⟩, .cancelled 0] := by
  have h1 : (run (fun _ _ => true) {} lateRun).isSome = true := by decide +kernel
  obtain ⟨s, hs⟩ := Option.isSome_iff_exists.mp h1
  refine ⟨s, run_any hs, ?_⟩
  have e : s.trace = ((run (fun _ _ => true) {} lateRun).getD {}).trace := by rw [hs]; rfl
  rw [e]
  decide +kernel

end Verif.Res
