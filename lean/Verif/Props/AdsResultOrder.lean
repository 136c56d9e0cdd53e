/-
C35 continued: what observers are handed is genuine, in order, and nothing follows the close.
-/
import Verif.Props.AdsResult

namespace Verif.Res

/-- What holds of observer `o` in state `x`, given the stored results and the trace. -/
structure Ok (res : Nat → Option Val) (o : Nat) (x : Obs) (tr : List Ev) : Prop where
  held : ∀ v, held x.pc = some v → ∃ w, res x.input = some w ∧ v.ver ≤ w.ver
  pushedHeld : ∀ v w, Ev.pushed o v ∈ tr → Res.held x.pc = some w → v.ver ≤ w.ver
  pushedLe : ∀ v, Ev.pushed o v ∈ tr → ∃ w, res x.input = some w ∧ v.ver ≤ w.ver
  out : ∀ w, x.out = some w → Ev.pushed o w ∈ tr ∧ ∀ v, Ev.pushed o v ∈ tr → v.ver ≤ w.ver
  recv : ∀ v, Ev.received o v ∈ tr → Ev.pushed o v ∈ tr
  fresh : Res.fresh x.pc = true → ∀ v, Ev.pushed o v ∉ tr
  closed : Ev.closed o ∈ tr → x.pc = .finished

structure InvB (s : St) : Prop where
  ver : ∀ i v, s.results i = some v → v.ver ≤ s.ver
  ok : ∀ o, Ok s.results o (s.obs o) s.trace
  order : InOrder s.trace
  quiet : QuietAfterClose s.trace

theorem invB_init : InvB {} := by
  refine ⟨by simp, fun o => ⟨by simp [held], by simp, by simp, by simp, by simp, by simp, by simp⟩, ?_, ?_⟩ <;>
    exact List.Pairwise.nil

/-- An event of another observer changes nothing. -/
theorem ok_other {res : Nat → Option Val} {o : Nat} {x : Obs} {tr : List Ev} {e : Ev} (h : Ok res o x tr)
    (h1 : ∀ v, e ≠ .pushed o v) (h2 : ∀ v, e ≠ .received o v) (h3 : e ≠ .closed o) : Ok res o x (e :: tr) := by
  have m1 : ∀ v, Ev.pushed o v ∈ e :: tr ↔ Ev.pushed o v ∈ tr := fun v => by
    rw [List.mem_cons]; exact ⟨fun h => h.resolve_left fun h => h1 v h.symm, Or.inr⟩
  have m2 : ∀ v, Ev.received o v ∈ e :: tr ↔ Ev.received o v ∈ tr := fun v => by
    rw [List.mem_cons]; exact ⟨fun h => h.resolve_left fun h => h2 v h.symm, Or.inr⟩
  have m3 : Ev.closed o ∈ e :: tr ↔ Ev.closed o ∈ tr := by
    rw [List.mem_cons]; exact ⟨fun h => h.resolve_left fun h => h3 h.symm, Or.inr⟩
  obtain ⟨a, b, c, d, f, g, i⟩ := h
  exact ⟨a, (fun v w hv => b v w ((m1 v).mp hv)), (fun v hv => c v ((m1 v).mp hv)),
    (fun w hw => ⟨(m1 w).mpr (d w hw).1, fun v hv => (d w hw).2 v ((m1 v).mp hv)⟩),
    (fun v hv => (m1 v).mpr (f v ((m2 v).mp hv))), (fun hf v hv => g hf v ((m1 v).mp hv)), fun hc => i (m3.mp hc)⟩

theorem ok_results {res res' : Nat → Option Val} {o : Nat} {x : Obs} {tr : List Ev} (h : Ok res o x tr)
    (hm : ∀ i v, res i = some v → ∃ w, res' i = some w ∧ v.ver ≤ w.ver) : Ok res' o x tr := by
  obtain ⟨a, b, c, d, f, g, i⟩ := h
  refine ⟨?_, b, ?_, d, f, g, i⟩
  · intro v hv
    obtain ⟨w, hw, hle⟩ := a v hv
    obtain ⟨u, hu, hle'⟩ := hm _ _ hw
    exact ⟨u, hu, Nat.le_trans hle hle'⟩
  · intro v hv
    obtain ⟨w, hw, hle⟩ := c v hv
    obtain ⟨u, hu, hle'⟩ := hm _ _ hw
    exact ⟨u, hu, Nat.le_trans hle hle'⟩

/-- A move of an observer without an event. -/
theorem ok_move {res : Nat → Option Val} {o : Nat} {x y : Obs} {tr : List Ev} (h : Ok res o x tr)
    (hi : y.input = x.input) (hh : ∀ v, held y.pc = some v → held x.pc = some v ∨ res x.input = some v)
    (ho : ∀ v, y.out = some v → x.out = some v) (hf : fresh y.pc = true → fresh x.pc = true)
    (hc : x.pc = .finished → y.pc = .finished) : Ok res o y tr := by
  obtain ⟨a, b, c, d, f, g, i⟩ := h
  refine ⟨?_, ?_, ?_, fun w hw => d w (ho w hw), f, fun hy => g (hf hy), fun hcl => hc (i hcl)⟩
  · intro v hv
    rw [hi]
    rcases hh v hv with h | h
    · exact a v h
    · exact ⟨v, h, Nat.le_refl _⟩
  · intro v w hv hw
    rcases hh w hw with h | h
    · exact b v w hv h
    · obtain ⟨u, hu, hle⟩ := c v hv
      rw [h] at hu
      cases hu
      exact hle
  · intro v hv; rw [hi]; exact c v hv

theorem invB_move {s : St} (h : InvB s) (o : Nat) (y : Obs) (hok : Ok s.results o y s.trace) : InvB (s.setObs o y) := by
  obtain ⟨a, b, c, d⟩ := h
  refine ⟨a, ?_, c, d⟩
  intro o'
  show Ok s.results o' (if o' = o then y else s.obs o') s.trace
  by_cases ho : o' = o
  · rw [if_pos ho, ho]; exact hok
  · rw [if_neg ho]; exact b o'

theorem invB_reg {s : St} (h : InvB s) (reg : Nat → List Nat) (ref : RPC) (cd : Bool) :
    InvB { s with reg := reg, ref := ref, clientDone := cd } := by
  obtain ⟨a, b, c, d⟩ := h
  exact ⟨a, b, c, d⟩

theorem invB_store {s : St} (h : InvB s) (i : Nat) (r : Option Resp) (reg : Nat → List Nat) (ref : RPC) :
    InvB { s with ver := s.ver + 1, results := fun k => if k = i then some ⟨s.ver + 1, r⟩ else s.results k, reg := reg, ref := ref } := by
  obtain ⟨a, b, c, d⟩ := h
  refine ⟨?_, ?_, c, d⟩
  · intro k v hv
    show v.ver ≤ s.ver + 1
    simp only at hv
    split at hv
    · cases hv; exact Nat.le_refl _
    · exact Nat.le_succ_of_le (a k v hv)
  · intro o
    refine ok_results (b o) ?_
    intro k v hv
    simp only
    by_cases hk : k = i
    · rw [if_pos hk]
      exact ⟨_, rfl, Nat.le_succ_of_le (a k v hv)⟩
    · rw [if_neg hk]
      exact ⟨v, hv, Nat.le_refl _⟩

theorem invB_cancelCtx {s : St} (h : InvB s) (o : Nat) (y : Obs) (hok : Ok s.results o y s.trace) :
    InvB { s.setObs o y with trace := .cancelled o :: s.trace } := by
  obtain ⟨a, b, c, d⟩ := invB_move h o y hok
  refine ⟨a, fun o' => ok_other (b o') (by simp) (by simp) (by simp), ?_, ?_⟩
  · exact List.Pairwise.cons (by intro e _ o' v w; constructor <;> intro h <;> cases h) c
  · exact List.Pairwise.cons (by intro e _ o' _; exact ⟨by simp, by simp⟩) d

theorem invB_close {s : St} (h : InvB s) (o : Nat) (y : Obs) (hok : Ok s.results o y s.trace) (hp : (s.obs o).pc = .close)
    (hy : y.pc = .finished) : InvB { s.setObs o y with trace := .closed o :: s.trace } := by
  have hn : Ev.closed o ∉ s.trace := by
    intro hm
    have := (h.ok o).closed hm
    rw [hp] at this; cases this
  obtain ⟨a, b, c, d⟩ := invB_move h o y hok
  refine ⟨a, ?_, ?_, ?_⟩
  · intro o'
    show Ok s.results o' (if o' = o then y else s.obs o') (.closed o :: s.trace)
    by_cases ho : o' = o
    · rw [if_pos ho, ho]
      obtain ⟨k1, k2, k3, k4, k5, k6, k7⟩ := hok
      exact ⟨k1, (fun v w hv => k2 v w (by simpa using hv)), (fun v hv => k3 v (by simpa using hv)),
        (fun w hw => ⟨by simpa using (k4 w hw).1, fun v hv => (k4 w hw).2 v (by simpa using hv)⟩),
        (fun v hv => by simpa using k5 v (by simpa using hv)), (fun hf => by rw [hy] at hf; cases hf), fun _ => hy⟩
    · rw [if_neg ho]
      exact ok_other (h.ok o') (by simp) (by simp) (by simp [Ne.symm ho])
  · exact List.Pairwise.cons (by intro e _ o' v w; constructor <;> intro h <;> cases h) c
  · refine List.Pairwise.cons ?_ d
    intro e he o' heq
    subst heq
    refine ⟨?_, by simp⟩
    intro h'
    cases h'
    exact hn he

theorem invB_push {s : St} (h : InvB s) (o : Nat) (v : Val) (y : Obs) (hp : (s.obs o).pc = .push v) (hi : y.input = (s.obs o).input)
    (hh : held y.pc = none) (hf : fresh y.pc = false) (ho : y.out = some v) :
    InvB { s.setObs o y with trace := .pushed o v :: s.trace } := by
  obtain ⟨k1, k2, k3, k4, k5, k6, k7⟩ := h.ok o
  have hheld : held (s.obs o).pc = some v := by rw [hp]; rfl
  have hn : Ev.closed o ∉ s.trace := by
    intro hm
    have := k7 hm
    rw [hp] at this; cases this
  refine ⟨h.ver, ?_, ?_, ?_⟩
  · intro o'
    show Ok s.results o' (if o' = o then y else s.obs o') (.pushed o v :: s.trace)
    by_cases hoo : o' = o
    · rw [if_pos hoo, hoo]
      refine ⟨by simp [hh], by simp [hh], ?_, ?_, ?_, by simp [hf], ?_⟩
      · intro w hw
        rw [hi]
        rcases List.mem_cons.mp hw with h | h
        · cases h; exact k1 v hheld
        · exact k3 w h
      · intro w hw
        rw [ho] at hw
        cases hw
        refine ⟨by simp, fun u hu => ?_⟩
        rcases List.mem_cons.mp hu with h | h
        · cases h; exact Nat.le_refl _
        · exact k2 u v h hheld
      · intro w hw
        exact List.mem_cons_of_mem _ (k5 w (by simpa using hw))
      · intro hc
        exact absurd (by simpa using hc) hn
    · rw [if_neg hoo]
      exact ok_other (h.ok o') (by intro w hw; cases hw; exact hoo rfl) (by simp) (by simp)
  · refine List.Pairwise.cons ?_ h.order
    intro e he o' v' w'
    refine ⟨?_, by intro h; cases h⟩
    intro h1 h2
    cases h1
    subst h2
    exact k2 w' v he hheld
  · refine List.Pairwise.cons ?_ h.quiet
    intro e he o' heq
    subst heq
    refine ⟨by simp, ?_⟩
    intro w hw
    cases hw
    exact hn he

theorem invB_consume {s : St} (h : InvB s) (o : Nat) (v : Val) (y : Obs) (hi : y.input = (s.obs o).input)
    (hpc : y.pc = (s.obs o).pc) (ho : (s.obs o).out = some v) (hy : y.out = none) :
    InvB { s.setObs o y with trace := .received o v :: s.trace } := by
  obtain ⟨k1, k2, k3, k4, k5, k6, k7⟩ := h.ok o
  refine ⟨h.ver, ?_, ?_, ?_⟩
  · intro o'
    show Ok s.results o' (if o' = o then y else s.obs o') (.received o v :: s.trace)
    by_cases hoo : o' = o
    · rw [if_pos hoo, hoo]
      refine ⟨?_, ?_, ?_, by simp [hy], ?_, ?_, ?_⟩
      · rw [hi, hpc]; exact k1
      · intro u w hu; rw [hpc]; exact k2 u w (by simpa using hu)
      · intro u hu; rw [hi]; exact k3 u (by simpa using hu)
      · intro w hw
        rcases List.mem_cons.mp hw with h | h
        · cases h; exact List.mem_cons_of_mem _ (k4 v ho).1
        · exact List.mem_cons_of_mem _ (k5 w h)
      · rw [hpc]; intro hf w hw; exact k6 hf w (by simpa using hw)
      · rw [hpc]; intro hc; exact k7 (by simpa using hc)
    · rw [if_neg hoo]
      exact ok_other (h.ok o') (by simp) (by intro w hw; cases hw; exact hoo rfl) (by simp)
  · refine List.Pairwise.cons ?_ h.order
    intro e he o' v' w'
    refine ⟨(by intro h; cases h), ?_⟩
    intro h1 h2
    cases h1
    subst h2
    exact (k4 v ho).2 w' (k5 w' he)
  · refine List.Pairwise.cons ?_ h.quiet
    intro e he o' heq
    exact ⟨by simp, by simp⟩

theorem invB_step {s s' : St} {a : Act} (h : InvB s) (he : exec s a = some s') : InvB s' := by
  cases a with
  | start o i once =>
    simp only [exec] at he
    split at he <;> simp only [Option.some.injEq, reduceCtorEq] at he
    rename_i hp
    subst he
    refine invB_move h o _ ?_
    obtain ⟨k1, k2, k3, k4, k5, k6, k7⟩ := h.ok o
    have hn := k6 (by rw [hp]; rfl)
    refine ⟨by simp [held], by simp [held], (fun v hv => absurd hv (hn v)), k4, k5, fun _ => hn, ?_⟩
    intro hc
    have := k7 hc
    rw [hp] at this; cases this
  | register o r =>
    simp only [exec] at he
    split at he
    · rename_i hp
      have hok : ∀ y : Obs, y.input = (s.obs o).input → y.pc = .wait → y.out = (s.obs o).out → ∀ res : Nat → Option Val,
          (∀ i v, s.results i = some v → ∃ w, res i = some w ∧ v.ver ≤ w.ver) → Ok res o y s.trace := by
        intro y h1 h2 h3 res hm
        refine ok_results (ok_move (h.ok o) h1 ?_ ?_ ?_ ?_) hm
        · intro v hv; rw [h2] at hv; cases hv
        · intro v hv; rw [h3] at hv; exact hv
        · intro hf; rw [h2] at hf; cases hf
        · intro hf; rw [hp.1] at hf; cases hf
      cases r with
      | none =>
        simp only [Option.some.injEq] at he; subst he
        exact invB_move (invB_reg h _ s.ref s.clientDone) o _ (hok { s.obs o with pc := .wait } rfl rfl rfl _ fun i v hv => ⟨v, hv, Nat.le_refl _⟩)
      | some r =>
        simp only [Option.some.injEq] at he; subst he
        have hst := invB_store h (s.obs o).input (some r) (fun k => if k = (s.obs o).input then s.reg (s.obs o).input ++ [o] else s.reg k) s.ref
        refine invB_move hst o _ (hok { s.obs o with pc := .wait, note := true } rfl rfl rfl _ ?_)
        intro i v hv
        simp only
        by_cases hk : i = (s.obs o).input
        · rw [if_pos hk]; exact ⟨_, rfl, Nat.le_succ_of_le (h.ver i v hv)⟩
        · rw [if_neg hk]; exact ⟨v, hv, Nat.le_refl _⟩
    · cases he
  | cancelCtx o =>
    simp only [exec] at he
    split at he <;> simp only [Option.some.injEq, reduceCtorEq] at he
    subst he
    exact invB_cancelCtx h o _ (ok_move (h.ok o) rfl (fun v hv => Or.inl hv) (fun v hv => hv) (fun hf => hf) fun hf => hf)
  | seeDone o =>
    simp only [exec] at he
    split at he <;> simp only [Option.some.injEq, reduceCtorEq] at he
    rename_i hp
    subst he
    exact invB_move h o _ (ok_move (h.ok o) rfl (by simp [held]) (fun v hv => hv) (by simp [fresh]) (by rw [hp.1]; simp))
  | recv o =>
    simp only [exec] at he
    split at he <;> simp only [Option.some.injEq, reduceCtorEq] at he
    rename_i hp
    subst he
    exact invB_move h o _ (ok_move (h.ok o) rfl (by simp [held]) (fun v hv => hv) (by simp [fresh]) (by rw [hp.1]; simp))
  | get o =>
    simp only [exec] at he
    split at he
    · rename_i hp
      split at he <;> simp only [Option.some.injEq] at he <;> subst he
      · exact invB_move h o _ (ok_move (h.ok o) rfl (by simp [held]) (fun v hv => hv) (by simp [fresh]) (by rw [hp.1]; simp))
      · rename_i v hv
        refine invB_move h o _ (ok_move (h.ok o) rfl ?_ (fun v hv => hv) (by simp [fresh]) (by rw [hp.1]; simp))
        intro w hw
        simp only [held, Option.some.injEq] at hw
        subst hw
        exact Or.inr hv
    · cases he
  | check o =>
    simp only [exec] at he
    split at he <;> simp only [Option.some.injEq, reduceCtorEq] at he
    rename_i v hp
    subst he
    refine invB_move h o _ (ok_move (h.ok o) rfl ?_ (fun v hv => hv) ?_ (by rw [hp]; simp))
    · intro w hw
      refine Or.inl ?_
      rw [hp]
      simp only at hw
      split at hw <;> simpa [held] using hw
    · simp only; split <;> simp [fresh]
  | take o =>
    simp only [exec] at he
    split at he
    · rename_i v hp
      split at he <;> simp only [Option.some.injEq, reduceCtorEq] at he
      subst he
      refine invB_move h o _ (ok_move (h.ok o) rfl ?_ (by simp) (by simp [fresh]) (by rw [hp]; simp))
      intro w hw
      rw [hp]; exact Or.inl hw
    · cases he
  | takeDone o =>
    simp only [exec] at he
    split at he
    · rename_i v hp
      split at he <;> simp only [Option.some.injEq, reduceCtorEq] at he
      subst he
      exact invB_move h o _ (ok_move (h.ok o) rfl (by simp [held_afterSend]) (fun v hv => hv) (by simp [fresh_afterSend]) (by rw [hp]; simp))
    · cases he
  | push o =>
    simp only [exec] at he
    split at he
    · rename_i v hp
      split at he <;> simp only [Option.some.injEq, reduceCtorEq] at he
      subst he
      exact invB_push h o v _ hp rfl (held_afterSend _ _) (fresh_afterSend _ _) rfl
    · cases he
  | pushDone o =>
    simp only [exec] at he
    split at he
    · rename_i v hp
      split at he <;> simp only [Option.some.injEq, reduceCtorEq] at he
      subst he
      exact invB_move h o _ (ok_move (h.ok o) rfl (by simp [held_afterSend]) (fun v hv => hv) (by simp [fresh_afterSend]) (by rw [hp]; simp))
    · cases he
  | cancel o =>
    simp only [exec] at he
    split at he
    · rename_i hp
      simp only [Option.some.injEq] at he
      subst he
      refine invB_move (invB_reg h _ s.ref s.clientDone) o _ ?_
      exact ok_move (h.ok o) rfl (by simp [held]) (fun v hv => hv) (by simp [fresh]) (by rw [hp.1]; simp)
    · cases he
  | close o =>
    simp only [exec] at he
    split at he <;> simp only [Option.some.injEq, reduceCtorEq] at he
    rename_i hp
    subst he
    exact invB_close h o _ (ok_move (h.ok o) rfl (by simp [held]) (fun v hv => hv) (by simp [fresh]) (fun _ => rfl)) hp rfl
  | consume o =>
    simp only [exec] at he
    split at he <;> simp only [Option.some.injEq, reduceCtorEq] at he
    rename_i v hv
    subst he
    exact invB_consume h o v _ rfl rfl hv rfl
  | refStart order =>
    simp only [exec] at he
    split at he <;> simp only [Option.some.injEq, reduceCtorEq] at he
    subst he
    exact invB_reg h s.reg _ s.clientDone
  | refInput r =>
    simp only [exec] at he
    split at he
    · split at he <;> simp only [Option.some.injEq] at he <;> subst he
      · exact invB_reg h s.reg _ s.clientDone
      · exact invB_store h _ r s.reg _
    · cases he
  | refSend =>
    simp only [exec] at he
    split at he
    · rename_i todo o rest hr
      split at he
      · simp only [Option.some.injEq] at he
        subst he
        exact invB_reg h s.reg _ s.clientDone
      · split at he <;> simp only [Option.some.injEq, reduceCtorEq] at he
        subst he
        have := invB_move h o { (s.obs o) with note := true } (ok_move (h.ok o) rfl (fun v hv => Or.inl hv) (fun v hv => hv) (fun hf => hf) fun hf => hf)
        exact invB_reg this s.reg _ s.clientDone
    · cases he
  | refAbort =>
    simp only [exec] at he
    split at he
    · split at he <;> simp only [Option.some.injEq, reduceCtorEq] at he
      subst he
      exact invB_reg h s.reg _ s.clientDone
    · cases he
  | refEnd =>
    simp only [exec] at he
    split at he <;> simp only [Option.some.injEq, reduceCtorEq] at he
    subst he
    exact invB_reg h s.reg _ s.clientDone
  | stopClient =>
    simp only [exec] at he
    split at he <;> simp only [Option.some.injEq, reduceCtorEq] at he
    subst he
    exact invB_reg h s.reg s.ref _

theorem invB {g : St → Act → Prop} {s : St} (h : Reach g s) : InvB s := by
  induction h with
  | init => exact invB_init
  | step _ _ _ he ih => exact invB_step ih he

/-! ### Theorems that hold in every run -/

/-- **C35** Under every schedule, an observer's channel is filled, and its consumer receives, in the
order in which the results were computed; no stale result follows a newer one. -/
theorem C35_order {g : St → Act → Prop} {s : St} (h : Reach g s) : InOrder s.trace := (invB h).order

/-- **C35** A result channel is closed at most once and never used by the mesh client afterwards. -/
theorem C35_quiet {g : St → Act → Prop} {s : St} (h : Reach g s) : QuietAfterClose s.trace := (invB h).quiet

/-- **C35** A consumer only receives what was put into its own channel. -/
theorem C35_genuine {g : St → Act → Prop} {s : St} (h : Reach g s) : Genuine s.trace := fun o v hv => ((invB h).ok o).recv v hv

/-- **C35** The refresher never sends on a closed channel: an observer that leaves takes its
notification channel out of the table before closing it. -/
theorem C35_noPanic {g : St → Act → Prop} {s : St} (h : Reach g s) : s.ref ≠ .crashed := (invA h).alive

/-- **C35** Every result put into a channel is one that was computed for the observer's own input: it
is at most as new as the stored result of that input, and the stored result exists. -/
theorem C35_computed {g : St → Act → Prop} {s : St} (h : Reach g s) (o : Nat) (v : Val) (hv : .pushed o v ∈ s.trace) :
    ∃ w, s.results (s.obs o).input = some w ∧ v.ver ≤ w.ver := ((invB h).ok o).pushedLe v hv

end Verif.Res
