import Verif.Net.ConnState
/-
C73: asking a connection for its TLS state, and TLS handshakes, always finish.
-/
namespace Verif.ConnState

/-- The TLS state is asked for only when no handshake is running. -/
def NotDuring (s : St) : Act → Prop
  | .gStart _ => s.h = .finished
  | _ => True

def anyAct (_ : St) (_ : Act) : Prop := True

/-- Steps of calls that have begun (not the begin of a new call). -/
def Own : Act → Prop
  | .gStart _ => False
  | _ => True

/-- Nothing is left to do: the handshake has finished, its outcome is recorded, and no call is waiting. -/
def Settled (s : St) : Prop := s.h = .finished ∧ s.mux2 = .free ∧ ∀ k, s.g k ≠ .want2

/-! ### The good case -/

structure Inv (s : St) : Prop where
  early : s.h ≠ .finished → ∀ k, s.g k = .none
  readers : s.h ≠ .finished → s.readers = if s.h = .once2 then [none] else []
  mux2 : s.mux2 = .async → s.spawned = true
  once : s.h = .once1 ∨ s.h = .once2 ∨ s.h = .once3 → s.spawned = false
  late : s.h = .finished → ∀ k, s.g k = .want2 → some k ∈ s.readers
  len : s.h = .finished → none ∉ s.readers ∧ s.readers.Nodup ∧ ∀ k, some k ∈ s.readers → s.g k = .want2

theorem inv_step {s s' : St} {a : Act} (h : Inv s) (hg : NotDuring s a) (he : exec s a = some s') : Inv s' := by
  obtain ⟨a1, a2, a3, a4, a5, a6⟩ := h
  cases a with
  | gStart k =>
    simp only [NotDuring] at hg
    simp only [exec] at he
    split at he
    · rename_i hk
      injection he with he; subst he
      obtain ⟨b1, b2, b3⟩ := a6 hg
      refine ⟨fun hx => absurd hg hx, fun hx => absurd hg hx, a3, a4, ?_, ?_⟩
      · intro _ x hx
        simp only at hx ⊢
        split at hx
        · rename_i e; subst e; simp
        · exact List.mem_cons_of_mem _ (a5 hg x hx)
      · intro _
        refine ⟨by simpa using b1, ?_, ?_⟩
        · simp only [List.nodup_cons]
          refine ⟨fun hm => ?_, b2⟩
          have := b3 k hm
          rw [hk.1] at this; cases this
        · intro x hx
          simp only [List.mem_cons, Option.some.injEq] at hx
          simp only
          by_cases e : x = k
          · rw [if_pos e]
          · rw [if_neg e]
            rcases hx with hx | hx
            · exact absurd hx e
            · exact b3 x hx
    · cases he
  | gEnd k =>
    simp only [exec] at he
    split at he
    · rename_i hk
      injection he with he; subst he
      have hf : s.h = .finished := by
        by_cases hf : s.h = .finished
        · exact hf
        · have := a1 hf k; rw [hk.1] at this; cases this
      obtain ⟨b1, b2, b3⟩ := a6 hf
      refine ⟨fun hx => absurd hf hx, fun hx => absurd hf hx, a3, a4, ?_, ?_⟩
      · intro _ x hx
        simp only at hx ⊢
        split at hx
        · cases hx
        · rename_i e
          exact (List.mem_erase_of_ne (by simpa using e)).mpr (a5 hf x hx)
      · intro _
        refine ⟨fun hm => b1 (List.mem_of_mem_erase hm), b2.erase _, ?_⟩
        intro x hx
        simp only
        by_cases e : x = k
        · subst e
          exact absurd hx (by rw [List.Nodup.mem_erase_iff b2]; simp)
        · rw [if_neg e]; exact b3 x (List.mem_of_mem_erase hx)
    · cases he
  | hDone =>
    simp only [exec] at he
    split at he
    · rename_i hk
      injection he with he; subst he
      have hr := a2 (by rw [hk.1]; simp)
      rw [hk.1] at hr
      simp only [reduceCtorEq, if_false] at hr
      have hgn := a1 (by rw [hk.1]; simp)
      refine ⟨fun hx => absurd rfl hx, fun hx => absurd rfl hx, a3, by simp, ?_, ?_⟩
      · intro _ k hx; simp only at hx; rw [hgn k] at hx; cases hx
      · intro _; simp only [hr]; simp
    · cases he
  | aRun =>
    simp only [exec] at he
    split at he
    · injection he with he; subst he
      exact ⟨a1, a2, by simp, a4, a5, a6⟩
    · cases he
  | hIo =>
    simp only [exec] at he
    split at he
    · rename_i hk
      injection he with he; subst he
      have hgn := a1 (by rw [hk.1]; simp)
      have hr := a2 (by rw [hk.1]; simp)
      rw [hk.1] at hr
      exact ⟨fun _ => hgn, fun _ => by simpa using hr, a3, by simp, by simp, by simp⟩
    · cases he
  | hWrite =>
    simp only [exec] at he
    split at he
    · rename_i hk
      injection he with he; subst he
      have hgn := a1 (by rw [hk.1]; simp)
      refine ⟨fun _ => hgn, ?_, a3, ?_, ?_, ?_⟩
      · intro _
        simp only
        cases s.spawned <;> simp [hk.2]
      · cases hs : s.spawned <;> simp
      · cases hs : s.spawned <;> simp
      · cases hs : s.spawned <;> simp
    · cases he
  | hOnceR =>
    simp only [exec] at he
    split at he
    · rename_i hk
      injection he with he; subst he
      have hgn := a1 (by rw [hk]; simp)
      have hr := a2 (by rw [hk]; simp)
      rw [hk] at hr
      simp only [reduceCtorEq, if_false] at hr
      have hs := a4 (Or.inl hk)
      exact ⟨fun _ => hgn, fun _ => by simp [hr], a3, fun _ => hs, by simp, by simp⟩
    · cases he
  | hOnce2 =>
    simp only [exec] at he
    split at he
    · rename_i hk
      injection he with he; subst he
      have hgn := a1 (by rw [hk.1]; simp)
      have hr := a2 (by rw [hk.1]; simp)
      rw [hk.1] at hr
      simp only [if_true] at hr
      have hs := a4 (Or.inr (Or.inl hk.1))
      exact ⟨fun _ => hgn, fun _ => by simp [hr], a3, fun _ => hs, by simp, by simp⟩
    · cases he
  | hSpawn =>
    simp only [exec] at he
    split at he
    · rename_i hk
      injection he with he; subst he
      have hgn := a1 (by rw [hk.1]; simp)
      have hr := a2 (by rw [hk.1]; simp)
      rw [hk.1] at hr
      simp only [reduceCtorEq, if_false] at hr
      exact ⟨fun _ => hgn, fun _ => by simp [hr], fun _ => rfl, by simp, by simp, by simp⟩
    · cases he

theorem inv {n : Nat} {s : St} (h : Reach NotDuring n s) : Inv s := by
  induction h with
  | init => exact ⟨by simp, by simp, by simp, by simp, by simp, by simp⟩
  | step _ hg he ih => exact inv_step ih hg he

/-- What is left to do. -/
def left (s : St) : Nat :=
  7 * s.io + (match s.h with | .ready => 1 | .write => 6 | .once1 => 5 | .once2 => 3 | .once3 => 2 | .finished => 0) +
    (if s.spawned = false then 1 else 0) + (if s.mux2 = .async then 1 else 0) + s.readers.length

theorem left_step {s s' : St} {a : Act} (h : Inv s) (ha : Own a) (he : exec s a = some s') :
    left s' < left s := by
  cases a with
  | gStart k => exact absurd ha (by simp [Own])
  | hIo =>
    simp only [exec] at he
    split at he
    · rename_i hk; injection he with he; subst he; simp only [left, hk.1]; omega
    · cases he
  | hWrite =>
    simp only [exec] at he
    split at he
    · rename_i hk; injection he with he; subst he
      simp only [left, hk.1]
      cases s.spawned <;> simp <;> omega
    · cases he
  | hOnceR =>
    simp only [exec] at he
    split at he
    · rename_i hk; injection he with he; subst he
      simp only [left, hk, List.length_cons]; omega
    · cases he
  | hOnce2 =>
    simp only [exec] at he
    split at he
    · rename_i hk; injection he with he; subst he
      have hr := h.readers (by rw [hk.1]; simp)
      rw [hk.1] at hr
      simp only [if_true] at hr
      simp only [left, hk.1, hr, List.erase_cons_head, List.length_cons, List.length_nil]; omega
    · cases he
  | hSpawn =>
    simp only [exec] at he
    split at he
    · rename_i hk; injection he with he; subst he
      have hs := h.once (Or.inr (Or.inr hk.1))
      simp only [left, hk.1, hk.2, hs]; simp
    · cases he
  | hDone =>
    simp only [exec] at he
    split at he
    · rename_i hk; injection he with he; subst he; simp only [left, hk.1]; omega
    · cases he
  | aRun =>
    simp only [exec] at he
    split at he
    · rename_i hk; injection he with he; subst he; simp only [left, hk.1]; simp
    · cases he
  | gEnd k =>
    simp only [exec] at he
    split at he
    · rename_i hk; injection he with he; subst he
      have hf : s.h = .finished := by
        by_cases hf : s.h = .finished
        · exact hf
        · have := h.early hf k; rw [hk.1] at this; cases this
      have hm := h.late hf k hk.1
      have h1 := List.length_erase_of_mem hm
      have h2 := List.length_pos_of_mem hm
      simp only [left, h1]; omega
    · cases he

/-- **C73** (partial) If the TLS state is not asked for while a handshake is running: as long as anything is
unfinished, some step of a call that has begun is possible … -/
theorem C73_progress_partial {n : Nat} {s : St} (h : Reach NotDuring n s) (hs : ¬ Settled s) :
    ∃ a s', Own a ∧ exec s a = some s' := by
  have hi := inv h
  cases hh : s.h with
  | ready =>
    by_cases h0 : s.io = 0
    · exact ⟨.hDone, _, trivial, by simp only [exec]; rw [if_pos ⟨hh, h0⟩]⟩
    · exact ⟨.hIo, _, trivial, by simp only [exec]; rw [if_pos ⟨hh, by omega⟩]⟩
  | write =>
    have hr := hi.readers (by rw [hh]; simp)
    rw [hh] at hr
    simp only [reduceCtorEq, if_false] at hr
    exact ⟨.hWrite, _, trivial, by simp only [exec]; rw [if_pos ⟨hh, hr⟩]⟩
  | once1 => exact ⟨.hOnceR, _, trivial, by simp only [exec]; rw [if_pos hh]⟩
  | once2 =>
    have h2 : s.mux2 = .free := by
      cases hm : s.mux2 with
      | free => rfl
      | async => have := hi.mux2 hm; rw [hi.once (Or.inr (Or.inl hh))] at this; cases this
    exact ⟨.hOnce2, _, trivial, by simp only [exec]; rw [if_pos ⟨hh, h2⟩]⟩
  | once3 =>
    have h2 : s.mux2 = .free := by
      cases hm : s.mux2 with
      | free => rfl
      | async => have := hi.mux2 hm; rw [hi.once (Or.inr (Or.inr hh))] at this; cases this
    exact ⟨.hSpawn, _, trivial, by simp only [exec]; rw [if_pos ⟨hh, h2⟩]⟩
  | finished =>
    cases hm : s.mux2 with
    | async => exact ⟨.aRun, _, trivial, by simp only [exec]; rw [if_pos ⟨hm, hh⟩]⟩
    | free =>
      have : ∃ k, s.g k = .want2 := by
        apply Classical.byContradiction
        intro hn
        exact hs ⟨hh, hm, fun k hk => hn ⟨k, hk⟩⟩
      obtain ⟨k, hk⟩ := this
      exact ⟨.gEnd k, _, trivial, by simp only [exec]; rw [if_pos ⟨hk, hm⟩]⟩

/-- A run of steps of calls that have begun. -/
inductive OwnSteps : Nat → St → St → Prop where
  | refl {s : St} : OwnSteps 0 s s
  | step {n : Nat} {s s' s'' : St} {a : Act} : OwnSteps n s s' → Own a → exec s' a = some s'' → OwnSteps (n + 1) s s''

theorem inv_own {n : Nat} {s s' : St} (h : Inv s) (hs : OwnSteps n s s') : Inv s' := by
  induction hs with
  | refl => exact h
  | @step n s s' s'' a _ ha he ih =>
    refine inv_step (ih h) ?_ he
    cases a <;> first | trivial | exact absurd ha (by simp [Own])

/-- **C73** (partial) … and only finitely many are: at most `left s`, so the handshake and all calls end. -/
theorem C73_finite_partial {n k : Nat} {s s' : St} (h : Reach NotDuring n s) (hs : OwnSteps k s s') : k ≤ left s := by
  have hi := inv h
  have key : k + left s' ≤ left s := by
    clear h
    induction hs with
    | refl => omega
    | step hs ha he ih =>
      have := left_step (inv_own hi hs) ha he
      have := ih hi
      omega
  omega

/-! ### Asking during a handshake -/

/-- The handshake waits for `mux`, a reader of `mux` for `mux2`, the owner of `mux2` for the handshake. -/
structure Stuck (s : St) : Prop where
  h : s.h = .write
  mux2 : s.mux2 = .async
  reader : ∃ k, s.g k = .want2 ∧ some k ∈ s.readers
  nog : ∀ k, s.g k = .want2 → some k ∈ s.readers

theorem stuck_step {s s' : St} {a : Act} (h : Stuck s) (he : exec s a = some s') : False := by
  obtain ⟨h1, h2, ⟨k, h3, h4⟩, h5⟩ := h
  have hr : s.readers ≠ [] := fun e => by rw [e] at h4; cases h4
  cases a <;> simp [exec, h1, h2, hr] at he

/-- **C73 refuted**: if any goroutine asks a connection for its TLS state (or its peer's certificate) while the
handshake is running, the two can block each other for ever: for every handshake of two or more
network operations there is a schedule after which no step is possible, in any continuation, and
neither the handshake nor the call ever ends; later calls block as well. -/
theorem C73_deadlock_false (n : Nat) (hn : 2 ≤ n) : ∃ s, Reach anyAct n s ∧ s.h ≠ .finished ∧ s.g 0 = .want2 ∧
    (∀ a, exec s a = none) ∧ ∀ s', Steps s s' → s' = s := by
  obtain ⟨m, rfl⟩ : ∃ m, n = m + 2 := ⟨n - 2, by omega⟩
  have h1 : Reach anyAct (m + 2) { io := m + 1, h := .write } := .step (a := .hIo) .init trivial (by simp [exec])
  have h2 : Reach anyAct (m + 2) { io := m + 1, h := .once1 } := .step (a := .hWrite) h1 trivial (by simp [exec])
  have h3 : Reach anyAct (m + 2) { io := m + 1, h := .once2, readers := [none] } := .step (a := .hOnceR) h2 trivial (by simp [exec])
  have h4 : Reach anyAct (m + 2) { io := m + 1, h := .once3 } := .step (a := .hOnce2) h3 trivial (by simp [exec])
  have h5 : Reach anyAct (m + 2) { io := m + 1, h := .ready, spawned := true, mux2 := .async } := .step (a := .hSpawn) h4 trivial (by simp [exec])
  have h6 : Reach anyAct (m + 2) { io := m + 1, h := .ready, spawned := true, mux2 := .async, readers := [some 0], g := fun x => if x = 0 then .want2 else .none } :=
    .step (a := .gStart 0) h5 trivial (by simp [exec])
  have h7 : Reach anyAct (m + 2) { io := m, h := .write, spawned := true, mux2 := .async, readers := [some 0], g := fun x => if x = 0 then .want2 else .none } :=
    .step (a := .hIo) h6 trivial (by simp [exec])
  have hst : Stuck { io := m, h := .write, spawned := true, mux2 := .async, readers := [some 0], g := fun x => if x = 0 then .want2 else .none } := by
    refine ⟨rfl, rfl, ⟨0, rfl, by simp⟩, ?_⟩
    intro k hk
    simp only at hk
    split at hk
    · rename_i e; simp [e]
    · cases hk
  refine ⟨_, h7, by simp, rfl, ?_, ?_⟩
  · intro a
    cases he : exec _ a with
    | none => rfl
    | some x => exact absurd (stuck_step hst he) id
  · intro s' hs
    induction hs with
    | refl => rfl
    | step _ he ih => subst ih; exact absurd (stuck_step hst he) id

/-! ### Non-vacuity -/

/-- A handshake of one operation, and one call after it: everything ends. -/
example : ∃ s, Reach NotDuring 1 s ∧ Settled s ∧ s.g 0 = .done := by
  have h1 : Reach NotDuring 1 { io := 0, h := .write } := .step (a := .hIo) .init trivial (by simp [exec])
  have h2 : Reach NotDuring 1 { io := 0, h := .once1 } := .step (a := .hWrite) h1 trivial (by simp [exec])
  have h3 : Reach NotDuring 1 { io := 0, h := .once2, readers := [none] } := .step (a := .hOnceR) h2 trivial (by simp [exec])
  have h4 : Reach NotDuring 1 { io := 0, h := .once3 } := .step (a := .hOnce2) h3 trivial (by simp [exec])
  have h5 : Reach NotDuring 1 { io := 0, h := .ready, spawned := true, mux2 := .async } := .step (a := .hSpawn) h4 trivial (by simp [exec])
  have h6 : Reach NotDuring 1 { io := 0, h := .finished, spawned := true, mux2 := .async } := .step (a := .hDone) h5 trivial (by simp [exec])
  have h7 : Reach NotDuring 1 { io := 0, h := .finished, spawned := true, mux2 := .async, readers := [some 0], g := fun x => if x = 0 then .want2 else .none } :=
    .step (a := .gStart 0) h6 rfl (by simp [exec])
  have h8 : Reach NotDuring 1 { io := 0, h := .finished, spawned := true, readers := [some 0], g := fun x => if x = 0 then .want2 else .none } :=
    .step (a := .aRun) h7 trivial (by simp [exec])
  have h9 := Reach.step (a := .gEnd 0) h8 (show NotDuring _ _ from trivial) rfl
  refine ⟨_, h9, ⟨rfl, rfl, ?_⟩, rfl⟩
  intro k hk
  simp only at hk
  split at hk
  · cases hk
  · simp at hk

end Verif.ConnState
