import Verif.Exp.NioConn
/-
C85, C86: writing through the Java binding.
-/
namespace Verif.Props
open Verif Verif.Kafka Verif.Nio

/-- a write that fails has written nothing, or no write succeeds afterwards; a write that fails after `Close` is not
followed by one that succeeds -/
def CleanFailure (s : WSt) : WAct → Prop
  | .failed _ n isEof perm => (s.dead = true → n = 0) ∧ (perm = true ∨ s.dead = true ∨ (n = 0 ∧ isEof = false ∧ s.terminated = false))
  | _ => True

/-- states of a connection whose writing is always requested with one key, and whose failing writes are clean -/
inductive ReachW (key : Nat) : WSt → Prop
  | start : ReachW key {}
  | step {s s' : WSt} {a : WAct} : ReachW key s → (∀ k, a = .start k → k = key) → CleanFailure s a → wexec s a = some s' →
      ReachW key s'

def curOf : WPhase → Option Bytes
  | .write b => some b
  | _ => none
def curs (l : List (Nat × WPhase)) : List Bytes := l.filterMap fun r => curOf r.2
def liveW : WPhase → Bool
  | .take => true
  | .write _ => true
  | _ => false

/-- nothing will be taken from the channel and written any more -/
def WSt.over (s : WSt) : Prop := s.dead = true ∨ (s.eof = true ∧ s.chan = [])

theorem wover_step {s s' : WSt} {a : WAct} (h : wexec s a = some s') (ho : WSt.over s) : WSt.over s' := by
  cases a <;> simp only [wexec] at h
  case next i =>
    split at h
    · rcases ho with ho | ⟨ho, hc⟩
      · split at h
        · injection h with h; subst h; exact Or.inl ho
        · split at h
          · injection h with h; subst h; exact Or.inl ho
          · cases h
      · rw [hc] at h
        simp only at h
        rw [if_pos ho] at h
        injection h with h; subst h
        exact Or.inr ⟨ho, rfl⟩
    · cases h
  case send i =>
    split at h
    · cases h
    · rcases ho with ho | ⟨ho, hc⟩
      · (repeat' split at h) <;> (injection h with h; subst h; exact Or.inl ho)
      · rw [if_pos ho] at h
        injection h with h; subst h
        exact Or.inr ⟨ho, hc⟩
  all_goals
    (repeat' split at h)
    all_goals first
      | (cases h; done)
      | (injection h with h; subst h
         rcases ho with ho | ⟨ho, hn⟩
         · first
           | exact Or.inl ho
           | exact Or.inl rfl
           | (refine Or.inl ?_; simp [ho])
         · first
           | exact Or.inr ⟨ho, hn⟩
           | exact Or.inr ⟨rfl, hn⟩
           | exact Or.inl rfl)

theorem curs_same {l : List (Nat × WPhase)} {i k : Nat} {p p' : WPhase} (h : l[i]? = some (k, p)) (hp : curOf p = none)
    (hp' : curOf p' = none) : curs (setW l i p') = curs l := by
  induction l generalizing i with
  | nil => simp at h
  | cons r l ih =>
    cases i with
    | zero =>
      simp only [List.getElem?_cons_zero] at h
      injection h with h; subst h
      simp [setW, curs, hp, hp']
    | succ i =>
      have := ih (i := i) (by simpa using h)
      simp only [setW, List.modify_succ_cons, curs, List.filterMap_cons] at this ⊢
      rw [this]

theorem curs_add {l : List (Nat × WPhase)} {i k : Nat} {p : WPhase} {c : Bytes} (h : l[i]? = some (k, p)) (hp : curOf p = none)
    (hl : l.length ≤ 1) : curs l = [] ∧ curs (setW l i (.write c)) = [c] := by
  match l, hl with
  | [], _ => simp at h
  | [r], _ =>
    cases i with
    | zero =>
      simp only [List.getElem?_cons_zero] at h
      injection h with h; subst h
      have hg : curOf (.write c) = some c := rfl
      simp [setW, curs, hp, hg]
    | succ i => simp at h

theorem curs_only {l : List (Nat × WPhase)} {i k : Nat} {c : Bytes} (p' : WPhase) (h : l[i]? = some (k, .write c))
    (hl : (curs l).length ≤ 1) : curs l = [c] ∧ curs (setW l i p') = (curOf p').toList := by
  induction l generalizing i with
  | nil => simp at h
  | cons r l ih =>
    cases i with
    | zero =>
      simp only [List.getElem?_cons_zero] at h
      injection h with h; subst h
      have h0 : curs ((k, WPhase.write c) :: l) = c :: curs l := by simp [curs, curOf]
      rw [h0] at hl ⊢
      have h1 : curs l = [] := by simpa using hl
      refine ⟨by rw [h1], ?_⟩
      unfold curs at h1
      simp only [setW, List.modify_zero_cons, curs, List.filterMap_cons]
      cases curOf p' <;> simp [h1]
    | succ i =>
      have hi : l[i]? = some (k, .write c) := by simpa using h
      cases hr : curOf r.2 with
      | none =>
        have h0 : curs (r :: l) = curs l := by simp [curs, hr]
        rw [h0] at hl ⊢
        have := ih hi hl
        refine ⟨this.1, ?_⟩
        simp only [setW, List.modify_succ_cons, curs, List.filterMap_cons, hr]
        exact this.2
      | some d =>
        have h0 : curs (r :: l) = d :: curs l := by simp [curs, hr]
        rw [h0] at hl
        have h1 : curs l = [] := by simpa using hl
        have := (ih hi (by rw [h1]; simp)).1
        rw [h1] at this; cases this

theorem liveW_set {l : List (Nat × WPhase)} {i : Nat} {p : WPhase} (h : ∀ r ∈ l, liveW r.2 = true) (hp : liveW p = true) :
    ∀ r ∈ setW l i p, liveW r.2 = true := by
  intro r hr
  obtain ⟨j, hj⟩ := List.getElem?_of_mem hr
  unfold setW at hj
  rw [List.getElem?_modify] at hj
  cases hx : l[j]? with
  | none => rw [hx] at hj; simp at hj
  | some q =>
    rw [hx] at hj
    have hq := List.mem_of_getElem? hx
    split at hj
    · simp at hj; rw [← hj]; exact hp
    · simp at hj; rw [← hj]; exact h q hq

theorem setW_length (l : List (Nat × WPhase)) (i : Nat) (p : WPhase) : (setW l i p).length = l.length := by simp [setW]
theorem setW_ne {l : List (Nat × WPhase)} {i : Nat} {p : WPhase} (h : setW l i p ≠ []) : l ≠ [] := by
  intro hc; rw [hc] at h; simp [setW] at h

structure WInv (key : Nat) (s : WSt) : Prop where
  one : ¬ WSt.over s → s.writers.length ≤ 1 ∧ (s.writers ≠ [] → s.inProg key = some true ∧ ∀ r ∈ s.writers, liveW r.2 = true)
  few : s.dead = false → (curs s.writers).length ≤ 1
  bytes : s.dead = false → s.wire ++ (curs s.writers).flatten ++ s.chan.flatten = s.accepted
  sent : s.wire <+: s.accepted

theorem winv_step {key : Nat} {s s' : WSt} {a : WAct} (hi : WInv key s) (hk : ∀ k, a = .start k → k = key)
    (hc : CleanFailure s a) (h : wexec s a = some s') : WInv key s' := by
  have hov : ¬ WSt.over s' → ¬ WSt.over s := fun h1 h2 => h1 (wover_step h h2)
  obtain ⟨h1, h2, h3, h4⟩ := hi
  cases a <;> simp only [wexec] at h
  case call b => split at h <;> (injection h with h; subst h; exact ⟨h1, h2, h3, h4⟩)
  case send i =>
    split at h
    · cases h
    · rename_i b hb
      split at h
      · injection h with h; subst h; exact ⟨fun ho => h1 (hov ho), h2, h3, h4⟩
      · split at h
        · injection h with h; subst h
          refine ⟨fun ho => h1 (hov ho), h2, ?_, ?_⟩
          · intro hd; simp only; rw [← h3 hd]; simp
          · exact h4.trans ⟨b, rfl⟩
        · injection h with h; subst h; exact ⟨fun ho => h1 (hov ho), h2, h3, h4⟩
  case start k =>
    have := hk k rfl; subst this
    split at h
    · injection h with h; subst h; exact ⟨h1, h2, h3, h4⟩
    · rename_i hp
      injection h with h; subst h
      have hc : curs (s.writers ++ [(k, WPhase.take)]) = curs s.writers := by simp [curs, curOf]
      refine ⟨?_, by simp only [hc]; exact h2, by simp only [hc]; exact h3, h4⟩
      intro ho
      have ho' : ¬ WSt.over s := hov ho
      have he : s.writers = [] := by
        rcases Classical.em (s.writers = []) with h | h
        · exact h
        · exact absurd ((h1 ho').2 h).1 hp
      rw [he]
      exact ⟨by simp, fun _ => ⟨by simp [updO], by simp [liveW]⟩⟩
  case next i =>
    split at h
    · rename_i k hr
      split at h
      · rename_i b r hch
        injection h with h; subst h
        refine ⟨?_, ?_, ?_, h4⟩
        · intro ho
          obtain ⟨a1, a2⟩ := h1 (hov ho)
          exact ⟨by simp only [setW_length]; exact a1, fun hn => ⟨(a2 (setW_ne hn)).1, liveW_set (a2 (setW_ne hn)).2 rfl⟩⟩
        · intro hd
          have ho : ¬ WSt.over s := by
            rintro (hc | ⟨_, hc⟩)
            · rw [show s.dead = false from hd] at hc; cases hc
            · rw [hch] at hc; cases hc
          rw [(curs_add hr rfl (h1 ho).1).2]; simp
        · intro hd
          have ho : ¬ WSt.over s := by
            rintro (hc | ⟨_, hc⟩)
            · rw [show s.dead = false from hd] at hc; cases hc
            · rw [hch] at hc; cases hc
          obtain ⟨c1, c2⟩ := curs_add (c := b) hr rfl (h1 ho).1
          have h3' := h3 hd
          rw [c1, hch] at h3'
          simp only [c2]
          rw [← h3']; simp
      · rename_i hch
        split at h
        · rename_i he
          injection h with h; subst h
          have hcs := curs_same (p' := .endDelete) hr rfl rfl
          exact ⟨fun ho => absurd (Or.inr ⟨he, hch⟩) (hov ho), by simp only [hcs]; exact h2, by simp only [hcs]; exact h3, h4⟩
        · cases h
    · cases h
  case wrote i n =>
    split at h
    · rename_i k b hr
      split at h
      · rename_i hn
        injection h with h; subst h
        obtain ⟨hd, hn⟩ := hn
        obtain ⟨c1, c2⟩ := curs_only (if n = b.length then .take else .write (b.drop n)) hr (h2 hd)
        have h3' := h3 hd
        rw [c1] at h3'
        have key3 : (s.wire ++ b.take n) ++ (curs (setW s.writers i (if n = b.length then .take else .write (b.drop n)))).flatten ++
            s.chan.flatten = s.accepted := by
          rw [c2, ← h3']
          by_cases hl : n = b.length
          · rw [if_pos hl, hl]
            simp [curOf]
          · rw [if_neg hl]
            simp [curOf]
        refine ⟨?_, ?_, fun _ => key3, ⟨(curs (setW s.writers i (if n = b.length then .take else .write (b.drop n)))).flatten ++ s.chan.flatten,
          by rw [← key3]; simp only [List.append_assoc]⟩⟩
        · intro ho
          obtain ⟨a1, a2⟩ := h1 (hov ho)
          exact ⟨by simp only [setW_length]; exact a1, fun hn => ⟨(a2 (setW_ne hn)).1, liveW_set (a2 (setW_ne hn)).2 (by split <;> rfl)⟩⟩
        · intro _; simp only [c2]; split <;> simp [curOf]
      · cases h
    · cases h
  case failed i n isEof perm =>
    obtain ⟨hz, hperm⟩ := hc
    split at h
    · rename_i k b hr
      split at h
      · rename_i hn
        -- what was written is a prefix of what was accepted
        have hsent : s.wire ++ b.take n <+: s.accepted := by
          cases hd : s.dead with
          | true => rw [hz hd]; simpa using h4
          | false =>
            have h3' := h3 hd
            rw [(curs_only .take hr (h2 hd)).1] at h3'
            refine ⟨b.drop n ++ s.chan.flatten, ?_⟩
            rw [← h3']
            simp only [List.flatten_cons, List.flatten_nil, List.append_nil, List.append_assoc]
            rw [← List.append_assoc (b.take n), List.take_append_drop]
        split at h
        · rename_i ht
          injection h with h; subst h
          have hdead : (s.dead || perm) = true := by
            rcases hperm with hp | hp | ⟨_, _, hp⟩
            · simp [hp]
            · simp [hp]
            · rw [ht] at hp; cases hp
          exact ⟨fun ho => absurd (Or.inl hdead) ho, fun hd => (by have hd' : (s.dead || perm) = false := hd; rw [hdead] at hd'; cases hd'),
            fun hd => (by have hd' : (s.dead || perm) = false := hd; rw [hdead] at hd'; cases hd'), hsent⟩
        · split at h
          · rename_i ht hee
            injection h with h; subst h
            have hdead : (s.dead || perm) = true := by
              rcases hperm with hp | hp | ⟨_, hp, _⟩
              · simp [hp]
              · simp [hp]
              · rw [hee] at hp; cases hp
            exact ⟨fun ho => absurd (Or.inl hdead) ho, fun hd => (by have hd' : (s.dead || perm) = false := hd; rw [hdead] at hd'; cases hd'),
              fun hd => (by have hd' : (s.dead || perm) = false := hd; rw [hdead] at hd'; cases hd'), hsent⟩
          · injection h with h; subst h
            refine ⟨fun ho => h1 (hov ho), ?_, ?_, hsent⟩
            · intro hd
              have : s.dead = false := by cases hx : s.dead <;> simp_all
              exact h2 this
            · intro hd
              have hd0 : s.dead = false := by cases hx : s.dead <;> simp_all
              have hn0 : n = 0 := by
                rcases hperm with hp | hp | ⟨hp, _, _⟩
                · simp only [hp, Bool.or_true] at hd; cases hd
                · rw [hd0] at hp; cases hp
                · exact hp
              simp only [hn0, List.take_zero, List.append_nil]
              exact h3 hd0
      · cases h
    · cases h
  case endStore i =>
    split at h
    · rename_i k hr
      injection h with h; subst h
      have hcs := curs_same (p' := .endDelete) hr rfl rfl
      refine ⟨?_, by simp only [hcs]; exact h2, by simp only [hcs]; exact h3, h4⟩
      intro ho
      have hm := List.mem_of_getElem? hr
      have := ((h1 (hov ho)).2 (List.ne_nil_of_mem hm)).2 _ hm
      simp [liveW] at this
    · cases h
  case endDelete i =>
    split at h
    · rename_i k hr
      injection h with h; subst h
      have hcs := curs_same (p' := .finished) hr rfl rfl
      refine ⟨?_, by simp only [hcs]; exact h2, by simp only [hcs]; exact h3, h4⟩
      intro ho
      have hm := List.mem_of_getElem? hr
      have := ((h1 (hov ho)).2 (List.ne_nil_of_mem hm)).2 _ hm
      simp [liveW] at this
    · cases h
  case readEof => injection h with h; subst h; exact ⟨fun ho => h1 (hov ho), h2, h3, h4⟩
  case close => injection h with h; subst h; exact ⟨fun ho => h1 (hov ho), h2, h3, h4⟩
  case connClose =>
    split at h
    · injection h with h; subst h
      exact ⟨fun ho => absurd (Or.inl rfl) ho, fun hd => (by cases hd), fun hd => (by cases hd), h4⟩
    · cases h
  case unregister k => injection h with h; subst h; exact ⟨fun ho => h1 (hov ho), h2, h3, h4⟩

theorem winv_reach {key : Nat} {s : WSt} (h : ReachW key s) : WInv key s := by
  induction h with
  | start => exact ⟨fun _ => ⟨by simp, by simp⟩, fun _ => by simp [curs], fun _ => rfl, ⟨[], rfl⟩⟩
  | step _ hk hc hx ih => exact winv_step ih hk hc hx

/-! ### C85 -/

/-- **C85** The bytes sent on the connection are a beginning of the bytes `AsyncWrite` accepted, in the order it accepted them,
in every interleaving of writers, `AsyncWrite`, further requests to write and `Close`; while no permanent failure has occurred
what is missing is in the hands of the writer or in the channel. -/
theorem C85_in_order {key : Nat} {s : WSt} (h : ReachW key s) : s.wire <+: s.accepted ∧
    (s.dead = false → ∃ held : Bytes, s.wire ++ held ++ s.chan.flatten = s.accepted) :=
  ⟨(winv_reach h).sent, fun hd => ⟨_, (winv_reach h).bytes hd⟩⟩

/-- **C85** … so everything accepted has been sent once the channel is empty and no writer holds a buffer. -/
theorem C85_all_sent {key : Nat} {s : WSt} (h : ReachW key s) (hd : s.dead = false) (hc : s.chan = [])
    (hw : ∀ r ∈ s.writers, curOf r.2 = none) : s.wire = s.accepted := by
  have h3 := (winv_reach h).bytes hd
  have hcs : curs s.writers = [] := by
    unfold curs
    rw [List.filterMap_eq_nil_iff]
    exact hw
  rw [hcs, hc] at h3
  simpa using h3

/-- **C85** A writer with something to send can proceed: it takes the next buffer or writes. -/
theorem C85_progress {key : Nat} {s : WSt} (_ : ReachW key s) (hd : s.dead = false) (i k : Nat) (p : WPhase)
    (hr : s.writers[i]? = some (k, p)) (hp : liveW p = true) (hc : s.chan ≠ [] ∨ curOf p ≠ none) :
    ∃ a s', wexec s a = some s' ∧ (a = .next i ∨ ∃ b, p = .write b ∧ a = .wrote i b.length) := by
  cases p with
  | take =>
    rcases hc with hc | hc
    · cases hx : s.chan with
      | nil => exact absurd hx hc
      | cons b r => exact ⟨.next i, _, by simp only [wexec, hr, hx]; rfl, Or.inl rfl⟩
    · exact absurd rfl hc
  | write b => exact ⟨.wrote i b.length, _, by simp only [wexec, hr]; rw [if_pos ⟨hd, Nat.le_refl _⟩], Or.inr ⟨b, rfl, rfl⟩⟩
  | endStore => cases hp
  | endDelete => cases hp
  | finished => cases hp

/-! ### C86 -/

/-- **C86** (negation) Nothing is sent unless writing was requested with `StartAsyncWrite`: until then accepted data stays in the
channel, whatever else happens. -/
theorem C86_never_sent_false : ∀ (as : List WAct) (s : WSt), (∀ a ∈ as, ∀ k, a ≠ .start k) → wruns as {} = some s → s.wire = [] := by
  have gen : ∀ (as : List WAct) (t s : WSt), t.writers = [] → t.wire = [] → (∀ a ∈ as, ∀ k, a ≠ .start k) → wruns as t = some s →
      s.wire = [] := by
    intro as
    induction as with
    | nil => intro t s _ h _ hx; injection hx with hx; rw [← hx]; exact h
    | cons a as ih =>
      intro t s hw h0 hk hx
      simp only [wruns] at hx
      cases hy : wexec t a with
      | none => rw [hy] at hx; cases hx
      | some u =>
        rw [hy] at hx
        refine ih u s ?_ ?_ (fun b hb => hk b (by simp [hb])) hx
        · cases a <;> simp only [wexec, hw, List.getElem?_nil] at hy
          case start k => exact absurd rfl (hk _ (by simp) k)
          all_goals
            (repeat' split at hy)
            all_goals first
              | (cases hy; done)
              | (injection hy with hy; subst hy; first | rfl | exact hw)
        · cases a <;> simp only [wexec, hw, List.getElem?_nil] at hy
          case start k => exact absurd rfl (hk _ (by simp) k)
          all_goals
            (repeat' split at hy)
            all_goals first
              | (cases hy; done)
              | (injection hy with hy; subst hy; first | rfl | exact h0)
  intro as s hk h
  exact gen as {} s rfl rfl hk h

/-- … although up to 64 buffers are accepted -/
example : (wruns [.call [1, 2], .send 0] {}).map (fun s => (s.accepted, s.chan)) = some ([1, 2], [[1, 2]]) := by decide +kernel

/-- **C86** (negation) `AsyncWrite` while the connection is closed, or its peer closes it, can crash the program. -/
theorem C86_crash_false :
    (wruns [.start 7, .call [1], .close, .send 0] {}).map (·.crashed) = some true ∧
    (wruns [.start 7, .call [1], .readEof, .send 0] {}).map (·.crashed) = some true := by decide +kernel

/-- **C86** (negation) Data that was accepted is lost by `Close`. -/
theorem C86_close_loses_false :
    (wruns [.start 7, .call [1, 2], .send 0, .close, .connClose, .next 0, .failed 0 0 false true, .endStore 0, .endDelete 0] {}).map
      (fun s => (s.accepted, s.wire, s.writers)) = some ([1, 2], [], [(7, .finished)]) := by decide +kernel

/-- **C86** (negation) A write that fails after a part of the buffer is repeated from the beginning. -/
theorem C86_repeated_false :
    (wruns [.start 7, .call [1, 2, 3], .send 0, .next 0, .failed 0 2 false false, .wrote 0 3] {}).map
      (fun s => (s.accepted, s.wire)) = some ([1, 2, 3], [1, 2, 1, 2, 3]) := by decide +kernel

/-- **C86** (partial) `AsyncWrite` that finds the connection open until its send, with room in the channel, accepts everything;
without room nothing. -/
theorem C86_accept_partial (s : WSt) (i : Nat) (b : Bytes) (h : s.calls[i]? = some b) (he : s.eof = false) :
    ∃ s', wexec s (.send i) = some s' ∧ s'.crashed = s.crashed ∧
      (s.chan.length < maxWriteBuffers → s'.accepted = s.accepted ++ b ∧ s'.chan = s.chan ++ [b]) ∧
      (¬ s.chan.length < maxWriteBuffers → s'.accepted = s.accepted ∧ s'.chan = s.chan) := by
  simp only [wexec, h, he, Bool.false_eq_true, if_false]
  by_cases hl : s.chan.length < maxWriteBuffers
  · rw [if_pos hl]; exact ⟨_, rfl, rfl, fun _ => ⟨rfl, rfl⟩, fun hn => absurd hl hn⟩
  · rw [if_neg hl]; exact ⟨_, rfl, rfl, fun hn => absurd hn hl, fun _ => ⟨rfl, rfl⟩⟩

/-- a reachable state with two buffers, one of them written in two parts, after a temporary failure -/
example : ∃ s, ReachW 7 s ∧ s.wire = [1, 2, 3] ∧ s.accepted = [1, 2, 3, 4] ∧ s.dead = false :=
  ⟨_, .step (.step (.step (.step (.step (.step (.step (.step (.step .start (a := .start 7) (by simp) trivial rfl)
      (a := .call [1, 2, 3]) (by simp) trivial rfl) (a := .call [4]) (by simp) trivial rfl) (a := .send 0) (by simp) trivial rfl)
      (a := .send 0) (by simp) trivial rfl) (a := .next 0) (by simp) trivial rfl) (a := .wrote 0 2) (by simp) trivial rfl)
      (a := .failed 0 0 false false) (by simp) ⟨by simp, Or.inr (Or.inr ⟨rfl, rfl, rfl⟩)⟩ rfl)
      (a := .wrote 0 1) (by simp) trivial rfl, rfl, rfl, rfl⟩

end Verif.Props
