import Verif.Exp.NioOpen
/-
C87, C88: accepting and dialing through the Java binding.
-/
namespace Verif.Props
open Verif Verif.Kafka Verif.Nio

/-! ### C87 -/

/-- states of a listener in any interleaving -/
inductive ReachA : ASt → Prop
  | start : ReachA {}
  | step {s s' : ASt} {a : AAct} : ReachA s → aexec s a = some s' → ReachA s'

/-- the connection an accepting goroutine holds -/
def heldOf : APhase → Option Nat
  | .put c => some c
  | _ => none
def helds (l : List (Nat × APhase)) : List Nat := l.filterMap fun r => heldOf r.2

def liveA (p : APhase) : Bool := p != .finished

/-- the goroutines that have not ended -/
def lives (l : List (Nat × APhase)) : List (Nat × APhase) := l.filter fun r => liveA r.2

theorem lives_set {l : List (Nat × APhase)} {i k : Nat} {p p' : APhase} (h : l[i]? = some (k, p)) (hp : liveA p = true)
    (hl : (lives l).length ≤ 1) :
    lives l = [(k, p)] ∧ lives (setA l i p') = (if liveA p' then [(k, p')] else []) := by
  induction l generalizing i with
  | nil => simp at h
  | cons r l ih =>
    cases i with
    | zero =>
      simp only [List.getElem?_cons_zero] at h
      injection h with h; subst h
      have h0 : lives ((k, p) :: l) = (k, p) :: lives l := by simp [lives, hp]
      rw [h0] at hl ⊢
      have h1 : lives l = [] := by simpa using hl
      refine ⟨by rw [h1], ?_⟩
      unfold lives at h1
      simp only [setA, List.modify_zero_cons, lives, List.filter_cons, h1]
    | succ i =>
      have hi : l[i]? = some (k, p) := by simpa using h
      cases hr : liveA r.2 with
      | false =>
        have h0 : lives (r :: l) = lives l := by simp [lives, hr]
        rw [h0] at hl ⊢
        have := ih hi hl
        refine ⟨this.1, ?_⟩
        rw [← this.2]
        simp [setA, lives, hr]
      | true =>
        have h0 : lives (r :: l) = r :: lives l := by simp [lives, hr]
        rw [h0] at hl
        have h1 : lives l = [] := by simpa using hl
        have := (ih hi (by rw [h1]; simp)).1
        rw [h1] at this; cases this

theorem helds_lives (l : List (Nat × APhase)) : helds l = helds (lives l) := by
  induction l with
  | nil => rfl
  | cons r l ih =>
    obtain ⟨k, p⟩ := r
    cases p <;> simp_all [helds, lives, liveA, heldOf]

structure AInv (s : ASt) : Prop where
  one : (lives s.accs).length ≤ 1 ∧ (s.inProg = false ↔ lives s.accs = [])
  order : s.handed ++ s.chan ++ helds s.accs ++ s.backlog = s.arrived
  cap : s.chan.length ≤ acceptCap
  told : s.chan ≠ [] → (∃ k, lives s.accs = [(k, .notify)]) ∨ (∃ k, Ev.mine k ∈ s.queue) ∨ s.owed = true

theorem ainv_step {s s' : ASt} {a : AAct} (hi : AInv s) (h : aexec s a = some s') : AInv s' := by
  obtain ⟨⟨h1, h1'⟩, h2, h3, h4⟩ := hi
  cases a <;> simp only [aexec] at h
  case arrive c =>
    split at h
    · cases h
    · injection h with h; subst h
      exact ⟨⟨h1, h1'⟩, by rw [← h2]; simp, h3, h4⟩
  case start k =>
    split at h
    · injection h with h; subst h; exact ⟨⟨h1, h1'⟩, h2, h3, h4⟩
    · rename_i hp
      have hp : s.inProg = false := by simpa using hp
      injection h with h; subst h
      have hl : lives (s.accs ++ [(k, APhase.accept)]) = [(k, .accept)] := by
        have := h1'.mp hp
        unfold lives at this ⊢
        rw [List.filter_append, this]; simp [liveA]
      have hh : helds (s.accs ++ [(k, APhase.accept)]) = helds s.accs := by simp [helds, heldOf]
      refine ⟨⟨by simp [hl], by simp [hl]⟩, by simp only [hh]; exact h2, h3, ?_⟩
      intro hc
      rcases h4 hc with ⟨k', hk⟩ | hk | hk
      · rw [h1'.mp hp] at hk; cases hk
      · exact Or.inr (Or.inl hk)
      · exact Or.inr (Or.inr hk)
  case accept i =>
    split at h
    · rename_i k c r ha hb
      split at h
      · cases h
      · injection h with h; subst h
        obtain ⟨c1, c2⟩ := lives_set (p' := .put c) ha rfl h1
        have e1 : helds s.accs = [] := by rw [helds_lives, c1]; rfl
        have e2 : helds (setA s.accs i (.put c)) = [c] := by rw [helds_lives, c2]; rfl
        refine ⟨⟨by simp only [c2]; simp [liveA], by simp only [c2]; simp [liveA, show s.inProg = true by cases hq : s.inProg with | true => rfl | false => rw [c1] at h1'; simp [hq] at h1']⟩, ?_, h3, ?_⟩
        · simp only [e2]; rw [← h2, e1, hb]; simp
        · intro hc
          rcases h4 hc with ⟨k', hk⟩ | hk
          · rw [c1] at hk; cases hk
          · exact Or.inr hk
    · cases h
  case fail i =>
    split at h
    · rename_i k ha
      split at h
      · injection h with h; subst h
        obtain ⟨c1, c2⟩ := lives_set (p' := .finished) ha rfl h1
        have e1 : helds s.accs = [] := by rw [helds_lives, c1]; rfl
        have e2 : helds (setA s.accs i .finished) = [] := by rw [helds_lives, c2]; rfl
        have c3 : lives (setA s.accs i .finished) = [] := by rw [c2]; rfl
        refine ⟨⟨by simp only [c3]; simp, by simp [c3]⟩, ?_, h3, ?_⟩
        · simp only [e2]; rw [← h2, e1]
        · intro hc
          rcases h4 hc with ⟨k', hk⟩ | hk
          · rw [c1] at hk; cases hk
          · exact Or.inr hk
      · injection h with h; subst h; exact ⟨⟨h1, h1'⟩, h2, h3, h4⟩
    · cases h
  case put i =>
    split at h
    · rename_i k c ha
      split at h
      · rename_i hlen
        injection h with h; subst h
        obtain ⟨c1, c2⟩ := lives_set (p' := .notify) ha rfl h1
        have e1 : helds s.accs = [c] := by rw [helds_lives, c1]; rfl
        have e2 : helds (setA s.accs i .notify) = [] := by rw [helds_lives, c2]; rfl
        refine ⟨⟨by simp only [c2]; simp [liveA], by simp only [c2]; simp [liveA, show s.inProg = true by cases hq : s.inProg with | true => rfl | false => rw [c1] at h1'; simp [hq] at h1']⟩, ?_, ?_, ?_⟩
        · simp only [e2]; rw [← h2, e1]; simp
        · simp only [List.length_append, List.length_singleton]; omega
        · intro _; exact Or.inl ⟨k, by simp only [c2]; rfl⟩
      · cases h
    · cases h
  case notify i =>
    split at h
    · rename_i k ha
      split at h
      · injection h with h; subst h
        obtain ⟨c1, c2⟩ := lives_set (p' := .accept) ha rfl h1
        have e1 : helds s.accs = [] := by rw [helds_lives, c1]; rfl
        have e2 : helds (setA s.accs i .accept) = [] := by rw [helds_lives, c2]; rfl
        refine ⟨⟨by simp only [c2]; simp [liveA], by simp only [c2]; simp [liveA, show s.inProg = true by cases hq : s.inProg with | true => rfl | false => rw [c1] at h1'; simp [hq] at h1']⟩, ?_, h3, ?_⟩
        · simp only [e2]; rw [← h2, e1]
        · intro _; exact Or.inr (Or.inl ⟨k, by simp⟩)
      · cases h
    · cases h
  case asyncAccept =>
    split at h
    · rename_i c r hc
      injection h with h; subst h
      have hr : r = [] := by
        rw [hc] at h3; simp only [List.length_cons, acceptCap] at h3
        exact List.eq_nil_of_length_eq_zero (by omega)
      refine ⟨⟨h1, h1'⟩, ?_, ?_, ?_⟩
      · rw [← h2, hc]; simp
      · simp [hr]
      · intro hn; exact absurd hr hn
    · rename_i hc
      injection h with h; subst h
      exact ⟨⟨h1, h1'⟩, h2, h3, fun hn => absurd hc hn⟩
  case drain =>
    injection h with h; subst h
    refine ⟨⟨h1, h1'⟩, h2, h3, ?_⟩
    intro hc
    rcases h4 hc with hk | ⟨k, hk⟩ | hk
    · exact Or.inl hk
    · refine Or.inr (Or.inr ?_)
      simp only [Bool.or_eq_true, List.any_eq_true]
      exact Or.inr ⟨_, hk, by simp⟩
    · refine Or.inr (Or.inr ?_)
      simp [hk]
  case other =>
    split at h
    · injection h with h; subst h
      refine ⟨⟨h1, h1'⟩, h2, h3, ?_⟩
      intro hc
      rcases h4 hc with hk | ⟨k, hk⟩ | hk
      · exact Or.inl hk
      · exact Or.inr (Or.inl ⟨k, by simp [hk]⟩)
      · exact Or.inr (Or.inr hk)
    · cases h
  case close => injection h with h; subst h; exact ⟨⟨h1, h1'⟩, h2, h3, h4⟩

theorem ainv_reach {s : ASt} (h : ReachA s) : AInv s := by
  induction h with
  | start => exact ⟨⟨by simp [lives], by simp [lives]⟩, rfl, by simp [acceptCap], by simp⟩
  | step _ hx ih => exact ainv_step ih hx

/-- **C87** `AsyncAccept` hands out the connections in the order they arrived, each once: what it has returned is a beginning of
what arrived, and of the rest at most one waits in the binding and at most one is held by the accepting goroutine. -/
theorem C87_in_order {s : ASt} (h : ReachA s) : s.handed <+: s.arrived ∧
    s.arrived.length ≤ s.handed.length + s.backlog.length + 2 := by
  have hi := ainv_reach h
  have h2 := hi.order
  refine ⟨⟨s.chan ++ helds s.accs ++ s.backlog, by rw [← h2]; simp only [List.append_assoc]⟩, ?_⟩
  have hl : (helds s.accs).length ≤ 1 := by
    rw [helds_lives]
    exact Nat.le_trans (List.length_filterMap_le _ _) hi.one.1
  have hc := hi.cap
  rw [← h2]
  simp only [List.length_append, acceptCap] at hc ⊢
  omega

/-- **C87** One goroutine at most accepts on a listener, however often accepting is requested. -/
theorem C87_one_goroutine {s : ASt} (h : ReachA s) : (lives s.accs).length ≤ 1 := (ainv_reach h).one.1

/-- **C87** A connection that waits for `AsyncAccept` is announced: the accepting goroutine is about to queue the key, the key
is queued, or `Select` has reported it and the caller has not called `AsyncAccept` since. -/
theorem C87_announced {s : ASt} (h : ReachA s) (hc : s.chan ≠ []) :
    (∃ k, (k, APhase.notify) ∈ s.accs) ∨ (∃ k, Ev.mine k ∈ s.queue) ∨ s.owed = true := by
  rcases (ainv_reach h).told hc with ⟨k, hk⟩ | hk
  · refine Or.inl ⟨k, ?_⟩
    have : (k, APhase.notify) ∈ lives s.accs := by rw [hk]; simp
    exact (List.mem_filter.mp this).1
  · exact Or.inr hk

/-- the accepting goroutine can do something by itself -/
def AMoves (s : ASt) : Prop := ∃ i, (aexec s (.accept i)).isSome ∨ (aexec s (.put i)).isSome ∨ (aexec s (.notify i)).isSome

/-- **C87** When nothing is left to do — no step of the accepting goroutine is possible, the queue is empty and every report of
the key has been answered — every connection that arrived at the open listener has been handed out. -/
theorem C87_quiescent {s : ASt} (h : ReachA s) (hs : s.inProg = true) (ht : s.terminated = false) (hm : ¬ AMoves s)
    (hq : s.queue = []) (ho : s.owed = false) : s.handed = s.arrived := by
  have hi := ainv_reach h
  have hne : lives s.accs ≠ [] := fun hc => by rw [hi.one.2.mpr hc] at hs; cases hs
  obtain ⟨⟨k, p⟩, hmem0⟩ := List.exists_mem_of_ne_nil _ hne
  obtain ⟨hmem, hp⟩ := List.mem_filter.mp hmem0
  obtain ⟨i, hx⟩ := List.getElem?_of_mem hmem
  have hlive := (lives_set (p' := .accept) hx hp hi.one.1).1
  have hnn : p ≠ .notify := by
    rintro rfl
    exact hm ⟨i, Or.inr (Or.inr (by simp [aexec, hx, hq, queueCap]))⟩
  have hch : s.chan = [] := by
    rcases Classical.em (s.chan = []) with hc | hc
    · exact hc
    · rcases hi.told hc with ⟨k', hk⟩ | ⟨k', hk⟩ | hk
      · rw [hlive] at hk; injection hk with hk; injection hk with _ hk; exact absurd hk hnn
      · rw [hq] at hk; cases hk
      · rw [ho] at hk; cases hk
  have hnp : ∀ c, p ≠ .put c := by
    rintro c rfl
    exact hm ⟨i, Or.inr (Or.inl (by simp [aexec, hx, hch, acceptCap]))⟩
  have hpa : p = .accept := by
    cases p with
    | accept => rfl
    | put c => exact absurd rfl (hnp c)
    | notify => exact absurd rfl hnn
    | finished => cases hp
  subst hpa
  have hb : s.backlog = [] := by
    cases hb : s.backlog with
    | nil => rfl
    | cons c r => exact absurd ⟨i, Or.inl (by simp [aexec, hx, hb, ht])⟩ hm
  have h2 := hi.order
  rw [hch, hb, helds_lives, hlive] at h2
  simpa [helds, heldOf] using h2

/-- the steps the accepting goroutine has left -/
def aphaseWork : APhase → Nat
  | .accept => 0
  | .put _ => 2
  | .notify => 1
  | .finished => 0
def aWork (s : ASt) : Nat := 3 * s.backlog.length + ((lives s.accs).map fun r => aphaseWork r.2).sum

/-- **C87** … and it gets there: every step of the goroutine leaves less to do, and the caller's steps add nothing. -/
theorem C87_work {s s' : ASt} {a : AAct} (h : ReachA s) (hx : aexec s a = some s') :
    ((∃ i, a = .accept i ∨ a = .put i ∨ a = .notify i) → aWork s' < aWork s) ∧
    ((a = .asyncAccept ∨ a = .drain ∨ a = .other) → aWork s' = aWork s) := by
  have hi := (ainv_reach h).one.1
  refine ⟨?_, ?_⟩
  · rintro ⟨i, rfl | rfl | rfl⟩ <;> simp only [aexec] at hx
    · split at hx
      · rename_i k c r ha hb
        split at hx
        · cases hx
        · injection hx with hx; subst hx
          obtain ⟨c1, c2⟩ := lives_set (p' := .put c) ha rfl hi
          simp only [aWork, c1, c2, hb]
          simp [liveA, aphaseWork]; omega
      · cases hx
    · split at hx
      · rename_i k c ha
        split at hx
        · injection hx with hx; subst hx
          obtain ⟨c1, c2⟩ := lives_set (p' := .notify) ha rfl hi
          simp only [aWork, c1, c2]
          simp [liveA, aphaseWork]
        · cases hx
      · cases hx
    · split at hx
      · rename_i k ha
        split at hx
        · injection hx with hx; subst hx
          obtain ⟨c1, c2⟩ := lives_set (p' := .accept) ha rfl hi
          simp only [aWork, c1, c2]
          simp [liveA, aphaseWork]
        · cases hx
      · cases hx
  · rintro (rfl | rfl | rfl) <;> simp only [aexec] at hx
    · split at hx <;> (injection hx with hx; subst hx; rfl)
    · injection hx with hx; subst hx; rfl
    · split at hx
      · injection hx with hx; subst hx; rfl
      · cases hx

/-- three connections, the third held until the first is taken -/
example : (aruns [.start 7, .arrive 1, .arrive 2, .accept 0, .put 0, .notify 0, .accept 0, .drain, .asyncAccept, .put 0, .notify 0,
    .drain, .asyncAccept] {}).map (fun s => (s.handed, s.arrived, s.owed, s.queue)) = some ([1, 2], [1, 2], false, []) := by
  decide +kernel

/-- a reachable state in which a connection waits, announced by the report only -/
example : ∃ s, ReachA s ∧ s.chan = [1] ∧ s.queue = [] ∧ s.owed = true :=
  ⟨_, .step (.step (.step (.step (.step (.step .start (a := .start 7) rfl) (a := .arrive 1) rfl) (a := .accept 0) rfl)
      (a := .put 0) rfl) (a := .notify 0) rfl) (a := .drain) rfl, rfl, rfl, rfl⟩

/-! ### C88 -/

inductive ReachD (ok : DSt → DAct → Prop) : DSt → Prop
  | start : ReachD ok {}
  | step {s s' : DSt} {a : DAct} : ReachD ok s → ok s a → dexec s a = some s' → ReachD ok s'

/-- **C88** Every connection a dialer has established is handed out at most once, in the order they were established, and none is
lost: what has not been handed out waits for `AsyncDial`. -/
theorem C88_once {s : DSt} (h : ReachD (fun _ _ => True) s) : s.handed ++ s.conns = s.completed := by
  induction h with
  | start => rfl
  | step _ _ hx ih =>
    rename_i s s' a _ _
    cases a <;> simp only [dexec] at hx
    case asyncDial k =>
      split at hx
      · rename_i c r hc
        injection hx with hx; subst hx
        rw [← ih, hc]; simp
      · rename_i hc
        injection hx with hx; subst hx; exact ih
    case append i =>
      split at hx
      · injection hx with hx; subst hx; rw [← ih]; simp
      · cases hx
    all_goals
      (repeat' split at hx)
      all_goals first
        | (cases hx; done)
        | (injection hx with hx; subst hx; exact ih)

/-- the connections that have been established are among those being dialed with `StartAsyncDial` -/
theorem d_keys {ok : DSt → DAct → Prop} {s : DSt} (h : ReachD ok s) : ∀ kc ∈ s.conns ++ s.handed, ∃ p, (kc.1, p) ∈ s.dials := by
  have setkeys : ∀ (l : List (Nat × DPhase)) (i : Nat) (p : DPhase) (k : Nat), (∃ q, (k, q) ∈ l) → ∃ q, (k, q) ∈ setD l i p := by
    intro l
    induction l with
    | nil => intro i p k ⟨q, hq⟩; cases hq
    | cons r l ih =>
      intro i p k ⟨q, hq⟩
      cases i with
      | zero =>
        simp only [List.mem_cons] at hq
        rcases hq with hq | hq
        · exact ⟨p, by simp [setD, ← hq]⟩
        · exact ⟨q, by simp [setD, hq]⟩
      | succ i =>
        simp only [List.mem_cons] at hq
        rcases hq with hq | hq
        · exact ⟨q, by simp [setD, ← hq]⟩
        · obtain ⟨q', h'⟩ := ih i p k ⟨q, hq⟩
          exact ⟨q', by simp only [setD, List.modify_succ_cons, List.mem_cons]; exact Or.inr h'⟩
  induction h with
  | start => simp
  | step _ _ hx ih =>
    rename_i s s' a _ _
    cases a <;> simp only [dexec] at hx
    case start k =>
      injection hx with hx; subst hx
      intro kc hkc
      obtain ⟨p, hp⟩ := ih kc hkc
      exact ⟨p, by simp [hp]⟩
    case append i =>
      split at hx
      · rename_i k c hd
        injection hx with hx; subst hx
        intro kc hkc
        apply setkeys
        simp only [List.mem_append, List.mem_singleton] at hkc
        rcases hkc with (hkc | hkc) | hkc
        · exact ih kc (by simp [hkc])
        · subst hkc; exact ⟨_, List.mem_of_getElem? hd⟩
        · exact ih kc (by simp [hkc])
      · cases hx
    case asyncDial k =>
      split at hx
      · rename_i c r hc
        injection hx with hx; subst hx
        intro kc hkc
        refine ih kc ?_
        rw [hc]
        simp only [List.mem_append, List.mem_cons, List.not_mem_nil, or_false] at hkc ⊢
        rcases hkc with hkc | hkc | hkc
        · exact Or.inl (Or.inr hkc)
        · exact Or.inr hkc
        · exact Or.inl (Or.inl hkc)
      · injection hx with hx; subst hx; exact ih
    all_goals
      (repeat' split at hx)
      all_goals first
        | (cases hx; done)
        | (injection hx with hx; subst hx; first | exact ih | exact fun kc hkc => setkeys _ _ _ _ (ih kc hkc))

/-- **C198** (partial) Used for one key, a dialer hands out connections dialed for that key only. -/
theorem C198_own_partial {key : Nat} {s : DSt} (h : ReachD (fun _ a => ∀ k, a = .start k → k = key) s) :
    ∀ kc ∈ s.handed, kc.1 = key := by
  have hall : ∀ r ∈ s.dials, r.1 = key := by
    have setall : ∀ (l : List (Nat × DPhase)) (i : Nat) (p : DPhase), (∀ r ∈ l, r.1 = key) → ∀ r ∈ setD l i p, r.1 = key := by
      intro l
      induction l with
      | nil => intro i p _ r hr; simp [setD] at hr
      | cons x l ih =>
        intro i p hx r hr
        cases i with
        | zero =>
          simp only [setD, List.modify_zero_cons, List.mem_cons] at hr
          rcases hr with rfl | hr
          · exact hx x (by simp)
          · exact hx r (by simp [hr])
        | succ i =>
          simp only [setD, List.modify_succ_cons, List.mem_cons] at hr
          rcases hr with rfl | hr
          · exact hx _ (by simp)
          · exact ih i p (fun r hr => hx r (by simp [hr])) r hr
    induction h with
    | start => simp
    | step _ hk hx ih =>
      rename_i s s' a _
      cases a <;> simp only [dexec] at hx
      case start k =>
        injection hx with hx; subst hx
        intro r hr
        simp only [List.mem_append, List.mem_singleton] at hr
        rcases hr with hr | rfl
        · exact ih r hr
        · exact hk k rfl
      all_goals
        (repeat' split at hx)
        all_goals first
          | (cases hx; done)
          | (injection hx with hx; subst hx; first | exact ih | exact setall _ _ _ ih)
  intro kc hkc
  obtain ⟨p, hp⟩ := d_keys h kc (by simp [hkc])
  exact hall _ hp

/-- the reports a dialer's goroutines, the queue and the caller still have -/
def notifying (l : List (Nat × DPhase)) : List Nat := l.filterMap fun r => if r.2 = .notify then some r.1 else none
def queued (q : List Ev) : List Nat := q.filterMap fun e => match e with
  | .mine k => some k
  | .other => none

/-- every key is used once, and `AsyncDial` is called in answer to a report only -/
def OncePerKey (s : DSt) : DAct → Prop
  | .start k => ∀ p, (k, p) ∉ s.dials
  | .asyncDial k => k ∈ s.owed
  | _ => True

/-- everything that leads to a call of `AsyncDial` -/
def pendingD (s : DSt) : List Nat := notifying s.dials ++ (queued s.queue ++ s.owed)

theorem setD_mem {l : List (Nat × DPhase)} {i k : Nat} {p q : DPhase} (hn : (l.map (·.1)).Nodup) (h : l[i]? = some (k, p)) :
    ∀ r ∈ setD l i q, r = (k, q) ∨ (r ∈ l ∧ r.1 ≠ k) := by
  induction l generalizing i with
  | nil => simp at h
  | cons x l ih =>
    simp only [List.map_cons, List.nodup_cons, List.mem_map] at hn
    cases i with
    | zero =>
      simp only [List.getElem?_cons_zero] at h
      injection h with h; subst h
      intro r hr
      simp only [setD, List.modify_zero_cons, List.mem_cons] at hr
      rcases hr with rfl | hr
      · exact Or.inl rfl
      · exact Or.inr ⟨by simp [hr], fun hc => hn.1 ⟨r, hr, hc⟩⟩
    | succ i =>
      have hi : l[i]? = some (k, p) := by simpa using h
      intro r hr
      simp only [setD, List.modify_succ_cons, List.mem_cons] at hr
      rcases hr with rfl | hr
      · exact Or.inr ⟨by simp, fun hc => hn.1 ⟨(k, p), List.mem_of_getElem? hi, hc.symm⟩⟩
      · rcases ih hn.2 hi r hr with h1 | ⟨h1, h2⟩
        · exact Or.inl h1
        · exact Or.inr ⟨by simp [h1], h2⟩

theorem setD_keys (l : List (Nat × DPhase)) (i : Nat) (q : DPhase) : (setD l i q).map (·.1) = l.map (·.1) := by
  induction l generalizing i with
  | nil => simp [setD]
  | cons x l ih =>
    cases i with
    | zero => simp [setD]
    | succ i => simpa [setD] using ih i

theorem notifying_same {l : List (Nat × DPhase)} {i k : Nat} {p q : DPhase} (h : l[i]? = some (k, p)) (hp : p ≠ .notify)
    (hq : q ≠ .notify) : notifying (setD l i q) = notifying l := by
  induction l generalizing i with
  | nil => simp at h
  | cons x l ih =>
    cases i with
    | zero =>
      simp only [List.getElem?_cons_zero] at h
      injection h with h; subst h
      simp [setD, notifying, hp, hq]
    | succ i =>
      have := ih (i := i) (by simpa using h)
      simp only [notifying, setD, List.modify_succ_cons, List.filterMap_cons] at this ⊢
      rw [this]

theorem notifying_in {l : List (Nat × DPhase)} {i k : Nat} {p : DPhase} (h : l[i]? = some (k, p)) (hp : p ≠ .notify) :
    (notifying (setD l i .notify)).Perm (k :: notifying l) := by
  induction l generalizing i with
  | nil => simp at h
  | cons x l ih =>
    cases i with
    | zero =>
      simp only [List.getElem?_cons_zero] at h
      injection h with h; subst h
      simp [setD, notifying, hp]
    | succ i =>
      have := ih (i := i) (by simpa using h)
      simp only [notifying, setD, List.modify_succ_cons, List.filterMap_cons] at this ⊢
      by_cases hx : x.2 = .notify
      · simp only [hx, if_true]
        exact (this.cons x.1).trans (List.Perm.swap _ _ _)
      · simp only [hx, if_false]; exact this

theorem notifying_out {l : List (Nat × DPhase)} {i k : Nat} {q : DPhase} (h : l[i]? = some (k, .notify)) (hq : q ≠ .notify) :
    (notifying l).Perm (k :: notifying (setD l i q)) := by
  induction l generalizing i with
  | nil => simp at h
  | cons x l ih =>
    cases i with
    | zero =>
      simp only [List.getElem?_cons_zero] at h
      injection h with h; subst h
      simp [setD, notifying, hq]
    | succ i =>
      have := ih (i := i) (by simpa using h)
      simp only [notifying, setD, List.modify_succ_cons, List.filterMap_cons] at this ⊢
      by_cases hx : x.2 = .notify
      · simp only [hx, if_true]
        exact (this.cons x.1).trans (List.Perm.swap _ _ _)
      · simp only [hx, if_false]; exact this

theorem mem_notifying {l : List (Nat × DPhase)} {k : Nat} : k ∈ notifying l ↔ (k, DPhase.notify) ∈ l := by
  unfold notifying
  rw [List.mem_filterMap]
  constructor
  · rintro ⟨⟨k', p⟩, hm, he⟩
    by_cases hp : p = .notify
    · subst hp; simp at he; subst he; exact hm
    · simp [hp] at he
  · intro hm; exact ⟨_, hm, by simp⟩

/-- merging loses nothing if no key has two events -/
theorem merged_nodup (q : List Ev) : ∀ acc : List Nat, (acc ++ queued q).Nodup → merged q acc = acc ++ queued q := by
  induction q with
  | nil => intro acc _; simp [merged, queued]
  | cons e q ih =>
    intro acc h
    cases e with
    | other => simpa [merged, queued] using ih acc (by simpa [queued] using h)
    | mine k =>
      have h0 : queued (.mine k :: q) = k :: queued q := by simp [queued]
      rw [h0] at h ⊢
      have hk : k ∉ acc := by
        intro hm
        have := (List.nodup_append.mp h).2.2 k hm k (by simp)
        exact this rfl
      simp only [merged, if_neg hk]
      rw [ih (acc ++ [k]) (by simpa using h)]
      simp

structure DInv (s : DSt) : Prop where
  keys : (s.dials.map (·.1)).Nodup
  uniq : (pendingD s).Nodup
  early : ∀ k p, (k, p) ∈ s.dials → (p = .dial ∨ ∃ c, p = .append c) → k ∉ pendingD s
  known : ∀ k ∈ pendingD s, ∃ p, (k, p) ∈ s.dials
  count : s.conns.length = (pendingD s).length

theorem dinv_pend {s s' : DSt} (hi : DInv s) (hd : s'.dials = s.dials) (hp : (pendingD s').Perm (pendingD s))
    (hc : s'.conns = s.conns) : DInv s' := by
  obtain ⟨h1, h2, h3, h4, h5⟩ := hi
  refine ⟨by rw [hd]; exact h1, hp.nodup_iff.mpr h2, ?_, ?_, by rw [hc, h5, hp.length_eq]⟩
  · intro k p hm hx hk; exact h3 k p (by rw [← hd]; exact hm) hx (hp.mem_iff.mp hk)
  · intro k hk; rw [hd]; exact h4 k (hp.mem_iff.mp hk)

theorem dinv_step {s s' : DSt} {a : DAct} (hi : DInv s) (hg : OncePerKey s a) (h : dexec s a = some s') : DInv s' := by
  have hi0 := hi
  obtain ⟨h1, h2, h3, h4, h5⟩ := hi
  cases a <;> simp only [dexec] at h
  case start k =>
    injection h with h; subst h
    have hn : notifying (s.dials ++ [(k, DPhase.dial)]) = notifying s.dials := by simp [notifying]
    have hp : pendingD { s with dials := s.dials ++ [(k, DPhase.dial)] } = pendingD s := by simp only [pendingD, hn]
    refine ⟨?_, by rw [hp]; exact h2, ?_, ?_, by rw [hp]; exact h5⟩
    · rw [List.map_append, List.nodup_append]
      refine ⟨h1, by simp, ?_⟩
      rintro x hx y hy rfl
      simp at hy; subst hy
      obtain ⟨⟨k', p⟩, hm, he⟩ := List.mem_map.mp hx
      simp only at he; subst he
      exact hg p hm
    · intro k' p hm hx
      rw [hp]
      simp only [List.mem_append, List.mem_singleton] at hm
      rcases hm with hm | hm
      · exact h3 k' p hm hx
      · injection hm with hm _; subst hm
        intro hk
        obtain ⟨p', hp'⟩ := h4 _ hk
        exact hg p' hp'
    · intro k' hk
      rw [hp] at hk
      obtain ⟨p', hp'⟩ := h4 _ hk
      exact ⟨p', by simp [hp']⟩
  case connected i c =>
    split at h
    · rename_i k hd
      injection h with h; subst h
      have hn := notifying_same (q := .append c) hd (by simp) (by simp)
      have hp : pendingD { s with dials := setD s.dials i (.append c) } = pendingD s := by simp only [pendingD, hn]
      refine ⟨by simp only [setD_keys]; exact h1, by rw [hp]; exact h2, ?_, ?_, by rw [hp]; exact h5⟩
      · intro k' p hm hx
        rw [hp]
        rcases setD_mem h1 hd _ hm with he | ⟨he, _⟩
        · injection he with he _; subst he
          exact h3 _ _ (List.mem_of_getElem? hd) (Or.inl rfl)
        · exact h3 _ _ he hx
      · intro k' hk
        rw [hp] at hk
        obtain ⟨p', hp'⟩ := h4 _ hk
        have : k' ∈ (setD s.dials i (.append c)).map (·.1) := by rw [setD_keys]; exact List.mem_map.mpr ⟨_, hp', rfl⟩
        obtain ⟨⟨a, b⟩, hm, he⟩ := List.mem_map.mp this
        simp only at he; subst he; exact ⟨b, hm⟩
    · cases h
  case failed i =>
    split at h
    · rename_i k hd
      injection h with h; subst h
      have hn := notifying_same (q := .finished) hd (by simp) (by simp)
      have hp : pendingD { s with dials := setD s.dials i .finished } = pendingD s := by simp only [pendingD, hn]
      refine ⟨by simp only [setD_keys]; exact h1, by rw [hp]; exact h2, ?_, ?_, by rw [hp]; exact h5⟩
      · intro k' p hm hx
        rw [hp]
        rcases setD_mem h1 hd _ hm with he | ⟨he, _⟩
        · injection he with _ he; subst he
          rcases hx with hx | ⟨_, hx⟩ <;> cases hx
        · exact h3 _ _ he hx
      · intro k' hk
        rw [hp] at hk
        obtain ⟨p', hp'⟩ := h4 _ hk
        have : k' ∈ (setD s.dials i .finished).map (·.1) := by rw [setD_keys]; exact List.mem_map.mpr ⟨_, hp', rfl⟩
        obtain ⟨⟨a, b⟩, hm, he⟩ := List.mem_map.mp this
        simp only at he; subst he; exact ⟨b, hm⟩
    · cases h
  case append i =>
    split at h
    · rename_i k c hd
      injection h with h; subst h
      have hn := notifying_in hd (by simp)
      have hp : (notifying (setD s.dials i .notify) ++ (queued s.queue ++ s.owed)).Perm (k :: pendingD s) := hn.append_right _
      have hfresh : k ∉ pendingD s := h3 _ _ (List.mem_of_getElem? hd) (Or.inr ⟨c, rfl⟩)
      refine ⟨by simp only [setD_keys]; exact h1, hp.nodup_iff.mpr (List.nodup_cons.mpr ⟨hfresh, h2⟩), ?_, ?_, ?_⟩
      · intro k' p hm hx hk
        have hk := hp.mem_iff.mp hk
        rcases setD_mem h1 hd _ hm with he | ⟨he, hne⟩
        · injection he with _ he; subst he
          rcases hx with hx | ⟨_, hx⟩ <;> cases hx
        · simp only [List.mem_cons] at hk
          rcases hk with hk | hk
          · exact hne hk
          · exact h3 _ _ he hx hk
      · intro k' hk
        have hk := hp.mem_iff.mp hk
        have hold : ∃ p, (k', p) ∈ s.dials := by
          simp only [List.mem_cons] at hk
          rcases hk with rfl | hk
          · exact ⟨_, List.mem_of_getElem? hd⟩
          · exact h4 _ hk
        obtain ⟨p', hp'⟩ := hold
        have : k' ∈ (setD s.dials i .notify).map (·.1) := by rw [setD_keys]; exact List.mem_map.mpr ⟨_, hp', rfl⟩
        obtain ⟨⟨a, b⟩, hm, he⟩ := List.mem_map.mp this
        simp only at he; subst he; exact ⟨b, hm⟩
      · have := hp.length_eq
        simp only [pendingD] at this h5 ⊢
        rw [this]; simp only [List.length_append, List.length_cons, List.length_nil, h5]
    · cases h
  case notify i =>
    split at h
    · rename_i k hd
      split at h
      · injection h with h; subst h
        have hn := notifying_out (q := .finished) hd (by simp)
        have hq : queued (s.queue ++ [.mine k]) = queued s.queue ++ [k] := by simp [queued]
        have hp : (notifying (setD s.dials i .finished) ++ (queued (s.queue ++ [.mine k]) ++ s.owed)).Perm (pendingD s) := by
          rw [hq]
          refine List.Perm.trans ?_ (hn.append_right _).symm
          simp only [List.append_assoc, List.cons_append]
          rw [← List.append_assoc, ← List.append_assoc (notifying _)]
          exact List.perm_middle
        refine ⟨by simp only [setD_keys]; exact h1, hp.nodup_iff.mpr h2, ?_, ?_, ?_⟩
        · intro k' p hm hx hk
          have hk := hp.mem_iff.mp hk
          rcases setD_mem h1 hd _ hm with he | ⟨he, _⟩
          · injection he with _ he; subst he
            rcases hx with hx | ⟨_, hx⟩ <;> cases hx
          · exact h3 _ _ he hx hk
        · intro k' hk
          obtain ⟨p', hp'⟩ := h4 _ (hp.mem_iff.mp hk)
          have : k' ∈ (setD s.dials i .finished).map (·.1) := by rw [setD_keys]; exact List.mem_map.mpr ⟨_, hp', rfl⟩
          obtain ⟨⟨a, b⟩, hm, he⟩ := List.mem_map.mp this
          simp only at he; subst he; exact ⟨b, hm⟩
        · exact h5.trans hp.length_eq.symm
      · cases h
    · cases h
  case asyncDial k =>
    have hk : k ∈ s.owed := hg
    split at h
    · rename_i c r hc
      injection h with h; subst h
      have hp : (pendingD s).Perm (k :: (notifying s.dials ++ (queued s.queue ++ s.owed.erase k))) := by
        unfold pendingD
        rw [← List.append_assoc, ← List.append_assoc]
        refine List.Perm.trans ((List.perm_cons_erase hk).append_left _) List.perm_middle
      have h2' := hp.nodup_iff.mp h2
      refine ⟨h1, (List.nodup_cons.mp h2').2, ?_, ?_, ?_⟩
      · intro k' p hm hx hk'
        exact h3 k' p hm hx (hp.mem_iff.mpr (List.mem_cons_of_mem _ hk'))
      · intro k' hk'; exact h4 k' (hp.mem_iff.mpr (List.mem_cons_of_mem _ hk'))
      · have := hp.length_eq
        rw [← h5, hc] at this
        simp only [List.length_cons] at this
        simp only [pendingD]; omega
    · rename_i hc
      exfalso
      have : 0 < (pendingD s).length := List.length_pos_of_mem (a := k) (by simp [pendingD, hk])
      rw [← h5, hc] at this; simp at this
  case drain =>
    injection h with h; subst h
    have hq : (queued s.queue).Nodup := (List.nodup_append.mp (List.nodup_append.mp h2).2.1).1
    have hm : merged s.queue [] = queued s.queue := by
      have := merged_nodup s.queue [] (by simpa using hq)
      simpa using this
    refine dinv_pend hi0 rfl ?_ rfl
    simp only [pendingD, hm]
    refine List.Perm.append_left _ ?_
    simp only [queued, List.filterMap_nil, List.nil_append]
    exact List.perm_append_comm
  case other =>
    split at h
    · injection h with h; subst h
      refine dinv_pend hi0 rfl ?_ rfl
      have : queued (s.queue ++ [.other]) = queued s.queue := by simp [queued]
      simp only [pendingD, this]
      exact List.Perm.refl _
    · cases h

theorem dinv_reach {s : DSt} (h : ReachD OncePerKey s) : DInv s := by
  induction h with
  | start => exact ⟨by simp, by simp [pendingD, notifying, queued], by simp, by simp [pendingD, notifying, queued], rfl⟩
  | step _ hg hx ih => exact dinv_step ih hg hx

/-- **C198** (partial) If every key is used for one dial and `AsyncDial` is called once for each report, every call returns a
connection. -/
theorem C198_answered_partial {s : DSt} (h : ReachD OncePerKey s) {k : Nat} (hk : k ∈ s.owed) : s.conns ≠ [] := by
  intro hc
  have h5 := (dinv_reach h).count
  have : 0 < (pendingD s).length := List.length_pos_of_mem (a := k) (by simp [pendingD, hk])
  rw [← h5, hc] at this; simp at this

/-- **C198** (partial) … and when every report has been delivered and answered every established connection has been handed out. -/
theorem C198_all_handed_partial {s : DSt} (h : ReachD OncePerKey s) (h1 : ∀ k, (k, DPhase.notify) ∉ s.dials) (h2 : s.queue = [])
    (h3 : s.owed = []) : s.handed = s.completed := by
  have h5 := (dinv_reach h).count
  have hn : notifying s.dials = [] := by
    apply List.eq_nil_iff_forall_not_mem.mpr
    intro k hk
    exact h1 k (mem_notifying.mp hk)
  have hc : s.conns = [] := by
    apply List.eq_nil_of_length_eq_zero
    rw [h5]; simp [pendingD, hn, h2, h3, queued]
  have weaken : ∀ {t : DSt}, ReachD OncePerKey t → ReachD (fun _ _ => True) t := by
    intro t ht
    induction ht with
    | start => exact .start
    | step _ _ hx ih => exact .step ih trivial hx
  have := C88_once (weaken h)
  rw [hc] at this; simpa using this

/-- **C198** (negation) A dialer shared by two keys gives the connection of one to the other. -/
theorem C198_mixed_up_false :
    (druns [.start 1, .start 2, .connected 1 20, .append 1, .notify 1, .connected 0 10, .append 0, .notify 0, .drain, .asyncDial 1]
      {}).map (fun s => (s.handed, s.owed)) = some ([(2, 20)], [2]) := by decide +kernel

/-- **C198** (negation) Two dials for one key (every change of the interest in OP_CONNECT starts one) are reported once: the second
connection is left open and nobody is told. -/
theorem C198_second_left_false :
    (druns [.start 1, .start 1, .connected 0 10, .append 0, .notify 0, .connected 1 11, .append 1, .notify 1, .drain, .asyncDial 1]
      {}).map (fun s => (s.handed, s.conns, s.owed, s.queue)) = some ([(1, 10)], [(1, 11)], [], []) := by decide +kernel

/-- **C198** (negation) A dial that fails is never reported, whatever happens afterwards. -/
theorem C198_failure_silent_false : ∀ (as : List DAct) (s : DSt), (∀ a ∈ as, ∀ k, a ≠ .start k) →
    druns (.start 1 :: .failed 0 :: as) {} = some s → s.owed = [] ∧ queued s.queue = [] := by
  have gen : ∀ (as : List DAct) (t s : DSt), t.dials = [(1, .finished)] → queued t.queue = [] → t.owed = [] →
      (∀ a ∈ as, ∀ k, a ≠ .start k) → druns as t = some s → s.owed = [] ∧ queued s.queue = [] := by
    intro as
    induction as with
    | nil => intro t s _ h1 h2 _ hx; injection hx with hx; rw [← hx]; exact ⟨h2, h1⟩
    | cons a as ih =>
      intro t s hd h1 h2 hk hx
      simp only [druns] at hx
      have hd0 : ∀ (i k : Nat) (p : DPhase), t.dials[i]? = some (k, p) → p = .finished := by
        intro i k p hm
        have := List.mem_of_getElem? hm
        rw [hd] at this; simp at this; exact this.2
      have hm : merged t.queue [] = [] := by
        have := merged_nodup t.queue [] (by rw [h1]; simp)
        rw [h1] at this; simpa using this
      cases hy : dexec t a with
      | none => rw [hy] at hx; cases hx
      | some u =>
        rw [hy] at hx
        refine ih u s ?_ ?_ ?_ (fun b hb => hk b (by simp [hb])) hx
        all_goals
          cases a <;> simp only [dexec] at hy
          case start k => exact absurd rfl (hk _ (by simp) k)
          case asyncDial k => split at hy <;> (injection hy with hy; subst hy; first | exact hd | exact h1 | simp [h2])
          case drain => injection hy with hy; subst hy; first | exact hd | rfl | simp [h2, hm]
          case other =>
            split at hy
            · injection hy with hy; subst hy; first | exact hd | exact h2 | simpa [queued] using h1
            · cases hy
          all_goals
            split at hy
            · rename_i hh; cases hd0 _ _ _ hh
            · cases hy
  intro as s hk h
  exact gen as { dials := [(1, .finished)] } s rfl rfl rfl hk h

/-- two dials for different keys, both answered -/
example : ∃ s, ReachD OncePerKey s ∧ s.handed = [(2, 20)] ∧ s.conns = [(1, 10)] ∧ s.owed = [1] :=
  ⟨_, .step (.step (.step (.step (.step (.step (.step (.step (.step (.step .start (a := .start 1) (by simp [OncePerKey]) rfl)
      (a := .start 2) (by simp [OncePerKey]) rfl) (a := .connected 1 20) trivial rfl) (a := .append 1) trivial rfl)
      (a := .notify 1) trivial rfl) (a := .connected 0 10) trivial rfl) (a := .append 0) trivial rfl)
      (a := .notify 0) trivial rfl) (a := .drain) trivial rfl) (a := .asyncDial 2) (List.Mem.head _) rfl, rfl, rfl, rfl⟩

end Verif.Props
