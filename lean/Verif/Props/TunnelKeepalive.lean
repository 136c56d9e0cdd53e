import Verif.Tunnel.Keepalive
/-
Property theorems C234, C235: keepalive of control streams.

Specification: the times (in milliseconds) at which pings are sent, pongs arrive and the stream is closed by the keepalive.
-/
namespace Verif.Props.Keep
open Verif.Tunnel.Keep

/-- no restriction -/
def any (_ : St) (_ : Act) : Prop := True

theorem reach_run {T : Nat} {as : List Act} : ∀ {s s' : St}, Reach T any s → run T s as = some s' → Reach T any s' := by
  induction as with
  | nil => intro s s' h hr; simp only [run, Option.some.injEq] at hr; exact hr ▸ h
  | cons a as ih =>
    intro s s' h hr
    simp only [run] at hr
    cases he : exec T s a with
    | none => rw [he] at hr; cases hr
    | some s1 => rw [he] at hr; exact ih (.step h trivial he) hr

/-- newest first: a ping every second, the first one at the start -/
def Every : List Nat → Prop
  | t :: t' :: l => t = t' + 1000 ∧ Every (t' :: l)
  | [t] => t = 0
  | [] => True

structure Inv (T : Nat) (s : St) : Prop where
  /-- before the first run of `keepalive` nothing passed -/
  start : s.pings = [] → s.cuts = [] → s.now = 0 ∧ s.running = true
  pongle : ∀ p, s.lastPong = some p → p ≤ s.now
  pongs : ∀ p ∈ s.pongs, p ≤ s.lastPong.getD 0
  zero : s.pings ≠ [] ∨ s.cuts ≠ [] → s.lastPong ≠ none
  /-- the last ping came when the last pong was not too old, and the next run of `keepalive` is due a second later -/
  last : ∀ t l, s.pings = t :: l → t ≤ s.now ∧ (∀ p, s.lastPong = some p → t ≤ p + T) ∧ Every (t :: l) ∧
    (∀ d, s.timer = some d → d = t + 1000 ∧ s.now ≤ d) ∧ (s.running = true → s.now = t + 1000 ∧ s.timer = none) ∧ (s.closed = false → s.running = true ∨ s.timer ≠ none)
  cutpings : s.cuts ≠ [] → s.timer = none ∧ s.running = false ∧ s.closed = true
  cut : ∀ t ∈ s.cuts, (∀ p ∈ s.pongs, p + T < t) ∧ T < t
  first : s.pings = [] → s.timer = none
  open_ : s.closed = false → s.cuts = []

theorem inv {T : Nat} (hT : 0 < T) {guard : St → Act → Prop} {s : St} (h : Reach T guard s) : Inv T s := by
  induction h with
  | init => exact ⟨by simp, by simp, by simp, by simp, by simp, by simp, by simp, by simp, by simp⟩
  | @step s s' a _ _ he ih =>
    cases a with
    | tick =>
      simp only [exec] at he
      split at he <;> simp only [Option.some.injEq, reduceCtorEq] at he
      rename_i hn
      simp only [not_or, not_exists, not_and, Bool.not_eq_true] at hn
      subst he
      refine ⟨?_, ?_, ih.pongs, ih.zero, ?_, ih.cutpings, ih.cut, ih.first, ih.open_⟩
      · intro a b; have := (ih.start a b).2; rw [hn.1] at this; cases this
      · intro p hp; have := ih.pongle p hp; show p ≤ s.now + 1; omega
      · intro t l ht
        obtain ⟨a, b, c, d, e, f⟩ := ih.last t l ht
        refine ⟨by simp only; omega, b, c, ?_, ?_, f⟩
        · intro d' hd'
          have h1 := d d' hd'
          have h2 := hn.2 d' (by simpa using hd')
          exact ⟨h1.1, by simp only; omega⟩
        · intro hr; simp only at hr; rw [hn.1] at hr; cases hr
    | fire =>
      simp only [exec] at he
      split at he <;> simp only [Option.some.injEq, reduceCtorEq] at he
      rename_i hd
      obtain ⟨d, hd1, hd2⟩ := hd
      simp only [Option.mem_def] at hd1
      subst he
      have hp : s.pings ≠ [] := by intro e; have := ih.first e; rw [hd1] at this; cases this
      refine ⟨fun a => absurd a hp, ih.pongle, ih.pongs, ih.zero, ?_, ?_, ih.cut, fun a => absurd a hp, ih.open_⟩
      · intro t l ht
        obtain ⟨a, b, c, e, f, g⟩ := ih.last t l ht
        have := e d hd1
        exact ⟨a, b, c, by simp, fun _ => ⟨by simp only; omega, rfl⟩, fun _ => .inl rfl⟩
      · intro hc; have := (ih.cutpings hc).1; rw [hd1] at this; cases this
    | body =>
      simp only [exec] at he
      split at he <;> simp only [Option.some.injEq, reduceCtorEq] at he
      rename_i hr
      have hcuts : s.cuts = [] := by
        by_cases h : s.cuts = []
        · exact h
        · have := (ih.cutpings h).2.1; rw [hr] at this; cases this
      simp only [St.keepalive, if_neg (Nat.ne_of_gt hT)] at he
      have hple : s.lastPong.getD s.now ≤ s.now := by
        cases hl : s.lastPong with
        | none => simp
        | some p => simpa using ih.pongle p hl
      split at he
      · rename_i hlt
        subst he
        refine ⟨by simp [St.close], ?_, ?_, by simp [St.close], ?_, by simp [St.close], ?_, by simp [St.close], by simp [St.close]⟩
        · intro p hp; simp only [St.close, Option.some.injEq] at hp ⊢; omega
        · intro p hp
          simp only [St.close, Option.getD_some] at hp ⊢
          have := ih.pongs p hp
          cases hl : s.lastPong with
          | none => rw [hl] at this; simp at this ⊢; omega
          | some q => rw [hl] at this; simpa using this
        · intro t l ht
          simp only [St.close] at ht
          obtain ⟨a, b, c, e, f, g⟩ := ih.last t l ht
          refine ⟨a, ?_, c, by simp [St.close], by simp [St.close], by simp [St.close]⟩
          intro p hp
          simp only [St.close, Option.some.injEq] at hp
          cases hl : s.lastPong with
          | none => exact absurd hl (ih.zero (.inl (by simp [ht])))
          | some q => rw [hl] at hp; simp only [Option.getD_some] at hp; subst hp; exact b q hl
        · intro t ht
          simp only [St.close, hcuts, List.mem_singleton] at ht hlt ⊢
          subst ht
          refine ⟨?_, by omega⟩
          intro p hp
          have := ih.pongs p hp
          cases hl : s.lastPong with
          | none => rw [hl] at this hlt; simp at this hlt
          | some q => rw [hl] at this hlt; simp at this hlt; omega
      · rename_i hlt
        subst he
        refine ⟨by simp, ?_, ?_, by simp, ?_, by simp [hcuts], by simp [hcuts], by simp, fun _ => hcuts⟩
        · intro p hp; simp only [Option.some.injEq] at hp ⊢; omega
        · intro p hp
          simp only [Option.getD_some] at hp ⊢
          have := ih.pongs p hp
          cases hl : s.lastPong with
          | none => rw [hl] at this; simp at this ⊢; omega
          | some q => rw [hl] at this; simpa using this
        · intro t l ht
          simp only [List.cons.injEq] at ht
          obtain ⟨rfl, rfl⟩ := ht
          refine ⟨Nat.le_refl _, ?_, ?_, ?_, by simp, by simp⟩
          · intro p hp; simp only [Option.some.injEq] at hp hlt; omega
          · cases hp : s.pings with
            | nil => exact (ih.start hp hcuts).1
            | cons t l =>
              obtain ⟨_, _, c, _, f, _⟩ := ih.last t l hp
              have := (f hr).1
              exact ⟨by omega, c⟩
          · intro d hd; simp only [Option.some.injEq] at hd; exact ⟨hd.symm, by simp only; omega⟩
    | pong =>
      simp only [exec] at he
      split at he <;> simp only [Option.some.injEq, reduceCtorEq] at he
      rename_i hcl
      simp only [Bool.not_eq_true] at hcl
      have hcuts := ih.open_ hcl
      subst he
      refine ⟨ih.start, ?_, ?_, by simp, ?_, ih.cutpings, by simp [hcuts], ih.first, ih.open_⟩
      · intro p hp; simp only [Option.some.injEq] at hp ⊢; omega
      · intro p hp
        simp only [List.mem_cons, Option.getD_some] at hp ⊢
        rcases hp with rfl | hp
        · exact Nat.le_refl _
        · have := ih.pongs p hp
          cases hl : s.lastPong with
          | none => rw [hl] at this; simp at this; omega
          | some q => rw [hl] at this; have h2 := ih.pongle q hl; simp at this; omega
      · intro t l ht
        obtain ⟨a, b, c, e, f, g⟩ := ih.last t l ht
        refine ⟨a, ?_, c, e, f, g⟩
        intro p hp
        simp only [Option.some.injEq] at hp
        omega
    | close =>
      simp only [exec, Option.some.injEq] at he
      subst he
      refine ⟨ih.start, ih.pongle, ih.pongs, ih.zero, ?_, ?_, ih.cut, fun _ => rfl, by simp [St.close]⟩
      · intro t l ht
        obtain ⟨a, b, c, e, f, g⟩ := ih.last t l ht
        exact ⟨a, b, c, by simp [St.close], fun hr => ⟨(f hr).1, rfl⟩, by simp [St.close]⟩
      · intro hc; exact ⟨rfl, (ih.cutpings hc).2.1, rfl⟩

/-- **C234** A stream whose peer has gone silent is closed: no stream stays open longer than the timeout and a second after its last pong
(or its start). -/
theorem C234_silent {T : Nat} (hT : 0 < T) {s : St} (h : Reach T any s) (ho : s.closed = false) :
    s.now ≤ s.pongs.headD 0 + T + 1000 := by
  have hi := inv hT h
  have hh : ∀ p, s.lastPong = some p → p ≤ s.pongs.headD 0 := by
    clear hi ho
    induction h with
    | init => simp
    | @step s s' a hr _ he ih =>
      have hi := inv hT hr
      cases a with
      | tick => simp only [exec] at he; split at he <;> simp only [Option.some.injEq, reduceCtorEq] at he; subst he; exact ih
      | fire => simp only [exec] at he; split at he <;> simp only [Option.some.injEq, reduceCtorEq] at he; subst he; exact ih
      | close => simp only [exec, Option.some.injEq] at he; subst he; exact ih
      | pong =>
        simp only [exec] at he
        split at he <;> simp only [Option.some.injEq, reduceCtorEq] at he
        subst he
        intro p hp; simp only [Option.some.injEq] at hp; simp [hp]
      | body =>
        simp only [exec] at he
        split at he <;> simp only [Option.some.injEq, reduceCtorEq] at he
        rename_i hr'
        subst he
        have hcuts : s.cuts = [] := by
          by_cases h : s.cuts = []
          · exact h
          · have := (hi.cutpings h).2.1; rw [hr'] at this; cases this
        have hq : ∀ p, some (s.lastPong.getD s.now) = some p → p ≤ s.pongs.headD 0 := by
          intro p hp
          simp only [Option.some.injEq] at hp
          cases hl : s.lastPong with
          | some q => rw [hl] at hp; simp only [Option.getD_some] at hp; subst hp; exact ih q hl
          | none =>
            rw [hl] at hp
            simp only [Option.getD_none] at hp
            cases hp' : s.pings with
            | nil => have := (hi.start hp' hcuts).1; omega
            | cons t l => exact absurd hl (hi.zero (.inl (by simp [hp'])))
        simp only [St.keepalive, if_neg (Nat.ne_of_gt hT)]
        split
        · simpa only [St.close] using hq
        · exact hq
  cases hp : s.pings with
  | nil => have := (hi.start hp (hi.open_ ho)).1; omega
  | cons t l =>
    obtain ⟨a, b, _, d, e, f⟩ := hi.last t l hp
    cases hl : s.lastPong with
    | none => exact absurd hl (hi.zero (.inl (by simp [hp])))
    | some q =>
      have h1 := b q hl
      have h2 := hh q hl
      rcases f ho with h | h
      · have := (e h).1; omega
      · cases ht : s.timer with
        | none => exact absurd ht h
        | some d' => have := d d' ht; omega

/-- **C234** The keepalive closes a stream only if no pong came during the timeout. -/
theorem C234_cut_reason {T : Nat} (hT : 0 < T) {s : St} (h : Reach T any s) {t : Nat} (ht : t ∈ s.cuts) :
    T < t ∧ ∀ p ∈ s.pongs, p + T < t := ⟨((inv hT h).cut t ht).2, ((inv hT h).cut t ht).1⟩

/-- **C234** While the stream is open a ping is sent at the start and every second: consecutive pings are a second apart, and the last one is at most
a second old. -/
theorem C234_pings {T : Nat} (hT : 0 < T) {s : St} (h : Reach T any s) :
    Every s.pings ∧ (s.closed = false → s.now ≤ s.pings.headD 0 + 1000) := by
  have hi := inv hT h
  cases hp : s.pings with
  | nil => exact ⟨trivial, fun ho => by have := (hi.start hp (hi.open_ ho)).1; omega⟩
  | cons t l =>
    obtain ⟨a, b, c, d, e, f⟩ := hi.last t l hp
    refine ⟨c, fun ho => ?_⟩
    rcases f ho with h | h
    · have := (e h).1; simp; omega
    · cases ht : s.timer with
      | none => exact absurd ht h
      | some d' => have := d d' ht; simp; omega

/-! ### C235 -/

/-- the client answers every ping within `d` milliseconds: the time does not pass while a ping is unanswered that long -/
def Prompt (d : Nat) (s : St) : Act → Prop
  | .tick => ∀ t ∈ s.pings, s.now < t + d ∨ ∃ p ∈ s.pongs, t ≤ p
  | _ => True

theorem oldest {A : Nat → Prop} : ∀ l : List Nat, Every l →
    (∀ t ∈ l, A t) ∨ ∃ u ∈ l, ¬ A u ∧ (u = 0 ∨ ∃ u' ∈ l, u = u' + 1000 ∧ A u') := by
  intro l
  induction l with
  | nil => intro _; exact .inl (by simp)
  | cons t l ih =>
    intro he
    cases l with
    | nil =>
      by_cases h : A t
      · exact .inl (by simpa using h)
      · exact .inr ⟨t, by simp, h, .inl he⟩
    | cons t' l =>
      rcases ih he.2 with h | ⟨u, hu, hn, hz⟩
      · by_cases ht : A t
        · refine .inl fun x hx => ?_
          rcases List.mem_cons.1 hx with rfl | hx
          · exact ht
          · exact h x hx
        · exact .inr ⟨t, by simp, ht, .inr ⟨t', by simp, he.1, h t' (by simp)⟩⟩
      · refine .inr ⟨u, List.mem_cons_of_mem _ hu, hn, ?_⟩
        rcases hz with hz | ⟨u', hu', h1, h2⟩
        · exact .inl hz
        · exact .inr ⟨u', List.mem_cons_of_mem _ hu', h1, h2⟩

theorem pings_le {T : Nat} {s : St} (hi : Inv T s) : ∀ t ∈ s.pings, t ≤ s.now := by
  have haux : ∀ l : List Nat, Every l → ∀ t ∈ l, t ≤ l.headD 0 := by
    intro l
    induction l with
    | nil => simp
    | cons x l ih =>
      intro he t ht
      rcases List.mem_cons.1 ht with rfl | ht
      · simp
      · cases l with
        | nil => cases ht
        | cons y l =>
          have h1 := ih he.2 t ht
          have h2 := he.1
          simp only [List.headD_cons] at h1 ⊢
          omega
  intro t ht
  cases hp : s.pings with
  | nil => rw [hp] at ht; cases ht
  | cons x l =>
    obtain ⟨a, _, c, _⟩ := hi.last x l hp
    rw [hp] at ht
    have := haux _ c t ht
    simp only [List.headD_cons] at this
    omega

/-- **C235** (partial: the timeout exceeds the time to answer by a second) A client that answers its pings in time is never cut off. -/
theorem C235_prompt_partial {T d : Nat} (hT : 1000 + d ≤ T) {s : St} (h : Reach T (Prompt d) s) : s.cuts = [] := by
  have hT0 : 0 < T := by omega
  have key : (∀ t ∈ s.pings, s.now ≤ t + d ∨ ∃ p ∈ s.pongs, t ≤ p) ∧ s.cuts = [] := by
    induction h with
    | init => simp
    | @step s s' a hr hg he ih =>
      have hi := inv hT0 hr
      obtain ⟨ih, ihc⟩ := ih
      cases a with
      | tick =>
        simp only [exec] at he
        split at he <;> simp only [Option.some.injEq, reduceCtorEq] at he
        subst he
        refine ⟨?_, ihc⟩
        intro t ht
        rcases hg t ht with h | h
        · left; show s.now + 1 ≤ t + d; omega
        · exact .inr h
      | fire =>
        simp only [exec] at he
        split at he <;> simp only [Option.some.injEq, reduceCtorEq] at he
        subst he
        exact ⟨ih, ihc⟩
      | close =>
        simp only [exec, Option.some.injEq] at he
        subst he
        exact ⟨ih, ihc⟩
      | pong =>
        simp only [exec] at he
        split at he <;> simp only [Option.some.injEq, reduceCtorEq] at he
        subst he
        exact ⟨fun t ht => .inr ⟨s.now, by simp, pings_le hi t ht⟩, ihc⟩
      | body =>
        simp only [exec] at he
        split at he <;> simp only [Option.some.injEq, reduceCtorEq] at he
        rename_i hr'
        have hage : s.now - s.lastPong.getD s.now ≤ T := by
          cases hp : s.pings with
          | nil => have := (hi.start hp ihc).1; omega
          | cons t l =>
            obtain ⟨_, _, c, _, e, _⟩ := hi.last t l hp
            have hnow := (e hr').1
            cases hl : s.lastPong with
            | none => simp
            | some q =>
              have hpq : ∀ p ∈ s.pongs, p ≤ q := by
                intro p h; have := hi.pongs p h; rw [hl] at this; simpa using this
              simp only [Option.getD_some]
              rcases oldest (A := fun t => ∃ p ∈ s.pongs, t ≤ p) _ c with h | ⟨u, hu, hn, hz⟩
              · obtain ⟨p, h1, h2⟩ := h t (by simp)
                have := hpq p h1
                omega
              · have h3 : s.now ≤ u + d := by
                  rcases ih u (by rw [hp]; exact hu) with h | h
                  · exact h
                  · exact absurd h hn
                rcases hz with hz | ⟨u', hu', h1, p, h2, h4⟩
                · omega
                · have := hpq p h2
                  omega
        subst he
        simp only [St.keepalive, if_neg (Nat.ne_of_gt hT0)]
        rw [if_neg (by omega)]
        refine ⟨?_, ihc⟩
        intro t ht
        rcases List.mem_cons.1 ht with rfl | ht
        · left; show s.now ≤ s.now + d; omega
        · exact ih t ht
  exact key.2

/-- one second of a client that answers at once: `keepalive` runs, the pong comes, a second passes, the timer fires -/
def second : List Act := [.body, .pong] ++ List.replicate 1000 .tick ++ [.fire]

/-- **C235** A timeout under a second cuts off every client, even one that answers at once. -/
theorem C235_short_false : ∃ s, Reach 500 any s ∧ s.pings = [0] ∧ s.pongs = [0] ∧ s.cuts = [1000] := by
  have h : (run 500 {} (second ++ [.body])).map (fun s => (s.pings, s.pongs, s.cuts)) = some ([0], [0], [1000]) := by decide +kernel
  obtain ⟨s, hs, he⟩ := Option.map_eq_some_iff.1 h
  simp only [Prod.mk.injEq] at he
  exact ⟨s, reach_run .init hs, he.1, he.2.1, he.2.2⟩

/-- a pinging client with a timeout of two seconds is pinged every second and stays -/
example : ∃ s, Reach 2000 any s ∧ s.pings = [2000, 1000, 0] ∧ s.cuts = [] ∧ s.closed = false := by
  have h : (run 2000 {} (second ++ second ++ [.body])).map (fun s => (s.pings, s.cuts, s.closed)) = some ([2000, 1000, 0], [], false) := by
    decide +kernel
  obtain ⟨s, hs, he⟩ := Option.map_eq_some_iff.1 h
  simp only [Prod.mk.injEq] at he
  exact ⟨s, reach_run .init hs, he.1, he.2.1, he.2.2⟩

/-- **C235** A stream closed just after the timer fired goes on pinging (and its timer runs on). -/
theorem C235_close_false : ∃ s s', Reach 2000 any s ∧ s.closed = true ∧ run 2000 s ([.body] ++ List.replicate 1000 .tick ++ [.fire, .body]) = some s' ∧
    s.pings = [0] ∧ s'.pings = [2000, 1000, 0] := by
  have h : ((run 2000 {} (second ++ [.close])).bind fun s =>
      (run 2000 s ([.body] ++ List.replicate 1000 .tick ++ [.fire, .body])).map fun s' => (s, s')).map
      (fun p => (p.1.closed, p.1.pings, p.2.pings)) = some (true, [0], [2000, 1000, 0]) := by decide +kernel
  obtain ⟨⟨s, s'⟩, hs, he⟩ := Option.map_eq_some_iff.1 h
  obtain ⟨s0, h0, h1⟩ := Option.bind_eq_some_iff.1 hs
  obtain ⟨s1, h2, h3⟩ := Option.map_eq_some_iff.1 h1
  simp only [Prod.mk.injEq] at he h3
  obtain ⟨rfl, rfl⟩ := h3
  exact ⟨s0, s1, reach_run .init h0, he.1, h2, he.2.1, he.2.2⟩

/-- nobody closes the stream while a fired `keepalive` has not run -/
def Quiet (s : St) : Act → Prop
  | .close => s.running = false
  | _ => True

/-- **C235** (partial: the stream is not closed just when the timer fires) A closed stream sends no more pings. -/
theorem C235_close_partial {T : Nat} (hT : 0 < T) {s s' : St} {a : Act} (h : Reach T Quiet s) (hc : s.closed = true)
    (he : exec T s a = some s') : s'.pings = s.pings ∧ s'.timer = none := by
  have key : s.closed = true → s.timer = none ∧ s.running = false := by
    clear he hc
    induction h with
    | init => simp
    | @step s s' a hr hg he ih =>
      cases a with
      | tick => simp only [exec] at he; split at he <;> simp only [Option.some.injEq, reduceCtorEq] at he; subst he; exact ih
      | fire =>
        simp only [exec] at he
        split at he <;> simp only [Option.some.injEq, reduceCtorEq] at he
        rename_i hd
        obtain ⟨d, hd1, _⟩ := hd
        simp only [Option.mem_def] at hd1
        subst he
        intro hc
        have := (ih hc).1
        rw [hd1] at this; cases this
      | close => simp only [exec, Option.some.injEq] at he; subst he; exact fun _ => ⟨rfl, hg⟩
      | pong => simp only [exec] at he; split at he <;> simp only [Option.some.injEq, reduceCtorEq] at he; subst he; exact ih
      | body =>
        simp only [exec] at he
        split at he <;> simp only [Option.some.injEq, reduceCtorEq] at he
        rename_i hr'
        subst he
        simp only [St.keepalive, if_neg (Nat.ne_of_gt hT)]
        split
        · intro _; exact ⟨rfl, trivial⟩
        · intro hc; have := (ih hc).2; rw [hr'] at this; cases this
  obtain ⟨k1, k2⟩ := key hc
  cases a with
  | tick => simp only [exec] at he; split at he <;> simp only [Option.some.injEq, reduceCtorEq] at he; subst he; exact ⟨rfl, k1⟩
  | fire => simp [exec, k1] at he
  | body => simp [exec, k2] at he
  | pong => simp [exec, hc] at he
  | close => simp only [exec, Option.some.injEq] at he; subst he; exact ⟨rfl, rfl⟩

/-- **C235** With a timeout of zero nothing is checked: no ping is ever sent and the stream of a silent client stays open for ever. -/
theorem C235_off_false : (∀ s, Reach 0 any s → s.pings = [] ∧ s.cuts = []) ∧
    ∀ n, ∃ s, Reach 0 any s ∧ s.now = n ∧ s.closed = false ∧ s.pongs = [] := by
  constructor
  · intro s h
    induction h with
    | init => simp
    | @step s s' a _ _ he ih =>
      cases a with
      | tick => simp only [exec] at he; split at he <;> simp only [Option.some.injEq, reduceCtorEq] at he; subst he; exact ih
      | fire => simp only [exec] at he; split at he <;> simp only [Option.some.injEq, reduceCtorEq] at he; subst he; exact ih
      | body => simp only [exec] at he; split at he <;> simp only [Option.some.injEq, reduceCtorEq] at he; subst he; exact ih
      | pong => simp only [exec] at he; split at he <;> simp only [Option.some.injEq, reduceCtorEq] at he; subst he; exact ih
      | close => simp only [exec, Option.some.injEq] at he; subst he; exact ih
  · have : ∀ n, Reach 0 any { now := n, running := false } := by
      intro n
      induction n with
      | zero => exact .step .init trivial (a := .body) rfl
      | succ n ih => exact .step ih trivial (a := .tick) (by simp [exec])
    exact fun n => ⟨_, this n, rfl, rfl, rfl⟩

end Verif.Props.Keep
