import Verif.Ads.Stream
/-
Properties C251 and C252: the stream to the management server is opened again when it breaks, and given up only when the client is cancelled.
-/
namespace Verif.Ads.Stream

/-- no condition -/
def anyStep : St → Act → Prop := fun _ _ => True

/-- only the client moves: the server sends nothing more -/
def alone : St → Act → Prop := fun _ a => a.internal = true

/-- whatever order the goroutines run in, they come to a state with `P`: while there is none, some goroutine can go on, and each that can leads there -/
inductive Leads (P : St → Prop) : St → Prop where
  | now {s : St} : P s → Leads P s
  | later {s : St} : (∃ a s', a.internal = true ∧ exec s a = some s') →
      (∀ a s', a.internal = true → exec s a = some s' → Leads P s') → Leads P s

/-- the receiver waits for ever: for the refresher that has left, for the sender that has left, or it has left itself without telling the others -/
def stuck (s : St) : Prop :=
  (s.recv = .upd ∧ s.ref = .done) ∨ (s.queue = cap ∧ s.send = .done ∧ ∃ n, s.recv = .push n) ∨
    (s.recv = .done ∧ s.group = false ∧ s.send = .top ∧ s.queue = 0)

/-- the invariant of all runs -/
structure Inv (s : St) : Prop where
  pushPos : s.recv ≠ .push 0
  grp : s.group = true → s.parent = true ∨ s.result.isSome = true
  refd : s.ref = .done → s.result.isSome = true
  sendd : s.send = .done → s.result.isSome = true
  resg : s.result.isSome = true → s.group = true
  parb : s.parent = true → s.group = true ∧ s.broken.isSome = true
  full : s.queue ≤ cap

theorem inv_init : Inv {} := by
  constructor <;> simp [cap]

theorem or_isSome (o : Option Err) (e : Err) : (o.or (some e)).isSome = true := by cases o <;> rfl

theorem inv_step {s s' : St} {a : Act} (h : Inv s) (he : exec s a = some s') : Inv s' := by
  obtain ⟨h1, h2, h3, h3', h4, h5, h6⟩ := h
  cases a with
  | cancel =>
    simp only [exec, Option.some.injEq] at he; subst he
    exact ⟨h1, fun _ => Or.inl rfl, h3, h3', fun _ => rfl, fun _ => ⟨rfl, or_isSome _ _⟩, h6⟩
  | «break» e =>
    simp only [exec] at he
    split at he <;> simp at he; subst he
    exact ⟨h1, h2, h3, h3', h4, fun hp => ⟨(h5 hp).1, rfl⟩, h6⟩
  | recvTop =>
    simp only [exec] at he
    split at he <;> try simp at he
    split at he <;> (simp at he; subst he)
    · exact ⟨by simp, fun _ => Or.inr (or_isSome _ _), fun _ => or_isSome _ _, fun _ => or_isSome _ _, fun _ => rfl, fun hp => ⟨rfl, (h5 hp).2⟩, h6⟩
    · exact ⟨by simp, h2, h3, h3', h4, h5, h6⟩
  | recvMsg ok k =>
    simp only [exec] at he
    split at he <;> try simp at he
    split at he <;> (simp at he; subst he) <;> exact ⟨by simp, h2, h3, h3', h4, h5, h6⟩
  | recvErr =>
    simp only [exec] at he
    split at he <;> try simp at he
    split at he <;> simp at he; subst he
    exact ⟨by simp, fun _ => Or.inr (or_isSome _ _), fun _ => or_isSome _ _, fun _ => or_isSome _ _, fun _ => rfl, fun hp => ⟨rfl, (h5 hp).2⟩, h6⟩
  | recvPush =>
    simp only [exec] at he
    split at he <;> try simp at he
    obtain ⟨hq, rfl⟩ := he
    rename_i n _
    refine ⟨?_, h2, h3, h3', h4, h5, hq⟩
    by_cases hn : n = 0 <;> simp [hn]
  | handoff =>
    simp only [exec] at he
    split at he <;> simp at he; subst he
    exact ⟨by simp, h2, by simp, h3', h4, h5, h6⟩
  | refDone =>
    simp only [exec] at he
    split at he <;> simp at he; subst he
    exact ⟨h1, h2, by simp, h3', h4, h5, h6⟩
  | refTop =>
    simp only [exec] at he
    split at he <;> simp at he; subst he
    exact ⟨h1, fun _ => Or.inr (or_isSome _ _), fun _ => or_isSome _ _, fun _ => or_isSome _ _, fun _ => rfl, fun hp => ⟨rfl, (h5 hp).2⟩, h6⟩
  | sendTake =>
    simp only [exec] at he
    split at he <;> simp at he; subst he
    refine ⟨h1, h2, h3, by simp, h4, h5, ?_⟩
    show s.queue - 1 ≤ cap
    omega
  | sendOk =>
    simp only [exec] at he
    split at he <;> simp at he; subst he
    exact ⟨h1, h2, h3, by simp, h4, h5, h6⟩
  | sendErr =>
    simp only [exec] at he
    split at he <;> simp at he; subst he
    exact ⟨h1, fun _ => Or.inr (or_isSome _ _), fun _ => or_isSome _ _, fun _ => or_isSome _ _, fun _ => rfl, fun hp => ⟨rfl, (h5 hp).2⟩, h6⟩
  | sendTop =>
    simp only [exec] at he
    split at he <;> simp at he; subst he
    exact ⟨h1, fun _ => Or.inr (or_isSome _ _), fun _ => or_isSome _ _, fun _ => or_isSome _ _, fun _ => rfl, fun hp => ⟨rfl, (h5 hp).2⟩, h6⟩
  | retry =>
    simp only [exec] at he
    split at he <;> try simp at he
    split at he <;> (simp at he; subst he)
    · exact ⟨h1, h2, h3, h3', h4, h5, h6⟩
    · constructor <;> simp [cap]

theorem inv_reach {g : St → Act → Prop} {s : St} (h : Reach g s) : Inv s := by
  induction h with
  | init => exact inv_init
  | step _ _ he ih => exact inv_step ih he

/-- the weight of the receiver -/
def rw' : RPh → Nat
  | .done => 0
  | .waiting => 1
  | .top => 2
  | .upd => 4
  | .push n => 4 + 3 * n

/-- the weight of the sender -/
def sw : SPh → Nat
  | .done => 0
  | .top => 1
  | .sending => 2

/-- the weight of the refresher -/
def fw : FPh → Nat
  | .done => 0
  | .top => 1
  | .refreshing => 2

/-- what is left to do on a broken stream -/
def weight (s : St) : Nat := rw' s.recv + sw s.send + fw s.ref + 2 * s.queue

theorem weight_step {s s' : St} {a : Act} (hb : s.broken.isSome = true) (hi : a.internal = true) (ha : a ≠ .retry)
    (he : exec s a = some s') : weight s' < weight s ∧ s'.broken = s.broken ∧ s'.attempts = s.attempts ∧ s'.stopped = s.stopped := by
  cases a with
  | cancel => simp [Act.internal] at hi
  | «break» e => simp [Act.internal] at hi
  | recvMsg ok k => simp [Act.internal] at hi
  | retry => exact absurd rfl ha
  | recvTop =>
    simp only [exec] at he
    split at he <;> try simp at he
    rename_i hr
    split at he <;> (simp at he; subst he) <;> simp [weight, St.fail, hr, rw'] <;> omega
  | recvErr =>
    simp only [exec] at he
    split at he <;> try simp at he
    rename_i hr
    split at he <;> simp at he; subst he
    simp [weight, St.fail, hr, rw']
  | recvPush =>
    simp only [exec] at he
    split at he <;> try simp at he
    obtain ⟨hq, rfl⟩ := he
    rename_i n hr
    by_cases hn : n = 0
    · subst hn; simp [weight, hr, rw']; omega
    · simp [weight, hr, rw', hn]; omega
  | handoff =>
    simp only [exec] at he
    split at he <;> simp at he
    rename_i h; subst he
    simp [weight, h.1, h.2, rw', fw]; omega
  | refDone =>
    simp only [exec] at he
    split at he <;> simp at he
    rename_i h; subst he
    simp [weight, h, fw]
  | refTop =>
    simp only [exec] at he
    split at he <;> simp at he
    rename_i h; subst he
    simp [weight, St.fail, h.1, fw]
  | sendTake =>
    simp only [exec] at he
    split at he <;> simp at he
    rename_i h; subst he
    simp [weight, h.1, sw]
    omega
  | sendOk =>
    simp only [exec] at he
    split at he <;> simp at he
    rename_i h
    rw [h.2] at hb; simp at hb
  | sendErr =>
    simp only [exec] at he
    split at he <;> simp at he
    rename_i h; subst he
    simp [weight, St.fail, h.1, sw]
  | sendTop =>
    simp only [exec] at he
    split at he <;> simp at he
    rename_i h; subst he
    simp [weight, St.fail, h.1, sw]

theorem retry_step {s s' : St} (he : exec s .retry = some s') :
    s'.stopped = true ∨ s'.attempts = s.attempts + 1 := by
  simp only [exec] at he
  split at he <;> try simp at he
  split at he <;> (simp at he; subst he)
  · exact Or.inl rfl
  · exact Or.inr rfl

/-- on a broken stream some goroutine can go on, unless the receiver is stuck -/
theorem progress {s : St} (h : Inv s) (hb : s.broken.isSome = true) (hs : s.stopped = false) (hn : ¬ stuck s) :
    ∃ a s', a.internal = true ∧ exec s a = some s' := by
  obtain ⟨e, hbe⟩ := Option.isSome_iff_exists.mp hb
  -- the sender in `Send` gets the error, the refresher at work comes back
  by_cases hse : s.send = .sending
  · exact ⟨.sendErr, _, rfl, by simp only [exec]; rw [if_pos ⟨hse, by rw [hbe]; simp⟩]⟩
  by_cases hre : s.ref = .refreshing
  · exact ⟨.refDone, _, rfl, by simp only [exec]; rw [if_pos hre]⟩
  by_cases hsq : s.send = .top ∧ 0 < s.queue
  · exact ⟨.sendTake, _, rfl, by simp only [exec]; rw [if_pos hsq]⟩
  cases hr : s.recv with
  | top =>
    by_cases hg : s.group = true
    · exact ⟨.recvTop, _, rfl, by simp only [exec]; rw [if_pos hr, if_pos hg]⟩
    · exact ⟨.recvTop, _, rfl, by simp only [exec]; rw [if_pos hr, if_neg hg]⟩
  | waiting => exact ⟨.recvErr, _, rfl, by simp only [exec]; rw [if_pos hr, hbe]⟩
  | push n =>
    cases n with
    | zero => exact absurd hr h.pushPos
    | succ n =>
      by_cases hq : s.queue < cap
      · exact ⟨.recvPush, _, rfl, by simp only [exec]; rw [hr]; simp only []; rw [if_pos hq]⟩
      · have hq' : s.queue = cap := Nat.le_antisymm h.full (Nat.le_of_not_lt hq)
        cases hsd : s.send with
        | top => exact absurd ⟨hsd, by rw [hq']; decide⟩ hsq
        | sending => exact absurd hsd hse
        | done => exact absurd (Or.inr (Or.inl ⟨hq', hsd, n + 1, hr⟩)) hn
  | upd =>
    cases hf : s.ref with
    | top => exact ⟨.handoff, _, rfl, by simp only [exec]; rw [if_pos ⟨hr, hf⟩]⟩
    | refreshing => exact absurd hf hre
    | done => exact absurd (Or.inl ⟨hr, hf⟩) hn
  | done =>
    by_cases hg : s.group = true
    · cases hsd : s.send with
      | top => exact ⟨.sendTop, _, rfl, by simp only [exec]; rw [if_pos ⟨hsd, hg⟩]⟩
      | sending => exact absurd hsd hse
      | done =>
        cases hf : s.ref with
        | top => exact ⟨.refTop, _, rfl, by simp only [exec]; rw [if_pos ⟨hf, hg⟩]⟩
        | refreshing => exact absurd hf hre
        | done =>
          by_cases hc : s.parent = true ∨ s.result ≠ some .other
          · exact ⟨.retry, _, rfl, by simp only [exec]; rw [if_pos ⟨hs, hr, hsd, hf⟩, if_pos hc]⟩
          · exact ⟨.retry, _, rfl, by simp only [exec]; rw [if_pos ⟨hs, hr, hsd, hf⟩, if_neg hc]⟩
    · cases hsd : s.send with
      | sending => exact absurd hsd hse
      | top =>
        have hq0 : s.queue = 0 := by
          cases hq : s.queue with
          | zero => rfl
          | succ m => exact absurd ⟨hsd, by omega⟩ hsq
        exact absurd (Or.inr (Or.inr ⟨hr, by simpa using hg, hsd, hq0⟩)) hn
      | done =>
        -- the sender only leaves with an error
        exact absurd (h.resg (h.sendd hsd)) hg

theorem run_reach {s s' : St} (hr : Reach anyStep s) : ∀ {as : List Act}, run s as = some s' → Reach anyStep s' := by
  intro as
  induction as generalizing s with
  | nil => intro h; simp [run] at h; subst h; exact hr
  | cons a as ih =>
    intro h
    simp only [run, Option.bind_eq_some_iff] at h
    obtain ⟨s1, h1, h2⟩ := h
    exact ih (.step hr trivial h1) h2

/-- a condition that the client's own steps keep on a broken stream -/
def Kept (J : St → Prop) : Prop := ∀ s a s', Inv s → s.broken.isSome = true → J s → a.internal = true → a ≠ .retry → exec s a = some s' → J s'

theorem leads_aux {J : St → Prop} (hJ : Kept J) (k : Nat) :
    ∀ n s, weight s ≤ n → Inv s → s.broken.isSome = true → s.stopped = false → s.attempts = k → J s →
      Leads (fun t => t.stopped = true ∨ t.attempts = k + 1 ∨ (stuck t ∧ J t)) s := by
  intro n
  induction n with
  | zero =>
    intro s hw hi hb hs hk hj
    by_cases hst : stuck s
    · exact .now (Or.inr (Or.inr ⟨hst, hj⟩))
    · refine .later (progress hi hb hs hst) ?_
      intro a s' ha he
      by_cases har : a = .retry
      · subst har
        rcases retry_step he with h | h
        · exact .now (Or.inl h)
        · exact .now (Or.inr (Or.inl (by rw [h, hk])))
      · have := (weight_step hb ha har he).1
        omega
  | succ n ih =>
    intro s hw hi hb hs hk hj
    by_cases hst : stuck s
    · exact .now (Or.inr (Or.inr ⟨hst, hj⟩))
    · refine .later (progress hi hb hs hst) ?_
      intro a s' ha he
      by_cases har : a = .retry
      · subst har
        rcases retry_step he with h | h
        · exact .now (Or.inl h)
        · exact .now (Or.inr (Or.inl (by rw [h, hk])))
      · obtain ⟨w1, w2, w3, w4⟩ := weight_step hb ha har he
        exact ih s' (by omega) (inv_step hi he) (by rw [w2]; exact hb) (by rw [w4]; exact hs) (by rw [w3]; exact hk)
          (hJ s a s' hi hb hj ha har he)

/-- **C251**, in full but for the three ways to be stuck: after any run, whatever has happened before on this stream or on earlier ones, once the stream is
broken and the server sends nothing more, in every order of the goroutines the client comes to open a new stream or to give up - unless the receiver gets
stuck -/
theorem C251_notices_partial {s : St} (h : Reach anyStep s) (hb : s.broken ≠ none) (hs : s.stopped = false) :
    Leads (fun t => t.stopped = true ∨ t.attempts = s.attempts + 1 ∨ stuck t) s := by
  have hb' : s.broken.isSome = true := by cases hbb : s.broken <;> simp_all
  have := leads_aux (J := fun _ => True) (fun _ _ _ _ _ _ _ _ _ => trivial) s.attempts _ s (Nat.le_refl _) (inv_reach h) hb' hs rfl trivial
  simpa using this

/-- the receiver has handled what it got -/
def idle (s : St) : Prop := s.recv = .top ∨ s.recv = .waiting ∨ (s.recv = .done ∧ s.group = true)

theorem idle_kept : Kept idle := by
  intro s a s' _ _ hj hi har he
  cases a with
  | cancel => simp [Act.internal] at hi
  | «break» e => simp [Act.internal] at hi
  | recvMsg ok k => simp [Act.internal] at hi
  | retry => exact absurd rfl har
  | recvTop =>
    simp only [exec] at he
    split at he <;> try simp at he
    split at he <;> (simp at he; subst he)
    · exact Or.inr (Or.inr ⟨rfl, rfl⟩)
    · exact Or.inr (Or.inl rfl)
  | recvErr =>
    simp only [exec] at he
    split at he <;> try simp at he
    split at he <;> simp at he; subst he
    exact Or.inr (Or.inr ⟨rfl, rfl⟩)
  | recvPush =>
    simp only [exec] at he
    split at he <;> try simp at he
    rename_i hr
    rcases hj with h | h | h <;> simp [hr] at h
  | handoff =>
    simp only [exec] at he
    split at he <;> simp at he
    subst he
    exact Or.inl rfl
  | refDone =>
    simp only [exec] at he
    split at he <;> simp at he
    subst he; exact hj
  | sendTake =>
    simp only [exec] at he
    split at he <;> simp at he
    subst he; exact hj
  | sendOk =>
    simp only [exec] at he
    split at he <;> simp at he
    subst he; exact hj
  | refTop =>
    simp only [exec] at he
    split at he <;> simp at he
    subst he
    exact hj.imp id (Or.imp id fun h => ⟨h.1, rfl⟩)
  | sendErr =>
    simp only [exec] at he
    split at he <;> simp at he
    subst he
    exact hj.imp id (Or.imp id fun h => ⟨h.1, rfl⟩)
  | sendTop =>
    simp only [exec] at he
    split at he <;> simp at he
    subst he
    exact hj.imp id (Or.imp id fun h => ⟨h.1, rfl⟩)

theorem not_stuck_of_idle {s : St} (hi : idle s) : ¬ stuck s := by
  rintro (⟨h, _⟩ | ⟨_, _, n, h⟩ | ⟨h, hg, _⟩) <;> rcases hi with h' | h' | ⟨h', hg'⟩ <;> simp_all

theorem Leads.mono {P Q : St → Prop} (hpq : ∀ s, P s → Q s) {s : St} (h : Leads P s) : Leads Q s := by
  induction h with
  | now hp => exact .now (hpq _ hp)
  | later hx _ ih => exact .later hx ih

/-- **C251**: a stream that breaks while the receiver waits for the next response is always noticed: in every order of the goroutines the client opens a new
stream, or gives up (C252 says when) -/
theorem C251_quiet_partial {s : St} (h : Reach anyStep s) (hb : s.broken ≠ none) (hs : s.stopped = false)
    (hq : s.recv = .top ∨ s.recv = .waiting) : Leads (fun t => t.stopped = true ∨ t.attempts = s.attempts + 1) s := by
  have hb' : s.broken.isSome = true := by cases hbb : s.broken <;> simp_all
  refine Leads.mono ?_ (leads_aux idle_kept s.attempts _ s (Nat.le_refl _) (inv_reach h) hb' hs rfl (hq.imp id Or.inl))
  rintro t (h1 | h1 | ⟨h1, h2⟩)
  · exact Or.inl h1
  · exact Or.inr h1
  · exact absurd h1 (not_stuck_of_idle h2)

/-- not cancelled by the application -/
def noCancel : St → Act → Prop := fun _ a => a ≠ .cancel

/-- the first two ways to be stuck outlast even a cancellation -/
def dead (s : St) : Prop := (s.recv = .upd ∧ s.ref = .done) ∨ (s.queue = cap ∧ s.send = .done ∧ ∃ n, s.recv = .push n)

theorem dead_step {s s' : St} {a : Act} (h : dead s) (he : exec s a = some s') :
    dead s' ∧ s'.attempts = s.attempts ∧ s'.stopped = s.stopped := by
  rcases h with ⟨hr, hf⟩ | ⟨hq, hsd, n, hr⟩
  · cases a <;> simp [exec, hr, hf] at he
    all_goals first
      | (obtain ⟨_, rfl⟩ := he; exact ⟨Or.inl ⟨by first | rfl | exact hr, by first | rfl | exact hf⟩, rfl, rfl⟩)
      | (subst he; exact ⟨Or.inl ⟨by first | rfl | exact hr, by first | rfl | exact hf⟩, rfl, rfl⟩)
  · cases a with
    | recvPush =>
      cases n with
      | zero => simp [exec, hr] at he
      | succ n => simp [exec, hr, hq] at he
    | cancel => simp [exec] at he; subst he; exact ⟨Or.inr ⟨hq, hsd, n, hr⟩, rfl, rfl⟩
    | «break» e => simp [exec] at he; obtain ⟨_, rfl⟩ := he; exact ⟨Or.inr ⟨hq, hsd, n, hr⟩, rfl, rfl⟩
    | refDone => simp [exec] at he; obtain ⟨_, rfl⟩ := he; exact ⟨Or.inr ⟨hq, hsd, n, hr⟩, rfl, rfl⟩
    | refTop => simp [exec] at he; obtain ⟨_, rfl⟩ := he; exact ⟨Or.inr ⟨hq, hsd, n, hr⟩, rfl, rfl⟩
    | _ => simp [exec, hr, hsd] at he

/-- **C251**: the receiver that waits for the refresher or the sender which has left waits for ever, whatever else happens: no new stream is opened, and
`Connect` does not even end when it is cancelled -/
theorem C251_dead {s t : St} (h : dead s) (hl : Later anyStep s t) : dead t ∧ t.attempts = s.attempts ∧ t.stopped = s.stopped := by
  induction hl with
  | refl => exact ⟨h, rfl, rfl⟩
  | step _ _ he ih =>
    obtain ⟨i1, i2, i3⟩ := ih
    obtain ⟨j1, j2, j3⟩ := dead_step i1 he
    exact ⟨j1, j2.trans i2, j3.trans i3⟩

/-- how the receiver waits for the refresher for ever: the server sends a response and ends the stream; the answer to the response cannot be sent, which
cancels the refresher before the receiver announces the update -/
def lostUpdate : List Act :=
  [.recvTop, .recvMsg true 0, .break .other, .recvPush, .sendTake, .sendErr, .refTop]

/-- **C251** is false of the code: a reachable state in which the stream is broken, the client is not cancelled, and no new stream is ever opened -/
theorem C251_update_false : ∃ s, Reach anyStep s ∧ s.broken = some .other ∧ s.parent = false ∧
    ∀ t, Later anyStep s t → t.attempts = 1 ∧ t.stopped = false := by
  have hr : ∃ s, run {} lostUpdate = some s ∧ s.broken = some .other ∧ s.parent = false ∧ s.recv = .upd ∧ s.ref = .done ∧
      s.attempts = 1 ∧ s.stopped = false := ⟨_, rfl, by decide, by decide, by decide, by decide, by decide, by decide⟩
  obtain ⟨s, h1, h2, h3, h4, h5, h6, h7⟩ := hr
  refine ⟨s, run_reach .init h1, h2, h3, ?_⟩
  intro t ht
  obtain ⟨_, j2, j3⟩ := C251_dead (Or.inl ⟨h4, h5⟩) ht
  exact ⟨j2.trans h6, j3.trans h7⟩

/-- how the receiver waits for the sender for ever: a response that leads to more subscriptions than the channel holds, on a stream that breaks -/
def fullQueue : List Act :=
  [.recvTop, .recvMsg true 200, .break .other, .sendTake, .sendErr] ++ List.replicate 98 .recvPush

/-- **C251** is false of the code: the same with the channel of requests full -/
theorem C251_full_false : ∃ s, Reach anyStep s ∧ s.broken = some .other ∧ s.parent = false ∧
    ∀ t, Later anyStep s t → t.attempts = 1 ∧ t.stopped = false := by
  have hr : ∃ s, run {} fullQueue = some s ∧ s.broken = some .other ∧ s.parent = false ∧ s.queue = cap ∧ s.send = .done ∧
      s.recv = .push 103 ∧ s.attempts = 1 ∧ s.stopped = false :=
    ⟨_, rfl, by decide +kernel, by decide +kernel, by decide +kernel, by decide +kernel, by decide +kernel, by decide +kernel, by decide +kernel⟩
  obtain ⟨s, h1, h2, h3, h4, h5, h5', h6, h7⟩ := hr
  refine ⟨s, run_reach .init h1, h2, h3, ?_⟩
  intro t ht
  obtain ⟨_, j2, j3⟩ := C251_dead (Or.inr ⟨h4, h5, _, h5'⟩) ht
  exact ⟨j2.trans h6, j3.trans h7⟩

/-- the receiver has left without an error, and nothing is left to send -/
def deaf (s : St) : Prop := s.recv = .done ∧ s.group = false ∧ s.send = .top ∧ s.queue = 0 ∧ s.ref ≠ .done

theorem deaf_step {s s' : St} {a : Act} (h : deaf s) (hc : a ≠ .cancel) (he : exec s a = some s') :
    deaf s' ∧ s'.attempts = s.attempts ∧ s'.stopped = s.stopped := by
  obtain ⟨h1, h2, h3, h4, h5⟩ := h
  cases a with
  | cancel => exact absurd rfl hc
  | «break» e => simp [exec] at he; obtain ⟨_, rfl⟩ := he; exact ⟨⟨h1, h2, h3, h4, h5⟩, rfl, rfl⟩
  | refDone => simp [exec] at he; obtain ⟨_, rfl⟩ := he; exact ⟨⟨h1, h2, h3, h4, by simp⟩, rfl, rfl⟩
  | _ => simp [exec, h1, h2, h3, h4] at he

/-- **C251** is false of the code: after a response of a type the client does not know the receiver leaves without an error. From then on nothing is
received, and unless the client is cancelled the end of the stream is never noticed -/
theorem C251_unsupported_false : ∃ s, Reach anyStep s ∧ s.broken = some .other ∧ s.parent = false ∧
    ∀ t, Later noCancel s t → t.recv = .done ∧ t.attempts = 1 ∧ t.stopped = false := by
  have hr : ∃ s, run {} [.sendTake, .sendOk, .sendTake, .sendOk, .sendTake, .sendOk, .recvTop, .recvMsg false 0, .break .other] = some s ∧
      s.broken = some .other ∧ s.parent = false ∧ deaf s ∧ s.attempts = 1 ∧ s.stopped = false :=
    ⟨_, rfl, by decide, by decide, ⟨by decide, by decide, by decide, by decide, by decide⟩, by decide, by decide⟩
  obtain ⟨s, h1, h2, h3, h4, h5, h6⟩ := hr
  refine ⟨s, run_reach .init h1, h2, h3, ?_⟩
  intro t ht
  have : deaf t ∧ t.attempts = s.attempts ∧ t.stopped = s.stopped := by
    induction ht with
    | refl => exact ⟨h4, rfl, rfl⟩
    | step _ hg he ih =>
      obtain ⟨i1, i2, i3⟩ := ih
      obtain ⟨j1, j2, j3⟩ := deaf_step i1 hg he
      exact ⟨j1, j2.trans i2, j3.trans i3⟩
  exact ⟨this.1.1, this.2.1.trans h5, this.2.2.trans h6⟩

/-- the server does not end the stream with the status Canceled -/
def noCanceled : St → Act → Prop := fun _ a => a ≠ .break .canceled

/-- the invariant behind C252 -/
structure Inv2 (s : St) : Prop where
  br : s.broken = some .canceled → s.parent = true
  res : s.result = some .canceled → s.parent = true
  stop : s.stopped = true → s.parent = true

theorem inv2_fail {s : St} (h : Inv2 s) (hi : Inv s) (hg : s.group = true) : (s.fail .canceled).result = some .canceled → s.parent = true := by
  intro hr
  rcases hi.grp hg with hp | hsome
  · exact hp
  · cases hres : s.result with
    | none => simp [hres] at hsome
    | some e =>
      simp [St.fail, hres] at hr
      subst hr
      exact h.res hres

theorem inv2_step {s s' : St} {a : Act} (hi : Inv s) (h : Inv2 s) (hg : noCanceled s a) (he : exec s a = some s') : Inv2 s' := by
  obtain ⟨h1, h2, h3⟩ := h
  cases a with
  | cancel =>
    simp only [exec, Option.some.injEq] at he; subst he
    exact ⟨fun _ => rfl, fun _ => rfl, fun _ => rfl⟩
  | «break» e =>
    simp only [exec] at he
    split at he <;> simp at he; subst he
    refine ⟨?_, h2, h3⟩
    intro hc
    simp at hc; subst hc
    exact absurd rfl hg
  | recvTop =>
    simp only [exec] at he
    split at he <;> try simp at he
    split at he <;> (simp at he; subst he)
    · exact ⟨h1, inv2_fail ⟨h1, h2, h3⟩ hi (by assumption), h3⟩
    · exact ⟨h1, h2, h3⟩
  | recvMsg ok k =>
    simp only [exec] at he
    split at he <;> try simp at he
    split at he <;> (simp at he; subst he) <;> exact ⟨h1, h2, h3⟩
  | recvErr =>
    simp only [exec] at he
    split at he <;> try simp at he
    split at he <;> simp at he; subst he
    rename_i e hbe
    refine ⟨h1, ?_, h3⟩
    intro hr
    cases hres : s.result with
    | none => simp [St.fail, hres] at hr; subst hr; exact h1 hbe
    | some e' => simp [St.fail, hres] at hr; subst hr; exact h2 hres
  | recvPush =>
    simp only [exec] at he
    split at he <;> try simp at he
    obtain ⟨hq, rfl⟩ := he
    exact ⟨h1, h2, h3⟩
  | handoff =>
    simp only [exec] at he
    split at he <;> simp at he; subst he
    exact ⟨h1, h2, h3⟩
  | refDone =>
    simp only [exec] at he
    split at he <;> simp at he; subst he
    exact ⟨h1, h2, h3⟩
  | refTop =>
    simp only [exec] at he
    split at he <;> simp at he; subst he
    rename_i hc
    exact ⟨h1, inv2_fail ⟨h1, h2, h3⟩ hi hc.2, h3⟩
  | sendTake =>
    simp only [exec] at he
    split at he <;> simp at he; subst he
    exact ⟨h1, h2, h3⟩
  | sendOk =>
    simp only [exec] at he
    split at he <;> simp at he; subst he
    exact ⟨h1, h2, h3⟩
  | sendErr =>
    simp only [exec] at he
    split at he <;> simp at he; subst he
    refine ⟨h1, ?_, h3⟩
    intro hr
    cases hres : s.result with
    | none => simp [St.fail, hres] at hr
    | some e' => simp [St.fail, hres] at hr; subst hr; exact h2 hres
  | sendTop =>
    simp only [exec] at he
    split at he <;> simp at he; subst he
    rename_i hc
    exact ⟨h1, inv2_fail ⟨h1, h2, h3⟩ hi hc.2, h3⟩
  | retry =>
    simp only [exec] at he
    split at he <;> try simp at he
    rename_i hd
    split at he <;> (simp at he; subst he)
    · rename_i hc
      have hp : s.parent = true := by
        rcases hc with hp | hne
        · exact hp
        · have hsome := hi.refd hd.2.2.2
          cases hres : s.result with
          | none => simp [hres] at hsome
          | some e =>
            cases e with
            | canceled => exact h2 hres
            | other => exact absurd hres hne
      exact ⟨h1, h2, fun _ => hp⟩
    · exact ⟨by simp, by simp, by simp⟩

theorem inv2_reach {s : St} (h : Reach noCanceled s) : Inv2 s := by
  induction h with
  | init => exact ⟨by simp, by simp, by simp⟩
  | step hr hg he ih => exact inv2_step (inv_reach hr) ih hg he

/-- **C252**: as long as no server ends a stream with the status Canceled, the client gives up only when the application has cancelled it -/
theorem C252_gives_up_partial {s : St} (h : Reach noCanceled s) (hs : s.stopped = true) : s.parent = true := (inv2_reach h).stop hs

/-- **C252**: without that condition too, all three goroutines never end without an error, so that `Connect` never takes a stream for ended in peace -/
theorem C252_error {s : St} (h : Reach anyStep s) (hd : s.ref = .done ∨ s.send = .done) : s.result ≠ none := by
  have hi := inv_reach h
  rcases hd with h1 | h1
  · have := hi.refd h1; intro hc; simp [hc] at this
  · have := hi.sendd h1; intro hc; simp [hc] at this

/-- **C252**: once the client is cancelled no new stream is opened -/
theorem C252_no_more {s t : St} (hp : s.parent = true) (hl : Later anyStep s t) : t.parent = true ∧ t.attempts = s.attempts := by
  induction hl with
  | refl => exact ⟨hp, rfl⟩
  | @step s1 s2 a _ _ he ih =>
    obtain ⟨i1, i2⟩ := ih
    cases a with
    | retry =>
      simp only [exec] at he
      split at he <;> try simp at he
      rw [if_pos (Or.inl i1)] at he
      simp at he; subst he
      exact ⟨i1, i2⟩
    | cancel => simp [exec] at he; subst he; exact ⟨rfl, i2⟩
    | recvPush =>
      simp only [exec] at he
      split at he <;> try simp at he
      obtain ⟨_, rfl⟩ := he; exact ⟨i1, i2⟩
    | recvTop =>
      simp only [exec] at he
      split at he <;> try simp at he
      split at he <;> (simp at he; subst he) <;> exact ⟨i1, i2⟩
    | recvMsg ok k =>
      simp only [exec] at he
      split at he <;> try simp at he
      split at he <;> (simp at he; subst he) <;> exact ⟨i1, i2⟩
    | recvErr =>
      simp only [exec] at he
      split at he <;> try simp at he
      split at he <;> simp at he; subst he
      exact ⟨i1, i2⟩
    | _ =>
      simp only [exec] at he
      split at he <;> simp at he; subst he
      exact ⟨i1, i2⟩

/-- **C252** is false of the code in full: a server that ends the stream with the status Canceled makes the client give up for good, although the application
has not cancelled it -/
theorem C252_canceled_false : ∃ s, Reach anyStep s ∧ s.stopped = true ∧ s.parent = false ∧ ∀ t, Later anyStep s t → t.attempts = 1 := by
  have hr : ∃ s, run {} [.recvTop, .break .canceled, .recvErr, .sendTop, .refTop, .retry] = some s ∧ s.stopped = true ∧ s.parent = false ∧ s.attempts = 1 :=
    ⟨_, rfl, by decide, by decide, by decide⟩
  obtain ⟨s, h1, h2, h3, h4⟩ := hr
  refine ⟨s, run_reach .init h1, h2, h3, ?_⟩
  intro t ht
  have : t.stopped = true ∧ t.attempts = s.attempts := by
    clear h1 h3 h4
    induction ht with
    | refl => exact ⟨h2, rfl⟩
    | @step s1 s2 a _ _ he ih =>
      obtain ⟨i1, i2⟩ := ih
      cases a with
      | retry => simp [exec, i1] at he
      | cancel => simp [exec] at he; subst he; exact ⟨i1, i2⟩
      | recvPush =>
        simp only [exec] at he
        split at he <;> try simp at he
        obtain ⟨_, rfl⟩ := he; exact ⟨i1, i2⟩
      | recvTop =>
        simp only [exec] at he
        split at he <;> try simp at he
        split at he <;> (simp at he; subst he) <;> exact ⟨i1, i2⟩
      | recvMsg ok k =>
        simp only [exec] at he
        split at he <;> try simp at he
        split at he <;> (simp at he; subst he) <;> exact ⟨i1, i2⟩
      | recvErr =>
        simp only [exec] at he
        split at he <;> try simp at he
        split at he <;> simp at he; subst he
        exact ⟨i1, i2⟩
      | _ =>
        simp only [exec] at he
        split at he <;> simp at he; subst he
        exact ⟨i1, i2⟩
  exact this.2.trans h4

/-- the hypotheses of C251 and C252 are met: a stream that worked, broke, and was opened again -/
example : run {} [.sendTake, .sendOk, .recvTop, .recvMsg true 1, .recvPush, .recvPush, .handoff, .refDone, .recvTop, .break .other, .recvErr, .sendTop, .refTop,
    .retry] = some { attempts := 2 } := by decide

example : (run {} [.sendTake, .sendOk, .recvTop, .recvMsg true 1, .recvPush, .recvPush, .handoff, .break .other]).map
    (fun s => (s.recv, s.broken, s.stopped)) = some (.top, some .other, false) := by decide

example : (run {} [.recvTop, .cancel, .recvErr, .sendTop, .refTop, .retry]).map (fun s => (s.stopped, s.parent)) = some (true, true) := by decide

end Verif.Ads.Stream
