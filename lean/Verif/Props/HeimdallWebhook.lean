import Verif.Heimdall.Webhook
/-
C248 (the webhooks are reachable with the certificate), C249 (a workload group has a token exactly as long as it is labelled).
-/
namespace Verif.Props.HeimdallWebhook
open Verif.Heimdall Verif.Heimdall.Webhook

/-! ### C248 -/

/-- the name under which the API server calls the webhook, if it is a service of the cluster -/
def calledAt (h : Hook) : Option Str := h.service.map fun s => s.1 ++ ".".toList ++ s.2 ++ ".svc".toList

theorem dnsNames_some : ∀ {hs : List Hook}, (∀ h ∈ hs, h.service.isSome) → ∃ names, dnsNames hs = some names ∧ hs.map calledAt = names.map some
  | [], _ => ⟨[], rfl, rfl⟩
  | h :: r, hh => by
    obtain ⟨names, h1, h2⟩ := dnsNames_some (hs := r) fun x hx => hh x (.tail _ hx)
    have := hh h (.head _)
    cases hs : h.service with
    | none => rw [hs] at this; cases this
    | some s =>
      refine ⟨svcName s :: names, by simp [dnsNames, hs, h1], ?_⟩
      rw [List.map_cons, List.map_cons, h2]
      simp [calledAt, hs, svcName]

/-- **C248** (partial: every webhook is a service of the cluster) The certificate is asked for exactly the names under which the webhooks of the
configuration are called, in order. -/
theorem C248_names_partial (ca : List Nat) (m v : Option (List Hook)) {k : Kind} {hs : List Hook} (hl : load m v = some (k, hs)) (hh : ∀ h ∈ hs, h.service.isSome) :
    ∃ names hs', start ca m v = .runs k names hs' ∧ hs.map calledAt = names.map some := by
  obtain ⟨names, h1, h2⟩ := dnsNames_some hh
  exact ⟨names, stamp ca hs, by rw [start, hl]; simp only [h1], h2⟩

/-- **C248** After a check every webhook of the configuration trusts the current CA and fails closed, and nothing else of it is changed: there are as many
webhooks as before, in their order. -/
theorem C248_hooks (ca : List Nat) (m v : Option (List Hook)) {k : Kind} {names : List Str} {hs' : List Hook} (h : start ca m v = .runs k names hs') :
    ∃ hs, load m v = some (k, hs) ∧ hs'.length = hs.length ∧ (∀ x ∈ hs', x.bundle = ca ∧ x.policy = some .fail) ∧
      hs'.map (fun x => (x.service, x.rest)) = hs.map fun x => (x.service, x.rest) := by
  unfold start at h
  cases hl : load m v with
  | none => rw [hl] at h; cases h
  | some p =>
    obtain ⟨k', hs⟩ := p
    rw [hl] at h
    cases hd : dnsNames hs with
    | none => simp only [hd] at h; cases h
    | some ns =>
      simp only [hd, Started.runs.injEq] at h
      obtain ⟨rfl, rfl, rfl⟩ := h
      refine ⟨hs, rfl, by simp [stamp], ?_, ?_⟩
      · intro x hx
        obtain ⟨y, _, rfl⟩ := List.mem_map.1 hx
        exact ⟨rfl, rfl⟩
      · unfold stamp; rw [List.map_map]; rfl

/-- **C248** A configuration is found exactly if there is one of either kind with the name. -/
theorem C248_found (m v : Option (List Hook)) : (load m v).isSome = (m.isSome || v.isSome) := by
  cases m <;> cases v <;> rfl

/-- **C248** If there is a mutating configuration, the validating one with the same name is left alone: its webhooks get neither a name in the
certificate nor the CA, whatever they are. -/
theorem C248_both_false (ca : List Nat) (hs : List Hook) (v : Option (List Hook)) : start ca (some hs) v = start ca (some hs) none := rfl

/-- **C248** One webhook that is reached at a URL, at any place of the configuration, makes the certifier panic. -/
theorem C248_url_false (ca : List Nat) (hs : List Hook) (v : Option (List Hook)) (h : ∃ x ∈ hs, x.service = none) : start ca (some hs) v = .panic := by
  have : dnsNames hs = none := by
    induction hs with
    | nil => obtain ⟨x, hx, _⟩ := h; cases hx
    | cons y r ih =>
      cases hy : y.service with
      | none => simp [dnsNames, hy]
      | some s =>
        obtain ⟨x, hx, hn⟩ := h
        rcases List.mem_cons.1 hx with rfl | hx
        · rw [hn] at hy; cases hy
        · simp [dnsNames, hy, ih ⟨x, hx, hn⟩]
  simp only [start, load, this]

/-! ### C249 -/

/-- what the secret should be -/
def want : Option Bool → Bool
  | some b => b
  | none => false

/-- the invariant: a group whose secret is not as it should be, by what the controller has seen, is in the queue or will be because of the secret -/
def Inv (s : St) : Prop := s.queue = true ∨ 0 < s.events ∨ s.secret = want s.seen

theorem setSecret_events (s : St) (b : Bool) : (s.setSecret b).secret = b := by
  unfold St.setSecret
  split
  · assumption
  · rfl

theorem setSecret_seen (s : St) (b : Bool) : (s.setSecret b).seen = s.seen ∧ (s.setSecret b).queue = s.queue ∧ (s.setSecret b).obj = s.obj := by
  unfold St.setSecret
  split <;> exact ⟨rfl, rfl, rfl⟩

theorem inv_step {s s' : St} {a : Act} (h : Inv s) (ha : exec s a = some s') : Inv s' := by
  cases a with
  | user v => simp only [exec, Option.some.injEq] at ha; subst ha; exact h
  | lost =>
    simp only [exec] at ha
    cases hs : s.secret with
    | false => simp [hs] at ha
    | true =>
      simp only [hs, if_true, Option.some.injEq] at ha; subst ha
      simp only [St.setSecret, hs]
      exact .inr (.inl (Nat.succ_pos _))
  | deliver =>
    simp only [exec] at ha
    unfold Inv at h
    cases hseen : s.seen with
    | none =>
      cases hobj : s.obj with
      | none => simp only [hseen, hobj, eventOf, Option.some.injEq] at ha; subst ha; exact h
      | some b =>
        simp only [hseen, hobj, eventOf, passes, Option.some.injEq] at ha; subst ha
        rcases h with h | h | h
        · exact .inl (by simp [h])
        · exact .inr (.inl h)
        · cases b with
          | true => exact .inl (by simp)
          | false => exact .inr (.inr (by rw [hseen] at h; exact h))
    | some a =>
      cases hobj : s.obj with
      | none =>
        simp only [hseen, hobj, eventOf, passes, Option.some.injEq] at ha; subst ha
        rcases h with h | h | h
        · exact .inl (by simp [h])
        · exact .inr (.inl h)
        · cases a with
          | true => exact .inl (by simp)
          | false => exact .inr (.inr (by rw [hseen] at h; exact h))
      | some b =>
        simp only [hseen, hobj, eventOf, passes, Option.some.injEq] at ha; subst ha
        rcases h with h | h | h
        · exact .inl (by simp [h])
        · exact .inr (.inl h)
        · cases a with
          | true => exact .inl (by simp)
          | false =>
            cases b with
            | true => exact .inl (by simp)
            | false => exact .inr (.inr (by rw [hseen] at h; exact h))
  | deliverSecret =>
    simp only [exec] at ha
    by_cases he : s.events = 0
    · simp [he] at ha
    · simp only [he, if_false, Option.some.injEq] at ha; subst ha; exact .inl rfl
  | reconcile fails stale =>
    simp only [exec] at ha
    cases hq : s.queue with
    | false => simp [hq] at ha
    | true =>
      simp only [hq, Bool.true_eq_false, if_false] at ha
      cases fails with
      | true => simp only [if_true, Option.some.injEq] at ha; subst ha; exact h
      | false =>
        simp only [Bool.false_eq_true, if_false] at ha
        cases stale with
        | true =>
          simp only [if_true] at ha
          by_cases he : s.events = 0
          · simp [he] at ha
          · simp only [he, if_false] at ha
            cases hseen : s.seen with
            | none => simp only [hseen, Option.some.injEq] at ha; subst ha; exact h
            | some b => simp only [hseen, Option.some.injEq] at ha; subst ha; exact .inr (.inl (Nat.pos_of_ne_zero he))
        | false =>
          simp only [Bool.false_eq_true, if_false] at ha
          cases hseen : s.seen with
          | none => simp only [hseen, Option.some.injEq] at ha; subst ha; exact h
          | some b =>
            simp only [hseen, Option.some.injEq] at ha; subst ha
            refine .inr (.inr ?_)
            show (s.setSecret b).secret = want (s.setSecret b).seen
            rw [setSecret_events, (setSecret_seen s b).1, hseen]; rfl
  | timer => simp only [exec, Option.some.injEq] at ha; subst ha; exact .inl rfl
  | restart =>
    simp only [exec, Option.some.injEq] at ha; subst ha
    cases hs : s.secret with
    | true => exact .inr (.inl (by simp))
    | false => exact .inr (.inr (by simp [want]))

theorem inv_reach {s : St} (h : Reach s) : Inv s := by
  induction h with
  | init => exact .inr (.inr rfl)
  | step _ ha ih => exact inv_step ih ha

/-- **C249** When the controller has nothing left to do, the secret with the token is there exactly if the group is there and labelled: after any
history of labelling, unlabelling, deleting, loss of the secret, failures and restarts, whatever versions the controller did not see. -/
theorem C249_token {s : St} (h : Reach s) (hseen : s.seen = s.obj) (hq : s.queue = false) (he : s.events = 0) : s.secret = true ↔ s.obj = some true := by
  rcases inv_reach h with h | h | h
  · rw [hq] at h; cases h
  · omega
  · rw [hseen] at h
    rw [h]
    cases ho : s.obj with
    | none => simp [want]
    | some b => simp [want]

/-- **C249** And it gets there: from every state in which the group is there, one delivery, then one `Reconcile` that does not fail and knows the secret,
bring the secret to what it should be. -/
theorem C249_settles {s : St} {b : Bool} (h : Reach s) (ho : s.obj = some b) (he : s.events = 0) : ∃ s1, exec s .deliver = some s1 ∧
    ((s1.queue = false ∧ s1.secret = b) ∨ ∃ s2, exec s1 (.reconcile false false) = some s2 ∧ s2.secret = b ∧ s2.queue = false) := by
  obtain ⟨e, hev⟩ : ∃ e, eventOf s.seen (some b) = some e := by cases s.seen <;> exact ⟨_, rfl⟩
  have h1 : exec s .deliver = some { s with seen := s.obj, queue := s.queue || passes e } := by
    unfold exec; rw [ho, hev]
  refine ⟨_, h1, ?_⟩
  have hr := inv_reach (.step h h1)
  cases hq : (s.queue || passes e) with
  | false =>
    left
    refine ⟨rfl, ?_⟩
    rcases hr with hr | hr | hr
    · have : (s.queue || passes e) = true := hr
      rw [hq] at this; cases this
    · have : 0 < s.events := hr
      omega
    · have : s.secret = want s.obj := hr
      rw [this, ho]; rfl
  | true =>
    right
    refine ⟨{ ({ s with seen := s.obj, queue := true } : St).setSecret b with queue := false }, ?_, ?_, rfl⟩
    · unfold exec; simp [ho]
    · exact setSecret_events _ b

/-- **C249** A labelled group that is deleted stays in the queue for ever, and is tried again and again, as long as there is no group with its name. -/
theorem C249_deleted (s s' : St) (h : s.seen = none ∧ s.queue = true) (fails stale : Bool) (ha : exec s (.reconcile fails stale) = some s') : s' = s := by
  simp only [exec, h.1, h.2, Bool.true_eq_false, if_false] at ha
  cases fails with
  | true => simpa using ha.symm
  | false =>
    cases stale with
    | false => simpa using ha.symm
    | true =>
      by_cases he : s.events = 0
      · simp [he] at ha
      · simpa [he] using ha.symm

/-! ### examples -/

example : start [7] (some [⟨some ("heimdall".toList, "ns".toList), [], none, 3⟩]) none =
    .runs .mutating ["heimdall.ns.svc".toList] [⟨some ("heimdall".toList, "ns".toList), [7], some .fail, 3⟩] := by decide
example : start [7] none (some [⟨some ("a".toList, "b".toList), [], none, 3⟩]) ≠ .error := by decide
example : start [7] none none = .error := by decide
/-- labelled, unlabelled while the controller is down: the secret leads it to the group -/
example : (run {} [.user (some true), .deliver, .reconcile false false, .deliverSecret, .reconcile false false, .user (some false), .restart, .deliver,
    .deliverSecret, .reconcile false false, .deliverSecret, .reconcile false false]).map (fun s => (s.secret, s.queue, s.events)) = some (false, false, 0) := by decide

end Verif.Props.HeimdallWebhook
