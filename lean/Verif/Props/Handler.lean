import Verif.Net.Handler
/-
Property theorems C137 (there is one discovery client), C138 (metrics are removed from the gateway at the end) and C139 (the methods of the
handler do what the configuration asks for).
-/
namespace Verif.Props.Handler
open Verif.Heimdall Verif.Net.Handler

/-! ### C137 -/

/-- the goroutine of a call has returned a client -/
def Returned (s : St) (i : Nat) (c : Nat) : Prop := ∃ t, s.threads[i]? = some t ∧ t.phase = .done c

/-- no call looks for the client while another creates it -/
def Apart : St → Act → Prop
  | s, .read _ => ∀ t ∈ s.threads, t.phase ≠ .creating
  | _, _ => True

def Any : St → Act → Prop := fun _ _ => True

/-- there is at most one client, and every call past the creation has it -/
structure Inv (s : St) : Prop where
  empty : s.dc = none → s.created = 0 ∧ s.connected = [] ∧
    (∀ t ∈ s.threads, t.phase = .start ∨ t.phase = .creating) ∧
    ∀ (i j : Nat) (t u : Thread), s.threads[i]? = some t → s.threads[j]? = some u → t.phase = .creating → u.phase = .creating → i = j
  full : ∀ c, s.dc = some c → c = 0 ∧ s.created = 1 ∧ (∀ d ∈ s.connected, d = 0) ∧
    ∀ t ∈ s.threads, t.phase = .start ∨ t.phase = .stored ∨ t.phase = .done 0

theorem move_eq {s s' : St} {i : Nat} {a b : Phase} (h : s.move i a b = some s') : ∃ t, s.threads[i]? = some t ∧ t.phase = a ∧
    s' = { s with threads := s.threads.set i { t with phase := b } } := by
  unfold St.move at h
  cases ht : s.threads[i]? with
  | none => rw [ht] at h; cases h
  | some t =>
    rw [ht] at h
    simp only at h
    by_cases ha : t.phase = a
    · rw [if_pos ha] at h; injection h with h; exact ⟨t, rfl, ha, h.symm⟩
    · rw [if_neg ha] at h; cases h

theorem mem_set {α : Type} {l : List α} {i : Nat} {x y : α} (h : y ∈ l.set i x) : y = x ∨ y ∈ l := by
  rcases List.mem_or_eq_of_mem_set h with h | h
  · exact .inr h
  · exact .inl h

theorem inv_step {s s' : St} {a : Act} (hi : Inv s) (hg : Apart s a) (h : exec s a = some s') : Inv s' := by
  cases a with
  | spawn u =>
    injection h with h; subst h
    constructor
    · intro hd
      obtain ⟨h1, h2, h3, h4⟩ := hi.empty hd
      refine ⟨h1, h2, ?_, ?_⟩
      · intro t ht
        rcases List.mem_append.mp ht with ht | ht
        · exact h3 t ht
        · rw [List.mem_singleton.mp ht]; exact .inl rfl
      · intro i j t u' hit hju htc huc
        have key : ∀ (k : Nat) (v : Thread), (s.threads ++ [{ use := u }])[k]? = some v → v.phase = .creating → s.threads[k]? = some v := by
          intro k v hk hv
          rw [List.getElem?_append] at hk
          split at hk
          · exact hk
          · rename_i hlt
            cases hkk : k - s.threads.length with
            | zero => rw [hkk] at hk; injection hk with hk; subst hk; cases hv
            | succ n => rw [hkk] at hk; cases hk
        exact h4 i j t u' (key i t hit htc) (key j u' hju huc) htc huc
    · intro c hd
      obtain ⟨h1, h2, h3, h4⟩ := hi.full c hd
      refine ⟨h1, h2, h3, ?_⟩
      intro t ht
      rcases List.mem_append.mp ht with ht | ht
      · exact h4 t ht
      · rw [List.mem_singleton.mp ht]; exact .inl rfl
  | read i =>
    obtain ⟨t, ht, hp, rfl⟩ := move_eq h
    constructor
    · intro hd
      have hd' : s.dc = none := hd
      obtain ⟨h1, h2, h3, h4⟩ := hi.empty hd'
      refine ⟨h1, h2, ?_, ?_⟩
      · intro u hu
        rcases mem_set hu with rfl | hu
        · rw [hd']; exact .inr rfl
        · exact h3 u hu
      · have key : ∀ (k : Nat) (v : Thread), (s.threads.set i { t with phase := (match s.dc with | some c => .done c | none => .creating) })[k]? = some v →
            v.phase = .creating → k = i := by
          intro k v hk hv
          by_cases hik : i = k
          · exact hik.symm
          · rw [List.getElem?_set_ne hik] at hk
            exact absurd hv (hg v (List.mem_of_getElem? hk))
        intro a b u v hu hv huc hvc
        rw [key a u hu huc, key b v hv hvc]
    · intro c hd
      have hd' : s.dc = some c := hd
      obtain ⟨h1, h2, h3, h4⟩ := hi.full c hd'
      refine ⟨h1, h2, h3, ?_⟩
      intro u hu
      rcases mem_set hu with rfl | hu
      · rw [hd', h1]; exact .inr (.inr rfl)
      · exact h4 u hu
  | create i =>
    rw [exec] at h
    obtain ⟨s1, h1, h2⟩ := Option.map_eq_some_iff.mp h
    obtain ⟨t, ht, hp, rfl⟩ := move_eq h1
    subst h2
    constructor
    · intro hd; cases hd
    · intro c hd
      injection hd with hd
      cases hdc : s.dc with
      | some c' =>
        obtain ⟨-, -, -, h4⟩ := hi.full c' hdc
        rcases h4 t (List.mem_of_getElem? ht) with h | h | h <;> (rw [hp] at h; cases h)
      | none =>
        obtain ⟨g1, g2, g3, g4⟩ := hi.empty hdc
        refine ⟨(by rw [← hd]; exact g1), (by show s.created + 1 = 1; rw [g1]), (by show ∀ d ∈ s.connected, d = 0; rw [g2]; intro d hd'; cases hd'), ?_⟩
        intro u hu
        obtain ⟨k, hk⟩ := List.mem_iff_getElem?.mp hu
        by_cases hik : i = k
        · subst hik
          have hk' : (s.threads.set i { t with phase := .stored })[i]? = some u := hk
          rw [List.getElem?_set_self (by exact (List.getElem?_eq_some_iff.mp ht).1)] at hk'
          injection hk' with hk'
          rw [← hk']
          exact .inr (.inl rfl)
        · have hk' : (s.threads.set i { t with phase := .stored })[k]? = some u := hk
          rw [List.getElem?_set_ne hik] at hk'
          rcases g3 u (List.mem_of_getElem? hk') with h | h
          · exact .inl h
          · exact absurd (g4 i k t u ht hk' hp h) hik
  | reread i =>
    rw [exec] at h
    obtain ⟨c, hc, h⟩ := Option.bind_eq_some_iff.mp h
    obtain ⟨t, ht, hp, rfl⟩ := move_eq h
    constructor
    · intro hd; exact absurd (hc ▸ hd : some c = none) (by simp)
    · intro c' hd
      have hd' : s.dc = some c' := hd
      obtain ⟨h1, h2, h3, h4⟩ := hi.full c' hd'
      refine ⟨h1, h2, h3, ?_⟩
      intro u hu
      rcases mem_set hu with rfl | hu
      · have : c = c' := by rw [hc] at hd'; injection hd'
        subst this
        rw [h1]; exact .inr (.inr rfl)
      · exact h4 u hu
  | connect i =>
    rw [exec] at h
    cases ht : s.threads[i]? with
    | none => rw [ht] at h; cases h
    | some t =>
      obtain ⟨u, p⟩ := t
      rw [ht] at h
      cases u with
      | other => cases h
      | run =>
        cases p with
        | done c =>
          injection h with h; subst h
          constructor
          · intro hd
            obtain ⟨-, -, h3, -⟩ := hi.empty hd
            rcases h3 _ (List.mem_of_getElem? ht) with h | h <;> cases h
          · intro c' hd
            obtain ⟨h1, h2, h3, h4⟩ := hi.full c' hd
            refine ⟨h1, h2, ?_, h4⟩
            intro d hd'
            rcases List.mem_cons.mp hd' with rfl | hd'
            · rcases h4 _ (List.mem_of_getElem? ht) with h | h | h
              · cases h
              · cases h
              · injection h
            · exact h3 d hd'
        | start => cases h
        | creating => cases h
        | stored => cases h

theorem inv_reach {s : St} (h : Reach Apart s) : Inv s := by
  induction h with
  | init =>
    constructor
    · intro _
      refine ⟨rfl, rfl, ?_, ?_⟩
      · intro t ht; cases ht
      · intro i j t u hit; cases hit
    · intro c h; cases h
  | step _ hg h ih => exact inv_step ih hg h

/-- **C137** (partial) If no call looks for the client while another creates it, all calls return the same client, at most one is created,
and it is the one that `Run` connects. -/
theorem C137_one_partial {s : St} (h : Reach Apart s) :
    s.created ≤ 1 ∧ (∀ i j c d, Returned s i c → Returned s j d → c = d) ∧ ∀ i c, Returned s i c → ∀ d ∈ s.connected, d = c := by
  have hi := inv_reach h
  cases hd : s.dc with
  | none =>
    obtain ⟨h1, h2, h3, -⟩ := hi.empty hd
    have key : ∀ i c, ¬ Returned s i c := by
      rintro i c ⟨t, ht, hp⟩
      rcases h3 t (List.mem_of_getElem? ht) with h | h <;> (rw [hp] at h; cases h)
    exact ⟨by omega, fun i _ c _ hr => absurd hr (key i c), fun i c hr => absurd hr (key i c)⟩
  | some c0 =>
    obtain ⟨h1, h2, h3, h4⟩ := hi.full c0 hd
    have key : ∀ i c, Returned s i c → c = 0 := by
      rintro i c ⟨t, ht, hp⟩
      rcases h4 t (List.mem_of_getElem? ht) with h | h | h
      · rw [hp] at h; cases h
      · rw [hp] at h; cases h
      · rw [hp] at h; injection h
    exact ⟨by omega, fun i j c d hc hd => by rw [key i c hc, key j d hd], fun i c hc d hd => by rw [key i c hc, h3 d hd]⟩

/-- **C137** (partial) Without any assumption on the schedule, a call made after another has returned gives a client as soon as it looks. -/
theorem C137_after_partial {s s' : St} {i : Nat} (h : Reach Any s) (hr : ∃ j c, Returned s j c) (he : exec s (.read i) = some s') :
    ∃ c, s.dc = some c ∧ Returned s' i c := by
  have hd : ∀ {s}, Reach Any s → (∃ t ∈ s.threads, t.phase = .stored ∨ ∃ c, t.phase = .done c) → ∃ c, s.dc = some c := by
    intro s hs
    induction hs with
    | init => rintro ⟨t, ht, _⟩; cases ht
    | @step s s' a hs hg he ih =>
      rintro ⟨t, ht, hp⟩
      cases a with
      | spawn u =>
        injection he with he; subst he
        rcases List.mem_append.mp ht with ht | ht
        · exact ih ⟨t, ht, hp⟩
        · rw [List.mem_singleton.mp ht] at hp; rcases hp with h | ⟨c, h⟩ <;> cases h
      | read k =>
        obtain ⟨v, hv, hpv, rfl⟩ := move_eq he
        cases hdc : s.dc with
        | some c => exact ⟨c, rfl⟩
        | none =>
          rcases mem_set ht with rfl | ht
          · rw [hdc] at hp; rcases hp with h | ⟨c, h⟩ <;> cases h
          · obtain ⟨c, hc⟩ := ih ⟨t, ht, hp⟩; rw [hdc] at hc; cases hc
      | create k =>
        rw [exec] at he
        obtain ⟨s1, h1, h2⟩ := Option.map_eq_some_iff.mp he
        subst h2
        exact ⟨s1.created, rfl⟩
      | reread k =>
        rw [exec] at he
        obtain ⟨c, hc, h⟩ := Option.bind_eq_some_iff.mp he
        obtain ⟨v, hv, hpv, rfl⟩ := move_eq h
        exact ⟨c, hc⟩
      | connect k =>
        rw [exec] at he
        cases hk : s.threads[k]? with
        | none => rw [hk] at he; cases he
        | some v =>
          rw [hk] at he
          split at he
          · injection he with he; subst he; exact ih ⟨t, ht, hp⟩
          · cases he
  obtain ⟨j, c, t, ht, hp⟩ := hr
  obtain ⟨c', hc'⟩ := hd h ⟨t, List.mem_of_getElem? ht, .inr ⟨c, hp⟩⟩
  obtain ⟨v, hv, hpv, rfl⟩ := move_eq he
  refine ⟨c', hc', { v with phase := .done c' }, ?_, rfl⟩
  show (s.threads.set i _)[i]? = _
  rw [List.getElem?_set_self (List.getElem?_eq_some_iff.mp hv).1, hc']

/-- the hypotheses are met: `Run` connects the client, then two servers get it -/
example : ∃ s, runActs {} [.spawn .run, .read 0, .create 0, .reread 0, .connect 0, .spawn .other, .spawn .other, .read 1, .read 2] = some s ∧
    Returned s 1 0 ∧ Returned s 2 0 ∧ s.connected = [0] := by
  refine ⟨_, rfl, ⟨_, rfl, rfl⟩, ⟨_, rfl, rfl⟩, rfl⟩

/-- **C137** fails: a server started while `Run` is called (its policies are asked for in a goroutine of its own) can get a client of its own,
which nobody connects; it never learns its policy (C134). -/
theorem C137_one_false : ∃ s, runActs {} [.spawn .run, .spawn .other, .read 0, .read 1, .create 0, .reread 0, .connect 0, .create 1, .reread 1] = some s ∧
    Returned s 0 0 ∧ Returned s 1 1 ∧ s.connected = [0] ∧ s.created = 2 ∧ s.dc = some 1 := by
  refine ⟨_, rfl, ⟨_, rfl, rfl⟩, ⟨_, rfl, rfl⟩, rfl, rfl, rfl⟩

/-! ### C138 -/

def PAny : PSt → PAct → Prop := fun _ _ => True

/-- requests reach the gateway in the order they were sent, or are lost -/
def InOrder : PSt → PAct → Prop
  | _, .handle i => i = 0
  | _, _ => True

/-- no request has been sent after a deletion, and there is at most one -/
def Over : PPhase → Prop
  | .deleting => True
  | .done _ => True
  | _ => False

instance (p : PPhase) : Decidable (Over p) := by cases p <;> unfold Over <;> infer_instance

theorem pinv {s : PSt} (h : PReach PAny s) :
    (∃ n, s.sent = List.replicate n .push ++ (if Over s.phase then [Req.delete] else [])) ∧ (∀ r ∈ s.fly, r ∈ s.sent) ∧
    (Over s.phase → s.cancelled = true) ∧ (s.phase = .done true → s.deleted = true) := by
  induction h with
  | init => exact ⟨⟨0, rfl⟩, fun r hr => (nomatch hr), fun h => h.elim, fun h => (nomatch h)⟩
  | @step s s' a _ _ he ih =>
    obtain ⟨⟨n, h1⟩, h2, h3, h4⟩ := ih
    cases a with
    | cancel => injection he with he; subst he; exact ⟨⟨n, h1⟩, h2, fun _ => rfl, h4⟩
    | tick =>
      rw [pexec] at he
      by_cases hp : s.phase = .select
      · rw [if_pos hp] at he; injection he with he; subst he
        refine ⟨⟨n + 1, ?_⟩, ?_, fun h => h.elim, fun h => by cases h⟩
        · show s.sent ++ [Req.push] = _
          rw [h1, hp]
          simp [Over, PSt.send, List.replicate_succ']
        · intro r hr
          rcases List.mem_append.mp hr with hr | hr
          · exact List.mem_append_left _ (h2 r hr)
          · exact List.mem_append_right _ hr
      · rw [if_neg hp] at he; cases he
    | pushed =>
      rw [pexec] at he
      by_cases hp : s.phase = .pushing
      · rw [if_pos hp] at he; injection he with he; subst he
        rw [hp] at h1
        exact ⟨⟨n, by simpa [Over] using h1⟩, h2, fun h => h.elim, fun h => by cases h⟩
      · rw [if_neg hp] at he; cases he
    | finish =>
      rw [pexec] at he
      by_cases hp : s.phase = .select ∧ s.cancelled = true
      · rw [if_pos hp] at he; injection he with he; subst he
        rw [hp.1] at h1
        refine ⟨⟨n, ?_⟩, ?_, fun _ => hp.2, fun h => by cases h⟩
        · show s.sent ++ [Req.delete] = _
          rw [h1]; simp [Over, PSt.send]
        · intro r hr
          rcases List.mem_append.mp hr with hr | hr
          · exact List.mem_append_left _ (h2 r hr)
          · exact List.mem_append_right _ hr
      · rw [if_neg hp] at he; cases he
    | answered =>
      rw [pexec] at he
      by_cases hp : s.phase = .deleting ∧ s.deleted = true
      · rw [if_pos hp] at he; injection he with he; subst he
        rw [hp.1] at h1
        exact ⟨⟨n, by simpa [Over] using h1⟩, h2, fun _ => h3 (by rw [hp.1]; trivial), fun _ => hp.2⟩
      · rw [if_neg hp] at he; cases he
    | failed =>
      rw [pexec] at he
      by_cases hp : s.phase = .deleting
      · rw [if_pos hp] at he; injection he with he; subst he
        rw [hp] at h1
        exact ⟨⟨n, by simpa [Over] using h1⟩, h2, fun _ => h3 (by rw [hp]; trivial), fun h => by cases h⟩
      · rw [if_neg hp] at he; cases he
    | handle i =>
      rw [pexec] at he
      cases hf : s.fly[i]? with
      | none => rw [hf] at he; cases he
      | some r =>
        rw [hf] at he
        cases r with
        | push => injection he with he; subst he; exact ⟨⟨n, h1⟩, fun r hr => h2 r (List.mem_of_mem_eraseIdx hr), h3, h4⟩
        | delete => injection he with he; subst he; exact ⟨⟨n, h1⟩, fun r hr => h2 r (List.mem_of_mem_eraseIdx hr), h3, fun _ => rfl⟩
    | lose i =>
      rw [pexec] at he
      by_cases hl : i < s.fly.length
      · rw [if_pos hl] at he; injection he with he; subst he
        exact ⟨⟨n, h1⟩, fun r hr => h2 r (List.mem_of_mem_eraseIdx hr), h3, h4⟩
      · rw [if_neg hl] at he; cases he

/-- **C138** The deletion is sent once, after the context has ended, and nothing is sent afterwards. -/
theorem C138_once {s : PSt} (h : PReach PAny s) :
    s.sent.count .delete ≤ 1 ∧ (∀ a r b, s.sent = a ++ r :: b → r = .delete → b = [] ∧ s.cancelled = true) := by
  obtain ⟨⟨n, h1⟩, -, h3, -⟩ := pinv h
  have key : ∀ (n : Nat) (a b : List Req), List.replicate n Req.push ++ [Req.delete] = a ++ Req.delete :: b → b = [] := by
    intro n
    induction n with
    | zero =>
      intro a b he
      cases a with
      | nil => injection he with _ h; exact h.symm
      | cons x a => injection he with _ h; cases a <;> cases h
    | succ n ih =>
      intro a b he
      rw [List.replicate_succ] at he
      cases a with
      | nil => injection he with h _; cases h
      | cons x a => injection he with _ h; exact ih a b h
  by_cases ho : Over s.phase
  · rw [if_pos ho] at h1
    refine ⟨by rw [h1]; simp [List.count_append, List.count_replicate], ?_⟩
    rintro a r b he rfl
    rw [h1] at he
    exact ⟨key n a b he, h3 ho⟩
  · rw [if_neg ho, List.append_nil] at h1
    refine ⟨by rw [h1]; simp [List.count_replicate], ?_⟩
    rintro a r b he rfl
    have : Req.delete ∈ List.replicate n Req.push := by rw [← h1, he]; simp
    exact absurd (List.eq_of_mem_replicate this) (by simp)

theorem mem_take_drop {α : Type} (l : List α) (i : Nat) (x : α) (h : x ∈ l.eraseIdx i) : x ∈ l := List.mem_of_mem_eraseIdx h

/-- pushes, then possibly the deletion -/
def Shape (s : PSt) : Prop :=
  (s.deleted = false → ∃ n, s.fly = List.replicate n .push ∨ (Over s.phase ∧ s.fly = List.replicate n .push ++ [Req.delete])) ∧
  (s.deleted = true → s.fly = [] ∧ s.group = false ∧ Over s.phase)

theorem erase_shape (n i : Nat) : ∃ m, (List.replicate n Req.push ++ [Req.delete]).eraseIdx i = List.replicate m Req.push ∨
    (List.replicate n Req.push ++ [Req.delete]).eraseIdx i = List.replicate m Req.push ++ [Req.delete] := by
  induction n generalizing i with
  | zero => cases i with
    | zero => exact ⟨0, .inl rfl⟩
    | succ i => exact ⟨0, .inr (by cases i <;> rfl)⟩
  | succ n ih =>
    cases i with
    | zero => exact ⟨n, .inr rfl⟩
    | succ i =>
      obtain ⟨m, h | h⟩ := ih i
      · exact ⟨m + 1, .inl (by rw [List.replicate_succ, List.cons_append, List.eraseIdx_cons_succ, h]; rfl)⟩
      · exact ⟨m + 1, .inr (by rw [List.replicate_succ, List.cons_append, List.eraseIdx_cons_succ, h]; rfl)⟩

theorem erase_push (n i : Nat) : ∃ m, (List.replicate n Req.push).eraseIdx i = List.replicate m Req.push := by
  induction n generalizing i with
  | zero => exact ⟨0, by cases i <;> rfl⟩
  | succ n ih =>
    cases i with
    | zero => exact ⟨n, rfl⟩
    | succ i => obtain ⟨m, h⟩ := ih i; exact ⟨m + 1, by rw [List.replicate_succ, List.eraseIdx_cons_succ, h]; rfl⟩

theorem shape {s : PSt} (h : PReach InOrder s) : Shape s := by
  induction h with
  | init => exact ⟨fun _ => ⟨0, .inl rfl⟩, fun h => by cases h⟩
  | @step s s' a _ hg he ih =>
    obtain ⟨h1, h2⟩ := ih
    cases a with
    | cancel => injection he with he; subst he; exact ⟨h1, h2⟩
    | tick =>
      rw [pexec] at he
      by_cases hp : s.phase = .select
      · rw [if_pos hp] at he; injection he with he; subst he
        refine ⟨?_, ?_⟩
        · intro hd
          obtain ⟨n, h | ⟨h, -⟩⟩ := h1 hd
          · exact ⟨n + 1, .inl (by show s.fly ++ [Req.push] = _; rw [h, List.replicate_succ'])⟩
          · rw [hp] at h; exact h.elim
        · intro hd; have := (h2 hd).2.2; rw [hp] at this; exact this.elim
      · rw [if_neg hp] at he; cases he
    | pushed =>
      rw [pexec] at he
      by_cases hp : s.phase = .pushing
      · rw [if_pos hp] at he; injection he with he; subst he
        refine ⟨?_, ?_⟩
        · intro hd
          obtain ⟨n, h | ⟨h, -⟩⟩ := h1 hd
          · exact ⟨n, .inl h⟩
          · rw [hp] at h; exact h.elim
        · intro hd; have := (h2 hd).2.2; rw [hp] at this; exact this.elim
      · rw [if_neg hp] at he; cases he
    | finish =>
      rw [pexec] at he
      by_cases hp : s.phase = .select ∧ s.cancelled = true
      · rw [if_pos hp] at he; injection he with he; subst he
        refine ⟨?_, ?_⟩
        · intro hd
          obtain ⟨n, h | ⟨h, -⟩⟩ := h1 hd
          · exact ⟨n, .inr ⟨trivial, by show s.fly ++ [Req.delete] = _; rw [h]⟩⟩
          · rw [hp.1] at h; exact h.elim
        · intro hd; have := (h2 hd).2.2; rw [hp.1] at this; exact this.elim
      · rw [if_neg hp] at he; cases he
    | answered =>
      rw [pexec] at he
      by_cases hp : s.phase = .deleting ∧ s.deleted = true
      · rw [if_pos hp] at he; injection he with he; subst he
        refine ⟨?_, ?_⟩
        · intro hd; have : s.deleted = false := hd; rw [hp.2] at this; cases this
        · intro hd; exact ⟨(h2 hp.2).1, (h2 hp.2).2.1, trivial⟩
      · rw [if_neg hp] at he; cases he
    | failed =>
      rw [pexec] at he
      by_cases hp : s.phase = .deleting
      · rw [if_pos hp] at he; injection he with he; subst he
        refine ⟨?_, ?_⟩
        · intro hd
          obtain ⟨n, h | ⟨-, h⟩⟩ := h1 hd
          · exact ⟨n, .inl h⟩
          · exact ⟨n, .inr ⟨trivial, h⟩⟩
        · intro hd; exact ⟨(h2 hd).1, (h2 hd).2.1, trivial⟩
      · rw [if_neg hp] at he; cases he
    | handle i =>
      rw [pexec] at he
      have hi : i = 0 := hg
      subst hi
      cases hd : s.deleted with
      | true =>
        have hf : s.fly[0]? = none := by rw [(h2 hd).1]; rfl
        rw [hf] at he; cases he
      | false =>
        obtain ⟨n, h | ⟨ho, h⟩⟩ := h1 hd
        · cases n with
          | zero => have hf : s.fly[0]? = none := by rw [h]; rfl
                    rw [hf] at he; cases he
          | succ n =>
            have hf : s.fly[0]? = some .push := by rw [h]; rfl
            rw [hf] at he; injection he with he; subst he
            refine ⟨fun _ => ⟨n, .inl ?_⟩, fun hd' => ?_⟩
            · show s.fly.eraseIdx 0 = _; rw [h]; rfl
            · have : s.deleted = true := hd'; rw [hd] at this; cases this
        · cases n with
          | zero =>
            have hf : s.fly[0]? = some .delete := by rw [h]; rfl
            rw [hf] at he; injection he with he; subst he
            refine ⟨fun hd' => (nomatch hd'), fun _ => ⟨?_, rfl, ho⟩⟩
            show s.fly.eraseIdx 0 = _; rw [h]; rfl
          | succ n =>
            have hf : s.fly[0]? = some .push := by rw [h]; rfl
            rw [hf] at he; injection he with he; subst he
            refine ⟨fun _ => ⟨n, .inr ⟨ho, ?_⟩⟩, fun hd' => ?_⟩
            · show s.fly.eraseIdx 0 = _; rw [h]; rfl
            · have : s.deleted = true := hd'; rw [hd] at this; cases this
    | lose i =>
      rw [pexec] at he
      by_cases hl : i < s.fly.length
      · rw [if_pos hl] at he; injection he with he; subst he
        refine ⟨?_, ?_⟩
        · intro hd
          obtain ⟨n, h | ⟨ho, h⟩⟩ := h1 hd
          · obtain ⟨m, hm⟩ := erase_push n i
            exact ⟨m, .inl (by show s.fly.eraseIdx i = _; rw [h, hm])⟩
          · obtain ⟨m, hm | hm⟩ := erase_shape n i
            · exact ⟨m, .inl (by show s.fly.eraseIdx i = _; rw [h, hm])⟩
            · exact ⟨m, .inr ⟨ho, by show s.fly.eraseIdx i = _; rw [h, hm]⟩⟩
        · intro hd; rw [(h2 hd).1] at hl; exact absurd hl (by simp)
      · rw [if_neg hl] at he; cases he

theorem reach_any {s : PSt} {g : PSt → PAct → Prop} (h : PReach g s) : PReach PAny s := by
  induction h with
  | init => exact .init
  | step _ _ he ih => exact .step ih trivial he

/-- **C216** (partial) If requests are handled in the order they were sent, then once the deletion has been answered the gateway has no metrics
of the instance, and will not get any. -/
theorem C216_gone_partial {s : PSt} (h : PReach InOrder s) (hd : s.phase = .done true) : s.group = false ∧ s.fly = [] := by
  have h4 := (pinv (reach_any h)).2.2.2 hd
  obtain ⟨h1, h2, -⟩ := (shape h).2 h4
  exact ⟨h2, h1⟩

/-- the hypotheses are met: two pushes, one of them given up when the context ends -/
example : ∃ s, prunActs {} [.tick, .handle 0, .pushed, .tick, .cancel, .pushed, .finish, .handle 0, .handle 0, .answered] = some s ∧
    s.phase = .done true ∧ s.group = false := ⟨_, rfl, rfl, rfl⟩

/-- **C216** fails: a push given up when the context ends can be handled after the deletion, which then was in vain; and if the deletion fails
it is not tried again. -/
theorem C216_gone_false :
    (∃ s, prunActs {} [.tick, .cancel, .pushed, .finish, .handle 1, .answered, .handle 0] = some s ∧ s.phase = .done true ∧ s.group = true ∧ s.fly = []) ∧
    (∃ s, prunActs {} [.tick, .handle 0, .pushed, .cancel, .finish, .lose 0, .failed] = some s ∧ s.phase = .done false ∧ s.group = true ∧ s.fly = []) :=
  ⟨⟨_, rfl, rfl, rfl, rfl⟩, ⟨_, rfl, rfl, rfl, rfl⟩⟩

/-! ### C139 -/

/-- **C139** The handler is the one that does nothing exactly if it is enabled neither in the environment nor in the configuration, and
then what it is given comes back unchanged and nothing crashes. -/
theorem C139_disabled (w : World) (c : Option Config) :
    (new w c = .ok .passthrough ↔ w.env = some false ∧ ∃ d, c = some d ∧ d.enabled = false) ∧
    ∀ tunnel up m, call w tunnel up .passthrough m ≠ .panic ∧ call w tunnel up .passthrough m ≠ .made ∧
      (m = .httpTransport ∨ m = .tcpListener ∨ m = .tcpDialer ∨ m = .serveHTTP → call w tunnel up .passthrough m = .same) := by
  refine ⟨?_, ?_⟩
  · unfold new
    cases he : w.env with
    | none => simp
    | some e =>
      cases c with
      | none => cases e <;> simp [defaultConfig, Config.setDefaults] <;> (split <;> simp)
      | some d =>
        simp only [Option.getD_some]
        have hen : d.setDefaults.enabled = d.enabled := rfl
        rw [hen]
        by_cases h : e = false ∧ d.enabled = false
        · rw [if_pos (by rw [h.1, h.2]; rfl)]
          exact ⟨fun _ => ⟨by rw [h.1], d, rfl, h.2⟩, fun _ => rfl⟩
        · rw [if_neg (by intro hh; apply h; revert hh; cases e <;> cases d.enabled <;> simp)]
          constructor
          · intro hh
            exfalso
            split at hh
            · cases hh
            · split at hh
              · cases hh
              · split at hh
                · cases hh
                · split at hh
                  · cases hh
                  · split at hh <;> cases hh
          · rintro ⟨h1, d', h2, h3⟩
            injection h1 with h1; injection h2 with h2; subst h2
            exact absurd ⟨h1, h3⟩ h
  · intro tunnel up m
    cases m <;> cases up <;> simp [call]

/-- **C139** With TLS nothing crashes, and calls fail only if the network or the filters do, or a virtual listener is asked for before
the tunnel exists. -/
theorem C139_tls (w : World) (c : Option Config) (hc : ∀ d, c = some d → d.useTLS = true) :
    new w c ≠ .panic ∧
    ∀ h, new w c = .ok h → ∀ tunnel up m, call w tunnel up h m ≠ .panic ∧
      (w.filters = true → up = true → tunnel = true → h ≠ .passthrough → call w tunnel up h m ≠ .error) := by
  have htls : (c.getD defaultConfig).setDefaults.useTLS = true := by
    cases c with
    | none => rfl
    | some d => exact hc d rfl
  have key : new w c ≠ .panic ∧ ∀ h, new w c = .ok h → h = .passthrough ∨ ∃ d, h = .real true d := by
    unfold new
    simp only [htls]
    cases w.env with
    | none => simp
    | some e =>
      simp only
      split
      · exact ⟨by simp, fun h hh => .inl (by injection hh with hh; exact hh.symm)⟩
      · split
        · simp
        · split
          · exact ⟨by simp, fun h hh => .inr ⟨_, by injection hh with hh; exact hh.symm⟩⟩
          · split
            · simp
            · split
              · simp
              · exact ⟨by simp, fun h hh => .inr ⟨_, by simp at hh; exact hh.symm⟩⟩
  refine ⟨key.1, ?_⟩
  intro h hh tunnel up m
  rcases key.2 h hh with rfl | ⟨d, rfl⟩
  · exact ⟨(by cases m <;> cases up <;> simp [call]), fun _ _ _ hn => absurd rfl hn⟩
  · constructor
    · cases m <;> simp only [call] <;> (repeat' split) <;> simp_all
    · intro hf hu ht _
      subst hu ht
      cases m <;> simp [call, hf]

/-- **C139** With TLS an enabled handler is created exactly if the environment and the configuration of the CA can be read and, with a gateway
for metrics, its address is given and the filters can be created. -/
theorem C139_created (w : World) (c : Config) (hc : c.useTLS = true) (hen : c.enabled = true) :
    (∃ d, new w (some c) = .ok (.real true d)) ↔
      w.env.isSome ∧ w.ca = true ∧ ∀ p, c.push = some p → p.address ≠ [] ∧ w.filters = true := by
  have htls : c.setDefaults.useTLS = true := hc
  have hen' : c.setDefaults.enabled = true := hen
  have hpush : c.setDefaults.push = c.push.map Push.setDefaults := rfl
  unfold new
  simp only [Option.getD_some, htls, hen', hpush]
  cases w.env with
  | none => simp
  | some e =>
    cases w.ca with
    | false => simp
    | true =>
      cases hp : c.push with
      | none => simp
      | some p =>
        have ha : p.setDefaults.address = p.address := rfl
        by_cases hz : p.address = []
        · simp [ha, hz]
        · cases w.filters <;> simp [ha, hz]

/-- the hypotheses are met -/
example : new ⟨some false, true, true⟩ none = .ok (.real true defaultConfig) := rfl

/-- **C217** fails: a handler that is enabled without TLS is created but crashes at every use, and with a gateway for metrics already when it is
created; a negative interval crashes the program after `Run` has returned. -/
theorem C217_notls_false :
    (∃ h, new ⟨some true, true, true⟩ (some ⟨true, false, [], none, false⟩) = .ok h ∧
      ∀ m, m ≠ .virtualListener → call ⟨some true, true, true⟩ false true h m = .panic) ∧
    new ⟨some true, true, true⟩ (some ⟨true, false, [], some ⟨['g'], 0⟩, false⟩) = .panic ∧
    (∃ d, new ⟨some true, true, true⟩ (some ⟨true, true, [], some ⟨['g'], -1⟩, false⟩) = .ok (.real true d) ∧ tickerOk d = false) := by
  refine ⟨⟨.real false ⟨true, false, defaultAddress, none, false⟩, rfl, ?_⟩, rfl, ⟨_, rfl, rfl⟩⟩
  intro m hm
  cases m <;> first | rfl | exact absurd rfl hm

/-- **C139** A push interval that is not negative, zero included, works. -/
theorem C139_interval (w : World) (c : Config) (ca : Bool) (d : Config) (h : new w (some c) = .ok (.real ca d)) :
    (∀ p, c.push = some p → 0 ≤ p.interval) → tickerOk d = true := by
  intro hp
  have hd : d = c.setDefaults := by
    unfold new at h
    simp only [Option.getD_some] at h
    split at h
    · cases h
    · split at h
      · cases h
      · split at h
        · cases h
        · split at h
          · injection h with h; injection h with _ h; exact h.symm
          · split at h
            · cases h
            · split at h
              · cases h
              · split at h
                · cases h
                · injection h with h; injection h with _ h; exact h.symm
  subst hd
  unfold tickerOk Config.setDefaults
  cases hq : c.push with
  | none => rfl
  | some p =>
    have := hp p hq
    simp only [Option.map_some, Push.setDefaults, decide_eq_true_eq]
    split <;> omega

theorem split_last (h p : Str) (hp : ':' ∉ p) : (split ':' (h ++ ':' :: p)).getLast? = some p ∧ (split ':' (h ++ ':' :: p)).length > 1 := by
  induction h with
  | nil =>
    rw [List.nil_append]
    have := split_append ':' [] p (by simp)
    rw [List.nil_append] at this
    rw [this, split_free ':' p hp]
    exact ⟨rfl, by simp⟩
  | cons x h ih =>
    rw [List.cons_append, split]
    by_cases hx : x = ':'
    · rw [if_pos hx]
      obtain ⟨h1, h2⟩ := ih
      cases hs : split ':' (h ++ ':' :: p) with
      | nil => exact absurd hs (split_ne_nil _ _)
      | cons a l => rw [hs] at h1 h2; exact ⟨by rw [List.getLast?_cons_cons]; exact h1, by simp at h2 ⊢⟩
    · rw [if_neg hx]
      obtain ⟨h1, h2⟩ := ih
      cases hs : split ':' (h ++ ':' :: p) with
      | nil => exact absurd hs (split_ne_nil _ _)
      | cons a l =>
        rw [hs] at h1 h2
        simp only
        cases l with
        | nil => simp at h2
        | cons b l => exact ⟨by rw [List.getLast?_cons_cons] at h1 ⊢; exact h1, by simp⟩

/-- **C139** The port announced for the metrics is that of the address, for every address with a port. -/
theorem C139_port (h p : Str) (hp : ':' ∉ p) : portLabel (h ++ ':' :: p) = some p := by
  unfold portLabel
  obtain ⟨h1, h2⟩ := split_last h p hp
  rw [if_pos (by simp)]
  simp only
  rw [if_pos h2, h1]

/-- the hypotheses are met -/
example : portLabel "[::1]:16090".toList = some "16090".toList := by decide +kernel

end Verif.Props.Handler
