import Verif.Bifrost.Ports
/-
C148: the config map of a tunnel server lists the ports that are listened on.
-/
namespace Verif.Props.BifrostPorts
open Verif.Bifrost Verif.Bifrost.Ports Verif.Heimdall

/-- schedules -/
inductive Reach (G : St → Act → Prop) (old : Map) : St → Prop
  | init : Reach G old (Ports.start old)
  | step {s s' : St} {a : Act} : Reach G old s → G s a → exec s a = some s' → Reach G old s'

/-- every schedule -/
def free : St → Act → Prop := fun _ _ => True

/-- no event of a port is taken while another event of the same port is still being handled -/
def inOrder (s : St) : Act → Prop
  | .pubListen p => ∀ b, s.rh ≠ some (p, b)
  | .pubRelease p => ∀ i b, s.lh ≠ some (p, i, b)
  | _ => True

/-- nothing is on its way -/
structure Quiet (s : St) : Prop where
  handled : s.lh = none ∧ s.rh = none
  /-- every listener has published its event, and none is about to be closed -/
  up : ∀ p i st, s.open_ p = some (i, st) → st = .up
  requests : s.inflight = 0 ∧ s.queued = false
  running : s.running = none

/-! ### the config map follows the ports -/

/-- a reconcile is going to happen -/
def Coming (s : St) : Prop := 0 < s.inflight ∨ s.queued = true ∨ (∃ p i, s.lh = some (p, i, true)) ∨ (∃ p, s.rh = some (p, true))

def Inv1 (s : St) : Prop := Coming s ∨ (s.running = none → s.cm = s.ports) ∧ (∀ m, s.running = some m → m = s.ports)

theorem set_self (m : Map) (p : Nat) : m.set p (m p) = m := by
  funext q
  simp only [Map.set]
  split
  · rename_i h; rw [h]
  · rfl

theorem inv1_step {s s' : St} {a : Act} (h : Inv1 s) (hx : exec s a = some s') : Inv1 s' := by
  cases a with
  | listen p i =>
    simp only [exec] at hx
    cases ho : s.open_ p <;> rw [ho] at hx <;> simp at hx
    subst hx; exact h
  | pubListen p =>
    simp only [exec] at hx
    split at hx <;> simp at hx
    subst hx
    rename_i hl
    rcases h with h | h
    · left
      rcases h with h | h | ⟨_, _, h⟩ | h
      · exact .inl h
      · exact .inr (.inl h)
      · rw [hl] at h; cases h
      · exact .inr (.inr (.inr h))
    · exact .inr h
  | store =>
    simp only [exec] at hx
    split at hx <;> simp at hx
    subst hx
    exact .inl (.inr (.inr (.inl ⟨_, _, rfl⟩)))
  | triggerListen =>
    simp only [exec] at hx
    split at hx <;> simp at hx
    subst hx
    exact .inl (.inl (Nat.succ_pos _))
  | pubRelease p =>
    simp only [exec] at hx
    split at hx <;> simp at hx
    subst hx
    rename_i hl
    rcases h with h | h
    · left
      rcases h with h | h | h | ⟨_, h⟩
      · exact .inl h
      · exact .inr (.inl h)
      · exact .inr (.inr (.inl h))
      · rw [hl] at h; cases h
    · exact .inr h
  | delete =>
    simp only [exec] at hx
    split at hx <;> simp at hx
    subst hx
    exact .inl (.inr (.inr (.inr ⟨_, rfl⟩)))
  | triggerRelease =>
    simp only [exec] at hx
    split at hx <;> simp at hx
    subst hx
    exact .inl (.inl (Nat.succ_pos _))
  | close p =>
    simp only [exec] at hx
    split at hx <;> simp at hx
    subst hx; exact h
  | deliver =>
    simp only [exec] at hx
    split at hx <;> simp at hx
    subst hx
    exact .inl (.inr (.inl rfl))
  | start =>
    simp only [exec] at hx
    split at hx <;> simp at hx
    subst hx
    exact .inr ⟨nofun, fun m hm => (Option.some.inj hm).symm⟩
  | readPort p =>
    simp only [exec] at hx
    split at hx <;> simp at hx
    rename_i m hm
    subst hx
    rcases h with h | ⟨_, h⟩
    · exact .inl h
    · right
      refine ⟨nofun, fun m' hm' => ?_⟩
      rw [← Option.some.inj hm', h m hm]
      exact set_self _ _
  | write =>
    simp only [exec] at hx
    split at hx <;> simp at hx
    rename_i m hm
    subst hx
    rcases h with h | ⟨_, h⟩
    · exact .inl h
    · exact .inr ⟨fun _ => h m hm, nofun⟩
  | fail =>
    simp only [exec] at hx
    split at hx <;> simp at hx
    subst hx
    exact .inl (.inr (.inl rfl))
  | edit m =>
    simp only [exec, Option.some.injEq] at hx
    subst hx
    exact .inl (.inl (Nat.succ_pos _))

theorem reach_inv1 {G : St → Act → Prop} {old : Map} {s : St} (h : Reach G old s) : Inv1 s := by
  induction h with
  | init => exact .inl (.inl (Nat.succ_pos _))
  | step _ _ hx ih => exact inv1_step ih hx

/-- C148: under every schedule, when nothing is on its way the config map lists the ports the server has recorded, whatever the config map said before and
whoever changed it. -/
theorem C148_recorded {old : Map} {s : St} (h : Reach free old s) (q : Quiet s) : s.cm = s.ports := by
  rcases reach_inv1 h with c | c
  · rcases c with c | c | ⟨_, _, c⟩ | ⟨_, c⟩
    · rw [q.requests.1] at c; cases c
    · rw [q.requests.2] at c; cases c
    · rw [q.handled.1] at c; cases c
    · rw [q.handled.2] at c; cases c
  · exact c.1 q.running

/-! ### the recorded ports follow the listeners -/

/-- what should be recorded for a port -/
structure Inv2 (s : St) : Prop where
  lh : ∀ p i b, s.lh = some (p, i, b) → s.open_ p = some (i, .up)
  rh : ∀ p b, s.rh = some (p, b) → (∀ i, s.open_ p ≠ some (i, .up))
  up : ∀ p i, s.open_ p = some (i, .up) → s.lh ≠ some (p, i, false) → s.ports p = some i
  down : ∀ p, (∀ i, s.open_ p ≠ some (i, .up)) → s.rh ≠ some (p, false) → s.ports p = none

theorem inv2_init (old : Map) : Inv2 (Ports.start old) := ⟨nofun, nofun, nofun, fun _ _ _ => rfl⟩

theorem setOpen_same (s : St) (p : Nat) (v : Option (Info × Stage)) : s.setOpen p v p = v := by simp [St.setOpen]
theorem setOpen_ne (s : St) {p q : Nat} (v : Option (Info × Stage)) (h : q ≠ p) : s.setOpen p v q = s.open_ q := by simp [St.setOpen, h]
theorem set_same (m : Map) (p : Nat) (v : Option Info) : m.set p v p = v := by simp [Map.set]
theorem set_ne (m : Map) {p q : Nat} (v : Option Info) (h : q ≠ p) : m.set p v q = m q := by simp [Map.set, h]

/-- what is about the listeners and handlers alone -/
theorem inv2_congr {s s' : St} (h : Inv2 s) (e1 : s'.open_ = s.open_) (e2 : s'.lh = s.lh) (e3 : s'.rh = s.rh) (e4 : s'.ports = s.ports) : Inv2 s' := by
  refine ⟨?_, ?_, ?_, ?_⟩
  · rw [e2, e1]; exact h.lh
  · rw [e3, e1]; exact h.rh
  · rw [e1, e2, e4]; exact h.up
  · rw [e1, e3, e4]; exact h.down

/-- a port without an open listener gets one that is not up, or loses it -/
theorem inv2_notup {s : St} (h : Inv2 s) (p : Nat) (hp : ∀ i, s.open_ p ≠ some (i, .up)) (v : Option (Info × Stage)) (hv : ∀ i, v ≠ some (i, .up)) :
    Inv2 { s with open_ := s.setOpen p v } := by
  refine ⟨?_, ?_, ?_, ?_⟩
  · intro q i b e
    have := h.lh q i b e
    have hq : q ≠ p := fun e => hp i (e ▸ this)
    show s.setOpen p v q = _
    rw [setOpen_ne _ _ hq]; exact this
  · intro q b e i
    show s.setOpen p v q ≠ _
    by_cases hq : q = p
    · subst hq; rw [setOpen_same]; exact hv i
    · rw [setOpen_ne _ _ hq]; exact h.rh q b e i
  · intro q i e
    have e : s.setOpen p v q = _ := e
    by_cases hq : q = p
    · subst hq; rw [setOpen_same] at e; exact absurd e (hv i)
    · rw [setOpen_ne _ _ hq] at e; exact h.up q i e
  · intro q e
    have e : ∀ i, s.setOpen p v q ≠ some (i, .up) := e
    by_cases hq : q = p
    · subst hq; exact h.down q hp
    · simp only [setOpen_ne _ _ hq] at e; exact h.down q e

theorem inv2_step {s s' : St} {a : Act} (h : Inv2 s) (g : inOrder s a) (hx : exec s a = some s') : Inv2 s' := by
  cases a with
  | listen p i =>
    simp only [exec] at hx
    cases ho : s.open_ p <;> rw [ho] at hx <;> simp at hx
    subst hx
    exact inv2_notup h p (fun i => by rw [ho]; nofun) _ nofun
  | pubListen p =>
    simp only [exec] at hx
    split at hx <;> simp at hx
    rename_i i ho hl
    subst hx
    refine ⟨?_, ?_, ?_, ?_⟩
    · intro q j b e
      have e : some (p, i, false) = some (q, j, b) := e
      injection e with e; injection e with e1 e; injection e with e2 e
      subst e1 e2
      exact setOpen_same _ _ _
    · intro q b e j
      have hq : q ≠ p := fun e' => g b (e' ▸ e)
      show s.setOpen p _ q ≠ _
      rw [setOpen_ne _ _ hq]; exact h.rh q b e j
    · intro q j e ne
      have e : s.setOpen p _ q = _ := e
      by_cases hq : q = p
      · subst hq; rw [setOpen_same] at e
        injection e with e; injection e with e; subst e
        exact absurd rfl ne
      · rw [setOpen_ne _ _ hq] at e
        exact h.up q j e (by rw [hl]; nofun)
    · intro q e
      have e : ∀ i, s.setOpen p _ q ≠ some (i, .up) := e
      by_cases hq : q = p
      · subst hq; simp only [setOpen_same] at e; exact absurd rfl (e i)
      · simp only [setOpen_ne _ _ hq] at e; exact h.down q e
  | store =>
    simp only [exec] at hx
    split at hx <;> simp at hx
    rename_i p i hl
    subst hx
    have hp := h.lh p i false hl
    refine ⟨?_, h.rh, ?_, ?_⟩
    · intro q j b e
      have e : some (p, i, true) = some (q, j, b) := e
      injection e with e; injection e with e1 e; injection e with e2 e
      subst e1 e2
      exact hp
    · intro q j e _
      show s.ports.set p _ q = _
      by_cases hq : q = p
      · subst hq; rw [set_same]; rw [hp] at e; injection e with e; injection e with e; rw [e]
      · rw [set_ne _ _ hq]
        exact h.up q j e (by rw [hl]; intro e'; injection e' with e'; injection e' with e'; exact hq e'.symm)
    · intro q e ne
      have hq : q ≠ p := fun e' => e i (e' ▸ hp)
      show s.ports.set p _ q = _
      rw [set_ne _ _ hq]; exact h.down q e ne
  | triggerListen =>
    simp only [exec] at hx
    split at hx <;> simp at hx
    rename_i p i hl
    subst hx
    refine ⟨nofun, h.rh, ?_, h.down⟩
    intro q j e _
    exact h.up q j e (by rw [hl]; nofun)
  | pubRelease p =>
    simp only [exec] at hx
    split at hx <;> simp at hx
    rename_i i ho hr
    subst hx
    refine ⟨?_, ?_, ?_, ?_⟩
    · intro q j b e
      have hq : q ≠ p := fun e' => g j b (e' ▸ e)
      show s.setOpen p _ q = _
      rw [setOpen_ne _ _ hq]; exact h.lh q j b e
    · intro q b e j
      have e : some (p, false) = some (q, b) := e
      injection e with e; injection e with e1 e
      subst e1
      show s.setOpen p _ p ≠ _
      rw [setOpen_same]; nofun
    · intro q j e
      have e : s.setOpen p _ q = _ := e
      by_cases hq : q = p
      · subst hq; rw [setOpen_same] at e; cases e
      · rw [setOpen_ne _ _ hq] at e; exact h.up q j e
    · intro q e ne
      have e : ∀ i, s.setOpen p _ q ≠ some (i, .up) := e
      by_cases hq : q = p
      · subst hq; exact absurd rfl ne
      · simp only [setOpen_ne _ _ hq] at e
        exact h.down q e (by rw [hr]; nofun)
  | delete =>
    simp only [exec] at hx
    split at hx <;> simp at hx
    rename_i p hr
    subst hx
    have hp := h.rh p false hr
    refine ⟨h.lh, ?_, ?_, ?_⟩
    · intro q b e
      have e : some (p, true) = some (q, b) := e
      injection e with e; injection e with e1 e
      subst e1
      exact hp
    · intro q j e ne
      have hq : q ≠ p := fun e' => hp j (e' ▸ e)
      show s.ports.set p _ q = _
      rw [set_ne _ _ hq]; exact h.up q j e ne
    · intro q e _
      show s.ports.set p _ q = _
      by_cases hq : q = p
      · subst hq; exact set_same _ _ _
      · rw [set_ne _ _ hq]
        exact h.down q e (by rw [hr]; intro e'; injection e' with e'; injection e' with e'; exact hq e'.symm)
  | triggerRelease =>
    simp only [exec] at hx
    split at hx <;> simp at hx
    rename_i p hr
    subst hx
    exact ⟨h.lh, nofun, h.up, fun q e _ => h.down q e (by rw [hr]; nofun)⟩
  | close p =>
    simp only [exec] at hx
    split at hx <;> simp at hx
    rename_i i ho
    subst hx
    exact inv2_notup h p (fun j => by rw [ho]; nofun) _ nofun
  | deliver =>
    simp only [exec] at hx
    split at hx <;> simp at hx
    subst hx; exact inv2_congr h rfl rfl rfl rfl
  | start =>
    simp only [exec] at hx
    split at hx <;> simp at hx
    subst hx; exact inv2_congr h rfl rfl rfl rfl
  | readPort p =>
    simp only [exec] at hx
    split at hx <;> simp at hx
    subst hx; exact inv2_congr h rfl rfl rfl rfl
  | write =>
    simp only [exec] at hx
    split at hx <;> simp at hx
    subst hx; exact inv2_congr h rfl rfl rfl rfl
  | fail =>
    simp only [exec] at hx
    split at hx <;> simp at hx
    subst hx; exact inv2_congr h rfl rfl rfl rfl
  | edit m =>
    simp only [exec, Option.some.injEq] at hx
    subst hx; exact inv2_congr h rfl rfl rfl rfl

theorem reach_inv2 {old : Map} {s : St} (h : Reach inOrder old s) : Inv2 s := by
  induction h with
  | init => exact inv2_init old
  | step _ g hx ih => exact inv2_step ih g hx

/-- C225 (partial): if no event of a port is taken while another one of the same port is still being handled: when nothing is on its way, the config map lists exactly the
ports that are listened on, each with the session, name, target port and service of its listener. -/
theorem C225_listed_partial {old : Map} {s : St} (h : Reach inOrder old s) (q : Quiet s) (p : Nat) (i : Info) :
    s.cm p = some i ↔ s.open_ p = some (i, .up) := by
  have e : s.cm = s.ports := by
    rcases reach_inv1 h with c | c
    · rcases c with c | c | ⟨_, _, c⟩ | ⟨_, c⟩
      · rw [q.requests.1] at c; cases c
      · rw [q.requests.2] at c; cases c
      · rw [q.handled.1] at c; cases c
      · rw [q.handled.2] at c; cases c
    · exact c.1 q.running
  have v := reach_inv2 h
  rw [e]
  constructor
  · intro hp
    cases ho : s.open_ p with
    | none =>
      have := v.down p (fun i => by rw [ho]; nofun) (by rw [q.handled.2]; nofun)
      rw [this] at hp; cases hp
    | some x =>
      obtain ⟨j, st⟩ := x
      have := q.up p j st ho
      subst this
      have := v.up p j ho (by rw [q.handled.1]; nofun)
      rw [this] at hp; rw [Option.some.inj hp]
  · intro ho
    exact v.up p i ho (by rw [q.handled.1]; nofun)

/-! ### sessions -/

/-- the ports of a session in the config map -/
def portsOf (x : Str) (ss : List (Str × List PortConfig)) : Option (List PortConfig) := (ss.find? fun q => q.1 = x).map (·.2)

theorem keys_map (f : Str × List PortConfig → Str × List PortConfig) (hf : ∀ q, (f q).1 = q.1) (ss : List (Str × List PortConfig)) : (ss.map f).map (·.1) = ss.map (·.1) := by
  rw [List.map_map]; exact List.map_congr_left fun q _ => hf q

theorem addTo_nodup (ss : List (Str × List PortConfig)) (i : Info) (h : (ss.map (·.1)).Nodup) : ((addTo ss i).map (·.1)).Nodup := by
  unfold addTo
  by_cases hm : ss.any (fun q => q.1 = i.session) = true
  · rw [if_pos hm, keys_map _ (by intro q; split <;> rfl)]; exact h
  · rw [if_neg hm, List.map_append, List.nodup_append]
    refine ⟨h, by simp, ?_⟩
    intro a ha b hb e
    simp at hb
    subst e
    apply hm
    obtain ⟨q, hq, hqa⟩ := List.mem_map.mp ha
    exact List.any_eq_true.mpr ⟨q, hq, by simp [hqa, hb]⟩

theorem addTo_portsOf (ss : List (Str × List PortConfig)) (i : Info) (x : Str) :
    portsOf x (addTo ss i) = if x = i.session then some ((portsOf x ss).getD [] ++ [i.conf]) else portsOf x ss := by
  unfold addTo
  by_cases hm : ss.any (fun q => q.1 = i.session) = true
  · rw [if_pos hm]
    induction ss with
    | nil => simp at hm
    | cons q r ih =>
      by_cases hq : q.1 = i.session
      · by_cases hx : x = i.session
        · simp [portsOf, hq, hx]
        · have hne : ¬ i.session = x := fun e => hx e.symm
          rw [if_neg hx]
          clear ih hm
          have hr : ∀ r : List (Str × List PortConfig), portsOf x (r.map fun q => if q.1 = i.session then (q.1, q.2 ++ [i.conf]) else q) = portsOf x r := by
            intro r
            induction r with
            | nil => rfl
            | cons a r ih =>
              simp only [portsOf, List.map_cons, List.find?_cons] at ih ⊢
              by_cases ha : a.1 = i.session
              · simp [ha, hne]; simpa using ih
              · by_cases hax : a.1 = x
                · simp [ha, hax, hx]
                · simp [ha, hax]; simpa using ih
          exact hr (q :: r)
      · have hm' : r.any (fun q => decide (q.1 = i.session)) = true := by simpa [hq] using hm
        have ih := ih hm'
        simp only [portsOf, List.map_cons, List.find?_cons] at ih ⊢
        rw [if_neg hq]
        by_cases hqx : q.1 = x
        · have : x ≠ i.session := fun e => hq (hqx.trans e)
          simp [hqx, this]
        · simp only [hqx, decide_false]; exact ih
  · rw [if_neg hm]
    have hnone : ∀ q ∈ ss, q.1 ≠ i.session := fun q hq e => hm (List.any_eq_true.mpr ⟨q, hq, by simp [e]⟩)
    simp only [portsOf, List.find?_append]
    by_cases hx : x = i.session
    · subst hx
      have : ss.find? (fun q => decide (q.1 = i.session)) = none := List.find?_eq_none.mpr fun q hq => by simpa using hnone q hq
      simp [this]
    · have : ¬ i.session = x := fun e => hx e.symm
      simp [hx, this]

theorem foldl_nodup (l : List Info) : ∀ ss : List (Str × List PortConfig), (ss.map (·.1)).Nodup → ((l.foldl addTo ss).map (·.1)).Nodup := by
  induction l with
  | nil => exact fun _ h => h
  | cons i l ih => exact fun ss h => ih _ (addTo_nodup ss i h)

theorem foldl_portsOf (l : List Info) (x : Str) : ∀ ss : List (Str × List PortConfig),
    (portsOf x (l.foldl addTo ss)).getD [] = (portsOf x ss).getD [] ++ (l.filter fun i => i.session = x).map (·.conf) ∧
    ((portsOf x (l.foldl addTo ss)).isSome = true ↔ (portsOf x ss).isSome = true ∨ ∃ i ∈ l, i.session = x) := by
  induction l with
  | nil => intro ss; simp
  | cons i l ih =>
    intro ss
    obtain ⟨h1, h2⟩ := ih (addTo ss i)
    rw [List.foldl_cons, h1, h2, addTo_portsOf]
    by_cases hx : x = i.session
    · subst hx; simp
    · have : ¬ i.session = x := fun e => hx e.symm
      simp [hx, this]

/-- C148: in the config map every session with a recorded port occurs once, with exactly the ports recorded for it, each once and in the order in which they were
read, and there are no other sessions. -/
theorem C148_sessions (l : List Info) : ((sessions l).map (·.1)).Nodup ∧ ∀ x,
    (portsOf x (sessions l)).getD [] = (l.filter fun i => i.session = x).map (·.conf) ∧ ((portsOf x (sessions l)).isSome = true ↔ ∃ i ∈ l, i.session = x) := by
  refine ⟨foldl_nodup l [] List.nodup_nil, fun x => ?_⟩
  have := foldl_portsOf l x []
  simpa [portsOf, sessions] using this

/-! ### schedules -/

def run : St → List Act → Option St
  | s, [] => some s
  | s, a :: l => match exec s a with
    | some s' => run s' l
    | none => none

theorem run_free {old : Map} : ∀ {l : List Act} {s s' : St}, Reach free old s → run s l = some s' → Reach free old s'
  | [], s, s', h, e => by injection e with e; subst e; exact h
  | a :: l, s, s', h, e => by
    simp only [run] at e
    cases hx : exec s a with
    | none => rw [hx] at e; cases e
    | some t => rw [hx] at e; exact run_free (h.step trivial hx) e


def conf (p : Nat) : PortConfig := { port := p, targetPort := 80, svcName := ['a'], svcNs := ['b'] }
def a1 : Info := ⟨conf 5000, ['s']⟩
def a2 : Info := ⟨conf 5000, ['t']⟩

/-- what an ordinary life of a port looks like: it is listed, and then it is not -/
def life : List Act := [.deliver, .start, .write, .listen 5000 a1, .pubListen 5000, .store, .triggerListen, .deliver, .start, .readPort 5000, .write]

/-- the claims of this file are not empty: a port is listened on and everything is quiet -/
example : ∃ s, Reach inOrder (fun _ => some a2) s ∧ Quiet s ∧ s.open_ 5000 = some (a1, .up) ∧ s.cm 5000 = some a1 ∧ s.cm 5001 = none := by
  let s0 := Ports.start (fun _ => some a2)
  have r1 := (((Reach.init (G := inOrder) (old := fun _ => some a2)).step (a := .deliver) trivial rfl).step (a := .start) trivial rfl).step (a := .write) trivial rfl
  have r2 := ((r1.step (a := .listen 5000 a1) trivial rfl).step (a := .pubListen 5000) (fun _ => nofun) rfl).step (a := .store) trivial rfl
  have r3 := ((((r2.step (a := .triggerListen) trivial rfl).step (a := .deliver) trivial rfl).step (a := .start) trivial rfl).step (a := .readPort 5000) trivial rfl).step (a := .write) trivial rfl
  refine ⟨_, r3, ⟨⟨rfl, rfl⟩, ?_, ⟨rfl, rfl⟩, rfl⟩, rfl, rfl, rfl⟩
  intro p i st h
  have h : (if p = 5000 then some (a1, Stage.up) else if p = 5000 then some (a1, Stage.fresh) else none) = some (i, st) := h
  by_cases hp : p = 5000
  · rw [if_pos hp] at h; injection h with h; injection h with _ h; exact h.symm
  · rw [if_neg hp, if_neg hp] at h; cases h

/-- the port is released by one session and taken by another before the release is handled -/
def taken : List Act := life ++ [.pubRelease 5000, .close 5000, .listen 5000 a2, .pubListen 5000, .store, .triggerListen, .delete, .triggerRelease, .deliver, .deliver, .start, .write]

/-- Known defect (C225): the two topics are handled by different goroutines. If a port is released and taken again by another session, the release may be handled after the new
listen event: the port is listened on, and never listed. -/
theorem C225_taken_false : ∃ s, Reach free (fun _ => none) s ∧ Quiet s ∧ s.open_ 5000 = some (a2, .up) ∧ s.cm 5000 = none := by
  refine ⟨_, run_free (l := taken) .init rfl, ⟨⟨rfl, rfl⟩, ?_, ⟨rfl, rfl⟩, rfl⟩, rfl, rfl⟩
  intro p i st h
  by_cases hp : p = 5000
  · subst hp
    have h : some (a2, Stage.up) = some (i, st) := h
    injection h with h; injection h with _ h; exact h.symm
  · exfalso
    simp [Ports.start, St.setOpen, hp] at h

/-- the port is released before its listen event is handled -/
def early : List Act := [.deliver, .start, .write, .listen 5000 a1, .pubListen 5000, .pubRelease 5000, .delete, .triggerRelease, .close 5000, .store, .triggerListen, .deliver, .deliver, .start, .write]

/-- Known defect (C225): if a port is released at once, its listen event may be handled after the release: the port is listed for ever although nobody listens on it, and the
endpoints of the service send clients there. -/
theorem C225_stale_false : ∃ s, Reach free (fun _ => none) s ∧ Quiet s ∧ (∀ p, s.open_ p = none) ∧ s.cm 5000 = some a1 := by
  have none_ : ∀ p, (if p = 5000 then none else if p = 5000 then some (a1, Stage.down) else if p = 5000 then some (a1, Stage.up) else if p = 5000 then some (a1, Stage.fresh) else none :
      Option (Info × Stage)) = none := by
    intro p; by_cases hp : p = 5000 <;> simp [hp]
  refine ⟨_, run_free (l := early) .init rfl, ⟨⟨rfl, rfl⟩, ?_, ⟨rfl, rfl⟩, rfl⟩, none_, rfl⟩
  intro p i st h
  have h : (if p = 5000 then none else if p = 5000 then some (a1, Stage.down) else if p = 5000 then some (a1, Stage.up) else if p = 5000 then some (a1, Stage.fresh) else none :
      Option (Info × Stage)) = some (i, st) := h
  rw [none_] at h; cases h

end Verif.Props.BifrostPorts
