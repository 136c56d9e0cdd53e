import Verif.Net.MetricsServer
/-
Property theorems C275 (the metrics of a program can be read for as long as it runs, and no longer than the context given to `Run`) and C276 (a mesh that has no
port for the metrics does not stop the program) about Net/MetricsServer.lean.
-/
namespace Verif.Net.MetricsServer

/-- any run -/
def Any (_ : St) (_ : Act) : Prop := True

/-- the mesh never refuses the port of the metrics -/
def Granted (_ : St) (a : Act) : Prop := a ≠ .refuse

/-- the program can do nothing before its surroundings do something (specification) -/
def Stuck (c : Cfg) (s : St) : Prop := ∀ a : Act, a.outer = false → exec c s a = none

/-! ### the program comes to rest -/

/-- how much of an item is left to be done (specification) -/
def holdM : Option Item → Nat
  | none => 1
  | some (.client _) => 3
  | some .err => 0

/-- the same for the channel of the multi-listener (specification) -/
def chanM : Option Item → Nat
  | none => 2
  | some (.client _) => 3
  | some .err => 0

/-- how much a goroutine has left to do (specification) -/
def pcM : Pc → Nat
  | .bind => 9 | .tunnel => 8 | .spawn => 7 | .waiting => 1 | .done => 0

/-- the same for `ServeHTTP` (specification) -/
def srvM : Srv → Nat
  | .idle => 6 | .loading => 5 | .serving => 4 | .closing => 1 | .returned => 0

/-- how many steps are left at most if nothing comes from outside (specification) -/
def measure (s : St) : Nat :=
  pcM s.pc + srvM s.srv + 3 * s.tcpQ.length + 3 * s.virtQ.length + holdM s.tcpHold + holdM s.virtHold + chanM s.chan + (if s.crashed then 0 else 1)

/-- what a step does, for every step (inversion of `exec`) -/
theorem exec_send {s s' : St} {i : Item} {d : St → St} (h : s.send i d = some s') :
    (s.chanClosed = true ∧ s' = { s with crashed := true }) ∨ (s.chanClosed = false ∧ s.chan = none ∧ s' = d { s with chan := some i }) := by
  unfold St.send at h
  cases hc : s.chanClosed with
  | true => rw [hc, if_pos rfl] at h; cases h; exact Or.inl ⟨rfl, rfl⟩
  | false =>
    rw [hc, if_neg (by simp)] at h
    cases hn : s.chan with
    | none => rw [hn] at h; cases h; exact Or.inr ⟨rfl, rfl, rfl⟩
    | some j => rw [hn] at h; cases h

/-- the condition and the effect of every step (for the proofs) -/
def Does (c : Cfg) (s s' : St) : Act → Prop
  | .bind => s.pc = .bind ∧ s' = { s with pc := .tunnel, tcp := c.canBind }
  | .tunnel => s.pc = .tunnel ∧ s' = { s with pc := .spawn, virt := if c.expose then .opened else .absent }
  | .spawn => s.pc = .spawn ∧ s' = { s with pc := .waiting, srv := .loading }
  | .load => s.srv = .loading ∧ s' = { s with srv := if c.filters then .serving else .returned }
  | .cancel => s' = { s with cancelled := true }
  | .shutdown => s.pc = .waiting ∧ s.cancelled = true ∧ s' = { s with pc := .done }
  | .dialTcp => s.tcp = true ∧ s' = { s with count := s.count + 1, tcpQ := s.tcpQ ++ [s.count] }
  | .dialVirt => s.virt = .opened ∧ s' = { s with count := s.count + 1, virtQ := s.virtQ ++ [s.count] }
  | .refuse => s.virt = .opened ∧ s' = { s with virt := .stopped, crashed := !s.virtQ.isEmpty }
  | .takeTcp => ∃ x q, s.tcp = true ∧ s.tcpQ = x :: q ∧ s.tcpHold = none ∧ s' = { s with tcpQ := q, tcpHold := some (.client x) }
  | .takeVirt => (s.virt = .stopped ∧ s.virtHold = none ∧ s' = { s with virtHold := some .err }) ∨
      ∃ x q, s.virt = .opened ∧ s.virtQ = x :: q ∧ s.virtHold = none ∧ s' = { s with virtQ := q, virtHold := some (.client x) }
  | .sendTcp => ∃ i, s.tcpHold = some i ∧ ((s.chanClosed = true ∧ s' = { s with crashed := true }) ∨
      (s.chanClosed = false ∧ s.chan = none ∧ s' = { s with chan := some i, tcpHold := none }))
  | .sendVirt => ∃ i, s.virtHold = some i ∧ ((s.chanClosed = true ∧ s' = { s with crashed := true }) ∨
      (s.chanClosed = false ∧ s.chan = none ∧ s' = { s with chan := some i, virtHold := none }))
  | .accept => s.srv = .serving ∧ ((∃ x, s.chan = some (.client x) ∧ s' = { s with chan := none, served := x :: s.served }) ∨
      (s.chan = some .err ∧ s' = { s with chan := none, srv := .closing }))
  | .close => s.srv = .closing ∧ s' = { s with srv := .returned, tcp := false, tcpQ := [], chanClosed := true }

theorem exec_iff {c : Cfg} {s s' : St} {a : Act} : exec c s a = some s' ↔ s.crashed = false ∧ Does c s s' a := by
  cases hc : s.crashed with
  | true =>
    simp only [exec, hc, if_true, Bool.true_eq_false, false_and, iff_false]
    exact fun h => nomatch h
  | false =>
    simp only [true_and]
    cases a
    case sendTcp =>
      simp only [exec, hc, Bool.false_eq_true, if_false, Does]
      cases hh : s.tcpHold with
      | none => simp
      | some i =>
        simp only [Option.bind_some, St.send, Option.some.injEq, exists_eq_left']
        cases hcl : s.chanClosed <;> cases hch : s.chan <;> simp [hh, hc, eq_comm]
    case sendVirt =>
      simp only [exec, hc, Bool.false_eq_true, if_false, Does]
      cases hh : s.virtHold with
      | none => simp
      | some i =>
        simp only [Option.bind_some, St.send, Option.some.injEq, exists_eq_left']
        cases hcl : s.chanClosed <;> cases hch : s.chan <;> simp [hh, hc, eq_comm]
    case takeTcp =>
      simp only [exec, hc, Bool.false_eq_true, if_false, Does]
      cases hq : s.tcpQ with
      | nil => simp
      | cons x q =>
        cases hh : s.tcpHold <;> cases ht : s.tcp <;> simp [eq_comm]
        · constructor
          · intro h
            exact ⟨_, _, ⟨rfl, rfl⟩, h⟩
          · rintro ⟨_, _, ⟨rfl, rfl⟩, h⟩
            exact h
    case takeVirt =>
      simp only [exec, hc, Bool.false_eq_true, if_false, Does]
      cases hh : s.virtHold with
      | some i => simp
      | none =>
        cases hv : s.virt <;> cases hq : s.virtQ <;> simp [eq_comm]
        · constructor
          · intro h
            exact ⟨_, _, ⟨rfl, rfl⟩, h⟩
          · rintro ⟨_, _, ⟨rfl, rfl⟩, h⟩
            exact h
    case accept =>
      simp only [exec, hc, Bool.false_eq_true, if_false, Does]
      by_cases hs : s.srv = .serving
      · rw [if_pos hs]
        cases hch : s.chan with
        | none => simp
        | some i => cases i <;> simp [hs, eq_comm]
      · rw [if_neg hs]; simp [hs]
    all_goals
      simp only [exec, hc, Bool.false_eq_true, if_false, Does, Option.ite_none_right_eq_some, Option.some.injEq, and_assoc]
      try simp only [eq_comm]

theorem measure_step {c : Cfg} {s s' : St} {a : Act} (ha : a.outer = false) (h : exec c s a = some s') : measure s' < measure s := by
  obtain ⟨hc, h⟩ := exec_iff.1 h
  cases a <;> simp only [Act.outer, Bool.true_eq_false] at ha <;> simp only [Does] at h
  case bind => obtain ⟨h1, rfl⟩ := h; simp [measure, h1, pcM]
  case tunnel => obtain ⟨h1, rfl⟩ := h; simp [measure, h1, pcM]
  case spawn => 
    obtain ⟨h1, rfl⟩ := h
    cases hs : s.srv <;> simp [measure, h1, pcM, srvM, hs] <;> omega
  case load => obtain ⟨h1, rfl⟩ := h; cases hf : c.filters <;> simp [measure, h1, srvM]
  case shutdown => obtain ⟨h1, _, rfl⟩ := h; simp [measure, h1, pcM]
  case takeTcp => obtain ⟨x, q, _, h1, h2, rfl⟩ := h; simp [measure, h1, h2, holdM]; omega
  case takeVirt =>
    rcases h with ⟨_, h2, rfl⟩ | ⟨x, q, _, h1, h2, rfl⟩
    · simp [measure, h2, holdM]
    · simp [measure, h1, h2, holdM]; omega
  case sendTcp =>
    obtain ⟨i, h1, ⟨_, rfl⟩ | ⟨_, h2, rfl⟩⟩ := h
    · simp [measure, hc]
    · cases i <;> simp [measure, h1, h2, holdM, chanM, hc] <;> omega
  case sendVirt =>
    obtain ⟨i, h1, ⟨_, rfl⟩ | ⟨_, h2, rfl⟩⟩ := h
    · simp [measure, hc]
    · cases i <;> simp [measure, h1, h2, holdM, chanM, hc] <;> omega
  case accept =>
    obtain ⟨h1, ⟨x, h2, rfl⟩ | ⟨h2, rfl⟩⟩ := h
    · simp [measure, h2, chanM]
    · simp [measure, h1, h2, chanM, srvM]; omega
  case close => obtain ⟨h1, rfl⟩ := h; simp [measure, h1, srvM]; omega

/-- a run without steps of the surroundings (specification) -/
inductive Alone (c : Cfg) : St → Nat → St → Prop where
  | refl {s} : Alone c s 0 s
  | step {s s' s'' : St} {a : Act} {n : Nat} : a.outer = false → exec c s a = some s' → Alone c s' n s'' → Alone c s (n + 1) s''

/-- **C275**. Whatever state the program is in: if nothing comes from outside, it comes to rest after a bounded number of steps. -/
theorem C275_rests (c : Cfg) (s : St) : ∃ b, ∀ n s', Alone c s n s' → n ≤ b := by
  refine ⟨measure s, fun n s' h => ?_⟩
  induction h with
  | refl => exact Nat.zero_le _
  | step ha he _ ih => have := measure_step ha he; omega

/-! ### who is served -/

/-- how often the client is an item (specification) -/
def has (i : Nat) : Option Item → Nat
  | some (.client x) => if x = i then 1 else 0
  | _ => 0

/-- how often the client is somewhere in the program (specification) -/
def total (s : St) (i : Nat) : Nat :=
  s.tcpQ.count i + s.virtQ.count i + has i s.tcpHold + has i s.virtHold + has i s.chan + s.served.count i

/-- one for the clients that have come (specification) -/
def came (s : St) (i : Nat) : Nat := if i < s.count then 1 else 0

theorem total_step {c : Cfg} {s s' : St} {a : Act} (hi : ∀ i, total s i ≤ came s i ∧ (s.chanClosed = false → total s i = came s i))
    (h : exec c s a = some s') : ∀ i, total s' i ≤ came s' i ∧ (s'.chanClosed = false → total s' i = came s' i) := by
  intro i
  obtain ⟨hc, h⟩ := exec_iff.1 h
  have hi := hi i
  have hcount : ∀ (l : List Nat) (x : Nat), (l ++ [x]).count i = l.count i + (if x = i then 1 else 0) := by
    intro l x
    rw [List.count_append, List.count_singleton]
    simp only [beq_iff_eq]
  have hcons : ∀ (l : List Nat) (x : Nat), (x :: l).count i = l.count i + (if x = i then 1 else 0) := by
    intro l x
    rw [List.count_cons]
    simp only [beq_iff_eq]
  simp only [total, came] at hi ⊢
  cases a <;> simp only [Does] at h
  case bind => obtain ⟨h1, rfl⟩ := h; exact hi
  case tunnel => obtain ⟨h1, rfl⟩ := h; exact hi
  case spawn => obtain ⟨h1, rfl⟩ := h; exact hi
  case load => obtain ⟨h1, rfl⟩ := h; exact hi
  case cancel => cases h; exact hi
  case shutdown => obtain ⟨h1, _, rfl⟩ := h; exact hi
  case refuse => obtain ⟨h1, rfl⟩ := h; exact hi
  case dialTcp =>
    obtain ⟨h1, rfl⟩ := h
    simp only [hcount]
    by_cases h2 : s.count = i
    · subst h2; simp only [if_true, Nat.lt_irrefl, if_false, Nat.lt_succ_self] at hi ⊢
      refine ⟨by omega, fun h => by have := hi.2 h; omega⟩
    · have e : (i < s.count + 1) = (i < s.count) := by apply propext; omega
      simp only [if_neg h2, e]
      exact ⟨by omega, fun h => by have := hi.2 h; omega⟩
  case dialVirt =>
    obtain ⟨h1, rfl⟩ := h
    simp only [hcount]
    by_cases h2 : s.count = i
    · subst h2; simp only [if_true, Nat.lt_irrefl, if_false, Nat.lt_succ_self] at hi ⊢
      refine ⟨by omega, fun h => by have := hi.2 h; omega⟩
    · have e : (i < s.count + 1) = (i < s.count) := by apply propext; omega
      simp only [if_neg h2, e]
      exact ⟨by omega, fun h => by have := hi.2 h; omega⟩
  case takeTcp =>
    obtain ⟨x, q, _, h1, h2, rfl⟩ := h
    simp only [h1, h2, hcons, has] at hi ⊢
    exact ⟨by omega, fun h => by have := hi.2 h; omega⟩
  case takeVirt =>
    rcases h with ⟨_, h2, rfl⟩ | ⟨x, q, _, h1, h2, rfl⟩
    · simp only [h2, has] at hi ⊢; exact hi
    · simp only [h1, h2, hcons, has] at hi ⊢
      exact ⟨by omega, fun h => by have := hi.2 h; omega⟩
  case sendTcp =>
    obtain ⟨j, h1, ⟨_, rfl⟩ | ⟨_, h2, rfl⟩⟩ := h
    · exact hi
    · simp only [h1, h2] at hi ⊢
      have e : has i none = 0 := rfl
      exact ⟨by omega, fun h => by have := hi.2 h; omega⟩
  case sendVirt =>
    obtain ⟨j, h1, ⟨_, rfl⟩ | ⟨_, h2, rfl⟩⟩ := h
    · exact hi
    · simp only [h1, h2] at hi ⊢
      have e : has i none = 0 := rfl
      exact ⟨by omega, fun h => by have := hi.2 h; omega⟩
  case accept =>
    obtain ⟨h1, ⟨x, h2, rfl⟩ | ⟨h2, rfl⟩⟩ := h
    · simp only [h2, hcons, has] at hi ⊢
      exact ⟨by omega, fun h => by have := hi.2 h; omega⟩
    · simp only [h2, has] at hi ⊢; exact hi
  case close =>
    obtain ⟨h1, rfl⟩ := h
    simp only [List.count_nil]
    exact ⟨by omega, fun h => by cases h⟩

theorem total_reach {c : Cfg} {g : St → Act → Prop} {s : St} (h : Reach c g s) :
    ∀ i, total s i ≤ came s i ∧ (s.chanClosed = false → total s i = came s i) := by
  induction h with
  | init => intro i; exact ⟨Nat.zero_le _, fun _ => rfl⟩
  | step _ _ he ih => exact total_step ih he

/-- **C275**. In every run the HTTP server gets only clients that connected, and none of them twice. -/
theorem C275_once {c : Cfg} {g : St → Act → Prop} {s : St} (h : Reach c g s) : s.served.Nodup ∧ ∀ i ∈ s.served, i < s.count := by
  have ht := total_reach h
  constructor
  · rw [List.nodup_iff_count]
    intro i
    have := (ht i).1
    unfold total came at this
    split at this <;> omega
  · intro i hi
    have := (ht i).1
    have h2 := List.count_pos_iff.2 hi
    unfold total came at this
    split at this
    · assumption
    · omega

/-- what is true as long as the mesh grants the port -/
structure Calm (c : Cfg) (s : St) : Prop where
  virt : s.virt ≠ .stopped
  tcpHold : s.tcpHold ≠ some .err
  virtHold : s.virtHold ≠ some .err
  chan : s.chan ≠ some .err
  closed : s.chanClosed = false
  closing : s.srv ≠ .closing
  returned : s.srv = .returned → c.filters = false
  crashed : s.crashed = false
  tcp : s.tcp = (if s.pc = .bind then false else c.canBind)
  idle : s.srv = .idle → s.pc = .bind ∨ s.pc = .tunnel ∨ s.pc = .spawn
  shut : s.pc = .done → s.cancelled = true
  absent : s.pc = .bind ∨ s.pc = .tunnel → s.virt = .absent
  exposed : s.virt = .opened → c.expose = true
  quiet : s.virt = .absent → s.virtQ = []
  unbound : s.tcp = false → s.tcpQ = []

theorem calm_step {c : Cfg} {s s' : St} {a : Act} (hi : Calm c s) (hg : a = .refuse → s.virt ≠ .opened) (h : exec c s a = some s') : Calm c s' := by
  obtain ⟨hc, h⟩ := exec_iff.1 h
  obtain ⟨i1, i2, i3, i4, i5, i6, i7, i8, i9, i10, i11, i12, i13, i14, i15⟩ := hi
  cases a <;> simp only [Does] at h
  case bind =>
    obtain ⟨h1, rfl⟩ := h
    constructor <;> simp_all
  case tunnel =>
    obtain ⟨h1, rfl⟩ := h
    cases he : c.expose <;> constructor <;> simp_all
  case spawn =>
    obtain ⟨h1, rfl⟩ := h
    constructor <;> simp_all
  case load =>
    obtain ⟨h1, rfl⟩ := h
    cases hf : c.filters <;> constructor <;> simp_all
  case cancel =>
    cases h
    constructor <;> simp_all
  case shutdown =>
    obtain ⟨h1, _, rfl⟩ := h
    constructor <;> simp_all
  case refuse =>
    obtain ⟨h1, rfl⟩ := h
    simp_all
  case dialTcp =>
    obtain ⟨h1, rfl⟩ := h
    constructor <;> simp_all
  case dialVirt =>
    obtain ⟨h1, rfl⟩ := h
    constructor <;> simp_all
  case takeTcp =>
    obtain ⟨x, q, h0, h1, h2, rfl⟩ := h
    constructor <;> simp_all
  case takeVirt =>
    rcases h with ⟨h1, h2, rfl⟩ | ⟨x, q, h0, h1, h2, rfl⟩
    · simp_all
    · constructor <;> simp_all
  case sendTcp =>
    obtain ⟨j, h1, ⟨h2, rfl⟩ | ⟨_, h2, rfl⟩⟩ := h
    · simp_all
    · constructor <;> simp_all
  case sendVirt =>
    obtain ⟨j, h1, ⟨h2, rfl⟩ | ⟨_, h2, rfl⟩⟩ := h
    · simp_all
    · constructor <;> simp_all
  case accept =>
    obtain ⟨h1, ⟨x, h2, rfl⟩ | ⟨h2, rfl⟩⟩ := h
    · constructor <;> simp_all
    · simp_all
  case close =>
    obtain ⟨h1, rfl⟩ := h
    simp_all

theorem calm_init (c : Cfg) : Calm c {} := by
  constructor <;> simp

/-- the mesh is never asked for a port, or grants it whenever it is (specification) -/
def Served (c : Cfg) (g : St → Act → Prop) : Prop := c.expose = false ∨ ∀ s a, g s a → a ≠ .refuse

theorem calm_reach {c : Cfg} {g : St → Act → Prop} (hg : Served c g) {s : St} (h : Reach c g s) : Calm c s := by
  induction h with
  | init => exact calm_init c
  | step _ ha he ih =>
    refine calm_step ih (fun hr => ?_) he
    rcases hg with hg | hg
    · intro ho
      have := ih.exposed ho
      rw [hg] at this
      cases this
    · exact absurd hr (hg _ _ ha)

theorem enabled {c : Cfg} {s s' : St} {a : Act} (hs : Stuck c s) (ha : a.outer = false) (hc : s.crashed = false) (h : Does c s s' a) : False := by
  have := hs a ha
  rw [exec_iff.2 ⟨hc, h⟩] at this
  cases this

/-- **C275**, partial: filters that can be created, and a mesh that grants the port if it is asked for one. Whenever the program has come to rest (C275_rests), every
client that connected has been given to the HTTP server, before and after the end of the context, by TCP and through the tunnel. -/
theorem C275_served_partial {c : Cfg} {g : St → Act → Prop} (hf : c.filters = true) (hg : Served c g) {s : St} (h : Reach c g s) (hs : Stuck c s) :
    ∀ i, i < s.count → i ∈ s.served := by
  have hi := calm_reach hg h
  have hc := hi.crashed
  have hpc : s.pc = .waiting ∨ s.pc = .done := by
    cases hp : s.pc with
    | bind => exact (enabled (a := .bind) hs rfl hc ⟨hp, rfl⟩).elim
    | tunnel => exact (enabled (a := .tunnel) hs rfl hc ⟨hp, rfl⟩).elim
    | spawn => exact (enabled (a := .spawn) hs rfl hc ⟨hp, rfl⟩).elim
    | waiting => exact Or.inl rfl
    | done => exact Or.inr rfl
  have hsrv : s.srv = .serving := by
    cases hp : s.srv with
    | idle => have := hi.idle hp; rcases hpc with e | e <;> rw [e] at this <;> simp at this
    | loading => exact (enabled (a := .load) hs rfl hc ⟨hp, rfl⟩).elim
    | serving => rfl
    | closing => exact absurd hp hi.closing
    | returned => have := hi.returned hp; rw [hf] at this; cases this
  have hch : s.chan = none := by
    cases hp : s.chan with
    | none => rfl
    | some j => cases j with
      | client x => exact (enabled (a := .accept) hs rfl hc ⟨hsrv, Or.inl ⟨x, hp, rfl⟩⟩).elim
      | err => exact absurd hp hi.chan
  have hth : s.tcpHold = none := by
    cases hp : s.tcpHold with
    | none => rfl
    | some j => exact (enabled (a := .sendTcp) hs rfl hc ⟨j, hp, Or.inr ⟨hi.closed, hch, rfl⟩⟩).elim
  have hvh : s.virtHold = none := by
    cases hp : s.virtHold with
    | none => rfl
    | some j => exact (enabled (a := .sendVirt) hs rfl hc ⟨j, hp, Or.inr ⟨hi.closed, hch, rfl⟩⟩).elim
  have htq : s.tcpQ = [] := by
    cases hp : s.tcpQ with
    | nil => rfl
    | cons x q =>
      cases ht : s.tcp with
      | false => have := hi.unbound ht; rw [hp] at this; cases this
      | true => exact (enabled (a := .takeTcp) hs rfl hc ⟨x, q, ht, hp, hth, rfl⟩).elim
  have hvq : s.virtQ = [] := by
    cases hp : s.virtQ with
    | nil => rfl
    | cons x q =>
      cases hv : s.virt with
      | absent => have := hi.quiet hv; rw [hp] at this; cases this
      | stopped => exact absurd hv hi.virt
      | opened => exact (enabled (a := .takeVirt) hs rfl hc (Or.inr ⟨x, q, hv, hp, hvh, rfl⟩)).elim
  intro i hlt
  have := (total_reach h i).2 hi.closed
  simp only [total, came, htq, hvq, hth, hvh, hch, has, List.count_nil, if_pos hlt] at this
  exact List.count_pos_iff.1 (by omega)

/-- **C275**, the end: once the address has been bound it stays bound, whatever becomes of the context. -/
theorem C275_kept {c : Cfg} {g : St → Act → Prop} (hb : c.canBind = true) (hg : Served c g) {s : St} (h : Reach c g s) (hp : s.pc ≠ .bind) : s.tcp = true := by
  rw [(calm_reach hg h).tcp, if_neg hp, hb]

/-- **C275** does not hold: after the context has ended and `RunMetricsServer` has returned, a client connects and is served. -/
theorem C275_released_false : ∃ s, run ⟨true, false, true⟩ {} [.bind, .tunnel, .spawn, .load, .cancel, .shutdown, .dialTcp, .takeTcp, .sendTcp, .accept] = some s ∧
    s.cancelled = true ∧ s.pc = .done ∧ s.served = [0] := ⟨_, rfl, by decide⟩

/-- **C275** does not hold: without filters nobody is ever served, … -/
theorem C275_nofilters {c : Cfg} (hf : c.filters = false) {g : St → Act → Prop} {s : St} (h : Reach c g s) : s.served = [] := by
  have : s.srv ≠ .serving ∧ s.served = [] := by
    induction h with
    | init => exact ⟨by simp, rfl⟩
    | @step s s' a _ _ he ih =>
      obtain ⟨_, h⟩ := exec_iff.1 he
      obtain ⟨i1, i2⟩ := ih
      cases a <;> simp only [Does] at h
      case bind => obtain ⟨h1, rfl⟩ := h; exact ⟨i1, i2⟩
      case tunnel => obtain ⟨h1, rfl⟩ := h; exact ⟨i1, i2⟩
      case spawn => obtain ⟨h1, rfl⟩ := h; exact ⟨by simp, i2⟩
      case load => obtain ⟨h1, rfl⟩ := h; exact ⟨by simp [hf], i2⟩
      case cancel => cases h; exact ⟨i1, i2⟩
      case shutdown => obtain ⟨h1, _, rfl⟩ := h; exact ⟨i1, i2⟩
      case refuse => obtain ⟨h1, rfl⟩ := h; exact ⟨i1, i2⟩
      case dialTcp => obtain ⟨h1, rfl⟩ := h; exact ⟨i1, i2⟩
      case dialVirt => obtain ⟨h1, rfl⟩ := h; exact ⟨i1, i2⟩
      case takeTcp => obtain ⟨x, q, h0, h1, h2, rfl⟩ := h; exact ⟨i1, i2⟩
      case takeVirt => rcases h with ⟨h1, h2, rfl⟩ | ⟨x, q, h0, h1, h2, rfl⟩ <;> exact ⟨i1, i2⟩
      case sendTcp => obtain ⟨j, h1, ⟨h2, rfl⟩ | ⟨_, h2, rfl⟩⟩ := h <;> exact ⟨i1, i2⟩
      case sendVirt => obtain ⟨j, h1, ⟨h2, rfl⟩ | ⟨_, h2, rfl⟩⟩ := h <;> exact ⟨i1, i2⟩
      case accept => exact absurd h.1 i1
      case close => obtain ⟨h1, rfl⟩ := h; exact ⟨by simp, i2⟩
  exact this.2

/-- … and their connections are made all the same and wait for ever. -/
theorem C275_nofilters_false : ∃ s, run ⟨true, false, false⟩ {} [.bind, .tunnel, .spawn, .load, .dialTcp, .takeTcp, .sendTcp] = some s ∧
    s.count = 1 ∧ s.srv = .returned ∧ s.tcp = true ∧ Stuck ⟨true, false, false⟩ s := by
  refine ⟨_, rfl, by decide, by decide, by decide, ?_⟩
  intro a ha
  cases a <;> first | rfl | cases ha

/-! ### a mesh without a port -/

/-- **C276**, partial: if metrics are not offered through the tunnel, or the mesh grants the port, the program never panics here and the server goes on. -/
theorem C276_runs_partial {c : Cfg} {g : St → Act → Prop} (hf : c.filters = true) (hg : Served c g) {s : St} (h : Reach c g s) :
    s.crashed = false ∧ s.srv ≠ .returned := by
  have hi := calm_reach hg h
  refine ⟨hi.crashed, fun hr => ?_⟩
  have := hi.returned hr
  rw [hf] at this
  cases this

/-- what is true in every run with filters -/
structure Always (s : St) : Prop where
  returned : s.srv = .returned → s.chanClosed = true
  idle : s.srv = .idle → s.pc = .bind ∨ s.pc = .tunnel ∨ s.pc = .spawn

theorem always {c : Cfg} (hf : c.filters = true) {g : St → Act → Prop} {s : St} (h : Reach c g s) : Always s := by
  induction h with
  | init => constructor <;> simp
  | @step s s' a _ _ he ih =>
    obtain ⟨_, h⟩ := exec_iff.1 he
    obtain ⟨i1, i2⟩ := ih
    cases a <;> simp only [Does] at h
    case bind => obtain ⟨h1, rfl⟩ := h; exact ⟨i1, fun _ => by simp⟩
    case tunnel => obtain ⟨h1, rfl⟩ := h; exact ⟨i1, fun _ => by simp⟩
    case spawn => obtain ⟨h1, rfl⟩ := h; exact ⟨by simp, by simp⟩
    case load => obtain ⟨h1, rfl⟩ := h; exact ⟨by simp [hf], by simp [hf]⟩
    case cancel => cases h; exact ⟨i1, i2⟩
    case shutdown => obtain ⟨h1, _, rfl⟩ := h; exact ⟨i1, fun e => by have := i2 e; rw [h1] at this; simp at this⟩
    case refuse => obtain ⟨h1, rfl⟩ := h; exact ⟨i1, i2⟩
    case dialTcp => obtain ⟨h1, rfl⟩ := h; exact ⟨i1, i2⟩
    case dialVirt => obtain ⟨h1, rfl⟩ := h; exact ⟨i1, i2⟩
    case takeTcp => obtain ⟨x, q, h0, h1, h2, rfl⟩ := h; exact ⟨i1, i2⟩
    case takeVirt => rcases h with ⟨h1, h2, rfl⟩ | ⟨x, q, h0, h1, h2, rfl⟩ <;> exact ⟨i1, i2⟩
    case sendTcp => obtain ⟨j, h1, ⟨h2, rfl⟩ | ⟨_, h2, rfl⟩⟩ := h <;> exact ⟨i1, i2⟩
    case sendVirt => obtain ⟨j, h1, ⟨h2, rfl⟩ | ⟨_, h2, rfl⟩⟩ := h <;> exact ⟨i1, i2⟩
    case accept => obtain ⟨h1, ⟨x, h2, rfl⟩ | ⟨h2, rfl⟩⟩ := h <;> exact ⟨fun e => by simp_all, fun e => by simp_all⟩
    case close => obtain ⟨h1, rfl⟩ := h; exact ⟨fun _ => rfl, by simp⟩

/-- **C276** does not hold, and not only in some runs: whenever the mesh has refused the port, the program comes to rest (C275_rests) only by a panic. -/
theorem C276_crashes {c : Cfg} {g : St → Act → Prop} (hf : c.filters = true) {s : St} (h : Reach c g s) (hv : s.virt = .stopped) (hs : Stuck c s) :
    s.crashed = true := by
  have hi := always hf h
  cases hc : s.crashed with
  | true => rfl
  | false =>
    exfalso
    have hpc : s.pc = .waiting ∨ s.pc = .done := by
      cases hp : s.pc with
      | bind => exact (enabled (a := .bind) hs rfl hc ⟨hp, rfl⟩).elim
      | tunnel => exact (enabled (a := .tunnel) hs rfl hc ⟨hp, rfl⟩).elim
      | spawn => exact (enabled (a := .spawn) hs rfl hc ⟨hp, rfl⟩).elim
      | waiting => exact Or.inl rfl
      | done => exact Or.inr rfl
    cases hh : s.virtHold with
    | none => exact enabled (a := .takeVirt) hs rfl hc (Or.inl ⟨hv, hh, rfl⟩)
    | some j =>
      cases hcl : s.chanClosed with
      | true => exact enabled (a := .sendVirt) hs rfl hc ⟨j, hh, Or.inl ⟨hcl, rfl⟩⟩
      | false =>
        cases hch : s.chan with
        | none => exact enabled (a := .sendVirt) hs rfl hc ⟨j, hh, Or.inr ⟨hcl, hch, rfl⟩⟩
        | some k =>
          cases hp : s.srv with
          | idle => have := hi.idle hp; rcases hpc with e | e <;> rw [e] at this <;> simp at this
          | loading => exact enabled (a := .load) hs rfl hc ⟨hp, rfl⟩
          | serving => cases k with
            | client x => exact enabled (a := .accept) hs rfl hc ⟨hp, Or.inl ⟨x, hch, rfl⟩⟩
            | err => exact enabled (a := .accept) hs rfl hc ⟨hp, Or.inr ⟨hch, rfl⟩⟩
          | closing => exact enabled (a := .close) hs rfl hc ⟨hp, rfl⟩
          | returned => have := hi.returned hp; rw [hcl] at this; cases this

/-- **C276** does not hold: the run. The mesh answers that it has no port; the server stops, and the goroutine of the listener panics. -/
theorem C276_runs_false : ∃ s, run ⟨true, true, true⟩ {} [.bind, .tunnel, .spawn, .load, .refuse, .takeVirt, .sendVirt, .takeVirt, .accept, .close, .sendVirt] = some s ∧
    s.crashed = true ∧ s.tcp = false := ⟨_, rfl, by decide⟩

/-! ### the hypotheses can be met -/

/-- three clients, one of them through the tunnel, have all been served, and the program waits -/
example : ∃ s, run ⟨true, true, true⟩ {} [.bind, .dialTcp, .tunnel, .spawn, .dialVirt, .takeTcp, .load, .sendTcp, .takeVirt, .dialTcp, .accept, .sendVirt, .takeTcp,
    .accept, .sendTcp, .accept] = some s ∧ s.served = [2, 1, 0] ∧ s.count = 3 ∧ Stuck ⟨true, true, true⟩ s := by
  refine ⟨_, rfl, by decide, by decide, ?_⟩
  intro a ha
  cases a <;> first | rfl | cases ha

example : Served ⟨true, true, true⟩ Granted := Or.inr fun _ _ h => h
example : Served ⟨true, false, true⟩ Any := Or.inl rfl

end Verif.Net.MetricsServer
