import Verif.Net.Server
/-
Property theorems C133 (a server follows the policy of the mesh) and C134 (it never serves a client the policy does not allow).
-/
namespace Verif.Props.Server
open Verif Verif.Cert Verif.Match Verif.Net.Server

/-! ### specification -/

/-- the certificates of the client are confirmed by the verifier of the policy: its roots, or else those of the CA -/
def Confirms (e : World) (p : Policy) (raw : List (List Nat)) : Prop :=
  ∃ c chain, p.verifier = some c ∧ verifyCertificate e.match_ e.x509 { c with roots := some (c.roots.getD e.ca) } raw = .ok chain

/-- the policy allows the application to get the bytes of the client as they come -/
def AllowsPlain (p : Policy) (tls : Bool) : Prop := p.useTLS = false ∨ (p.permissive = true ∧ tls = false)

/-- the policy allows a connection over TLS -/
def AllowsSecure (e : World) (p : Policy) (tls : Bool) (raw : List (List Nat)) : Prop :=
  p.useTLS = true ∧ tls = true ∧ (p.certRequired = true → raw ≠ []) ∧ Confirms e p raw

/-- policies are only received after the listener has been created -/
def Prompt : St → Act → Prop
  | s, .recv => s.started = true
  | _, _ => True

/-- no policy is received -/
def Steady : St → Act → Prop
  | _, .recv => False
  | _, _ => True

def Any : St → Act → Prop := fun _ _ => True

theorem run_mono {e : World} {g g' : St → Act → Prop} (hg : ∀ s a, g s a → g' s a) {s s' : St} (h : Run e g s s') : Run e g' s s' := by
  induction h with
  | refl => exact .refl
  | step _ h1 h2 ih => exact .step ih (hg _ _ h1) h2

theorem run_trans {e : World} {g : St → Act → Prop} {s s' s'' : St} (h : Run e g s s') (h' : Run e g s' s'') : Run e g s s'' := by
  induction h' with
  | refl => exact h
  | step _ h1 h2 ih => exact .step ih h1 h2

theorem runActs_run {e : World} : ∀ (l : List Act) (s s' : St), runActs e s l = some s' → Run e Any s s'
  | [], s, s', h => by injection h with h; subst h; exact .refl
  | a :: l, s, s', h => by
    rw [runActs] at h
    obtain ⟨s1, h1, h2⟩ := Option.bind_eq_some_iff.mp h
    exact run_trans (.step .refl trivial h1) (runActs_run l s1 s' h2)

theorem move_eq {s s' : St} {i : Nat} {a : Phase} {f : Conn → Phase} (h : s.move i a f = some s') : ∃ c, s.conns[i]? = some c ∧ c.phase = a ∧
    s' = { s with conns := s.conns.set i { c with phase := f c } } := by
  unfold St.move at h
  cases hc : s.conns[i]? with
  | none => rw [hc] at h; cases h
  | some c =>
    rw [hc] at h
    simp only at h
    by_cases ha : c.phase = a
    · rw [if_pos ha] at h; injection h with h; exact ⟨c, rfl, ha, h.symm⟩
    · rw [if_neg ha] at h; cases h

/-- what is configured, apart from the connections -/
structure Cfg where
  upd : Option (Policy × Nat)
  mode : Unified.Mode
  auth : Auth
  verify : Option Policy
  rcvd : List Policy

def cfg (s : St) : Cfg := ⟨s.upd, s.mode, s.auth, s.verify, s.rcvd⟩

theorem exec_cases {e : World} {s s' : St} {a : Act} (h : exec e s a = some s') :
    (a = .recv ∧ s.recvStep = some s') ∨ (a = .write ∧ s.writeStep = some s') ∨ cfg s' = cfg s := by
  cases a with
  | recv => exact .inl ⟨rfl, h⟩
  | write => exact .inr (.inl ⟨rfl, h⟩)
  | connect => injection h with h; subst h; exact .inr (.inr rfl)
  | ask =>
    rw [exec] at h
    split at h
    · cases h
    · injection h with h; subst h; exact .inr (.inr rfl)
  | start => injection h with h; subst h; exact .inr (.inr rfl)
  | push r =>
    rw [exec] at h
    split at h
    · injection h with h; subst h; exact .inr (.inr rfl)
    · cases h
  | dial t r => injection h with h; subst h; exact .inr (.inr rfl)
  | accept i =>
    rw [exec] at h
    split at h
    · obtain ⟨c, -, -, rfl⟩ := move_eq h; exact .inr (.inr rfl)
    · cases h
  | peek i => obtain ⟨c, -, -, rfl⟩ := move_eq h; exact .inr (.inr rfl)
  | certs i => obtain ⟨c, -, -, rfl⟩ := move_eq h; exact .inr (.inr rfl)
  | verify i => obtain ⟨c, -, -, rfl⟩ := move_eq h; exact .inr (.inr rfl)

/-! ### what is configured -/

/-- the configuration while the callback is at its `k`-th write, or has ended -/
def Follows (c : Cfg) : Prop := match c.upd with
  | none => ∀ p, c.rcvd.head? = some p → c.mode = modeOf p ∧ c.auth = authOf p ∧ c.verify = some p
  | some (p, 0) => c.rcvd.head? = some p
  | some (p, 1) => c.rcvd.head? = some p ∧ c.mode = modeOf p
  | some (p, _) => c.rcvd.head? = some p ∧ c.mode = modeOf p ∧ c.auth = authOf p

theorem follows_exec {e : World} {s s' : St} {a : Act} (h : Follows (cfg s)) (hg : Prompt s a) (he : exec e s a = some s') : Follows (cfg s') := by
  rcases exec_cases he with ⟨rfl, h1⟩ | ⟨rfl, h1⟩ | h1
  · have hs : s.started = true := hg
    unfold St.recvStep at h1
    split at h1
    · cases hc : s.chan with
      | none => rw [hc] at h1; cases h1
      | some r =>
        rw [hc] at h1
        cases r with
        | none => injection h1 with h1; subst h1; exact h
        | some p =>
          injection h1 with h1; subst h1
          unfold cfg Follows
          simp only [List.head?_cons]
    · cases h1
  · unfold St.writeStep at h1
    unfold cfg Follows at h
    cases hu : s.upd with
    | none => rw [hu] at h1; cases h1
    | some q =>
      obtain ⟨p, k⟩ := q
      rw [hu] at h1 h
      match k, h, h1 with
      | 0, h, h1 => injection h1 with h1; subst h1; exact ⟨h, rfl⟩
      | 1, h, h1 => injection h1 with h1; subst h1; exact ⟨h.1, h.2, rfl⟩
      | k + 2, h, h1 =>
        injection h1 with h1; subst h1
        intro q hq
        have hq : s.rcvd.head? = some q := hq
        have : s.rcvd.head? = some p := h.1
        rw [this] at hq; injection hq with hq; subst hq
        exact ⟨h.2.1, h.2.2, rfl⟩
  · rw [h1]; exact h

theorem follows_run {e : World} {s : St} (h : Run e Prompt {} s) : Follows (cfg s) := by
  induction h with
  | refl => intro p hp; cases hp
  | step _ hg he ih => exact follows_exec ih hg he

/-! ### C133 -/

theorem steady_cfg {e : World} {s s' : St} (hu : s.upd = none) (h : Run e Steady s s') : cfg s' = cfg s := by
  induction h with
  | refl => rfl
  | step _ hg he ih =>
    rcases exec_cases he with ⟨rfl, -⟩ | ⟨rfl, h1⟩ | h1
    · exact hg.elim
    · unfold St.writeStep at h1
      have := congrArg Cfg.upd ih
      simp only [cfg, hu] at this
      rw [this] at h1; cases h1
    · rw [h1, ih]

/-- what has been found out about a connection under a policy -/
def ConnOk (e : World) (p : Policy) (c : Conn) : Prop := match c.phase with
  | .opened => True
  | .peeking => p.useTLS = true ∧ p.permissive = true
  | .handshake => p.useTLS = true
  | .certs => p.useTLS = true ∧ c.tls = true ∧ (p.certRequired = true → c.raw ≠ [])
  | .plain => AllowsPlain p c.tls
  | .secure => AllowsSecure e p c.tls c.raw
  | .rejected => True
  | .panic => True

theorem peerOk_confirms {e : World} {p : Policy} {raw : List (List Nat)} {chain : List Certificate} (h : peerOk e p raw = .ok chain) : Confirms e p raw := by
  unfold peerOk at h
  cases hv : p.verifier with
  | none => rw [hv] at h; cases h
  | some c => rw [hv] at h; exact ⟨c, chain, hv, h⟩

/-- a step on one connection -/
theorem conn_step {e : World} {p : Policy} {s s' : St} {a : Act} (hm : s.mode = modeOf p) (ha : s.auth = authOf p) (hv : s.verify = some p)
    (hg : Steady s a) (he : exec e s a = some s') (n : Nat) (h : ∀ i c, n ≤ i → s.conns[i]? = some c → ConnOk e p c) (hn : n ≤ s.conns.length) :
    (∀ i c, n ≤ i → s'.conns[i]? = some c → ConnOk e p c) ∧ n ≤ s'.conns.length := by
  have MV : ∀ (i : Nat) (ph : Phase) (f : Conn → Phase), s.move i ph f = some s' →
      (∀ c : Conn, ConnOk e p c → c.phase = ph → ConnOk e p { c with phase := f c }) →
      (∀ i c, n ≤ i → s'.conns[i]? = some c → ConnOk e p c) ∧ n ≤ s'.conns.length := by
    intro i ph f hmv hf
    obtain ⟨c, hc, hp, rfl⟩ := move_eq hmv
    refine ⟨?_, by simpa using hn⟩
    intro j d hj hd
    have hd : (s.conns.set i _)[j]? = some d := hd
    rw [List.getElem?_set] at hd
    by_cases hij : i = j
    · subst hij
      rw [if_pos rfl] at hd
      split at hd
      · injection hd with hd; subst hd
        exact hf c (h i c hj hc) hp
      · cases hd
    · rw [if_neg hij] at hd
      exact h j d hj hd
  cases a with
  | recv => exact hg.elim
  | write =>
    rw [exec] at he
    unfold St.writeStep at he
    split at he
    · injection he with he; subst he; exact ⟨h, hn⟩
    · injection he with he; subst he; exact ⟨h, hn⟩
    · injection he with he; subst he; exact ⟨h, hn⟩
    · cases he
  | connect => injection he with he; subst he; exact ⟨h, hn⟩
  | ask =>
    rw [exec] at he
    split at he
    · cases he
    · injection he with he; subst he; exact ⟨h, hn⟩
  | start => injection he with he; subst he; exact ⟨h, hn⟩
  | push r =>
    rw [exec] at he
    split at he
    · injection he with he; subst he; exact ⟨h, hn⟩
    · cases he
  | dial t r =>
    injection he with he; subst he
    refine ⟨?_, by simp; omega⟩
    intro i c hi hc
    have hc : (s.conns ++ [⟨t, r, .opened⟩])[i]? = some c := hc
    rw [List.getElem?_append] at hc
    split at hc
    · exact h i c hi hc
    · have : c = ⟨t, r, .opened⟩ := by
        cases hx : i - s.conns.length with
        | zero => rw [hx] at hc; injection hc with hc; exact hc.symm
        | succ k => rw [hx] at hc; simp at hc
      subst this
      trivial
  | accept i =>
    rw [exec] at he
    split at he
    · refine MV i _ _ he ?_
      intro c _ _
      rw [hm]
      unfold modeOf
      cases hu : p.useTLS <;> cases hp : p.permissive
      · exact .inl hu
      · exact .inl hu
      · exact hu
      · exact ⟨hu, hp⟩
    · cases he
  | peek i =>
    refine MV i _ _ he ?_
    intro c hc hp
    unfold ConnOk at hc
    rw [hp] at hc
    unfold peekPhase
    cases ht : c.tls
    · exact .inr ⟨hc.2, rfl⟩
    · exact hc.1
  | certs i =>
    refine MV i _ _ he ?_
    intro c hc hp
    unfold ConnOk at hc
    rw [hp] at hc
    unfold certPhase
    rw [ha]
    unfold authOf
    by_cases ht : c.tls = true
    · rw [if_neg (by rw [ht]; decide)]
      by_cases hpr : (parseAll e.x509 c.raw).isNone = true
      · rw [if_pos hpr]; trivial
      · rw [if_neg hpr]
        by_cases hr : c.raw = []
        · cases hq : p.certRequired
          · rw [if_neg (by simp)]
            exact ⟨hc, ht, fun hh => by rw [hq] at hh; cases hh⟩
          · rw [if_pos (by rw [hr]; rfl)]; trivial
        · rw [if_neg (by intro hh; simp only [Bool.and_eq_true, List.isEmpty_iff] at hh; exact hr hh.1)]
          exact ⟨hc, ht, fun _ => hr⟩
    · rw [if_pos (by simpa using ht)]; trivial
  | verify i =>
    refine MV i _ _ he ?_
    intro c hc hp
    unfold ConnOk at hc
    rw [hp] at hc
    rw [hv]
    cases hk : peerOk e p c.raw with
    | ok chain =>
      rw [show verifyPhase e (some p) c = .secure by unfold verifyPhase; simp only [hk]]
      exact ⟨hc.1, hc.2.1, hc.2.2, peerOk_confirms hk⟩
    | error => rw [show verifyPhase e (some p) c = .rejected by unfold verifyPhase; simp only [hk]]; trivial
    | panic => rw [show verifyPhase e (some p) c = .panic by unfold verifyPhase; simp only [hk]]; trivial

theorem steady_conns {e : World} {p : Policy} {s s' : St} (hu : s.upd = none) (hm : s.mode = modeOf p) (ha : s.auth = authOf p) (hv : s.verify = some p)
    (h : Run e Steady s s') : (∀ i c, s.conns.length ≤ i → s'.conns[i]? = some c → ConnOk e p c) ∧ s.conns.length ≤ s'.conns.length := by
  induction h with
  | refl =>
    refine ⟨?_, Nat.le_refl _⟩
    intro i c hi hc
    rw [List.getElem?_eq_none hi] at hc; cases hc
  | step hr hg he ih =>
    have hc := steady_cfg hu hr
    have h1 := congrArg Cfg.mode hc
    have h2 := congrArg Cfg.auth hc
    have h3 := congrArg Cfg.verify hc
    simp only [cfg] at h1 h2 h3
    exact conn_step (h1.trans hm) (h2.trans ha) (h3.trans hv) hg he _ ih.1 ih.2

/-- **C133** For every history in which policies are received after the listener has been created: once the last policy received has been
taken over, and as long as no other comes, every client that connects is served only as this policy allows. -/
theorem C133_served (e : World) (s s' : St) (p : Policy) (h : Run e Prompt {} s) (hl : s.rcvd.head? = some p) (hu : s.upd = none)
    (hr : Run e Steady s s') (i : Nat) (c : Conn) (hi : s.conns.length ≤ i) (hc : s'.conns[i]? = some c) :
    (c.phase = .plain → AllowsPlain p c.tls) ∧ (c.phase = .secure → AllowsSecure e p c.tls c.raw) := by
  have hf := follows_run h
  unfold Follows cfg at hf
  rw [hu] at hf
  obtain ⟨h1, h2, h3⟩ := hf p hl
  have := (steady_conns hu h1 h2 h3 hr).1 i c hi hc
  unfold ConnOk at this
  constructor
  · intro hp; rw [hp] at this; exact this
  · intro hp; rw [hp] at this; exact this

theorem move_last {s : St} {l : List Conn} {c : Conn} (hs : s.conns = l ++ [c]) {a : Phase} (ha : c.phase = a) (f : Conn → Phase) :
    s.move l.length a f = some { s with conns := l ++ [{ c with phase := f c }] } := by
  unfold St.move
  rw [hs]
  simp [ha]

/-- **C133** and every client the policy allows, with a certificate, is served: it only has to do its part of the handshake. -/
theorem C133_accepts (e : World) (s : St) (p : Policy) (h : Run e Prompt {} s) (hs : s.started = true) (hl : s.rcvd.head? = some p) (hu : s.upd = none)
    (t : Bool) (raw : List (List Nat)) :
    (AllowsPlain p t → ∃ s', Run e Steady s s' ∧ s'.conns = s.conns ++ [⟨t, raw, .plain⟩]) ∧
    (AllowsSecure e p t raw → raw ≠ [] → ∃ s', Run e Steady s s' ∧ s'.conns = s.conns ++ [⟨t, raw, .secure⟩]) := by
  have hf := follows_run h
  unfold Follows cfg at hf
  rw [hu] at hf
  obtain ⟨h1, h2, h3⟩ : s.mode = modeOf p ∧ s.auth = authOf p ∧ s.verify = some p := hf p hl
  let s1 : St := { s with conns := s.conns ++ [⟨t, raw, .opened⟩] }
  have r1 : Run e Steady s s1 := .step .refl (a := .dial t raw) trivial rfl
  let st (ph : Phase) : St := { s with conns := s.conns ++ [⟨t, raw, ph⟩] }
  have hacc : exec e s1 (.accept s.conns.length) = some (st (acceptPhase s.mode)) := by
    show (if s.started = true then _ else none) = _
    rw [if_pos hs]
    exact move_last (s := s1) (l := s.conns) rfl rfl _
  have r2 : Run e Steady s (st (acceptPhase s.mode)) := .step r1 (a := .accept s.conns.length) trivial hacc
  rw [h1] at r2
  have rpeek : acceptPhase (modeOf p) = .peeking → Run e Steady s (st (if t then .handshake else .plain)) := by
    intro hm
    rw [hm] at r2
    exact .step r2 (a := .peek s.conns.length) trivial (move_last (s := st .peeking) (l := s.conns) rfl rfl _)
  constructor
  · rintro (hp | ⟨hp, ht⟩)
    · refine ⟨_, r2, ?_⟩
      unfold modeOf; rw [hp]; rfl
    · cases hut : p.useTLS with
      | false => refine ⟨_, r2, ?_⟩; unfold modeOf; rw [hut]; rfl
      | true =>
        have := rpeek (by unfold modeOf; rw [hut, hp]; rfl)
        rw [ht] at this
        exact ⟨_, this, by show s.conns ++ [⟨t, raw, _⟩] = _; rw [ht]; rfl⟩
  · rintro ⟨hut, ht, -, c, chain, hver, hok⟩ hne
    have rh : Run e Steady s (st .handshake) := by
      cases hp : p.permissive with
      | true =>
        have := rpeek (by unfold modeOf; rw [hut, hp]; rfl)
        rwa [ht] at this
      | false =>
        have : acceptPhase (modeOf p) = .handshake := by unfold modeOf; rw [hut, hp]; rfl
        rwa [this] at r2
    have hpk : peerOk e p raw = .ok chain := by unfold peerOk; rw [hver]; exact hok
    have hpr : (parseAll e.x509 raw).isNone = false := by
      cases hh : parseAll e.x509 raw with
      | some _ => rfl
      | none =>
        unfold verifyCertificate verifyChain at hok
        rw [hh] at hok; cases hok
    have hcp : certPhase e s.auth ⟨t, raw, .handshake⟩ = .certs := by
      unfold certPhase
      rw [ht, hpr]
      cases raw with
      | nil => exact absurd rfl hne
      | cons x l => rfl
    have r3 : Run e Steady s (st .certs) := by
      refine .step rh (a := .certs s.conns.length) trivial ?_
      rw [exec, move_last (s := st .handshake) (l := s.conns) rfl rfl]
      show some (st (certPhase e s.auth ⟨t, raw, .handshake⟩)) = _
      rw [hcp]
    have hvp : verifyPhase e s.verify ⟨t, raw, .certs⟩ = .secure := by
      unfold verifyPhase
      rw [h3]
      simp only [hpk]
    refine ⟨st .secure, .step r3 (a := .verify s.conns.length) trivial ?_, rfl⟩
    rw [exec, move_last (s := st .certs) (l := s.conns) rfl rfl]
    show some (st (verifyPhase e s.verify ⟨t, raw, .certs⟩)) = _
    rw [hvp]

/-! ### C134 -/

/-- a mesh with one root and one client, whose certificate the root has signed; another client has a certificate of its own making -/
def good : Certificate := { id := 1 }
def bad : Certificate := { id := 2 }
def e0 : World where
  match_ := { lower := id, compile := fun _ => none, host := fun a b => a == b }
  x509 := { parse := fun b => if b = [1] then some good else if b = [2] then some bad else none
            verify := fun r _ c => if r = some [7] ∧ c = good then some [[good]] else none }
  ca := [7]
/-- strict mutual TLS -/
def strict : Policy := ⟨true, false, true, some {}⟩
/-- TLS for clients with and without certificates -/
def simple : Policy := ⟨true, false, false, some {}⟩
def off : Policy := ⟨false, false, false, none⟩

def ph (s : Option St) : Option (List Phase) := s.map fun s => s.conns.map (·.phase)

/-- a server that has taken over strict mutual TLS serves the good client only -/
example : ph (runActs e0 {} [.connect, .start, .ask, .push (some strict), .recv, .write, .write, .write, .dial true [[1]], .dial true [[2]],
    .dial true [], .dial false [], .accept 0, .accept 1, .accept 2, .accept 3, .certs 0, .certs 1, .certs 2, .certs 3, .verify 0, .verify 1]) =
    some [.secure, .rejected, .rejected, .rejected] := by decide +kernel

/-- and this is a history the theorems speak of -/
example : ∃ s, Run e0 Prompt {} s ∧ s.started = true ∧ s.rcvd.head? = some strict ∧ s.upd = none ∧ AllowsSecure e0 strict true [[1]] :=
  ⟨_, .step (a := .write) (.step (a := .write) (.step (a := .write) (.step (a := .recv) (.step (a := .push (some strict)) (.step (a := .ask)
    (.step (a := .start) (.step (a := .connect) .refl trivial rfl) trivial rfl) trivial rfl) trivial rfl) rfl rfl) trivial rfl) trivial rfl) trivial rfl,
    rfl, rfl, rfl, rfl, rfl, (fun _ h => nomatch h), {}, [good], rfl, rfl⟩

/-- what is known of a connection dialled after the first policy has been taken over -/
def ConnSome (e : World) (ps : List Policy) (c : Conn) : Prop := match c.phase with
  | .opened => True
  | .peeking => ∃ p ∈ ps, p.useTLS = true ∧ p.permissive = true
  | .handshake => ∃ p ∈ ps, p.useTLS = true
  | .certs => (∃ p ∈ ps, p.useTLS = true) ∧ c.tls = true
  | .plain => ∃ p ∈ ps, AllowsPlain p c.tls
  | .secure => (∃ p ∈ ps, p.useTLS = true) ∧ c.tls = true ∧ ∃ p ∈ ps, Confirms e p c.raw
  | .rejected => True
  | .panic => True

theorem connSome_mono {e : World} {ps : List Policy} {c : Conn} (q : Policy) (h : ConnSome e ps c) : ConnSome e (q :: ps) c := by
  have up : ∀ {P : Policy → Prop}, (∃ p ∈ ps, P p) → ∃ p ∈ q :: ps, P p := fun ⟨p, h1, h2⟩ => ⟨p, List.mem_cons_of_mem _ h1, h2⟩
  unfold ConnSome at *
  cases hp : c.phase <;> rw [hp] at h <;> simp only at h ⊢
  · exact up h
  · exact up h
  · exact ⟨up h.1, h.2⟩
  · exact up h
  · exact ⟨up h.1, h.2.1, up h.2.2⟩

/-- mode and verifier are those of policies received -/
def CfgSome (s : St) : Prop := (∃ p ∈ s.rcvd, s.mode = modeOf p) ∧ (∃ p ∈ s.rcvd, s.verify = some p) ∧ ∀ q, s.upd = some q → q.1 ∈ s.rcvd

theorem some_step {e : World} {s s' : St} {a : Act} (hs : CfgSome s) (he : exec e s a = some s') (n : Nat)
    (h : ∀ i c, n ≤ i → s.conns[i]? = some c → ConnSome e s.rcvd c) (hn : n ≤ s.conns.length) :
    CfgSome s' ∧ (∀ i c, n ≤ i → s'.conns[i]? = some c → ConnSome e s'.rcvd c) ∧ n ≤ s'.conns.length := by
  have MV : ∀ (i : Nat) (ph : Phase) (f : Conn → Phase), s.move i ph f = some s' →
      (∀ c : Conn, ConnSome e s.rcvd c → c.phase = ph → ConnSome e s.rcvd { c with phase := f c }) →
      CfgSome s' ∧ (∀ i c, n ≤ i → s'.conns[i]? = some c → ConnSome e s'.rcvd c) ∧ n ≤ s'.conns.length := by
    intro i ph f hmv hf
    obtain ⟨c, hc, hp, rfl⟩ := move_eq hmv
    refine ⟨hs, ?_, by simpa using hn⟩
    intro j d hj hd
    have hd : (s.conns.set i _)[j]? = some d := hd
    rw [List.getElem?_set] at hd
    by_cases hij : i = j
    · subst hij
      rw [if_pos rfl] at hd
      split at hd
      · injection hd with hd; subst hd
        exact hf c (h i c hj hc) hp
      · cases hd
    · rw [if_neg hij] at hd
      exact h j d hj hd
  cases a with
  | recv =>
    rw [exec] at he
    unfold St.recvStep at he
    split at he
    · cases hc : s.chan with
      | none => rw [hc] at he; cases he
      | some r =>
        rw [hc] at he
        cases r with
        | none => injection he with he; subst he; exact ⟨hs, h, hn⟩
        | some p =>
          injection he with he; subst he
          obtain ⟨⟨p1, m1, e1⟩, ⟨p2, m2, e2⟩, e3⟩ := hs
          refine ⟨⟨⟨p1, List.mem_cons_of_mem _ m1, e1⟩, ⟨p2, List.mem_cons_of_mem _ m2, e2⟩, ?_⟩,
            fun i c hi hc => connSome_mono p (h i c hi hc), hn⟩
          intro q hq
          simp only at hq
          split at hq
          · injection hq with hq; subst hq; exact List.mem_cons_self
          · cases hq
    · cases he
  | write =>
    rw [exec] at he
    unfold St.writeStep at he
    obtain ⟨⟨p1, m1, e1⟩, ⟨p2, m2, e2⟩, e3⟩ := hs
    cases hu : s.upd with
    | none => rw [hu] at he; cases he
    | some q =>
      obtain ⟨p, k⟩ := q
      have hm : p ∈ s.rcvd := e3 _ hu
      rw [hu] at he
      match k, he with
      | 0, he =>
        injection he with he; subst he
        exact ⟨⟨⟨p, hm, rfl⟩, ⟨p2, m2, e2⟩, fun q hq => by injection hq with hq; subst hq; exact hm⟩, h, hn⟩
      | 1, he =>
        injection he with he; subst he
        exact ⟨⟨⟨p1, m1, e1⟩, ⟨p2, m2, e2⟩, fun q hq => by injection hq with hq; subst hq; exact hm⟩, h, hn⟩
      | k + 2, he =>
        injection he with he; subst he
        exact ⟨⟨⟨p1, m1, e1⟩, ⟨p, hm, rfl⟩, fun q hq => by cases hq⟩, h, hn⟩
  | connect => injection he with he; subst he; exact ⟨hs, h, hn⟩
  | ask =>
    rw [exec] at he
    split at he
    · cases he
    · injection he with he; subst he; exact ⟨hs, h, hn⟩
  | start => injection he with he; subst he; exact ⟨hs, h, hn⟩
  | push r =>
    rw [exec] at he
    split at he
    · injection he with he; subst he; exact ⟨hs, h, hn⟩
    · cases he
  | dial t r =>
    injection he with he; subst he
    refine ⟨hs, ?_, by simp; omega⟩
    intro i c hi hc
    have hc : (s.conns ++ [⟨t, r, .opened⟩])[i]? = some c := hc
    rw [List.getElem?_append] at hc
    split at hc
    · exact h i c hi hc
    · have : c = ⟨t, r, .opened⟩ := by
        cases hx : i - s.conns.length with
        | zero => rw [hx] at hc; injection hc with hc; exact hc.symm
        | succ k => rw [hx] at hc; simp at hc
      subst this
      trivial
  | accept i =>
    rw [exec] at he
    split at he
    · refine MV i _ _ he ?_
      intro c _ _
      obtain ⟨p, m, e1⟩ := hs.1
      rw [e1]
      unfold modeOf
      cases hu : p.useTLS <;> cases hp : p.permissive
      · exact ⟨p, m, .inl hu⟩
      · exact ⟨p, m, .inl hu⟩
      · exact ⟨p, m, hu⟩
      · exact ⟨p, m, hu, hp⟩
    · cases he
  | peek i =>
    refine MV i _ _ he ?_
    intro c hc hp
    unfold ConnSome at hc
    rw [hp] at hc
    obtain ⟨p, m, h1, h2⟩ := hc
    unfold peekPhase
    cases ht : c.tls
    · exact ⟨p, m, .inr ⟨h2, rfl⟩⟩
    · exact ⟨p, m, h1⟩
  | certs i =>
    refine MV i _ _ he ?_
    intro c hc hp
    unfold ConnSome at hc
    rw [hp] at hc
    by_cases ht : c.tls = true
    · have : certPhase e s.auth c = .rejected ∨ certPhase e s.auth c = .certs := by
        unfold certPhase
        split
        · exact .inl rfl
        · split
          · exact .inl rfl
          · split
            · exact .inl rfl
            · exact .inr rfl
      rcases this with h1 | h1 <;> rw [h1]
      · trivial
      · exact ⟨hc, ht⟩
    · rw [show certPhase e s.auth c = .rejected by unfold certPhase; rw [if_pos (by simpa using ht)]]; trivial
  | verify i =>
    refine MV i _ _ he ?_
    intro c hc hp
    unfold ConnSome at hc
    rw [hp] at hc
    obtain ⟨p, m, e1⟩ := hs.2.1
    rw [e1]
    cases hk : peerOk e p c.raw with
    | ok chain =>
      rw [show verifyPhase e (some p) c = .secure by unfold verifyPhase; simp only [hk]]
      exact ⟨hc.1, hc.2, p, m, peerOk_confirms hk⟩
    | error => rw [show verifyPhase e (some p) c = .rejected by unfold verifyPhase; simp only [hk]]; trivial
    | panic => rw [show verifyPhase e (some p) c = .panic by unfold verifyPhase; simp only [hk]]; trivial

/-- **C134** (partial) Once a policy has been taken over, then whatever policies come, and whenever, every client that connects is served
only as at least one of the policies received so far allows. -/
theorem C134_some_partial (e : World) (s s' : St) (h : Run e Prompt {} s) (hl : s.rcvd ≠ []) (hu : s.upd = none) (hr : Run e Any s s')
    (i : Nat) (c : Conn) (hi : s.conns.length ≤ i) (hc : s'.conns[i]? = some c) :
    (c.phase = .plain → ∃ p ∈ s'.rcvd, AllowsPlain p c.tls) ∧
    (c.phase = .secure → (∃ p ∈ s'.rcvd, p.useTLS = true) ∧ c.tls = true ∧ ∃ p ∈ s'.rcvd, Confirms e p c.raw) := by
  have hf := follows_run h
  unfold Follows cfg at hf
  rw [hu] at hf
  have key : CfgSome s' ∧ (∀ i c, s.conns.length ≤ i → s'.conns[i]? = some c → ConnSome e s'.rcvd c) ∧ s.conns.length ≤ s'.conns.length := by
    clear hc
    induction hr with
    | refl =>
      refine ⟨?_, ?_, Nat.le_refl _⟩
      · cases hh : s.rcvd with
        | nil => exact absurd hh hl
        | cons p l =>
          obtain ⟨h1, h2, h3⟩ : s.mode = modeOf p ∧ s.auth = authOf p ∧ s.verify = some p := hf p (by show s.rcvd.head? = _; rw [hh]; rfl)
          have hm : p ∈ s.rcvd := by rw [hh]; exact List.mem_cons_self
          exact ⟨⟨p, hm, h1⟩, ⟨p, hm, h3⟩, fun q hq => by rw [hu] at hq; cases hq⟩
      · intro i c hi hc
        rw [List.getElem?_eq_none hi] at hc; cases hc
    | step _ _ he ih => exact some_step ih.1 he _ ih.2.1 ih.2.2
  have := key.2.1 i c hi hc
  unfold ConnSome at this
  constructor
  · intro hp; rw [hp] at this; exact this
  · intro hp; rw [hp] at this; exact this

/-- the server has asked for the policy before `Run` connected to the mesh -/
theorem deaf {e : World} {s s' : St} (h1 : s.asked = true) (h2 : s.watching = false) (h3 : s.upd = none) (h4 : s.mode = .permissive) (h5 : s.auth = .request)
    (h6 : s.verify = none) (hr : Run e Any s s') : s'.asked = true ∧ s'.watching = false ∧ s'.upd = none ∧ s'.mode = .permissive ∧
      s'.auth = .request ∧ s'.verify = none := by
  induction hr with
  | refl => exact ⟨h1, h2, h3, h4, h5, h6⟩
  | @step s1 s2 a _ _ he ih =>
    obtain ⟨i1, i2, i3, i4, i5, i6⟩ := ih
    have C : ∀ {i ph f}, s1.move i ph f = some s2 → s2.asked = true ∧ s2.watching = false ∧ s2.upd = none ∧ s2.mode = .permissive ∧
        s2.auth = .request ∧ s2.verify = none := by
      intro i ph f h
      obtain ⟨c, -, -, rfl⟩ := move_eq h
      exact ⟨i1, i2, i3, i4, i5, i6⟩
    cases a with
    | connect => injection he with he; subst he; exact ⟨i1, i2, i3, i4, i5, i6⟩
    | ask => rw [exec, if_pos i1] at he; cases he
    | start => injection he with he; subst he; exact ⟨i1, i2, i3, i4, i5, i6⟩
    | push r => rw [exec, i2] at he; cases he
    | recv => rw [exec, St.recvStep, i2] at he; cases he
    | write => rw [exec, St.writeStep, i3] at he; cases he
    | dial t r => injection he with he; subst he; exact ⟨i1, i2, i3, i4, i5, i6⟩
    | accept i =>
      rw [exec] at he
      split at he
      · exact C he
      · cases he
    | peek i => exact C he
    | certs i => exact C he
    | verify i => exact C he

/-- **C134** fails: a server that is started before `Run` has connected to the mesh never learns any policy: for ever after it serves every
client, in plain text, without a certificate or with one nobody has signed. -/
theorem C134_early_false (e : World) (s s' : St) (h : exec e { started := true } .ask = some s) (hr : Run e Any s s') :
    s'.mode = .permissive ∧ s'.auth = .request ∧ s'.verify = none := by
  rw [exec] at h
  simp only [Bool.false_eq_true, if_false, Option.some.injEq] at h
  subst h
  obtain ⟨-, -, -, h4, h5, h6⟩ := deaf rfl rfl rfl rfl rfl rfl hr
  exact ⟨h4, h5, h6⟩

example : ph (runActs e0 { started := true } [.ask, .connect, .dial true [[2]], .dial true [], .dial false [], .accept 0, .accept 1, .accept 2,
    .peek 0, .peek 1, .peek 2, .certs 0, .certs 1, .verify 0, .verify 1]) = some [.secure, .secure, .plain] := by decide +kernel

/-- **C134** fails: a policy that comes before the listener has been created is lost: a server of which the mesh demands strict mutual TLS
serves anybody, until the mesh sends something else. -/
theorem C134_lost_false :
    (runActs e0 {} [.connect, .ask, .push (some strict), .recv, .start, .dial true [[2]], .dial false [], .accept 0, .accept 1, .peek 0, .peek 1,
      .certs 0, .verify 0]).map (fun s => (s.conns.map (·.phase), s.rcvd.map (fun p => (p.useTLS, p.permissive, p.certRequired)), s.upd.isNone, s.chan.isNone)) =
    some ([.secure, .plain], [(true, false, true)], true, true) := by decide +kernel

/-- **C134** fails: while a policy is being taken over, and for clients that were already connected but had sent nothing: a certificate nobody
has signed is accepted between the writes, and plain text after the last. -/
theorem C134_window_false :
    ph (runActs e0 { started := true } [.connect, .ask, .push (some strict), .recv, .write, .write, .dial true [[2]], .accept 0, .certs 0, .verify 0]) =
      some [.secure] ∧
    ph (runActs e0 { started := true } [.connect, .ask, .push (some strict), .dial false [], .accept 0, .recv, .write, .write, .write, .peek 0]) =
      some [.plain] := by decide +kernel

/-- **C134** fails: under a policy of TLS without required certificates, a client that presents none makes the server panic, which the
policy allows to connect; and so does a client in a handshake when the policy becomes plain text. -/
theorem C134_panic_false :
    ph (runActs e0 { started := true } [.connect, .ask, .push (some simple), .recv, .write, .write, .write, .dial true [], .accept 0, .certs 0, .verify 0]) =
      some [.panic] ∧
    ph (runActs e0 { started := true } [.connect, .ask, .push (some strict), .recv, .write, .write, .write, .dial true [[1]], .accept 0,
      .push (some off), .recv, .write, .write, .write, .certs 0, .verify 0]) = some [.panic] := by decide +kernel

end Verif.Props.Server
