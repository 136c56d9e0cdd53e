import Verif.Net.TlsWrap
/-
C71: wrapping a TLS configuration (to learn the certificate of a connection) does not change which
certificate is presented.

Specification: `stdServer` and `stdClient`, the selection of crypto/tls with the unwrapped
configuration.
-/
namespace Verif.TlsWrap

/-- What a callback returns has a chain. -/
def CallbackChains (cfg : Config) : Prop :=
  (∀ f h c, cfg.getCertificate = some f → f h = .ok (some c) → c.empty = false) ∧
  (∀ f r c, cfg.getClientCertificate = some f → f r = .ok (some c) → c.empty = false) ∧
  (∀ m n c, cfg.names = some m → m n = some c → c.empty = false) ∧ ∀ c ∈ cfg.certs, c.empty = false

/-- The configuration is used with a callback or with certificates, not with both, and a callback
returns a certificate or an error. -/
def ServerSimple (cfg : Config) (h : Hello) : Prop :=
  match cfg.getCertificate with
  | some _ => cfg.certs = []
  | none => cfg.certs.length ≤ 1 ∨ (byName cfg h).isSome ∨ ∃ c ∈ cfg.certs, h.supports c = true

theorem byName_chain {cfg : Config} {h : Hello} {c : Cert} (hc : CallbackChains cfg) (hb : byName cfg h = some c) : c.empty = false := by
  unfold byName at hb
  split at hb
  · cases hb
  · rename_i m hm
    split at hb
    · rename_i c' h'; injection hb with hb; subst hb; exact hc.2.2.1 m _ _ hm h'
    · split at hb
      · cases hb
      · exact hc.2.2.1 m _ _ hm hb

theorem record_ok {t : Bool} {c : Cert} (h : c.empty = false) : record t c = (.cert c, if t then some c else none) := by
  unfold record; cases t <;> simp [h]

/-- **C71** (partial) As a server, with a callback or with certificates of which one suits the client, the
wrapped configuration presents exactly the certificate crypto/tls would, fails if it would, and
records the certificate it presents. -/
theorem C71_server_partial (t : Bool) (cfg : Config) (h : Hello) (hc : CallbackChains cfg) (hs : ServerSimple cfg h) :
    (wrapServer t cfg h).1 = stdServer cfg h ∧
    ∀ c, stdServer cfg h = .cert c → (wrapServer t cfg h).2 = if t then some c else none := by
  unfold wrapServer stdServer getCertServer
  unfold ServerSimple at hs
  cases hg : cfg.getCertificate with
  | some f =>
    rw [hg] at hs
    simp only at hs
    simp only [hs, Option.isNone_some, Bool.false_eq_true, and_false, if_false, true_or, if_true]
    cases hf : f h with
    | error e => simp
    | ok r =>
      cases r with
      | none => simp
      | some c =>
        simp only
        rw [record_ok (hc.1 f h c hg hf)]
        simp only [true_and]
        intro c' e; injection e with e; subst e; rfl
  | none =>
    rw [hg] at hs
    simp only at hs
    match hcs : cfg.certs with
    | [] => simp
    | [c] =>
      simp only [reduceCtorEq, false_and, if_false]
      rw [record_ok (hc.2.2.2 c (by rw [hcs]; simp))]
      simp only [true_and]
      intro c' e; injection e with e; subst e; rfl
    | a :: b :: r =>
      simp only [reduceCtorEq, false_and, if_false]
      cases hb : byName cfg h with
      | some c =>
        simp only
        rw [record_ok (byName_chain hc hb)]
        simp only [true_and]
        intro c' e; injection e with e; subst e; rfl
      | none =>
        rw [hcs, hb] at hs
        simp only [List.length_cons, Option.isSome_none, Bool.false_eq_true, false_or] at hs
        have hs : ∃ c, c ∈ a :: b :: r ∧ h.supports c = true := by
          rcases hs with hs | ⟨c, h1, h2⟩
          · omega
          · exact ⟨c, h1, h2⟩
        cases hf : (a :: b :: r).find? h.supports with
        | none =>
          obtain ⟨c, h1, h2⟩ := hs
          rw [List.find?_eq_none] at hf
          exact absurd h2 (hf c h1)
        | some c =>
          simp only
          rw [record_ok (hc.2.2.2 c (by rw [hcs]; exact List.mem_of_find?_eq_some hf))]
          simp only [true_and]
          intro c' e; injection e with e; subst e; rfl

/-- **C71** (partial) As a client, with a callback alone, or with certificates of which one suits the
server, or with neither. -/
theorem C71_client_partial (t : Bool) (cfg : Config) (r : Request) (hc : CallbackChains cfg)
    (hs : match cfg.getClientCertificate with | some _ => cfg.certs = [] | none => cfg.certs = [] ∨ ∃ c ∈ cfg.certs, r.supports c = true) :
    (wrapClient t cfg r).1 = stdClient cfg r ∧
    ∀ c, c.empty = false → stdClient cfg r = .cert c → (wrapClient t cfg r).2 = if t then some c else none := by
  unfold wrapClient stdClient getCertClient
  cases hg : cfg.getClientCertificate with
  | some f =>
    rw [hg] at hs
    simp only at hs
    simp only [hs, Option.isNone_some, Bool.false_eq_true, and_false, if_false, List.find?_nil]
    cases hf : f r with
    | error e => simp
    | ok x =>
      cases x with
      | none => simp
      | some c =>
        simp only
        rw [record_ok (hc.2.1 f r c hg hf)]
        simp only [true_and]
        intro c' _ e; injection e with e; subst e; rfl
  | none =>
    rw [hg] at hs
    simp only at hs
    rcases hs with hs | ⟨c0, h1, h2⟩
    · simp only [hs, Option.isNone_none, and_self, if_true, List.find?_nil, true_and]
      intro c hcc e
      injection e with e; subst e; cases hcc
    · have hne : cfg.certs ≠ [] := by intro e; rw [e] at h1; cases h1
      simp only [hne, false_and, if_false]
      cases hf : cfg.certs.find? r.supports with
      | none => rw [List.find?_eq_none] at hf; exact absurd h2 (hf c0 h1)
      | some c =>
        simp only
        rw [record_ok (hc.2.2.2 c (List.mem_of_find?_eq_some hf))]
        simp only [true_and]
        intro c' _ e; injection e with e; subst e; rfl

/-- **C71** A client callback that fails makes the handshake fail, as in crypto/tls, whatever certificates there are. -/
theorem C71_client_error (t : Bool) (cfg : Config) (r : Request) (f : Request → Except Unit (Option Cert))
    (h1 : cfg.getClientCertificate = some f) (h2 : f r = .error ()) :
    (wrapClient t cfg r).1 = .err ∧ stdClient cfg r = .err := by
  simp [wrapClient, stdClient, getCertClient, h1, h2]

/-- **C71 refuted**: a client whose certificates do not suit the server (issued by a CA the server does not
name) presents none with crypto/tls; wrapped, on a tracked connection — every connection made by the
dialer is — the process ends. -/
theorem C71_client_crash_false (cfg : Config) (r : Request) (h1 : cfg.certs ≠ []) (h2 : cfg.getClientCertificate = none)
    (h3 : ∀ c ∈ cfg.certs, r.supports c = false) :
    stdClient cfg r = .cert noCert ∧ (wrapClient true cfg r).1 = .crash := by
  have hf : cfg.certs.find? r.supports = none := by
    rw [List.find?_eq_none]; intro c hc; simp [h3 c hc]
  constructor
  · simp [stdClient, h2, hf]
  · simp [wrapClient, getCertClient, h1, h2, hf, record, noCert]

/-- **C71 refuted**: a client callback that declines to present a certificate by returning an empty one, as
its documentation demands, ends the process. -/
theorem C71_client_decline_false (cfg : Config) (r : Request) (f : Request → Except Unit (Option Cert))
    (h1 : cfg.certs = []) (h2 : cfg.getClientCertificate = some f) (h3 : f r = .ok (some noCert)) :
    stdClient cfg r = .cert noCert ∧ (wrapClient true cfg r).1 = .crash := by
  constructor
  · simp [stdClient, h2, h3]
  · simp [wrapClient, getCertClient, h1, h2, h3, record, noCert]

/-- **C71 refuted**: with both a client callback and certificates, crypto/tls presents what the callback
returns; wrapped, a suitable certificate of the list takes its place. -/
theorem C71_client_override_false : ∃ (cfg : Config) (r : Request), stdClient cfg r = .cert ⟨1, false⟩ ∧
    (wrapClient true cfg r) = (.cert ⟨2, false⟩, some ⟨2, false⟩) :=
  ⟨{ certs := [⟨2, false⟩], getClientCertificate := some fun _ => .ok (some ⟨1, false⟩) }, ⟨fun _ => true⟩, rfl, rfl⟩

/-- **C71 refuted**: a server with several certificates none of which suits the client presents the first
with crypto/tls; wrapped, on a tracked connection, the process ends: any client can do this. -/
theorem C71_server_crash_false (cfg : Config) (h : Hello) (a b : Cert) (l : List Cert) (h1 : cfg.certs = a :: b :: l)
    (h2 : cfg.getCertificate = none) (h3 : byName cfg h = none) (h4 : ∀ c ∈ cfg.certs, h.supports c = false) :
    stdServer cfg h = .cert a ∧ (wrapServer true cfg h).1 = .crash := by
  have hf : (a :: b :: l).find? h.supports = none := by
    rw [List.find?_eq_none]; intro c hc; simp [h4 c (h1 ▸ hc)]
  constructor
  · simp only [stdServer, h1, h2, h3, hf]
  · simp [wrapServer, getCertServer, h1, h2, h3, hf, record, noCert]

/-- **C71 refuted**: with both a server callback and a certificate, crypto/tls uses the certificate for a
client that sends no server name, and when the callback returns nil; wrapped, the callback decides
in the first case and the handshake fails in the second. -/
theorem C71_server_callback_false :
    (∃ (cfg : Config) (h : Hello), h.name = [] ∧ stdServer cfg h = .cert ⟨1, false⟩ ∧ (wrapServer true cfg h).1 = .cert ⟨2, false⟩) ∧
    (∃ (cfg : Config) (h : Hello), h.name ≠ [] ∧ stdServer cfg h = .cert ⟨1, false⟩ ∧ (wrapServer true cfg h).1 = .err) :=
  ⟨⟨{ certs := [⟨1, false⟩], getCertificate := some fun _ => .ok (some ⟨2, false⟩) }, ⟨[], fun _ => true⟩, rfl, rfl, rfl⟩,
   ⟨{ certs := [⟨1, false⟩], getCertificate := some fun _ => .ok none }, ⟨['a'], fun _ => true⟩, by simp, rfl, rfl⟩⟩

/-! ### Non-vacuity -/

/-- Two certificates, one for a wildcard name. -/
def exCfg : Config := { certs := [⟨1, false⟩, ⟨2, false⟩], names := some fun n => if n = "*.b".toList then some ⟨2, false⟩ else none }

example : CallbackChains exCfg ∧ ServerSimple exCfg ⟨"A.b".toList, fun _ => false⟩ ∧
    stdServer exCfg ⟨"A.b".toList, fun _ => false⟩ = .cert ⟨2, false⟩ := by
  refine ⟨⟨by simp [exCfg], by simp [exCfg], ?_, ?_⟩, ?_, by decide +kernel⟩
  · intro m n c h1 h2
    simp only [exCfg, Option.some.injEq] at h1
    subst h1
    simp only at h2
    split at h2
    · injection h2 with h2; subst h2; rfl
    · cases h2
  · intro c hc; simp [exCfg] at hc; rcases hc with h | h <;> subst h <;> rfl
  · exact Or.inr (Or.inl (by decide +kernel))

example : ∃ cfg : Config, CallbackChains cfg ∧ ServerSimple cfg ⟨[], fun _ => false⟩ ∧ cfg.getCertificate.isSome := by
  refine ⟨{ getCertificate := some fun _ => .ok (some ⟨1, false⟩) }, ⟨?_, by simp, by simp, by simp⟩, rfl, rfl⟩
  intro f h c h1 h2
  simp only [Option.some.injEq] at h1
  subst h1
  simp only [Except.ok.injEq, Option.some.injEq] at h2
  subst h2; rfl

example : ∃ (cfg : Config) (r : Request), cfg.certs ≠ [] ∧ cfg.getClientCertificate = none ∧ ∀ c ∈ cfg.certs, r.supports c = false :=
  ⟨{ certs := [⟨1, false⟩] }, ⟨fun _ => false⟩, by simp, rfl, by simp⟩

end Verif.TlsWrap
