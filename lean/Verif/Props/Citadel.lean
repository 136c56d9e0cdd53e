import Verif.Sec.Citadel
/-
Property theorem C141 (certificates are asked for at the CA only).
-/
namespace Verif.Props.Citadel
open Verif.Heimdall Verif.Sec.Citadel

/-- the server is the CA: its certificate is for the configured name, and issued by one of the configured roots -/
def IsCA (system : List Nat) (host : Str → Str) (c : Config) (srv : Server) : Prop :=
  (match c.pem with | none => srv.root ∈ system | some l => srv.root ∈ l) ∧
  (c.san ≠ [] → c.san ∈ srv.names) ∧
  (c.san = [] → contains localhost c.endpoint = false → host c.endpoint ∈ srv.names)

theorem roots_mem {system : List Nat} {p : Pem} {rs : List Nat} (h : roots system p = some rs) : rs = p.getD system ∧ p ≠ some [] := by
  cases p with
  | none => injection h with h; exact ⟨h.symm, by simp⟩
  | some l => cases l with
    | nil => cases h
    | cons a l => injection h with h; exact ⟨h.symm, by simp⟩

theorem request_sent {system : List Nat} {host : Str → Str} {usable : List Nat → Bool} {c : Config} {srv : Server} {ttl : Int} {ans : Answer} {s : St} :
    ((request system host usable c srv ttl ans s).1.sent = s.sent ∨
      ((request system host usable c srv ttl ans s).1.sent = ⟨c.token, c.clusterID, ttl, srv⟩ :: s.sent ∧ IsCA system host c srv)) ∧
    s.opened ≤ (request system host usable c srv ttl ans s).1.opened := by
  unfold request
  cases hr : roots system c.pem with
  | none => exact ⟨.inl rfl, Nat.le_refl _⟩
  | some rs =>
    obtain ⟨h1, h2⟩ := roots_mem hr
    simp only
    by_cases hc : srv.root ∈ rs ∧ serverName host c ∈ srv.names
    · rw [if_pos hc]
      have ca : IsCA system host c srv := by
        obtain ⟨hc1, hc2⟩ := hc
        refine ⟨?_, ?_, ?_⟩
        · rw [h1] at hc1
          cases hp : c.pem with
          | none => rw [hp] at hc1; exact hc1
          | some l => rw [hp] at hc1; exact hc1
        · intro hs; unfold serverName at hc2; rw [if_pos hs] at hc2; exact hc2
        · intro hs hl; unfold serverName at hc2; rw [if_neg (by simpa using hs), if_neg (by rw [hl]; simp)] at hc2; exact hc2
      cases ans with
      | none => exact ⟨.inr ⟨rfl, ca⟩, Nat.le_succ _⟩
      | some chain =>
        simp only
        by_cases hl : chain.length ≤ 1
        · rw [if_pos hl]; exact ⟨.inr ⟨rfl, ca⟩, Nat.le_succ _⟩
        · rw [if_neg hl]
          cases usable chain <;> exact ⟨.inr ⟨rfl, ca⟩, Nat.le_succ _⟩
    · rw [if_neg hc]; exact ⟨.inl rfl, Nat.le_succ _⟩

theorem contains_iff (p : Str) : ∀ s : Str, contains p s = true ↔ ∃ a b, s = a ++ p ++ b
  | [] => by
    simp only [contains, List.isEmpty_iff]
    constructor
    · rintro rfl; exact ⟨[], [], rfl⟩
    · rintro ⟨a, b, h⟩
      exact (List.append_eq_nil_iff.1 (List.append_eq_nil_iff.1 h.symm).1).2
  | c :: s => by
    simp only [contains, Bool.or_eq_true, List.isPrefixOf_iff_prefix, contains_iff p s]
    constructor
    · rintro (⟨b, hb⟩ | ⟨a, b, rfl⟩)
      · exact ⟨[], b, by simp [hb]⟩
      · exact ⟨c :: a, b, rfl⟩
    · rintro ⟨a, b, h⟩
      cases a with
      | nil => exact .inl ⟨b, h.symm⟩
      | cons x a =>
        simp only [List.cons_append, List.cons.injEq] at h
        exact .inr ⟨a, b, by rw [h.2]⟩

/-- **C141** The name the certificate of the CA must be for: the configured one; without one, that of istiod if the endpoint has `localhost` in
it, and else the host of the endpoint. -/
theorem C141_name (host : Str → Str) (c : Config) :
    (c.san ≠ [] → serverName host c = c.san) ∧
    (c.san = [] → (∃ a b, c.endpoint = a ++ "localhost".toList ++ b) → serverName host c = "istiod.istio-system.svc".toList) ∧
    (c.san = [] → (¬ ∃ a b, c.endpoint = a ++ "localhost".toList ++ b) → serverName host c = host c.endpoint) := by
  have hl := contains_iff localhost c.endpoint
  refine ⟨fun h => ?_, fun h h' => ?_, fun h h' => ?_⟩
  · unfold serverName; rw [if_pos h]
  · unfold serverName; rw [if_neg (by simp [h]), if_pos (hl.2 h')]; rfl
  · unfold serverName; rw [if_neg (by simp [h]), if_neg (fun hc => h' (hl.1 hc))]

/-- **C141** However often certificates are asked for, and whoever answers at the address of the CA, the token is only sent to servers with
a certificate for the configured name from a configured root, and it is the configured token. -/
theorem C141_token (system : List Nat) (host : Str → Str) (usable : List Nat → Bool) (c : Config) (l : List (Server × Int × Answer)) :
    ∀ r ∈ (requests system host usable c l {}).sent, IsCA system host c r.server ∧ r.token = c.token ∧ r.clusterID = c.clusterID := by
  have key : ∀ (l : List (Server × Int × Answer)) (s : St), (∀ r ∈ s.sent, IsCA system host c r.server ∧ r.token = c.token ∧ r.clusterID = c.clusterID) →
      ∀ r ∈ (requests system host usable c l s).sent, IsCA system host c r.server ∧ r.token = c.token ∧ r.clusterID = c.clusterID := by
    intro l
    induction l with
    | nil => intro s hs; exact hs
    | cons x l ih =>
      obtain ⟨srv, ttl, ans⟩ := x
      intro s hs
      rw [requests]
      apply ih
      intro r hr
      rcases (request_sent (system := system) (host := host) (usable := usable) (c := c) (srv := srv) (ttl := ttl) (ans := ans) (s := s)).1 with h | ⟨h, hca⟩
      · rw [h] at hr; exact hs r hr
      · rw [h] at hr
        rcases List.mem_cons.mp hr with rfl | hr
        · exact ⟨hca, rfl, rfl⟩
        · exact hs r hr
  exact key l {} (fun r hr => by cases hr)

/-- **C219** (partial) A chain is returned exactly if the CA answered with it, it has at least two certificates, and the key fits. -/
theorem C219_chain_partial (system : List Nat) (host : Str → Str) (usable : List Nat → Bool) (c : Config) (srv : Server) (ttl : Int) (ans : Answer) (s : St)
    (chain : List Nat) (hca : IsCA system host c srv) (hp : c.pem ≠ some []) (hl : c.san ≠ [] ∨ contains localhost c.endpoint = false) :
    (request system host usable c srv ttl ans s).2 = some chain ↔ ans = some chain ∧ 2 ≤ chain.length ∧ usable chain = true := by
  have hr : roots system c.pem = some (c.pem.getD system) := by
    cases h : c.pem with
    | none => rfl
    | some l => cases l with
      | nil => exact absurd h hp
      | cons a l => rfl
  obtain ⟨h1, h2, h3⟩ := hca
  have hc : srv.root ∈ c.pem.getD system ∧ serverName host c ∈ srv.names := by
    refine ⟨?_, ?_⟩
    · cases h : c.pem with
      | none => rw [h] at h1; exact h1
      | some l => rw [h] at h1; exact h1
    · unfold serverName
      by_cases hs : c.san = []
      · rw [if_neg (by simpa using hs)]
        rcases hl with hl | hl
        · exact absurd hs hl
        · rw [if_neg (by rw [hl]; simp)]; exact h3 hs hl
      · rw [if_pos hs]; exact h2 hs
  unfold request
  simp only [hr]
  rw [if_pos hc]
  cases ans with
  | none => simp
  | some ch =>
    simp only
    by_cases hlen : ch.length ≤ 1
    · rw [if_pos hlen]
      constructor
      · intro h; cases h
      · rintro ⟨h, h', -⟩; injection h with h; subst h; omega
    · rw [if_neg hlen]
      cases hu : usable ch with
      | true =>
        simp only [if_true]
        constructor
        · intro h; injection h with h; subst h; exact ⟨rfl, by omega, hu⟩
        · rintro ⟨h, -, -⟩; exact h
      | false =>
        constructor
        · intro h; cases h
        · rintro ⟨h, -, h'⟩; injection h with h; subst h; rw [hu] at h'; cases h'

def cfg0 : Config := ⟨"istiod:15012".toList, "istiod.istio-system.svc".toList, "c".toList, "t".toList, some [1]⟩
def ca0 : Server := ⟨["istiod.istio-system.svc".toList], 1⟩

/-- the hypotheses are met -/
example : IsCA [] id cfg0 ca0 := by
  refine ⟨(show (1 : Nat) ∈ [1] by simp), fun _ => (by decide), fun h => absurd h (by decide)⟩

/-- **C219** fails: every request leaves a connection open, so any number of requests leaves that many; and a CA that answers with the certificate
alone is refused. -/
theorem C219_closed_false (system : List Nat) (host : Str → Str) (usable : List Nat → Bool) (c : Config) (hp : c.pem ≠ some []) (n : Nat) (x : Server × Int × Answer) :
    (requests system host usable c (List.replicate n x) {}).opened = n ∧
    (request [] id (fun _ => true) cfg0 ca0 60 (some [7]) {}).2 = none := by
  refine ⟨?_, by decide +kernel⟩
  have one : ∀ s : St, (request system host usable c x.1 x.2.1 x.2.2 s).1.opened = s.opened + 1 := by
    intro s
    unfold request
    cases hr : roots system c.pem with
    | none =>
      cases h : c.pem with
      | none => rw [h] at hr; cases hr
      | some l => cases l with
        | nil => exact absurd h hp
        | cons a l => rw [h] at hr; cases hr
    | some rs =>
      simp only
      by_cases hc : x.1.root ∈ rs ∧ serverName host c ∈ x.1.names
      · rw [if_pos hc]
        cases x.2.2 with
        | none => rfl
        | some ch =>
          simp only
          by_cases hl : ch.length ≤ 1
          · rw [if_pos hl]
          · rw [if_neg hl]; cases usable ch <;> rfl
      · rw [if_neg hc]
  have key : ∀ (n : Nat) (s : St), (requests system host usable c (List.replicate n x) s).opened = s.opened + n := by
    intro n
    induction n with
    | zero => intro s; rfl
    | succ n ih =>
      intro s
      rw [List.replicate_succ]
      show (requests system host usable c (List.replicate n x) (request system host usable c x.1 x.2.1 x.2.2 s).1).opened = _
      rw [ih, one]; omega
  rw [key]; simp

end Verif.Props.Citadel
