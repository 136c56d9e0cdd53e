/-
What holds of the parts of C33, C53, C54 and C34 that the code breaks in general: C153 (longest prefix), C155 (client
certificate), C156 (a resolved name has an address), C180 (the virtual host of the most specific form).
-/
import Verif.Props.RouteTarget

namespace Verif.Route

/-- **C153 (partial)** If the ranges that contain the address, of the chains for its port, are all equally long, the
selected chains are those of the longest prefix. -/
theorem C153_longest_partial (fcs : List FilterChain) (port : Nat) (a : Ip) (l : List FilterChain) (n : Nat)
    (hv : ValidChains fcs) (ha : a.Valid)
    (hone : ∀ f ∈ fcs, PortOk fcs port f → ∀ r ∈ f.ranges, ∀ c, r.parsed = some c → InRange c a → c.len = n)
    (h : findFilterChain fcs port (some a) = some l) (fc : FilterChain) (hfc : fc ∈ l) :
    ∀ r ∈ fc.ranges, ∀ c, r.parsed = some c → InRange c a →
      ∀ f ∈ fcs, PortOk fcs port f → ∀ r' ∈ f.ranges, r'.addr ≠ "" → ∀ c', r'.parsed = some c' → InRange c' a →
        c'.len ≤ c.len := by
  intro r hr c hc hin f hf hp r' hr' _ c' hc' hin'
  obtain ⟨_, hs⟩ := C33_select fcs port (some a) l hv (by intro x hx; cases hx; exact ha) h
  obtain ⟨hm, hch⟩ := (hs fc).mp hfc
  rw [hone f hf hp r' hr' c' hc' hin', hone fc hm hch.1 r hr c hc hin]
  exact Nat.le_refl _

/-- Two chains for disjoint ranges of the same length: only one contains the address. -/
example : ∃ l, findFilterChain [nested[1]] 80 (some ip10_1_2_3) = some l ∧ l = [nested[1]] ∧
    ∀ f ∈ [nested[1]], ∀ r ∈ f.ranges, ∀ c, r.parsed = some c → c.len = net10_1.len := by
  refine ⟨[nested[1]], by decide +kernel, rfl, ?_⟩
  intro f hf r hr c hc
  simp only [List.mem_cons, List.not_mem_nil, or_false] at hf
  subst hf
  simp only [nested, List.getElem_cons_succ, List.getElem_cons_zero, List.mem_cons, List.not_mem_nil, or_false] at hr
  subst hr; cases hc; rfl

theorem getLast?_agree {α : Type} (f : α → Bool) (b : Bool) : ∀ (l : List α), l ≠ [] → (∀ x ∈ l, f x = b) →
    (l.getLast?.map f).getD false = b := by
  intro l hl h
  rw [List.getLast?_eq_some_getLast hl]
  simp [h _ (List.getLast_mem hl)]

/-- **C155 (partial)** If the TLS chains in use agree on whether a client certificate is required, that is what is
reported, in whatever order they are listed. -/
theorem C155_clientCert_partial (ls : List Listener) (port : Nat) (ip : Option Ip) (lp : ListenerProps) (b : Bool)
    (h : listenerProperties ls port ip = .ok lp) :
    ∃ l ∈ ls, l.dir = .inbound ∧ ∃ fcs, Uses l port ip fcs ∧
      ((∃ fc ∈ fcs, fc.proto = "tls" ∧ fc.tls ≠ none) →
        (∀ fc ∈ fcs, fc.proto = "tls" → ∀ t, fc.tls = some t → t.requireClientCert = b) → lp.requireClientCert = b) := by
  obtain ⟨l, hl, hd, fcs, hu, _, _, _, _, _, hr, _⟩ := C53_properties ls port ip lp h
  refine ⟨l, hl, hd, fcs, hu, ?_⟩
  rintro ⟨fc, hfc, hp, ht⟩ hall
  rw [hr]
  unfold lastRequires
  refine getLast?_agree _ b _ ?_ ?_
  · intro he
    cases htt : fc.tls with
    | none => exact ht htt
    | some t =>
      have : t ∈ (fcs.filter fun fc => fc.proto = "tls").filterMap (·.tls) := by
        rw [List.mem_filterMap]
        exact ⟨fc, by simp [hfc, hp], htt⟩
      rw [he] at this; cases this
  · intro t hm
    rw [List.mem_filterMap] at hm
    obtain ⟨g, hg, hgt⟩ := hm
    rw [List.mem_filter] at hg
    exact hall g hg.1 (by simpa using hg.2) t hgt

example : listenerProperties (twoTls true true) 80 none = .ok ⟨true, false, true, none, "in"⟩ := by decide +kernel

/-- **C156 (partial)** If every name the mesh knows among the candidates has a well-formed address, a successful lookup
gives at least one address. -/
theorem C156_nonempty_partial (parseIP : String → Option String) (nt : String → Option (List String)) (search : List String)
    (host : String) (out : List String)
    (hok : ∀ n ∈ host :: search.map (fun d => host ++ "." ++ d), ∀ ips, nt n = some ips → ∃ s ∈ ips, (parseIP s).isSome = true)
    (h : resolveHost parseIP nt search host = some out) : out ≠ [] := by
  rcases (C54_resolves parseIP nt search host out).mp h with ⟨ip, _, rfl⟩ | ⟨_, ips, ⟨pre, n, post, he, hn, _⟩, rfl⟩
  · simp
  · obtain ⟨s, hs, hp⟩ := hok n (by rw [he]; simp) ips hn
    cases hq : parseIP s with
    | none => rw [hq] at hp; cases hp
    | some q =>
      intro hc
      have : q ∈ ips.filterMap parseIP := List.mem_filterMap.mpr ⟨s, hs, hq⟩
      rw [hc] at this; cases this

example : resolveHost plainIP (fun h => if h = "echo.local" then some ["10.0.0.7"] else none) ["local"] "echo" = some ["10.0.0.7"] := by
  decide +kernel

/-- **C180 (partial)** If every virtual host has a route for "/", the virtual host used is the only one that lists the
most specific form of the address that any virtual host lists. -/
theorem C180_select_partial (rx : String → String → Bool) (rc : RouteConfig) (cands : List String) (r : RouteT)
    (hall : ∀ vh ∈ rc, ∃ r ∈ vh.routes, Serves rx r) (h : selectRoute rx rc cands = .ok r) :
    ∃ pre d post vh, cands = pre ++ d :: post ∧ (∀ x ∈ pre, ∀ v ∈ rc, x ∉ v.domains) ∧
      Only rc (fun v => d ∈ v.domains) vh ∧ Only vh.routes (Serves rx) r := by
  obtain ⟨pre, d, post, vh, he, ⟨p, q, hpq, hu, h1, h2⟩, hpre, hr⟩ := (C34_select rx rc cands r).mp h
  refine ⟨pre, d, post, vh, he, ?_, ⟨p, q, hpq, hu.1, ?_, ?_⟩, hr⟩
  · intro x hx v hv hd; exact hpre x hx v hv ⟨hd, hall v hv⟩
  · intro x hx hd; exact h1 x hx ⟨hd, hall x (by rw [hpq]; simp [hx])⟩
  · intro x hx hd; exact h2 x hx ⟨hd, hall x (by rw [hpq]; simp [hx])⟩

end Verif.Route
