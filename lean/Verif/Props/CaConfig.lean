import Verif.Sec.CaConfig
/-
Property theorems C135 (the configuration for the CA is that of the revision asked for) and C136 (the source of the configuration).
-/
namespace Verif.Props.CaConfig
open Verif.Heimdall Verif.Sec.CaConfig

/-! ### specification -/

/-- an object of the control plane: in its namespace, with a label of the given value -/
def Labelled (ns : Str) (l : Labels) (k v : Str) : Prop := ns = istioNs ∧ l.lookup k = some v

theorem has_iff (l sel : Labels) : has l sel = true ↔ ∀ e ∈ sel, l.lookup e.1 = some e.2 := by
  unfold has
  rw [List.all_eq_true]
  constructor
  · intro h e he; simpa using h e he
  · intro h e he; simpa using h e he

theorem mem_svcs {c : Cluster} {sel : Labels} {s : Svc} : s ∈ c.svcs sel ↔ s ∈ c.services ∧ s.ns = istioNs ∧ ∀ e ∈ sel, s.labels.lookup e.1 = some e.2 := by
  unfold Cluster.svcs
  rw [List.mem_filter, decide_eq_true_eq, has_iff]

theorem mem_cms {c : Cluster} {sel : Labels} {s : ConfigMap} : s ∈ c.cms sel ↔ s ∈ c.configMaps ∧ s.ns = istioNs ∧ ∀ e ∈ sel, s.labels.lookup e.1 = some e.2 := by
  unfold Cluster.cms
  rw [List.mem_filter, decide_eq_true_eq, has_iff]

theorem firstOf_two {α : Type} {a b : List α} {x : α} (h : firstOf [a, b] = some x) : x ∈ a ∨ (a = [] ∧ x ∈ b) := by
  cases a with
  | cons y l => injection h with h; subst h; exact .inl List.mem_cons_self
  | nil =>
    cases b with
    | nil => cases h
    | cons y l => injection h with h; subst h; exact .inr ⟨rfl, List.mem_cons_self⟩

theorem config_ok {dns : Dns} {parse : Str → Option (Str × Str)} {token : Option Bytes} {c : Cluster} {id rev : Str} {r : Config}
    (h : config dns parse token c id rev = .ok r) : ∃ svc a t pem m d, istiod c rev = some svc ∧ address dns c rev = .ok a ∧ token = some t ∧
      rootPem c rev = some pem ∧ meshConfig parse c rev = some (m, d) ∧
      r = ⟨a ++ port15012, svc.name ++ '.' :: svc.ns ++ dotSvc, id, t, pem, rev, m, d⟩ := by
  unfold config at h
  cases h1 : istiod c rev with
  | none => rw [h1] at h; cases h
  | some svc =>
    cases h2 : address dns c rev with
    | panic => rw [h1] at h; simp only [h2] at h; cases h
    | error => rw [h1] at h; simp only [h2] at h; cases h
    | ok a =>
      cases h3 : token with
      | none => rw [h1] at h; simp only [h2, h3] at h; cases h
      | some t =>
        cases h4 : rootPem c rev with
        | none => rw [h1] at h; simp only [h2, h3, h4] at h; cases h
        | some pem =>
          cases h5 : meshConfig parse c rev with
          | none => rw [h1] at h; simp only [h2, h3, h4, h5] at h; cases h
          | some md =>
            obtain ⟨m, d⟩ := md
            rw [h1] at h
            simp only [h2, h3, h4, h5] at h
            injection h with h
            exact ⟨svc, a, t, pem, m, d, rfl, rfl, rfl, rfl, rfl, h.symm⟩

/-- an address a client outside of the cluster is given for a service: the overriding annotations, or else what the type of service has -/
def AddressOf (dns : Dns) (s : Svc) (a : Str) : Prop :=
  ∃ l, endpointIPs dns s = .ok (a :: l)

/-- **C135** A configuration that is found names a control plane, a gateway and a mesh configuration of the revision asked for. -/
theorem C135_revision (dns : Dns) (parse : Str → Option (Str × Str)) (token : Option Bytes) (c : Cluster) (id rev : Str) (r : Config)
    (h : config dns parse token c id rev = .ok r) :
    r.revision = rev ∧ r.clusterID = id ∧ token = some r.token ∧
    (∃ s ∈ c.services, Labelled s.ns s.labels kRev rev ∧ (s.labels.lookup kIstio = some vIstiod ∨ s.labels.lookup kIstio = some vPilot) ∧
      r.san = s.name ++ '.' :: istioNs ++ dotSvc) ∧
    ((∃ s ∈ c.services, Labelled s.ns s.labels kRev rev ∧ s.labels.lookup kIstio = some vEastWest ∧ ∃ a, AddressOf dns s a ∧ r.endpoint = a ++ port15012) ∨
     (∃ g ∈ c.imgws, Labelled g.ns g.labels kRev rev ∧ g.labels.lookup kApp = some vMexp ∧ ∃ a, g.address = some a ∧ r.endpoint = a ++ port15012)) ∧
    (∃ m ∈ c.configMaps, Labelled m.ns m.labels kRev rev ∧ ∃ t, m.data.lookup kMesh = some t ∧ parse t = some (r.meshID, r.trustDomain)) := by
  obtain ⟨svc, a, t, pem, m, d, h1, h2, h3, h4, h5, rfl⟩ := config_ok h
  refine ⟨rfl, rfl, h3, ?_, ?_, ?_⟩
  · rcases firstOf_two h1 with hm | ⟨-, hm⟩
    · obtain ⟨m1, m2, m3⟩ := mem_svcs.mp hm
      refine ⟨svc, m1, ⟨m2, m3 (kRev, rev) (by simp)⟩, .inl (m3 (kIstio, vIstiod) (by simp)), ?_⟩
      simp only; rw [m2]
    · obtain ⟨m1, m2, m3⟩ := mem_svcs.mp hm
      refine ⟨svc, m1, ⟨m2, m3 (kRev, rev) (by simp)⟩, .inr (m3 (kIstio, vPilot) (by simp)), ?_⟩
      simp only; rw [m2]
  · unfold address at h2
    cases he : eastWest dns c rev with
    | panic => rw [he] at h2; cases h2
    | error => rw [he] at h2; cases h2
    | ok o =>
      rw [he] at h2
      simp only at h2
      by_cases hn : o.getD [] ≠ []
      · rw [if_pos hn] at h2
        injection h2 with h2
        left
        unfold eastWest at he
        cases hl : c.svcs [(kIstio, vEastWest), (kRev, rev)] with
        | nil => rw [hl] at he; injection he with he; subst he; exact absurd rfl hn
        | cons s l =>
          rw [hl] at he
          simp only at he
          cases hi : endpointIPs dns s with
          | panic => rw [hi] at he; cases he
          | error => rw [hi] at he; cases he
          | ok ips =>
            rw [hi] at he
            cases ips with
            | nil => cases he
            | cons ip r =>
              injection he with he
              subst he
              obtain ⟨m1, m2, m3⟩ := mem_svcs.mp (show s ∈ c.svcs [(kIstio, vEastWest), (kRev, rev)] by rw [hl]; exact List.mem_cons_self)
              refine ⟨s, m1, ⟨m2, m3 (kRev, rev) (by simp)⟩, m3 (kIstio, vEastWest) (by simp), ip, ⟨r, hi⟩, ?_⟩
              simp only [Option.getD_some] at h2
              rw [h2]
      · rw [if_neg hn] at h2
        right
        unfold imgw at h2
        cases hl : c.imgws.filter fun g => decide (g.ns = istioNs ∧ has g.labels [(kApp, vMexp), (kRev, rev)] = true) with
        | nil => rw [hl] at h2; cases h2
        | cons g l =>
          rw [hl] at h2
          have hm : g ∈ c.imgws.filter fun g => decide (g.ns = istioNs ∧ has g.labels [(kApp, vMexp), (kRev, rev)] = true) := by
            rw [hl]; exact List.mem_cons_self
          rw [List.mem_filter, decide_eq_true_eq, has_iff] at hm
          obtain ⟨m1, m2, m3⟩ := hm
          cases ha : g.address with
          | none => simp only [ha] at h2; cases h2
          | some x =>
            simp only [ha] at h2
            by_cases hx : x ≠ []
            · rw [if_pos hx] at h2
              injection h2 with h2
              exact ⟨g, m1, ⟨m2, m3 (kRev, rev) (by simp)⟩, m3 (kApp, vMexp) (by simp), x, ha, by simp only; rw [h2]⟩
            · rw [if_neg hx] at h2; cases h2
  · unfold meshConfig at h5
    cases hf : (c.cms [(kRev, rev)]).findSome? fun m => m.data.lookup kMesh with
    | none => rw [hf] at h5; cases h5
    | some t =>
      rw [hf] at h5
      obtain ⟨l1, x, l2, hl, hx, -⟩ := List.findSome?_eq_some_iff.mp hf
      obtain ⟨m1, m2, m3⟩ := mem_cms.mp (show x ∈ c.cms [(kRev, rev)] by rw [hl]; simp)
      exact ⟨x, m1, ⟨m2, m3 (kRev, rev) (by simp)⟩, t, hx, h5⟩

/-- **C214** (partial) If the control plane has a config map for the revision with its root certificates, every configuration found has
the root certificates of such a map. -/
theorem C214_roots_partial (dns : Dns) (parse : Str → Option (Str × Str)) (token : Option Bytes) (c : Cluster) (id rev : Str) (r : Config)
    (h : config dns parse token c id rev = .ok r)
    (hr : ∃ m ∈ c.configMaps, Labelled m.ns m.labels kRev rev ∧ m.labels.lookup kConfig = some vTrue)
    (hd : ∀ m ∈ c.configMaps, Labelled m.ns m.labels kRev rev → m.labels.lookup kConfig = some vTrue → (m.data.lookup kRoot).isSome) :
    ∃ m ∈ c.configMaps, Labelled m.ns m.labels kRev rev ∧ m.data.lookup kRoot = some r.pem := by
  obtain ⟨svc, a, t, pem, m, d, h1, h2, h3, h4, h5, rfl⟩ := config_ok h
  unfold rootPem at h4
  obtain ⟨x, hx, hp⟩ := Option.map_eq_some_iff.mp h4
  obtain ⟨y, hy, ⟨hy1, hy2⟩, hy3⟩ := hr
  rcases firstOf_two hx with hm | ⟨hn, -⟩
  · obtain ⟨m1, m2, m3⟩ := mem_cms.mp hm
    have l1 := m3 (kRev, rev) (by simp)
    have l2 := m3 (kConfig, vTrue) (by simp)
    refine ⟨x, m1, ⟨m2, l1⟩, ?_⟩
    obtain ⟨v, hv⟩ := Option.isSome_iff_exists.mp (hd x m1 ⟨m2, l1⟩ l2)
    simp only
    rw [← hp, hv]; rfl
  · have : y ∈ c.cms [(kRev, rev), (kConfig, vTrue)] := by
      refine mem_cms.mpr ⟨hy, hy1, ?_⟩
      intro e he
      simp only [List.mem_cons, List.not_mem_nil, or_false] at he
      rcases he with rfl | rfl
      · exact hy2
      · exact hy3
    rw [hn] at this; cases this

/-- **C135** The addresses of a service never make the program fail, and overriding annotations win. -/
theorem C135_endpoint (dns : Dns) (s : Svc) :
    endpointIPs dns s ≠ .panic ∧
    (∀ ip, ip ≠ [] → s.annotations.lookup ipOverride = some ip → ¬ (s.type = .loadBalancer ∧ s.ingress = []) → endpointIPs dns s = .ok [ip]) := by
  constructor
  · unfold endpointIPs
    by_cases h1 : s.type = .loadBalancer ∧ s.ingress = []
    · rw [if_pos h1]; intro h; cases h
    · rw [if_neg h1]
      cases annotation s ipOverride with
      | some ip => intro h; cases h
      | none =>
        cases annotation s hostOverride with
        | some h => simp only; cases hostIPs dns h <;> (intro hh; cases hh)
        | none =>
          simp only
          unfold byType
          cases ht : s.type with
          | clusterIP => intro h; cases h
          | nodePort => intro h; cases h
          | externalName => intro h; cases h
          | loadBalancer =>
            cases hi : s.ingress with
            | nil => exact absurd ⟨ht, hi⟩ h1
            | cons e l =>
              obtain ⟨ip, h⟩ := e
              simp only
              split
              · intro h; cases h
              · split
                · cases hostIPs dns h <;> (intro hh; cases hh)
                · intro h; cases h
  · intro ip hne hl hn
    unfold endpointIPs
    rw [if_neg hn]
    have : annotation s ipOverride = some ip := by unfold annotation; rw [hl]; simp only; rw [if_pos hne]
    rw [this]

/-- an annotation that is there and not empty (specification) -/
def Has (s : Svc) (k v : Str) : Prop := s.annotations.lookup k = some v ∧ v ≠ []

/-- the addresses of version 4 of a host (specification) -/
def Hosts (dns : Dns) (h : Str) (l : List Str) : Prop := ∃ r, dns h = some r ∧ l = (r.filter fun e => e.2).map fun e => e.1

/-- the addresses of a service (specification): those of the annotations, if there are any; else, by type, the IP of the cluster or those of the first ingress -/
inductive Addresses (dns : Dns) (s : Svc) : List Str → Prop where
  | ip (a : Str) : Has s ipOverride a → Addresses dns s [a]
  | host (h : Str) (l : List Str) : (∀ a, ¬ Has s ipOverride a) → Has s hostOverride h → Hosts dns h l → Addresses dns s l
  | cluster : (∀ a, ¬ Has s ipOverride a) → (∀ a, ¬ Has s hostOverride a) → s.type = .clusterIP → s.clusterIP ≠ headless → Addresses dns s [s.clusterIP]
  | ingressIP (a h : Str) (r : List (Str × Str)) : (∀ a, ¬ Has s ipOverride a) → (∀ a, ¬ Has s hostOverride a) → s.type = .loadBalancer →
      s.ingress = (a, h) :: r → a ≠ [] → Addresses dns s [a]
  | ingressHost (h : Str) (r : List (Str × Str)) (l : List Str) : (∀ a, ¬ Has s ipOverride a) → (∀ a, ¬ Has s hostOverride a) → s.type = .loadBalancer →
      s.ingress = ([], h) :: r → h ≠ [] → Hosts dns h l → Addresses dns s l

theorem annotation_some {s : Svc} {k v : Str} : annotation s k = some v ↔ Has s k v := by
  unfold annotation Has
  cases s.annotations.lookup k with
  | none => simp
  | some w =>
    simp only [Option.some.injEq]
    by_cases hw : w = []
    · simp only [hw, ne_eq, not_true, if_false]
      constructor
      · intro h; cases h
      · rintro ⟨rfl, h⟩; exact absurd rfl h
    · simp only [ne_eq, hw, not_false_eq_true, if_true, Option.some.injEq]
      constructor
      · rintro rfl; exact ⟨rfl, hw⟩
      · exact fun h => h.1

theorem annotation_none {s : Svc} {k : Str} (h : annotation s k = none) : ∀ v, ¬ Has s k v := by
  intro v hv
  rw [annotation_some.2 hv] at h
  cases h

theorem hostIPs_some {dns : Dns} {h : Str} {l : List Str} : hostIPs dns h = some l ↔ Hosts dns h l := by
  unfold hostIPs Hosts
  cases dns h with
  | none => simp
  | some r => simp [eq_comm]

/-- **C135** The addresses found for a service that is not waiting for its load balancer are those it has, and only those. -/
theorem C135_addresses (dns : Dns) (s : Svc) (hn : ¬ (s.type = .loadBalancer ∧ s.ingress = [])) (l : List Str) (hl : l ≠ []) :
    endpointIPs dns s = .ok l ↔ Addresses dns s l := by
  unfold endpointIPs
  rw [if_neg hn]
  cases h1 : annotation s ipOverride with
  | some a =>
    have ha := annotation_some.1 h1
    simp only [Res.ok.injEq]
    constructor
    · rintro rfl; exact .ip a ha
    · intro h
      cases h with
      | ip b hb => rw [annotation_some.2 hb] at h1; cases h1; rfl
      | host h l h0 => exact absurd ha (h0 a)
      | cluster h0 => exact absurd ha (h0 a)
      | ingressIP b h r h0 => exact absurd ha (h0 a)
      | ingressHost h r l h0 => exact absurd ha (h0 a)
  | none =>
    have hna := annotation_none h1
    simp only
    cases h2 : annotation s hostOverride with
    | some h =>
      have hh := annotation_some.1 h2
      simp only
      refine Iff.trans (b := Hosts dns h l) ?_ ?_
      · rw [← hostIPs_some]
        cases hostIPs dns h <;> simp
      constructor
      · exact .host h l hna hh
      · intro h'
        cases h' with
        | ip b hb => exact absurd hb (hna b)
        | host k l h0 hk hl => rw [annotation_some.2 hk] at h2; cases h2; exact hl
        | cluster h0 h3 => exact absurd hh (h3 h)
        | ingressIP b k r h0 h3 => exact absurd hh (h3 h)
        | ingressHost k r l h0 h3 => exact absurd hh (h3 h)
    | none =>
      have hnh := annotation_none h2
      simp only
      unfold byType
      constructor
      · intro h
        cases ht : s.type with
        | clusterIP =>
          rw [ht] at h
          simp only [Res.ok.injEq] at h
          by_cases hc : s.clusterIP ≠ headless
          · rw [if_pos hc] at h; rw [← h]; exact .cluster hna hnh ht hc
          · rw [if_neg hc] at h; exact absurd h.symm hl
        | nodePort => rw [ht] at h; simp only [Res.ok.injEq] at h; exact absurd h.symm hl
        | externalName => rw [ht] at h; simp only [Res.ok.injEq] at h; exact absurd h.symm hl
        | loadBalancer =>
          rw [ht] at h
          simp only at h
          cases hi : s.ingress with
          | nil => exact absurd ⟨ht, hi⟩ hn
          | cons e r =>
            obtain ⟨a, k⟩ := e
            rw [hi] at h
            simp only at h
            by_cases ha : a ≠ []
            · rw [if_pos ha] at h; cases h; exact .ingressIP a k r hna hnh ht hi ha
            · rw [if_neg ha] at h
              have ha : a = [] := Classical.not_not.1 ha
              subst ha
              by_cases hk : k ≠ []
              · rw [if_pos hk] at h
                cases hx : hostIPs dns k with
                | none => rw [hx] at h; cases h
                | some l' => rw [hx] at h; cases h; exact .ingressHost k r _ hna hnh ht hi hk (hostIPs_some.1 hx)
              · rw [if_neg hk] at h; cases h; exact absurd rfl hl
      · intro h
        cases h with
        | ip b hb => exact absurd hb (hna b)
        | host k l h0 hk => exact absurd hk (hnh k)
        | cluster _ _ ht hc => rw [ht]; simp only [Res.ok.injEq]; rw [if_pos hc]
        | ingressIP a k r _ _ ht hi ha => rw [ht, hi]; simp only; rw [if_pos ha]
        | ingressHost k r l _ _ ht hi hk hx =>
          rw [ht, hi]
          simp only
          rw [if_neg (by simp), if_pos hk, hostIPs_some.2 hx]

/-! an example cluster -/

def S (s : String) : Str := s.toList
def dns0 : Dns := fun _ => none
def parse0 : Str → Option (Str × Str) := fun t => some (t, t)
def pilot (rev : String) : Svc := ⟨S "istiod", istioNs, [(kIstio, vPilot), (kRev, S rev)], .clusterIP, S "10.0.0.1", [], []⟩
def gw (rev : String) (ip : String) : Svc := ⟨S "gw", istioNs, [(kIstio, vEastWest), (kRev, S rev)], .clusterIP, S ip, [], []⟩
def cm (rev pem : String) : ConfigMap := ⟨S "ca", istioNs, [(kRev, S rev), (kConfig, vTrue)], [(kRoot, S pem)]⟩
def mesh (rev : String) : ConfigMap := ⟨S "mesh", istioNs, [(kRev, S rev)], [(kMesh, S "m")]⟩

/-- a revision with everything is found, also beside another revision -/
example : config dns0 parse0 (some [1]) ⟨[pilot "a", pilot "b", gw "a" "1.1.1.1", gw "b" "2.2.2.2"], [cm "a" "A", cm "b" "B", mesh "a", mesh "b"], []⟩
    (S "c1") (S "b") = .ok ⟨S "2.2.2.2:15012", S "istiod.istio-system.svc", S "c1", [1], S "B", S "b", S "m", S "m"⟩ := by decide +kernel

/-- **C214** fails: if the config map of the revision has other labels, the root certificates of another revision are taken; and if a map
has no root certificates, none are, and the client trusts nobody. -/
theorem C214_roots_false :
    (match config dns0 parse0 (some [1]) ⟨[pilot "b", gw "b" "2.2.2.2"], [cm "a" "A", ⟨S "ca", istioNs, [(kRev, S "b")], [(kRoot, S "B")]⟩, mesh "b"], []⟩
      (S "c1") (S "b") with | .ok r => some r.pem | _ => none) = some (S "A") ∧
    (match config dns0 parse0 (some [1]) ⟨[pilot "b", gw "b" "2.2.2.2"], [⟨S "ca", istioNs, [(kRev, S "b"), (kConfig, vTrue)], []⟩, mesh "b"], []⟩
      (S "c1") (S "b") with | .ok r => some r.pem | _ => none) = some [] := by decide +kernel

/-- **C214** fails: a gateway without an address (headless, of type `NodePort`, or with a host name that has IPv6 addresses only) crashes the
program. -/
theorem C214_panic_false :
    config dns0 parse0 (some [1]) ⟨[pilot "b", { gw "b" "None" with type := .clusterIP }], [cm "b" "B", mesh "b"], []⟩ (S "c1") (S "b") = .panic ∧
    config dns0 parse0 (some [1]) ⟨[pilot "b", { gw "b" "10.0.0.9" with type := .nodePort }], [cm "b" "B", mesh "b"], []⟩ (S "c1") (S "b") = .panic ∧
    config (fun _ => some [(S "::1", false)]) parse0 (some [1]) ⟨[pilot "b", { gw "b" "10.0.0.9" with type := .loadBalancer, ingress := [([], S "h")] }],
      [cm "b" "B", mesh "b"], []⟩ (S "c1") (S "b") = .panic := by decide +kernel

/-! ### C136 -/

/-- **C136** Heimdall is asked exactly if its URL is given; otherwise the local files are used exactly if the token is there. -/
theorem C136_source (url : Str) (st : Stat) (h : st ≠ .fails) :
    (auto url st = .heimdall ↔ url ≠ []) ∧ (auto url st = .local_ ↔ url = [] ∧ st = .file) ∧
    (auto url st = .remote ↔ url = [] ∧ (st = .notExist ∨ st = .dir)) := by
  unfold auto
  by_cases hu : url = []
  · rw [if_neg (by simpa using hu)]
    cases st <;> simp_all
  · rw [if_pos (by simpa using hu)]
    simp [hu]

/-- **C136** The request carries the token as a bearer token, whether or not it was given as one. -/
theorem C136_bearer (t : Str) : authHeader t = bearer ++ t ∨ (authHeader t = t ∧ ∃ r, t = bearer ++ r) := by
  unfold authHeader hasPrefix
  by_cases h : bearer.isPrefixOf t = true
  · rw [if_pos h]
    obtain ⟨r, hr⟩ := List.isPrefixOf_iff_prefix.mp h
    exact .inr ⟨rfl, r, hr.symm⟩
  · rw [if_neg h]; exact .inl rfl

/-- **C136** Two instances get different names exactly if their hosts or their parent processes are different. -/
theorem C136_names (a b : Proc) (ha : '-' ∉ a.parent) (hb : '-' ∉ b.parent) : podName a = podName b ↔ a.host = b.host ∧ a.parent = b.parent := by
  obtain ⟨h, i, p⟩ := a
  obtain ⟨h', i', p'⟩ := b
  unfold podName
  have hp : '-' ∉ p := ha
  have hp' : '-' ∉ p' := hb
  show h ++ '-' :: p = h' ++ '-' :: p' ↔ h = h' ∧ p = p'
  constructor
  · intro he
    have hr := congrArg List.reverse he
    simp only [List.reverse_append, List.reverse_cons, List.append_assoc, List.singleton_append] at hr
    have key : ∀ (a b x y : Str), '-' ∉ a → '-' ∉ b → a ++ '-' :: x = b ++ '-' :: y → a = b ∧ x = y := by
      intro a
      induction a with
      | nil =>
        intro b x y _ hb he
        cases b with
        | nil => exact ⟨rfl, by injection he⟩
        | cons c b => simp only [List.nil_append, List.cons_append] at he; injection he with h1 _; exact absurd (h1 ▸ List.mem_cons_self) hb
      | cons c a ih =>
        intro b x y ha hb he
        cases b with
        | nil => simp only [List.nil_append, List.cons_append] at he; injection he with h1 _; exact absurd (h1 ▸ List.mem_cons_self) ha
        | cons d b =>
          simp only [List.cons_append] at he
          injection he with h1 h2
          obtain ⟨e1, e2⟩ := ih b x y (fun h => ha (List.mem_cons_of_mem _ h)) (fun h => hb (List.mem_cons_of_mem _ h)) h2
          exact ⟨by rw [h1, e1], e2⟩
    obtain ⟨e1, e2⟩ := key p.reverse p'.reverse h.reverse h'.reverse (by simpa using hp) (by simpa using hp') hr
    exact ⟨List.reverse_inj.mp e2, List.reverse_inj.mp e1⟩
  · rintro ⟨rfl, rfl⟩; rfl

/-- **C215** fails: a token file that cannot be examined crashes the program; and instances started by one parent on one host, as in a
container, where it is process 0 or 1, have one name. -/
theorem C215_source_false : auto [] .fails = .panic ∧
    ∀ host parent pid pid', pid ≠ pid' → (⟨host, pid, parent⟩ : Proc) ≠ ⟨host, pid', parent⟩ ∧ podName ⟨host, pid, parent⟩ = podName ⟨host, pid', parent⟩ :=
  ⟨rfl, fun _ _ _ _ h => ⟨fun he => h (by injection he), rfl⟩⟩

/-- the hypotheses are met: two programs on two hosts, and one name that looks ambiguous -/
example : podName ⟨S "a-1", S "9", S "1"⟩ ≠ podName ⟨S "a", S "9", S "11"⟩ := by decide +kernel

end Verif.Props.CaConfig
