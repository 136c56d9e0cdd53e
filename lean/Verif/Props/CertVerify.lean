/-
C47: certificate verification is a conjunction. C49: workload labels.
-/
import Verif.Sec.Cert
import Verif.Sec.Labels
import Verif.Props.Matchers

namespace Verif.Cert
open Verif.Match

/-! ### Specification -/

/-- The certificate's names of type `t`. -/
inductive HasSan (cert : Certificate) : SanType → Str → Prop where
  | email {s} : s ∈ cert.emails → HasSan cert .email s
  | uri {s} : s ∈ cert.uris → HasSan cert .uri s
  | dns {s} : s ∈ cert.dns → HasSan cert .dns s
  | ip {s} : s ∈ cert.ips → HasSan cert .ip s

/-- The leaf passes every restriction that is configured. -/
structure Passes (e : Env) (c : Config) (leaf : Certificate) : Prop where
  hash : c.certHashes ≠ [] → leaf.hash ∈ c.certHashes
  spki : c.spkiHashes ≠ [] → ∃ h, leaf.spki = some h ∧ h ∈ c.spkiHashes
  san : c.sans ≠ [] → ∃ m ∈ c.sans, ∃ s, HasSan leaf m.type s ∧ doMatch e m.matcher s = true

/-- `chains` is what verifying the leaf of `raw` against the trusted roots yields: the configured ones
(none at all if none are configured), or the system's if those are trusted too and the
configured ones do not give a chain. -/
inductive Trusted (x : X509) (c : Config) (raw : List (List Nat)) : List (List Certificate) → Prop where
  | configured {leaf inter chains} : parseAll x raw = some (leaf :: inter) → (c.roots = none → c.trustSystemRoots = false) →
      x.verify (some (c.roots.getD [])) inter leaf = some chains → Trusted x c raw chains
  | system {leaf inter chains} : parseAll x raw = some (leaf :: inter) → c.trustSystemRoots = true →
      x.verify none inter leaf = some chains → Trusted x c raw chains

/-! ### Proofs -/

theorem mem_sansOf (t : SanType) (cert : Certificate) (s : Str) : s ∈ sansOf t cert ↔ HasSan cert t s := by
  cases t <;> simp only [sansOf] <;> constructor
  all_goals first
    | (intro h; first | exact .email h | exact .uri h | exact .dns h | exact .ip h | (cases h; done))
    | (intro h; cases h <;> assumption)

theorem hashOk_iff (c : Config) (cert : Certificate) : hashOk c cert = true ↔ (c.certHashes ≠ [] → cert.hash ∈ c.certHashes) := by
  unfold hashOk
  cases c.certHashes with
  | nil => simp
  | cons h hs => simp [eq_comm (a := h)]

theorem spkiOk_iff (c : Config) (cert : Certificate) :
    spkiOk c cert = true ↔ (c.spkiHashes ≠ [] → ∃ h, cert.spki = some h ∧ h ∈ c.spkiHashes) := by
  unfold spkiOk
  cases c.spkiHashes with
  | nil => simp
  | cons h hs =>
    cases cert.spki with
    | none => simp
    | some k => simp [eq_comm (a := h)]

theorem sansOk_iff (e : Env) (c : Config) (cert : Certificate) :
    sansOk e c cert = true ↔ (c.sans ≠ [] → ∃ m ∈ c.sans, ∃ s, HasSan cert m.type s ∧ doMatch e m.matcher s = true) := by
  unfold sansOk
  cases hs : c.sans with
  | nil => simp
  | cons m ms =>
    rw [if_neg (by simp)]
    simp only [List.any_eq_true, mem_sansOf]
    constructor
    · intro h _; exact h
    · intro h; exact h (by simp)

/-- **C47** A certificate is accepted exactly if its chain verifies and it passes every configured
restriction; an empty list does not restrict. -/
theorem C47_accept (e : Env) (x : X509) (c : Config) (raw : List (List Nat)) (chain : List Certificate) :
    verifyCertificate e x c raw = .ok chain ↔
      ∃ leaf rest others, chain = leaf :: rest ∧ verifyChain x c raw = .ok (chain :: others) ∧ Passes e c leaf := by
  unfold verifyCertificate
  constructor
  · intro h
    split at h
    · cases h
    · cases h
    · rename_i chains hv
      split at h
      · rename_i leaf rest others
        split at h
        · rename_i hc
          cases h
          simp only [Bool.and_eq_true] at hc
          exact ⟨leaf, rest, others, rfl, hv, ⟨(hashOk_iff _ _).mp hc.1.1, (spkiOk_iff _ _).mp hc.1.2, (sansOk_iff _ _ _).mp hc.2⟩⟩
        · cases h
      · cases h
  · rintro ⟨leaf, rest, others, rfl, hv, h1, h2, h3⟩
    rw [hv]
    simp only [(hashOk_iff _ _).mpr h1, (spkiOk_iff _ _).mpr h2, (sansOk_iff _ _ _).mpr h3, Bool.and_self, if_true]

/-- **C47** The accepted chain leads to a trusted root: a configured one, or a root of the system only if
the configuration trusts the system's roots. Without roots and without that trust, nothing but what
verifies against no root at all is accepted. -/
theorem C47_trusted (e : Env) (x : X509) (c : Config) (raw : List (List Nat)) (chain : List Certificate)
    (h : verifyCertificate e x c raw = .ok chain) : ∃ chains, Trusted x c raw chains ∧ chain ∈ chains := by
  obtain ⟨leaf, rest, others, rfl, hv, _⟩ := (C47_accept e x c raw chain).mp h
  refine ⟨(leaf :: rest) :: others, ?_, List.mem_cons_self⟩
  generalize (leaf :: rest) :: others = all at hv ⊢
  unfold verifyChain at hv
  split at hv
  · cases hv
  · cases hv
  · rename_i l i hp
    simp only at hv
    cases hr : c.roots with
    | none =>
      cases ht : c.trustSystemRoots with
      | true =>
        simp only [hr, ht, Bool.not_true, Bool.false_and, Bool.false_eq_true, if_false] at hv
        split at hv
        · rename_i cs hcs; cases hv; exact .system hp ht hcs
        · cases hv
      | false =>
        simp only [hr, ht, Bool.not_false, Option.isNone_none, Bool.and_self, if_true] at hv
        split at hv
        · rename_i cs hcs
          cases hv
          exact .configured hp (fun _ => ht) (by rw [hr]; exact hcs)
        · cases hv
    | some r =>
      simp only [hr, Option.isNone_some, Bool.and_false, Bool.false_eq_true, if_false] at hv
      cases ht : c.trustSystemRoots with
      | false =>
        simp only [ht, Bool.not_false, if_true] at hv
        split at hv
        · rename_i cs hcs
          cases hv
          exact .configured hp (fun h => by simp [hr] at h) (by rw [hr]; exact hcs)
        · cases hv
      | true =>
        simp only [ht, Bool.not_true, Bool.false_eq_true, if_false] at hv
        split at hv
        · split at hv
          · rename_i cs hcs; cases hv; exact .system hp ht hcs
          · cases hv
        · rename_i cs' hcs
          cases hv
          cases hy : x.verify (some r) i l with
          | none => rw [hy] at hcs; exact absurd rfl hcs
          | some cs =>
            exact .configured hp (fun h => by simp [hr] at h) (by rw [hr]; exact hy)

/-- **C47** A certificate that cannot be parsed anywhere in the chain is never accepted. -/
theorem C47_parsed (e : Env) (x : X509) (c : Config) (raw : List (List Nat)) (chain : List Certificate)
    (h : verifyCertificate e x c raw = .ok chain) : ∀ b ∈ raw, (x.parse b).isSome = true := by
  obtain ⟨chains, ht, _⟩ := C47_trusted e x c raw chain h
  have key : ∀ (raw : List (List Nat)) cs, parseAll x raw = some cs → ∀ b ∈ raw, (x.parse b).isSome = true := by
    intro raw
    induction raw with
    | nil => simp
    | cons b bs ih =>
      intro cs hc
      unfold parseAll at hc
      cases hb : x.parse b with
      | none => rw [hb] at hc; cases hc
      | some y =>
        rw [hb] at hc
        obtain ⟨z, hz, _⟩ := Option.map_eq_some_iff.mp hc
        intro b' hb'
        rcases List.mem_cons.mp hb' with rfl | h
        · rw [hb]; rfl
        · exact ih z hz b' h
  cases ht with
  | configured hp _ _ => exact key raw _ hp
  | system hp _ _ => exact key raw _ hp

/-! ### The restriction the mesh asks for -/

/-- The SAN types a wire matcher of a type stands for. -/
def wireTypes : WireSanType → List SanType
  | .unspecified => [.dns, .email, .ip, .uri]
  | .email => [.email]
  | .dns => [.dns]
  | .uri => [.uri]
  | .ip => [.ip]
  | .unknown => []

/-- Every SAN matcher of the validation context (the deprecated untyped list stands for any type). -/
def listed (v : Validation) : List WireSan := v.typed ++ v.untyped.map fun m => ⟨.unspecified, m⟩

/-- The certificate has a name that the wire matcher accepts. -/
def WireMatches (e : Env) (w : WireSan) (cert : Certificate) : Prop :=
  ∃ t ∈ wireTypes w.type, ∃ m, fromProto e w.matcher = some m ∧ ∃ s, HasSan cert t s ∧ doMatch e m s = true

/-- The matcher can be used: known type, valid pattern. -/
def Usable (e : Env) (w : WireSan) : Prop := wireTypes w.type ≠ [] ∧ (fromProto e w.matcher).isSome = true

theorem mem_addSan (e : Env) (w : WireSan) (m : SanMatcher) : m ∈ addSan e w ↔ m.type ∈ wireTypes w.type ∧ fromProto e w.matcher = some m.matcher := by
  have hone : ∀ (t : SanType), m ∈ (match fromProto e w.matcher with | some x => [SanMatcher.mk t x] | none => []) ↔
      m.type = t ∧ fromProto e w.matcher = some m.matcher := by
    intro t
    cases hf : fromProto e w.matcher with
    | none => simp
    | some x =>
      simp only [List.mem_singleton, Option.some.injEq]
      constructor
      · rintro rfl; exact ⟨rfl, rfl⟩
      · rintro ⟨h1, h2⟩; cases m; simp_all
  unfold addSan
  cases w.type
  case unspecified =>
    simp only [List.flatMap_cons, List.flatMap_nil, List.append_nil, List.mem_append]
    simp only [wireTypes, List.mem_cons, List.not_mem_nil, or_false]
    have h1 := hone .dns
    have h2 := hone .email
    have h3 := hone .ip
    have h4 := hone .uri
    constructor
    · rintro (h | h | h | h)
      · have := h1.mp h; exact ⟨Or.inl this.1, this.2⟩
      · have := h2.mp h; exact ⟨Or.inr (Or.inl this.1), this.2⟩
      · have := h3.mp h; exact ⟨Or.inr (Or.inr (Or.inl this.1)), this.2⟩
      · have := h4.mp h; exact ⟨Or.inr (Or.inr (Or.inr this.1)), this.2⟩
    · rintro ⟨h | h | h | h, hm⟩
      · exact Or.inl (h1.mpr ⟨h, hm⟩)
      · exact Or.inr (Or.inl (h2.mpr ⟨h, hm⟩))
      · exact Or.inr (Or.inr (Or.inl (h3.mpr ⟨h, hm⟩)))
      · exact Or.inr (Or.inr (Or.inr (h4.mpr ⟨h, hm⟩)))
  case unknown => simp [wireTypes]
  all_goals
    simp only [wireTypes, List.mem_singleton]
    exact hone _

/-- **C178** (partial) If the mesh lists SAN matchers of which at least one is usable, an accepted
certificate has a name that one of the listed matchers accepts. What is missing: when no listed
matcher is usable, nothing is checked (`C178_dropped_false`). -/
theorem C178_mesh_partial (e : Env) (x : X509) (pool : List Nat → Pool) (v : Validation) (raw : List (List Nat))
    (leaf : Certificate) (rest : List Certificate) (hu : ∃ w ∈ listed v, Usable e w)
    (h : verifyCertificate e x (configFrom e pool v) raw = .ok (leaf :: rest)) : ∃ w ∈ listed v, WireMatches e w leaf := by
  obtain ⟨l, r, others, he, _, hp⟩ := (C47_accept e x _ raw _).mp h
  cases he
  have hne : (configFrom e pool v).sans ≠ [] := by
    obtain ⟨w, hw, h1, h2⟩ := hu
    obtain ⟨t, ht⟩ := List.exists_mem_of_ne_nil _ h1
    obtain ⟨m, hm⟩ := Option.isSome_iff_exists.mp h2
    have : (⟨t, m⟩ : SanMatcher) ∈ (configFrom e pool v).sans :=
      List.mem_flatMap.mpr ⟨w, hw, (mem_addSan e w _).mpr ⟨ht, hm⟩⟩
    exact List.ne_nil_of_mem this
  obtain ⟨m, hm, s, h1, h2⟩ := hp.san hne
  obtain ⟨w, hw, hmem⟩ := List.mem_flatMap.mp hm
  obtain ⟨h3, h4⟩ := (mem_addSan e w m).mp hmem
  exact ⟨w, hw, m.type, h3, m.matcher, h4, s, h1, h2⟩

/-- **C47** Conversely a certificate with a name that a listed matcher accepts is not rejected for its
names. -/
theorem C47_meshAccepts (e : Env) (pool : List Nat → Pool) (v : Validation) (leaf : Certificate)
    (h : ∃ w ∈ listed v, WireMatches e w leaf) : sansOk e (configFrom e pool v) leaf = true := by
  obtain ⟨w, hw, t, ht, m, hm, s, h1, h2⟩ := h
  rw [sansOk_iff]
  intro _
  exact ⟨⟨t, m⟩, List.mem_flatMap.mpr ⟨w, hw, (mem_addSan e w _).mpr ⟨ht, hm⟩⟩, s, h1, h2⟩

/-! ### A case that meets the hypotheses, and what does not hold -/

/-- Certificate `n` is the one-byte string `n`; roots `r` verify a leaf whose number is a multiple of one
of them; the system trusts everything. -/
def demoX : X509 where
  parse b := match b with
    | [n] => some { id := n, uris := ["spiffe://td/ns/demo/sa/app".toList] }
    | _ => none
  verify roots _ leaf := match roots with
    | some rs => if rs.any (fun r => leaf.id % (r + 2) == 0) then some [[leaf]] else none
    | none => some [[leaf]]

def spiffe : Validation where
  trustedCA := some [0]
  typed := [⟨.uri, some ⟨.prefix "spiffe://td/".toList, false⟩⟩]

def other : Validation where
  trustedCA := some [0]
  typed := [⟨.uri, some ⟨.prefix "spiffe://other/".toList, false⟩⟩]

/-- A pattern that does not compile. -/
def broken : Validation where
  trustedCA := some [0]
  typed := [⟨.uri, some ⟨.safeRegex "(".toList, false⟩⟩]

def accepted (v : Validation) (raw : List (List Nat)) : Bool := match verifyCertificate demo demoX (configFrom demo id v) raw with
  | .ok _ => true
  | _ => false

example : accepted spiffe [[4], [6]] = true := by decide +kernel
example : accepted spiffe [[5], [6]] = false := by decide +kernel
example : accepted other [[4], [6]] = false := by decide +kernel
example : accepted spiffe [[4], [6, 7]] = false := by decide +kernel
example : ∃ w ∈ listed spiffe, Usable demo w := ⟨_, List.mem_cons_self, by decide +kernel, by decide +kernel⟩

/-- **C178** fails for the restrictions the mesh sends: a SAN restriction whose only pattern cannot be
compiled is dropped, and any certificate of the trusted root is accepted. -/
theorem C178_dropped_false : ¬ ∀ (e : Env) (x : X509) (pool : List Nat → Pool) (v : Validation) (raw : List (List Nat))
    (leaf : Certificate) (rest : List Certificate), listed v ≠ [] →
    verifyCertificate e x (configFrom e pool v) raw = .ok (leaf :: rest) → ∃ w ∈ listed v, WireMatches e w leaf := by
  intro H
  have hacc : accepted broken [[4]] = true := by decide +kernel
  unfold accepted at hacc
  split at hacc
  · rename_i chain hc
    obtain ⟨leaf, rest, others, he, _⟩ := (C47_accept _ _ _ _ _).mp hc
    subst he
    obtain ⟨w, hw, t, _, m, hm, _⟩ := H demo demoX id broken [[4]] leaf rest (by decide +kernel) hc
    have hl : listed broken = [⟨.uri, some ⟨.safeRegex "(".toList, false⟩⟩] := by decide +kernel
    rw [hl, List.mem_singleton] at hw
    subst hw
    have : (fromProto demo (some ⟨.safeRegex "(".toList, false⟩)).isNone = true := by decide +kernel
    rw [hm] at this
    cases this
  · cases hacc

/-- **C178** fails for an empty chain, which crashes instead of being rejected. -/
theorem C178_empty_false (e : Env) (x : X509) (c : Config) : verifyCertificate e x c [] = .panic := rfl

/-- **C178** fails for an unreadable trusted CA: it is treated as if none was given, so that nothing is
trusted (with the default not to trust the system's roots) - and everything the system trusts otherwise. -/
theorem C178_unreadable (e : Env) (pool : List Nat → Pool) (v : Validation) : (configFrom e pool { v with trustedCA := some [] }).roots = none := rfl

end Verif.Cert

namespace Verif.Labels

/-- `v` is the value of the first label of the list that is present, `d` if none is. -/
def FirstPresent (labels : String → Option String) (keys : List String) (d v : String) : Prop :=
  (∃ pre k post, keys = pre ++ k :: post ∧ (∀ x ∈ pre, labels x = none) ∧ labels k = some v) ∨
  ((∀ x ∈ keys, labels x = none) ∧ v = d)

theorem value_iff (labels : String → Option String) (d v : String) : ∀ keys, valueWithDefault labels keys d = v ↔ FirstPresent labels keys d v := by
  intro keys
  induction keys with
  | nil =>
    simp [valueWithDefault, FirstPresent, eq_comm]
  | cons k ks ih =>
    unfold valueWithDefault
    cases hk : labels k with
    | some w =>
      constructor
      · rintro rfl; exact Or.inl ⟨[], k, ks, rfl, by simp, hk⟩
      · rintro (⟨pre, k', post, he, h1, h2⟩ | ⟨h, _⟩)
        · cases pre with
          | nil =>
            simp only [List.nil_append, List.cons.injEq] at he
            rw [← he.1, hk] at h2; simpa using h2
          | cons x pre =>
            simp only [List.cons_append, List.cons.injEq] at he
            have := h1 x (by simp)
            rw [← he.1, hk] at this; cases this
        · have := h k (by simp); rw [hk] at this; cases this
    | none =>
      simp only [ih]
      constructor
      · rintro (⟨pre, k', post, rfl, h1, h2⟩ | ⟨h, rfl⟩)
        · refine Or.inl ⟨k :: pre, k', post, rfl, ?_, h2⟩
          intro x hx
          rcases List.mem_cons.mp hx with rfl | hx
          · exact hk
          · exact h1 x hx
        · refine Or.inr ⟨?_, rfl⟩
          intro x hx
          rcases List.mem_cons.mp hx with rfl | hx
          · exact hk
          · exact h x hx
      · rintro (⟨pre, k', post, he, h1, h2⟩ | ⟨h, rfl⟩)
        · cases pre with
          | nil =>
            simp only [List.nil_append, List.cons.injEq] at he
            rw [← he.1, hk] at h2; cases h2
          | cons x pre =>
            simp only [List.cons_append, List.cons.injEq] at he
            exact Or.inl ⟨pre, k', post, he.2, fun y hy => h1 y (by simp [hy]), h2⟩
        · exact Or.inr ⟨fun x hx => h x (by simp [hx]), rfl⟩

/-- **C49** The canonical service name of a workload is the value of the first present label of
`service.istio.io/canonical-name`, `app.kubernetes.io/name` and `app`, else the workload's name. -/
theorem C49_name (labels : String → Option String) (workload v : String) : canonicalName labels workload = v ↔
    FirstPresent labels ["service.istio.io/canonical-name", "app.kubernetes.io/name", "app"] workload v := value_iff _ _ _ _

/-- **C49** The canonical revision is the value of the first present label of
`service.istio.io/canonical-revision`, `app.kubernetes.io/version` and `version`, else `latest`. -/
theorem C49_revision (labels : String → Option String) (v : String) : canonicalRevision labels = v ↔
    FirstPresent labels ["service.istio.io/canonical-revision", "app.kubernetes.io/version", "version"] "latest" v := value_iff _ _ _ _

example : canonicalName (fun k => if k = "app" then some "a" else if k = "app.kubernetes.io/name" then some "b" else none) "w" = "b" := by decide +kernel
example : canonicalRevision (fun _ => none) = "latest" := by decide +kernel

end Verif.Labels
