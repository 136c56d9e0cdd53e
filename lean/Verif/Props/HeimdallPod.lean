import Verif.Heimdall.Pod
/-
C94-C96: the mutation of pods.
-/
namespace Verif.Props
open Verif Verif.Heimdall

theorem get_put_same (m : Map) (k v : Str) : (m.put k v).get k = some v := by
  induction m with
  | nil => simp [Map.put, Map.get]
  | cons x m ih =>
    obtain ⟨a, b⟩ := x
    simp only [Map.put]
    by_cases h : a = k
    · rw [if_pos h]; simp [Map.get]
    · rw [if_neg h]
      unfold Map.get at ih ⊢
      rw [List.find?_cons_of_neg (by simpa using h)]
      exact ih

theorem get_put_other (m : Map) (k v k' : Str) (hk : k' ≠ k) : (m.put k v).get k' = m.get k' := by
  induction m with
  | nil => simp [Map.put, Map.get, Ne.symm hk]
  | cons x m ih =>
    obtain ⟨a, b⟩ := x
    simp only [Map.put]
    by_cases h : a = k
    · subst h
      rw [if_pos rfl]
      unfold Map.get
      rw [List.find?_cons_of_neg (by simpa using Ne.symm hk), List.find?_cons_of_neg (by simpa using Ne.symm hk)]
    · rw [if_neg h]
      unfold Map.get at ih ⊢
      by_cases h' : a = k'
      · rw [List.find?_cons_of_pos (by simpa using h'), List.find?_cons_of_pos (by simpa using h')]
      · rw [List.find?_cons_of_neg (by simpa using h'), List.find?_cons_of_neg (by simpa using h')]
        exact ih

theorem get_del_other (m : Map) (k k' : Str) (hk : k' ≠ k) : (m.del k).get k' = m.get k' := by
  induction m with
  | nil => rfl
  | cons x m ih =>
    unfold Map.get Map.del at ih ⊢
    by_cases h : x.1 = k
    · have h' : x.1 ≠ k' := fun he => hk (he ▸ h)
      rw [List.filter_cons_of_neg (by simpa using h), List.find?_cons_of_neg (by simpa using h')]
      exact ih
    · rw [List.filter_cons_of_pos (by simpa using h)]
      by_cases h' : x.1 = k'
      · rw [List.find?_cons_of_pos (by simpa using h'), List.find?_cons_of_pos (by simpa using h')]
      · rw [List.find?_cons_of_neg (by simpa using h'), List.find?_cons_of_neg (by simpa using h')]
        exact ih

theorem get_putNew (m : Map) (k v k' : Str) : (putNew m k v).get k' = if (m.get k').isSome then m.get k' else if k' = k then some v else none := by
  unfold putNew
  by_cases h : (m.get k).isSome
  · rw [if_pos h]
    by_cases h' : (m.get k').isSome
    · rw [if_pos h']
    · rw [if_neg h']
      have : k' ≠ k := fun he => h' (he ▸ h)
      rw [if_neg this]; simpa using h'
  · rw [if_neg h]
    by_cases he : k' = k
    · subst he
      rw [if_neg h, if_pos rfl, get_put_same]
    · rw [get_put_other _ _ _ _ he, if_neg he]
      by_cases h' : (m.get k').isSome
      · rw [if_pos h']
      · rw [if_neg h']; simpa using h'

theorem putNew_kept {m : Map} {k v k' v' : Str} (h : m.get k' = some v') : (putNew m k v).get k' = some v' := by
  rw [get_putNew, h]; simp

theorem get_putNew_ne {m : Map} {k v k' : Str} (h : k' ≠ k) : (putNew m k v).get k' = m.get k' := by
  unfold putNew; split
  · rfl
  · exact get_put_other _ _ _ _ h
theorem get_putNew_self (m : Map) (k v : Str) : ((putNew m k v).get k).isSome := by
  rw [get_putNew]; split
  · assumption
  · rw [if_pos rfl]; rfl
theorem get_putNew_isSome {m : Map} {k v k' : Str} (h : (m.get k').isSome) : ((putNew m k v).get k').isSome := by
  rw [get_putNew, if_pos h]; exact h
theorem get_cons_ne {m : Map} {k v k' : Str} (h : k' ≠ k) : Map.get ((k, v) :: m) k' = Map.get m k' := by
  unfold Map.get; rw [List.find?_cons_of_neg (by simpa using Ne.symm h)]
theorem get_cons_self {m : Map} {k v : Str} : Map.get ((k, v) :: m) k = some v := by
  unfold Map.get; rw [List.find?_cons_of_pos (by simp)]; rfl

/-! ### C94 -/

/-- the annotations the mutation sets -/
def ourAnnotations : List (Str × Str) :=
  [("sidecar.istio.io/inject".toList, "false".toList), ("prometheus.io/path".toList, "/stats/prometheus".toList),
   ("prometheus.io/port".toList, "16090".toList), ("prometheus.io/scrape".toList, "true".toList)]

/-- **C94** The pod keeps its name, owners, volumes, containers (in order) and everything the mutation is not about; each container
keeps its name, variables, ports, mounts and the rest, to which the new ones are appended. -/
theorem C94_kept (c : Config) (order : Map → Map) (cm reqNs : Str) (p : Pod) :
    let q := mutate c order cm reqNs p
    (p.ns ≠ [] → q.ns = p.ns) ∧ (p.ns = [] → q.ns = reqNs) ∧ q.name = p.name ∧ q.generateName = p.generateName ∧
    q.owners = p.owners ∧ q.rest = p.rest ∧ p.volumes <+: q.volumes ∧ q.containers.length = p.containers.length ∧
    ∀ (i : Nat) (k : Container), p.containers[i]? = some k → ∃ k', q.containers[i]? = some k' ∧ k'.name = k.name ∧ k'.rest = k.rest ∧
      k.env <+: k'.env ∧ k.ports <+: k'.ports ∧ k.mounts <+: k'.mounts := by
  have hc : (if p.ns = [] then { p with ns := reqNs } else p).containers = p.containers := by split <;> rfl
  have hv : (if p.ns = [] then { p with ns := reqNs } else p).volumes = p.volumes := by split <;> rfl
  refine ⟨?_, ?_, ?_, ?_, ?_, ?_, ?_, ?_, ?_⟩
  · intro h; simp only [mutate, setMounts, setVolumes, setEnvs, setLabels, setAnnotations]; rw [if_neg h]
  · intro h; simp only [mutate, setMounts, setVolumes, setEnvs, setLabels, setAnnotations]; rw [if_pos h]
  · simp only [mutate, setMounts, setVolumes, setEnvs, setLabels, setAnnotations]; split <;> rfl
  · simp only [mutate, setMounts, setVolumes, setEnvs, setLabels, setAnnotations]; split <;> rfl
  · simp only [mutate, setMounts, setVolumes, setEnvs, setLabels, setAnnotations]; split <;> rfl
  · simp only [mutate, setMounts, setVolumes, setEnvs, setLabels, setAnnotations]; split <;> rfl
  · simp only [mutate, setMounts, setVolumes, setEnvs, setLabels, setAnnotations]; rw [hv]; exact ⟨_, rfl⟩
  · simp only [mutate, setMounts, setVolumes, setEnvs, setLabels, setAnnotations, hc, List.length_map]
  · intro i k hk
    simp only [mutate, setMounts, setVolumes, setEnvs, setLabels, setAnnotations, hc, List.getElem?_map, hk, Option.map_some]
    exact ⟨_, rfl, rfl, rfl, ⟨_, rfl⟩, ⟨_, rfl⟩, ⟨_, rfl⟩⟩

/-- **C94** Every container gets the NASP variables (the last entry of each name, which is the one that counts, is the new one), the
metrics port and the two mounts; the pod gets the volumes that are mounted. -/
theorem C94_added (c : Config) (order : Map → Map) (cm reqNs : Str) (p : Pod) :
    let q := mutate c order cm reqNs p
    (∀ k' ∈ q.containers, (16090, "http-envoy-prom".toList) ∈ k'.ports ∧
      (∃ pre ns d names labels, k'.env = pre ++ naspEnv c ns d names labels) ∧
      ∀ m ∈ ["istiod-ca-cert".toList, "istio-token".toList], (∃ path, (m, path) ∈ k'.mounts) ∧ ∃ src, (m, src) ∈ q.volumes) := by
  intro q k' hk'
  simp only [q, mutate, setMounts, setVolumes, setEnvs, setLabels, setAnnotations, List.map_map, List.mem_map] at hk'
  obtain ⟨k, _, rfl⟩ := hk'
  refine ⟨by simp, ⟨_, _, _, _, _, rfl⟩, ?_⟩
  intro m hm
  simp only [List.mem_cons, List.not_mem_nil, or_false] at hm
  rcases hm with rfl | rfl
  · exact ⟨⟨_, List.mem_append_right _ (.head _)⟩, ⟨_, List.mem_append_right _ (.tail _ (.head _))⟩⟩
  · exact ⟨⟨_, List.mem_append_right _ (.tail _ (.head _))⟩, ⟨_, List.mem_append_right _ (.head _)⟩⟩

/-- **C94** Of the annotations only the four of the mutation change. -/
theorem C94_annotations (c : Config) (order : Map → Map) (cm reqNs : Str) (p : Pod) (k : Str) :
    (mutate c order cm reqNs p).annotations.get k =
      match Map.get ourAnnotations k with
      | some v => some v
      | none => p.annotations.get k := by
  have ha : (mutate c order cm reqNs p).annotations =
      (setAnnotations (if p.ns = [] then { p with ns := reqNs } else p)).annotations := rfl
  have hb : (if p.ns = [] then { p with ns := reqNs } else p).annotations = p.annotations := by split <;> rfl
  rw [ha]
  simp only [setAnnotations, hb]
  unfold ourAnnotations
  have d1 : "sidecar.istio.io/inject".toList ≠ "prometheus.io/path".toList := by decide
  have d2 : "sidecar.istio.io/inject".toList ≠ "prometheus.io/port".toList := by decide
  have d3 : "sidecar.istio.io/inject".toList ≠ "prometheus.io/scrape".toList := by decide
  have d4 : "prometheus.io/path".toList ≠ "prometheus.io/port".toList := by decide
  have d5 : "prometheus.io/path".toList ≠ "prometheus.io/scrape".toList := by decide
  have d6 : "prometheus.io/port".toList ≠ "prometheus.io/scrape".toList := by decide
  generalize "sidecar.istio.io/inject".toList = a1 at *
  generalize "prometheus.io/path".toList = a2 at *
  generalize "prometheus.io/port".toList = a3 at *
  generalize "prometheus.io/scrape".toList = a4 at *
  by_cases h1 : k = a4
  · subst h1; rw [get_put_same, get_cons_ne (Ne.symm d3), get_cons_ne (Ne.symm d5), get_cons_ne (Ne.symm d6), get_cons_self]
  rw [get_put_other _ _ _ _ h1]
  by_cases h2 : k = a3
  · subst h2; rw [get_put_same, get_cons_ne (Ne.symm d2), get_cons_ne (Ne.symm d4), get_cons_self]
  rw [get_put_other _ _ _ _ h2]
  by_cases h3 : k = a2
  · subst h3; rw [get_put_same, get_cons_ne (Ne.symm d1), get_cons_self]
  rw [get_put_other _ _ _ _ h3]
  by_cases h4 : k = a1
  · subst h4; rw [get_put_same, get_cons_self]
  rw [get_put_other _ _ _ _ h4, get_cons_ne h4, get_cons_ne h3, get_cons_ne h2, get_cons_ne h1]
  rfl

/-! ### C95: labels and repetition -/

/-- the pod belongs to an OpenShift deployment config -/
def OfDeploymentConfig (p : Pod) : Prop :=
  p.generateName ≠ [] ∧ (∃ r, p.owners.find? (·.controller) = some r ∧ r.kind = "ReplicationController".toList) ∧
    p.labels.val "deploymentconfig".toList ≠ []

theorem deployOf_labels (p : Pod) (h : ¬ OfDeploymentConfig p) : (deployOf p).2 = p.labels := by
  unfold deployOf
  simp only
  split
  · rfl
  · rename_i hg
    cases ho : p.owners.find? (·.controller) with
    | none => rfl
    | some r =>
      simp only
      split
      · rfl
      · split
        · rename_i hk
          exact absurd ⟨hg, ⟨r, ho, hk.1⟩, hk.2⟩ h
        · split
          · split <;> rfl
          · rfl

/-- the labels only depend on the labels and the workload -/
theorem deployOf_again_labels (p : Pod) : ∀ k v, (deployOf p).2.get k = some v → k ≠ "deploymentconfig".toList → p.labels.get k = some v := by
  intro k v hk hne
  unfold deployOf at hk
  simp only at hk
  split at hk
  · exact hk
  · cases ho : p.owners.find? (·.controller) with
    | none => rw [ho] at hk; exact hk
    | some r =>
      rw [ho] at hk
      simp only at hk
      split at hk
      · exact hk
      · split at hk
        · rw [get_del_other _ _ _ hne] at hk; exact hk
        · split at hk
          · split at hk <;> exact hk
          · exact hk

theorem setLabels_kept (c : Config) (p : Pod) (h : ¬ OfDeploymentConfig p) (k v : Str) (hk : p.labels.get k = some v)
    (h1 : k ≠ "istio.io/rev".toList) (h2 : k ≠ "topology.istio.io/network".toList) : (setLabels c p).labels.get k = some v := by
  simp only [setLabels]
  rw [get_put_other _ _ _ _ h2, get_put_other _ _ _ _ h1, deployOf_labels p h]
  exact putNew_kept (putNew_kept (putNew_kept hk))

theorem val_eq_of_get {m m' : Map} {k : Str} (h : m.get k = m'.get k) : m.val k = m'.val k := by unfold Map.val; rw [h]

theorem setLabels_not_dc (c : Config) (p : Pod) (h : ¬ OfDeploymentConfig p) : ¬ OfDeploymentConfig (setLabels c p) := by
  rintro ⟨h1, ⟨r, ho, hk⟩, h3⟩
  refine h ⟨h1, ⟨r, ho, hk⟩, ?_⟩
  have : (setLabels c p).labels.get "deploymentconfig".toList = p.labels.get "deploymentconfig".toList := by
    simp only [setLabels]
    rw [get_put_other _ _ _ _ (by decide), get_put_other _ _ _ _ (by decide), get_putNew_ne (by decide), get_putNew_ne (by decide),
      get_putNew_ne (by decide), deployOf_labels p h]
  rw [val_eq_of_get this] at h3
  exact h3

/-- the labels after the mutation of a pod that is not one of a deployment config -/
theorem mutate_labels (c : Config) (order : Map → Map) (cm reqNs : Str) (p : Pod) (h : ¬ OfDeploymentConfig p) :
    (mutate c order cm reqNs p).labels = (setLabels c (setAnnotations (if p.ns = [] then { p with ns := reqNs } else p))).labels := by
  have hx : ¬ OfDeploymentConfig (setAnnotations (if p.ns = [] then { p with ns := reqNs } else p)) := by
    intro hd; apply h
    by_cases hn : p.ns = []
    · rw [if_pos hn] at hd; exact hd
    · rw [if_neg hn] at hd; exact hd
  have := deployOf_labels _ (setLabels_not_dc c _ hx)
  exact this

/-- **C95** A pod that is not one of an OpenShift deployment config keeps all its labels but the revision and the
network, which are those of the configuration. -/
theorem C95_labels (c : Config) (order : Map → Map) (cm reqNs : Str) (p : Pod) (h : ¬ OfDeploymentConfig p) :
    let q := mutate c order cm reqNs p
    (∀ k v, p.labels.get k = some v → k ≠ "istio.io/rev".toList → k ≠ "topology.istio.io/network".toList → q.labels.get k = some v) ∧
    q.labels.get "istio.io/rev".toList = some c.revision ∧ q.labels.get "topology.istio.io/network".toList = some c.network ∧
    (∀ k ∈ ["security.istio.io/tlsMode".toList, "service.istio.io/canonical-name".toList, "service.istio.io/canonical-revision".toList],
      (q.labels.get k).isSome) := by
  have hq := mutate_labels c order cm reqNs p h
  have hx : ¬ OfDeploymentConfig (setAnnotations (if p.ns = [] then { p with ns := reqNs } else p)) := by
    intro hd; apply h
    by_cases hn : p.ns = []
    · rw [if_pos hn] at hd; exact hd
    · rw [if_neg hn] at hd; exact hd
  have hl : (setAnnotations (if p.ns = [] then { p with ns := reqNs } else p)).labels = p.labels := by
    simp only [setAnnotations]; split <;> rfl
  refine ⟨?_, ?_, ?_, ?_⟩
  · intro k v hk h1 h2
    rw [hq]
    exact setLabels_kept c _ hx k v (by rw [hl]; exact hk) h1 h2
  · rw [hq]; simp only [setLabels]; rw [get_put_other _ _ _ _ (by decide), get_put_same]
  · rw [hq]; simp only [setLabels]; rw [get_put_same]
  · intro k hk
    rw [hq]; simp only [setLabels]
    simp only [List.mem_cons, List.not_mem_nil, or_false] at hk
    have hn1 : k ≠ "topology.istio.io/network".toList := by rcases hk with rfl | rfl | rfl <;> decide
    have hn2 : k ≠ "istio.io/rev".toList := by rcases hk with rfl | rfl | rfl <;> decide
    rw [get_put_other _ _ _ _ hn1, get_put_other _ _ _ _ hn2]
    rcases hk with rfl | rfl | rfl
    · exact get_putNew_isSome (get_putNew_isSome (get_putNew_self _ _ _))
    · exact get_putNew_isSome (get_putNew_self _ _ _)
    · exact get_putNew_self _ _ _

/-- `v` is the first of the texts that is not empty (or empty if all are) -/
def FirstNonEmpty (l : List Str) (v : Str) : Prop :=
  (∃ pre suf, l = pre ++ v :: suf ∧ v ≠ [] ∧ ∀ x ∈ pre, x = []) ∨ (v = [] ∧ ∀ x ∈ l, x = [])

theorem firstValue_spec (l : List Str) : FirstNonEmpty l (firstValue l) := by
  induction l with
  | nil => exact .inr ⟨rfl, by simp⟩
  | cons x l ih =>
    simp only [firstValue]
    by_cases h : x ≠ []
    · rw [if_pos h]; exact .inl ⟨[], l, rfl, h, by simp⟩
    · rw [if_neg h]
      have hx : x = [] := by simpa using h
      rcases ih with ⟨pre, suf, h1, h2, h3⟩ | ⟨h1, h2⟩
      · refine .inl ⟨x :: pre, suf, by rw [List.cons_append, ← h1], h2, ?_⟩
        intro y hy; rcases List.mem_cons.mp hy with rfl | hy
        · exact hx
        · exact h3 y hy
      · refine .inr ⟨h1, ?_⟩
        intro y hy; rcases List.mem_cons.mp hy with rfl | hy
        · exact hx
        · exact h2 y hy

/-- **C95** The mesh labels a pod lacks get their values: the canonical name is the name label, else the app label, else the
workload; the canonical revision the version labels, else `latest`. -/
theorem C95_values (c : Config) (order : Map → Map) (cm reqNs : Str) (p : Pod) (h : ¬ OfDeploymentConfig p) :
    let q := mutate c order cm reqNs p
    (p.labels.get "security.istio.io/tlsMode".toList = none → q.labels.get "security.istio.io/tlsMode".toList = some "istio".toList) ∧
    (p.labels.get "service.istio.io/canonical-name".toList = none → ∃ v, q.labels.get "service.istio.io/canonical-name".toList = some v ∧
      FirstNonEmpty [p.labels.val "app.kubernetes.io/name".toList, p.labels.val "app".toList, (deployOf p).1.name] v) ∧
    (p.labels.get "service.istio.io/canonical-revision".toList = none → ∃ v,
      q.labels.get "service.istio.io/canonical-revision".toList = some v ∧
      FirstNonEmpty [p.labels.val "app.kubernetes.io/version".toList, p.labels.val "version".toList, "latest".toList] v) := by
  have hq := mutate_labels c order cm reqNs p h
  generalize hp : setAnnotations (if p.ns = [] then { p with ns := reqNs } else p) = p0 at hq
  have hx : ¬ OfDeploymentConfig p0 := by
    intro hd; apply h; rw [← hp] at hd
    by_cases hn : p.ns = []
    · rw [if_pos hn] at hd; exact hd
    · rw [if_neg hn] at hd; exact hd
  have hl : p0.labels = p.labels := by rw [← hp]; simp only [setAnnotations]; split <;> rfl
  have hd : (deployOf p0).1 = (deployOf p).1 := by
    rw [← hp]; split <;> rfl
  have hd2 := deployOf_labels p0 hx
  rw [hl] at hd2
  refine ⟨?_, ?_, ?_⟩
  · intro hn
    rw [hq]; simp only [setLabels, hd2]
    rw [get_put_other _ _ _ _ (by decide), get_put_other _ _ _ _ (by decide), get_putNew_ne (by decide), get_putNew_ne (by decide),
      get_putNew, hn]
    simp only [Option.isSome_none, Bool.false_eq_true, if_false, if_true]
  · intro hn
    refine ⟨_, ?_, firstValue_spec _⟩
    rw [hq]; simp only [setLabels, hd2, hd]
    rw [get_put_other _ _ _ _ (by decide), get_put_other _ _ _ _ (by decide), get_putNew_ne (by decide), get_putNew,
      get_putNew_ne (by decide), hn]
    simp only [Option.isSome_none, Bool.false_eq_true, if_false, if_true]
    rw [val_eq_of_get (get_putNew_ne (m := p.labels) (k := "security.istio.io/tlsMode".toList) (k' := "app.kubernetes.io/name".toList) (by decide)),
      val_eq_of_get (get_putNew_ne (m := p.labels) (k := "security.istio.io/tlsMode".toList) (k' := "app".toList) (by decide))]
  · intro hn
    refine ⟨_, ?_, firstValue_spec _⟩
    rw [hq]; simp only [setLabels, hd2, hd]
    rw [get_put_other _ _ _ _ (by decide), get_put_other _ _ _ _ (by decide), get_putNew,
      get_putNew_ne (by decide), get_putNew_ne (by decide), hn]
    simp only [Option.isSome_none, Bool.false_eq_true, if_false, if_true]
    rw [val_eq_of_get ((get_putNew_ne (by decide)).trans (get_putNew_ne (by decide))),
      val_eq_of_get ((get_putNew_ne (by decide)).trans (get_putNew_ne (by decide)))]

/-- the volume names of a pod are unique, as the API server demands -/
def VolumesUnique (p : Pod) : Prop := (p.volumes.map (·.1)).Nodup

/-- **C201** (partial) Volume names stay unique if the pod has no volume with one of the two names. -/
theorem C201_volumes_partial (c : Config) (order : Map → Map) (cm reqNs : Str) (p : Pod) (h : VolumesUnique p)
    (h1 : ∀ src, ("istio-token".toList, src) ∉ p.volumes) (h2 : ∀ src, ("istiod-ca-cert".toList, src) ∉ p.volumes) :
    VolumesUnique (mutate c order cm reqNs p) := by
  have hv : (if p.ns = [] then { p with ns := reqNs } else p).volumes = p.volumes := by split <;> rfl
  unfold VolumesUnique at h ⊢
  simp only [mutate, setMounts, setVolumes, setEnvs, setLabels, setAnnotations, hv, List.map_append, List.map_cons, List.map_nil]
  rw [List.nodup_append]
  refine ⟨h, by decide, ?_⟩
  intro a ha b hb hab
  subst hab
  obtain ⟨⟨n, src⟩, hm, rfl⟩ := List.mem_map.mp ha
  simp only [List.mem_cons, List.not_mem_nil, or_false] at hb
  rcases hb with hb | hb
  · exact h1 src (by rw [← hb]; exact hm)
  · exact h2 src (by rw [← hb]; exact hm)

def sampleCfg : Config := ⟨"c1".toList, "m1".toList, "1.15".toList, "ca".toList, "n1".toList, "r1".toList⟩

/-- a pod of an OpenShift deployment config -/
def dcPod : Pod where
  ns := "shop".toList
  generateName := "web-3-".toList
  owners := [⟨true, "v1".toList, "ReplicationController".toList, "web-3".toList⟩]
  labels := [("deploymentconfig".toList, "web".toList), ("deployment".toList, "web-3".toList)]
  containers := [{ name := "app".toList }]

/-- **C201** (negation) A pod of a deployment config loses the label by which its controller selects it; its canonical name is that of
the deployment config, but its environment names the replication controller as the workload. -/
theorem C201_label_lost_false :
    let q := mutate sampleCfg id "cm".toList [] dcPod
    dcPod.labels.get "deploymentconfig".toList = some "web".toList ∧ q.labels.get "deploymentconfig".toList = none ∧
    q.labels.get "service.istio.io/canonical-name".toList = some "web".toList ∧
    ∃ k ∈ q.containers, ("NASP_WORKLOAD_NAME".toList, EnvVal.lit "web-3".toList) ∈ k.env := by decide +kernel

/-- **C201** (negation) A second mutation (webhooks may be called again) yields a pod the API server rejects: two volumes with one
name. -/
theorem C201_twice_false (c : Config) (order : Map → Map) (cm reqNs : Str) (p : Pod) :
    ¬ VolumesUnique (mutate c order cm reqNs (mutate c order cm reqNs p)) := by
  intro h
  unfold VolumesUnique at h
  have hv : ∀ q : Pod, (mutate c order cm reqNs q).volumes = q.volumes ++ [("istio-token".toList, .token "istio-ca".toList "istio-token".toList),
      ("istiod-ca-cert".toList, .configMap cm)] := by
    intro q
    simp only [mutate, setMounts, setVolumes, setEnvs, setLabels, setAnnotations]
    split <;> rfl
  rw [hv, hv] at h
  rw [List.map_append, List.nodup_append] at h
  exact h.2.2 "istio-token".toList (by simp) "istio-token".toList (by simp) rfl

/-! ### C96: the workload of a pod -/

/-- the pod was generated by a controller of the given kind and name -/
def ControlledBy (p : Pod) (api kind name : Str) : Prop :=
  p.generateName ≠ [] ∧ ∃ r, p.owners.find? (·.controller) = some r ∧ r.apiVersion = api ∧ r.kind = kind ∧ r.name = name

/-- **C96** A pod of a replica set that carries the deployment's name and the pod's template hash belongs to the deployment. -/
theorem C96_deployment (p : Pod) (api d hash : Str) (hd : d ≠ []) (hh : hash ≠ [])
    (h : ControlledBy p api "ReplicaSet".toList (d ++ '-' :: hash)) (hl : p.labels.get "pod-template-hash".toList = some hash) :
    (deployOf p).1 = ⟨d, "Deployment".toList, api⟩ := by
  obtain ⟨hg, r, ho, ha, hk, hn⟩ := h
  have hv : p.labels.val "pod-template-hash".toList = hash := by unfold Map.val; rw [hl]; rfl
  have hs : hash.isSuffixOf (d ++ '-' :: hash) = true := by
    rw [List.isSuffixOf_iff_suffix]; exact ⟨d ++ ['-'], by simp⟩
  have ht : trimSuffix (d ++ '-' :: hash) ('-' :: hash) = d := by
    unfold trimSuffix
    rw [if_pos (by rw [List.isSuffixOf_iff_suffix]; exact ⟨d, rfl⟩)]
    simp
  unfold deployOf
  simp only
  rw [if_neg hg]
  simp only [ho, hk, hn, hv, ha]
  rw [if_pos ⟨trivial, hh, hs⟩]
  simp only [ht, if_neg hd]

/-- **C96** A pod of a job whose name ends with a dash and eight to ten digits belongs to the cron job. -/
theorem C96_cronjob (p : Pod) (api d digits : Str) (hd : d ≠ []) (h1 : 8 ≤ digits.length) (h2 : digits.length ≤ 10)
    (hdig : ∀ x ∈ digits, x.isDigit = true) (h : ControlledBy p api "Job".toList (d ++ '-' :: digits)) :
    (deployOf p).1 = ⟨d, "CronJob".toList, "batch/v1beta1".toList⟩ := by
  obtain ⟨hg, r, ho, ha, hk, hn⟩ := h
  have hc : cronName (d ++ '-' :: digits) = some d := by
    unfold cronName
    have hr : (d ++ '-' :: digits).reverse = digits.reverse ++ '-' :: d.reverse := by simp
    rw [hr]
    have ht : (digits.reverse ++ '-' :: d.reverse).takeWhile Char.isDigit = digits.reverse := by
      rw [List.takeWhile_append_of_pos (by simpa using hdig)]
      simp
    simp only [ht, List.length_reverse]
    have : (digits.reverse ++ '-' :: d.reverse).drop digits.length = '-' :: d.reverse := by
      rw [List.drop_append_of_le_length (by simp)]; simp
    rw [this]
    cases hdr : d.reverse with
    | nil => exact absurd (by simpa using hdr) hd
    | cons x y =>
      simp only
      rw [if_pos ⟨h1, h2⟩, ← hdr]; simp
  unfold deployOf
  simp only
  rw [if_neg hg]
  simp only [ho, hk, hn]
  rw [if_neg (fun hx => absurd hx.1 (by decide)), if_neg (fun hx => absurd hx.1 (by decide)), if_pos trivial]
  simp only [hc, if_neg hd]

/-- **C96** A pod of any other controller belongs to that controller. -/
theorem C96_other (p : Pod) (api kind n : Str) (hn0 : n ≠ []) (h : ControlledBy p api kind n) (h1 : kind ≠ "ReplicaSet".toList)
    (h2 : kind ≠ "ReplicationController".toList) (h3 : kind ≠ "Job".toList) : (deployOf p).1 = ⟨n, kind, api⟩ := by
  obtain ⟨hg, r, ho, ha, hk, hn⟩ := h
  unfold deployOf
  simp only
  rw [if_neg hg]
  simp only [ho, hk, hn, ha]
  rw [if_neg (fun hx => h1 hx.1), if_neg (fun hx => h2 hx.1), if_neg h3]
  simp only [if_neg hn0]

/-- **C96** A pod without generated name or controller stands for itself. -/
theorem C96_bare (p : Pod) (h : p.generateName = [] ∨ p.owners.find? (·.controller) = none) :
    (deployOf p).1 = ⟨p.name, "Pod".toList, "v1".toList⟩ := by
  have hd : (if p.name = [] then p.name else p.name) = p.name := by split <;> rfl
  unfold deployOf
  simp only [hd]
  by_cases hg : p.generateName = []
  · rw [if_pos hg]
  · rw [if_neg hg]
    rcases h with h | h
    · exact absurd h hg
    · rw [h]

/-- a pod of deployment `web` -/
def webPod : Pod where
  ns := "shop".toList
  generateName := "web-5d4-".toList
  owners := [⟨false, "v1".toList, "Node".toList, "x".toList⟩, ⟨true, "apps/v1".toList, "ReplicaSet".toList, "web-5d4".toList⟩]
  labels := [("app".toList, "web".toList), ("pod-template-hash".toList, "5d4".toList)]
  containers := [{ name := "app".toList, env := [("A".toList, .lit "1".toList)] }, { name := "log".toList }]

example : ControlledBy webPod "apps/v1".toList "ReplicaSet".toList ("web".toList ++ '-' :: "5d4".toList) :=
  ⟨by decide, _, rfl, rfl, rfl, rfl⟩
example : ¬ OfDeploymentConfig webPod := by
  rintro ⟨_, ⟨r, hr, hk⟩, _⟩
  have : some (⟨true, "apps/v1".toList, "ReplicaSet".toList, "web-5d4".toList⟩ : Owner) = some r := hr
  injection this with this; subst this; exact absurd hk (by decide)
example : (mutate sampleCfg id "cm".toList [] webPod).labels.get "service.istio.io/canonical-name".toList = some "web".toList := by
  decide +kernel

end Verif.Props
