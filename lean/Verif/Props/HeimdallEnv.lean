import Verif.Heimdall.Env
import Verif.Props.HeimdallPod
/-
C97, C98: the environment of a workload.
-/
namespace Verif.Props
open Verif Verif.Heimdall

/-! ### maps and lists -/

theorem get_of_mem {m : Map} (hn : (m.map (·.1)).Nodup) {k v : Str} (h : (k, v) ∈ m) : m.get k = some v := by
  induction m with
  | nil => cases h
  | cons x m ih =>
    obtain ⟨a, b⟩ := x
    simp only [List.map_cons, List.nodup_cons] at hn
    rcases List.mem_cons.mp h with he | he
    · injection he with h1 h2; subst h1 h2; exact get_cons_self
    · have : k ≠ a := fun hk => hn.1 (hk ▸ List.mem_map.mpr ⟨(k, v), he, rfl⟩)
      rw [get_cons_ne this]; exact ih hn.2 he

theorem mem_of_get {m : Map} {k v : Str} (h : m.get k = some v) : (k, v) ∈ m := by
  unfold Map.get at h
  cases hf : m.find? (·.1 = k) with
  | none => rw [hf] at h; cases h
  | some x =>
    rw [hf] at h
    injection h with h; subst h
    have h1 := List.mem_of_find?_eq_some hf
    have h2 := List.find?_some hf
    obtain ⟨a, b⟩ := x
    simp only [decide_eq_true_eq] at h2; subst h2; exact h1

theorem get_perm {m m' : Map} (hp : m'.Perm m) (hn : (m.map (·.1)).Nodup) (k : Str) : m'.get k = m.get k := by
  have hn' : (m'.map (·.1)).Nodup := (hp.map _).nodup_iff.mpr hn
  cases h : m.get k with
  | some v => exact get_of_mem hn' (hp.mem_iff.mpr (mem_of_get h))
  | none =>
    cases h' : m'.get k with
    | none => rfl
    | some v => rw [get_of_mem hn (hp.mem_iff.mp (mem_of_get h'))] at h; cases h

theorem lookup_of_mem {env : List (Str × Str)} (pre : List (Str × Str)) (hn : (env.map (·.1)).Nodup) {k v : Str} (h : (k, v) ∈ env) :
    lookup (pre ++ env) k = some v := by
  unfold lookup
  rw [List.reverse_append]
  have hg : Map.get env.reverse k = some v := by
    refine get_of_mem ?_ (by simpa using h)
    rw [List.map_reverse]
    exact (List.reverse_perm _).nodup_iff.mpr hn
  unfold Map.get at hg ⊢
  rw [List.find?_append]
  cases hf : env.reverse.find? (·.1 = k) with
  | none => rw [hf] at hg; cases hg
  | some x => rw [hf] at hg; simpa using hg

theorem put_keys (m : Map) (k v : Str) : (m.put k v).map (·.1) = if k ∈ m.map (·.1) then m.map (·.1) else m.map (·.1) ++ [k] := by
  induction m with
  | nil => rfl
  | cons x m ih =>
    obtain ⟨a, b⟩ := x
    simp only [Map.put]
    by_cases h : a = k
    · subst h; rw [if_pos rfl]; simp
    · rw [if_neg h]
      simp only [List.map_cons, ih, List.mem_cons]
      have : ¬ k = a := fun he => h he.symm
      by_cases hm : k ∈ m.map (·.1)
      · rw [if_pos hm, if_pos (Or.inr hm)]
      · rw [if_neg hm, if_neg (by rintro (h1 | h1); exact this h1; exact hm h1)]; rfl

theorem put_nodup {m : Map} (h : (m.map (·.1)).Nodup) (k v : Str) : ((m.put k v).map (·.1)).Nodup := by
  rw [put_keys]
  split
  · exact h
  · rename_i hk
    rw [List.nodup_append]
    refine ⟨h, by simp, ?_⟩
    intro a ha b hb he
    rw [List.mem_singleton] at hb; subst hb; exact hk (he ▸ ha)

theorem putNew_nodup {m : Map} (h : (m.map (·.1)).Nodup) (k v : Str) : ((putNew m k v).map (·.1)).Nodup := by
  unfold putNew; split
  · exact h
  · exact put_nodup h k v

theorem setLabels_nodup (c : Config) (p : Pod) (hd : ¬ OfDeploymentConfig p) (h : (p.labels.map (·.1)).Nodup) :
    ((setLabels c p).labels.map (·.1)).Nodup := by
  unfold setLabels
  simp only [deployOf_labels p hd]
  exact put_nodup (put_nodup (putNew_nodup (putNew_nodup (putNew_nodup h _ _) _ _) _ _) _ _) _ _

theorem trim_free {s : Str} (h : ' ' ∉ s) : trim s = s := by
  have hd : ∀ t : Str, ' ' ∉ t → t.dropWhile (· = ' ') = t := by
    intro t ht
    cases t with
    | nil => rfl
    | cons x t =>
      have : x ≠ ' ' := fun he => ht (he ▸ .head _)
      simp [List.dropWhile, this]
  unfold trim
  rw [hd s h, hd s.reverse (by simpa using h), List.reverse_reverse]

/-- texts that survive a comma separated list -/
def Plain (s : Str) : Prop := ',' ∉ s ∧ ' ' ∉ s

instance (s : Str) : Decidable (Plain s) := by unfold Plain; infer_instance

theorem join_nil {l : List Str} (h : join ',' l = []) (hl : l ≠ []) : l = [[]] := by
  cases l with
  | nil => exact absurd rfl hl
  | cons p l => cases l with
    | nil => simp only [join] at h; rw [h]
    | cons q l => simp [join] at h

theorem parseList_join {l : List Str} (h : ∀ x ∈ l, Plain x ∧ x ≠ []) : parseList (join ',' l) = l := by
  unfold parseList
  cases l with
  | nil => rfl
  | cons p l =>
    rw [if_neg (fun he => by have := join_nil he (by simp); injection this with h1 _; exact (h p (by simp)).2 h1)]
    rw [split_join ',' _ (by simp) (fun x hx => (h x hx).1.1)]
    exact (List.map_congr_left (fun x hx => trim_free (h x hx).1.2)).trans (by simp)

theorem parseMapItems_labels (l : Map) (h : ∀ kv ∈ l, ':' ∉ kv.1 ∧ Plain kv.1 ∧ Plain kv.2) :
    parseMapItems (l.map fun kv => kv.1 ++ ':' :: kv.2) = some l := by
  induction l with
  | nil => rfl
  | cons x l ih =>
    obtain ⟨a, b⟩ := x
    have hx := h (a, b) (by simp)
    simp only [List.map_cons, parseMapItems]
    rw [split2_append ':' a b hx.1, ih (fun kv hk => h kv (by simp [hk]))]
    simp [trim_free hx.2.1.2, trim_free hx.2.2.2]

theorem parseMap_labels (l : Map) (hl : l ≠ []) (h : ∀ kv ∈ l, ':' ∉ kv.1 ∧ Plain kv.1 ∧ Plain kv.2) :
    parseMap (join ',' (l.map fun kv => kv.1 ++ ':' :: kv.2)) = some l := by
  unfold parseMap
  rw [if_neg]
  · rw [split_join ',']
    · exact parseMapItems_labels l h
    · simpa using hl
    · intro x hx
      obtain ⟨kv, hk, rfl⟩ := List.mem_map.mp hx
      have := h kv hk
      intro hc
      rcases List.mem_append.mp hc with hc | hc
      · exact this.2.1.1 hc
      · rcases List.mem_cons.mp hc with hc | hc
        · exact absurd hc (by decide)
        · exact this.2.2.1 hc
  · intro he
    cases l with
    | nil => exact hl rfl
    | cons x l =>
      have h1 := join_nil he (by simp)
      simp only [List.map_cons] at h1
      injection h1 with h1 _
      simp at h1

/-! ### C97 -/

def naspKeys : List Str := ["NASP_ENABLED".toList, "NASP_TYPE".toList, "NASP_POD_NAME".toList, "NASP_POD_NAMESPACE".toList,
  "NASP_POD_OWNER".toList, "NASP_POD_SERVICE_ACCOUNT".toList, "NASP_WORKLOAD_NAME".toList, "NASP_APP_CONTAINERS".toList,
  "NASP_INSTANCE_IP".toList, "NASP_LABELS".toList, "NASP_NETWORK".toList, "NASP_SEARCH_DOMAINS".toList, "NASP_CLUSTER_ID".toList,
  "NASP_DNS_DOMAIN".toList, "NASP_MESH_ID".toList, "NASP_ISTIO_CA_ADDR".toList, "NASP_ISTIO_VERSION".toList,
  "NASP_ISTIO_REVISION".toList]

theorem naspKeys_nodup : naspKeys.Nodup := by decide +kernel

/-- what a process reads, if its last variables are those of the mutation -/
theorem readEnv_nasp (field : Str → Str) (pre : List (Str × EnvVal)) (c : Config) (ns : Str) (d : Deploy) (names : List Str) (labels : Str) :
    readEnv (lookup (resolve field (pre ++ naspEnv c ns d names labels))) "NASP_".toList = (parseMap labels).map fun m =>
      { enabled := true, type := "sidecar".toList, podName := field "metadata.name".toList,
        podNamespace := field "metadata.namespace".toList, podOwner := ownerText ns d,
        podServiceAccount := field "spec.serviceAccountName".toList, workloadName := d.name,
        appContainers := parseList (join ',' names), instanceIPs := parseList (field "status.podIPs".toList), labels := m,
        network := c.network, searchDomains := parseList (ns ++ ".svc.cluster.local,svc.cluster.local".toList),
        clusterID := c.cluster, dnsDomain := "cluster.local".toList, meshID := c.mesh, istioCAAddress := c.ca,
        istioVersion := c.version, istioRevision := c.revision } := by
  have hres : resolve field (pre ++ naspEnv c ns d names labels) = resolve field pre ++ resolve field (naspEnv c ns d names labels) := by
    simp [resolve]
  have hn : ((resolve field (naspEnv c ns d names labels)).map (·.1)).Nodup := naspKeys_nodup
  have L : ∀ (i : Nat) (k v : Str), (resolve field (naspEnv c ns d names labels))[i]? = some (k, v) →
      lookup (resolve field (pre ++ naspEnv c ns d names labels)) k = some v := by
    intro i k v h
    rw [hres]; exact lookup_of_mem _ hn (List.mem_of_getElem? h)
  have e0 := L 0 ("NASP_".toList ++ "ENABLED".toList) _ rfl
  have e1 := L 1 ("NASP_".toList ++ "TYPE".toList) _ rfl
  have e2 := L 2 ("NASP_".toList ++ "POD_NAME".toList) _ rfl
  have e3 := L 3 ("NASP_".toList ++ "POD_NAMESPACE".toList) _ rfl
  have e4 := L 4 ("NASP_".toList ++ "POD_OWNER".toList) _ rfl
  have e5 := L 5 ("NASP_".toList ++ "POD_SERVICE_ACCOUNT".toList) _ rfl
  have e6 := L 6 ("NASP_".toList ++ "WORKLOAD_NAME".toList) _ rfl
  have e7 := L 7 ("NASP_".toList ++ "APP_CONTAINERS".toList) _ rfl
  have e8 := L 8 ("NASP_".toList ++ "INSTANCE_IP".toList) _ rfl
  have e9 := L 9 ("NASP_".toList ++ "LABELS".toList) _ rfl
  have e10 := L 10 ("NASP_".toList ++ "NETWORK".toList) _ rfl
  have e11 := L 11 ("NASP_".toList ++ "SEARCH_DOMAINS".toList) _ rfl
  have e12 := L 12 ("NASP_".toList ++ "CLUSTER_ID".toList) _ rfl
  have e13 := L 13 ("NASP_".toList ++ "DNS_DOMAIN".toList) _ rfl
  have e14 := L 14 ("NASP_".toList ++ "MESH_ID".toList) _ rfl
  have e15 := L 15 ("NASP_".toList ++ "ISTIO_CA_ADDR".toList) _ rfl
  have e16 := L 16 ("NASP_".toList ++ "ISTIO_VERSION".toList) _ rfl
  have e17 := L 17 ("NASP_".toList ++ "ISTIO_REVISION".toList) _ rfl
  unfold readEnv
  generalize lookup (resolve field (pre ++ naspEnv c ns d names labels)) = g at *
  simp only [e0, e1, e2, e3, e4, e5, e6, e7, e8, e9, e10, e11, e12, e13, e14, e15, e16, e17, Option.getD_some, Option.map_some,
    decide_true]

/-- labels as Kubernetes accepts them (as far as it matters here) -/
def GoodLabels (m : Map) : Prop := ∀ kv ∈ m, ':' ∉ kv.1 ∧ Plain kv.1 ∧ Plain kv.2

/-- **C97** In every container of a mutated pod, whatever variables it had before, the library reads the configuration of the mesh, the
identity of the running pod, the names of its containers, its addresses and exactly its labels, in whatever order they were written. -/
theorem C97_environment (c : Config) (order : Map → Map) (cm reqNs : Str) (p : Pod) (field : Str → Str) (ips : List Str)
    (hord : ∀ m, (order m).Perm m) (hd : ¬ OfDeploymentConfig p) (hn : (p.labels.map (·.1)).Nodup)
    (hl : GoodLabels (mutate c order cm reqNs p).labels) (hc : ∀ k ∈ p.containers, Plain k.name ∧ k.name ≠ [])
    (hi : ∀ x ∈ ips, Plain x ∧ x ≠ []) (hf : field "status.podIPs".toList = join ',' ips) (hns : Plain (mutate c order cm reqNs p).ns) :
    let q := mutate c order cm reqNs p
    ∀ k ∈ q.containers, ∃ e, readEnv (lookup (resolve field k.env)) "NASP_".toList = some e ∧
      e.enabled = true ∧ e.type = "sidecar".toList ∧ e.podName = field "metadata.name".toList ∧
      e.podNamespace = field "metadata.namespace".toList ∧ e.podServiceAccount = field "spec.serviceAccountName".toList ∧
      e.workloadName = (deployOf q).1.name ∧ e.appContainers = p.containers.map (·.name) ∧ e.instanceIPs = ips ∧
      (∀ key, e.labels.get key = q.labels.get key) ∧
      e.searchDomains = [q.ns ++ ".svc.cluster.local".toList, "svc.cluster.local".toList] ∧
      e.clusterID = c.cluster ∧ e.meshID = c.mesh ∧ e.network = c.network ∧ e.istioCAAddress = c.ca ∧ e.istioVersion = c.version ∧
      e.istioRevision = c.revision ∧ e.dnsDomain = "cluster.local".toList := by
  intro q k hk
  generalize hp0 : (if p.ns = [] then { p with ns := reqNs } else p) = p0
  have hc0 : p0.containers = p.containers := by rw [← hp0]; split <;> rfl
  have hl0 : p0.labels = p.labels := by rw [← hp0]; split <;> rfl
  have ho0 : p0.owners = p.owners := by rw [← hp0]; split <;> rfl
  have hg0 : p0.generateName = p.generateName := by rw [← hp0]; split <;> rfl
  have hd1 : ¬ OfDeploymentConfig (setAnnotations p0) := by
    intro h; apply hd
    unfold OfDeploymentConfig setAnnotations at h
    simp only [hl0, ho0, hg0] at h; exact h
  generalize hp1 : setLabels c (setAnnotations p0) = p1 at *
  have hd2 : ¬ OfDeploymentConfig p1 := hp1 ▸ setLabels_not_dc c _ hd1
  have hn1 : (p1.labels.map (·.1)).Nodup := by
    rw [← hp1]; exact setLabels_nodup c _ hd1 (by simpa [setAnnotations, hl0] using hn)
  have hc1 : p1.containers = p.containers := by rw [← hp1, ← hc0]; rfl
  have hq : q = setMounts (setVolumes cm (setEnvs c order p1)) := by simp only [q, mutate, hp0, hp1]
  have hql : q.labels = p1.labels := by
    rw [hq]; simp only [setMounts, setVolumes, setEnvs]; exact deployOf_labels p1 hd2
  have hqns : q.ns = p1.ns := by rw [hq]; rfl
  have hdq : (deployOf q).1 = (deployOf p1).1 := by
    have : q.generateName = p1.generateName ∧ q.owners = p1.owners ∧ q.name = p1.name := by rw [hq]; exact ⟨rfl, rfl, rfl⟩
    unfold deployOf
    rw [this.1, this.2.1, this.2.2, hql]
  have hk' := hk
  rw [hq] at hk'
  simp only [setMounts, setVolumes, setEnvs, List.map_map, List.mem_map] at hk'
  obtain ⟨k0, hk0, rfl⟩ := hk'
  simp only [Function.comp]
  rw [readEnv_nasp]
  have hlab : parseMap (labelsText order (deployOf p1).2) = some (order p1.labels) := by
    rw [deployOf_labels p1 hd2]
    refine parseMap_labels _ ?_ ?_
    · intro he
      have := (hord p1.labels).length_eq
      rw [he] at this
      have h0 : p1.labels = [] := List.length_eq_zero_iff.mp this.symm
      have : p1.labels.get "topology.istio.io/network".toList = some c.network := by
        rw [← hp1]; exact get_put_same _ _ _
      rw [h0] at this; cases this
    · intro kv hkv
      exact hl kv (by show kv ∈ q.labels; rw [hql]; exact (hord _).mem_iff.mp hkv)
  rw [hlab]
  refine ⟨_, rfl, rfl, rfl, rfl, rfl, rfl, ?_, ?_, ?_, ?_, ?_, rfl, rfl, rfl, rfl, rfl, rfl, rfl⟩
  · rw [hdq]
  · rw [hc1]; exact parseList_join (by intro x hx; obtain ⟨k, hk, rfl⟩ := List.mem_map.mp hx; exact hc k hk)
  · rw [hf]; exact parseList_join hi
  · intro key; rw [hql]; exact get_perm (hord _) hn1 key
  · rw [hqns]
    have hP : Plain p1.ns := hqns ▸ hns
    have := parseList_join (l := [p1.ns ++ ".svc.cluster.local".toList, "svc.cluster.local".toList]) (by
      intro x hx
      simp only [List.mem_cons, List.not_mem_nil, or_false] at hx
      rcases hx with rfl | rfl
      · refine ⟨⟨?_, ?_⟩, ?_⟩
        · intro h; rcases List.mem_append.mp h with h | h
          · exact hP.1 h
          · exact absurd h (by decide)
        · intro h; rcases List.mem_append.mp h with h | h
          · exact hP.2 h
          · exact absurd h (by decide)
        · intro h; have := congrArg List.length h; simp at this
      · exact ⟨by decide, by decide⟩)
    rw [← this]
    congr 1
    simp only [join]
    rw [List.append_assoc]; rfl

/-- the hypotheses hold for the pod of a deployment -/
example : GoodLabels (mutate sampleCfg List.reverse "cm".toList [] webPod).labels ∧ (webPod.labels.map (·.1)).Nodup ∧
    (∀ k ∈ webPod.containers, Plain k.name ∧ k.name ≠ []) ∧ Plain (mutate sampleCfg List.reverse "cm".toList [] webPod).ns := by
  unfold GoodLabels
  decide +kernel

/-! ### C98 -/

/-- **C98** The node id names type, address, pod and domain: if these contain no tilde, the management server reads them back. -/
theorem C98_node (e : IstioEnv) (ip : Str) (hi : e.instanceIPs.head? = some ip)
    (h : ∀ s ∈ [e.type, ip, e.podName, e.podNamespace, e.dnsDomain], '~' ∉ s) :
    ∃ dom, split '~' (nodeID e) = [e.type, ip, e.podName ++ '.' :: e.podNamespace, e.podNamespace ++ ".svc.".toList ++ dom] ∧
      (e.dnsDomain ≠ [] → dom = e.dnsDomain) ∧ (e.dnsDomain = [] → dom = "cluster.local".toList) := by
  have h1 := h e.type (by simp)
  have h2 := h ip (by simp)
  have h3 := h e.podName (by simp)
  have h4 := h e.podNamespace (by simp)
  have h5 := h e.dnsDomain (by simp)
  have hdom : '~' ∉ dnsDomainOf e := by
    unfold dnsDomainOf; split
    · decide
    · exact h5
  refine ⟨dnsDomainOf e, ?_, ?_, ?_⟩
  · unfold nodeID
    rw [hi]
    refine split_join '~' _ (by simp) ?_
    intro s hs
    simp only [List.mem_cons, List.not_mem_nil, or_false, Option.getD_some] at hs
    rcases hs with rfl | rfl | rfl | rfl
    · exact h1
    · exact h2
    · intro hm
      rcases List.mem_append.mp hm with hm | hm
      · exact h3 hm
      · rcases List.mem_cons.mp hm with hm | hm
        · exact absurd hm (by decide)
        · exact h4 hm
    · intro hm
      rcases List.mem_append.mp hm with hm | hm
      · rcases List.mem_append.mp hm with hm | hm
        · exact h4 hm
        · exact absurd hm (by decide)
      · exact hdom hm
  · intro hne; unfold dnsDomainOf
    rw [if_neg]; intro h0; exact hne (List.length_eq_zero_iff.mp h0)
  · intro he; unfold dnsDomainOf; rw [he]; rfl

/-- **C98** Pods with different names, and namespaces that contain no dot as in Kubernetes, have different node ids. -/
theorem C98_distinct (e e' : IstioEnv) (ip ip' : Str) (hi : e.instanceIPs.head? = some ip) (hi' : e'.instanceIPs.head? = some ip')
    (h : ∀ s ∈ [e.type, ip, e.podName, e.podNamespace, e.dnsDomain], '~' ∉ s)
    (h' : ∀ s ∈ [e'.type, ip', e'.podName, e'.podNamespace, e'.dnsDomain], '~' ∉ s)
    (hd : '.' ∉ e.podNamespace) (hd' : '.' ∉ e'.podNamespace) (heq : nodeID e = nodeID e') :
    e.type = e'.type ∧ ip = ip' ∧ e.podName = e'.podName ∧ e.podNamespace = e'.podNamespace := by
  obtain ⟨d1, hs, _⟩ := C98_node e ip hi h
  obtain ⟨d2, hs', _⟩ := C98_node e' ip' hi' h'
  rw [heq, hs'] at hs
  injection hs with h1 hs; injection hs with h2 hs; injection hs with h3 hs
  have hrev : (e.podNamespace.reverse ++ '.' :: e.podName.reverse) = (e'.podNamespace.reverse ++ '.' :: e'.podName.reverse) := by
    have := congrArg List.reverse h3
    simpa using this.symm
  have s1 := split2_append '.' e.podNamespace.reverse e.podName.reverse (by simpa using hd)
  have s2 := split2_append '.' e'.podNamespace.reverse e'.podName.reverse (by simpa using hd')
  rw [hrev, s2] at s1
  injection s1 with h4 h5
  injection h5 with h5
  exact ⟨h1.symm, h2.symm, by simpa using congrArg List.reverse h5.symm, by simpa using congrArg List.reverse h4.symm⟩

/-- **C200** What heimdall says about a workload takes effect, except as below. -/
theorem C200_override_partial (e o : IstioEnv) (h1 : e.enabled = o.enabled) (h2 : e.secretTTL = o.secretTTL)
    (h3 : e.trustDomain = o.trustDomain) : override e o = o := by
  cases e; cases o; simp only at h1 h2 h3; subst h1 h2 h3; rfl

def envOf (td : String) : IstioEnv :=
  { type := "sidecar".toList, podName := "p".toList, podNamespace := "n".toList, podServiceAccount := "s".toList,
    instanceIPs := ["10.0.0.1".toList], dnsDomain := "cluster.local".toList, trustDomain := td.toList }

/-- **C200 is false of the code**: the trust domain of the other environment is not taken over, -/
theorem C200_override_false : ∃ e o : IstioEnv, (override e o).trustDomain ≠ o.trustDomain ∧ (override e o).secretTTL ≠ o.secretTTL :=
  ⟨envOf "a", { envOf "b" with secretTTL := 5 }, by decide, by decide⟩

/-- and the identity ignores it: two workloads of different trust domains have one SPIFFE id. -/
theorem C200_spiffe_false : ∃ e e' : IstioEnv, e.trustDomain ≠ e'.trustDomain ∧ e.trustDomain ≠ [] ∧ e'.trustDomain ≠ [] ∧
    spiffeID e = spiffeID e' := ⟨envOf "a", envOf "b", by decide, by decide, by decide, by decide⟩

/-- a workload without address has a node id with an empty address -/
theorem C200_no_address_false : ∃ e : IstioEnv, split '~' (nodeID e) =
    ["sidecar".toList, [], "p.n".toList, "n.svc.cluster.local".toList] := ⟨{ envOf "a" with instanceIPs := [] }, by decide +kernel⟩

example : split '~' (nodeID (envOf "a")) = ["sidecar".toList, "10.0.0.1".toList, "p.n".toList, "n.svc.cluster.local".toList] := by
  decide +kernel

end Verif.Props
