import Verif.Heimdall.Text
/-
Model of components/heimdall/pkg/webhooks/pod_mutator.go and pkg/k8sutil/meta.go: the mutation of a pod.
Maps are association lists without repeated keys; the iteration order of a map is the parameter `order`. What the mutator does not
touch in a container or a pod is opaque (`rest`). Decoding, the computation of the JSON patch and the retrieval of the CA config map
(whose name is a parameter) are not modelled.
-/
namespace Verif.Heimdall

/-- a Go map -/
abbrev Map := List (Str × Str)

/-- a Go map access with `ok` -/
def Map.get (m : Map) (k : Str) : Option Str := (m.find? (·.1 = k)).map (·.2)
/-- the value of a missing key is the empty string in Go; (a Go map access) -/
def Map.val (m : Map) (k : Str) : Str := (m.get k).getD []
/-- a Go map assignment -/
def Map.put : Map → Str → Str → Map
  | [], k, v => [(k, v)]
  | (k', v') :: r, k, v => if k' = k then (k, v) :: r else (k', v') :: Map.put r k v
/-- Go's `delete` -/
def Map.del (m : Map) (k : Str) : Map := m.filter (·.1 ≠ k)

/-- as used in components/heimdall/pkg/webhooks/pod_mutator.go -/
inductive EnvVal where
  | lit (v : Str)
  | field (path : Str)
deriving DecidableEq, Repr

/-- as used in components/heimdall/pkg/webhooks/pod_mutator.go -/
structure Container where
  name : Str
  env : List (Str × EnvVal) := []
  ports : List (Nat × Str) := []
  mounts : List (Str × Str) := []
  rest : Nat := 0
deriving DecidableEq, Repr

/-- as used in components/heimdall/pkg/webhooks/pod_mutator.go -/
inductive VolSrc where
  | token (audience path : Str)
  | configMap (name : Str)
  | opaque (n : Nat)
deriving DecidableEq, Repr

/-- as used in components/heimdall/pkg/webhooks/pod_mutator.go -/
structure Owner where
  controller : Bool
  apiVersion : Str
  kind : Str
  name : Str
deriving DecidableEq, Repr

/-- as used in components/heimdall/pkg/webhooks/pod_mutator.go -/
structure Pod where
  ns : Str
  name : Str := []
  generateName : Str := []
  owners : List Owner := []
  labels : Map := []
  annotations : Map := []
  containers : List Container := []
  volumes : List (Str × VolSrc) := []
  rest : Nat := 0
deriving DecidableEq, Repr

/-- as used in components/heimdall/pkg/webhooks/pod_mutator.go -/
structure Config where
  cluster : Str
  mesh : Str
  version : Str
  ca : Str
  network : Str
  revision : Str

/-! ### the workload of a pod -/

/-- as used in components/heimdall/pkg/webhooks/pod_mutator.go -/
structure Deploy where
  name : Str
  kind : Str
  apiVersion : Str
deriving DecidableEq, Repr

/-- `strings.TrimSuffix` -/
def trimSuffix (s suf : Str) : Str := if suf.isSuffixOf s then s.take (s.length - suf.length) else s

/-- meta.go:26, 82: `(.+)-\d{8,10}$`: the part before the last dash, if at least one character precedes the dash and eight to
ten digits follow it (the digits contain no dash, so the match is unique) -/
def cronName (s : Str) : Option Str :=
  let digits := (s.reverse.takeWhile Char.isDigit)
  match s.reverse.drop digits.length with
  | '-' :: (c :: p) => if 8 ≤ digits.length ∧ digits.length ≤ 10 then some (c :: p).reverse else none
  | _ => none

/-- meta.go:29-98 `GetDeployMetaFromPod`; the second component are the labels of the pod afterwards: the copy of the metadata shares
the map with the pod, so meta.go:78 deletes the label from the pod -/
def deployOf (p : Pod) : Deploy × Map :=
  let dflt := fun (n : Str) => if n = [] then p.name else n
  if p.generateName = [] then (⟨dflt p.name, "Pod".toList, "v1".toList⟩, p.labels)
  else match p.owners.find? (·.controller) with
    | none => (⟨dflt p.name, "Pod".toList, "v1".toList⟩, p.labels)
    | some r =>
      let hash := p.labels.val "pod-template-hash".toList
      let dc := p.labels.val "deploymentconfig".toList
      if r.kind = "ReplicaSet".toList ∧ hash ≠ [] ∧ hash.isSuffixOf r.name then
        (⟨dflt (trimSuffix r.name ('-' :: hash)), "Deployment".toList, r.apiVersion⟩, p.labels)
      else if r.kind = "ReplicationController".toList ∧ dc ≠ [] then
        (⟨dflt dc, "DeploymentConfig".toList, r.apiVersion⟩, p.labels.del "deploymentconfig".toList)
      else if r.kind = "Job".toList then
        match cronName r.name with
        | some n => (⟨dflt n, "CronJob".toList, "batch/v1beta1".toList⟩, p.labels)
        | none => (⟨dflt r.name, r.kind, r.apiVersion⟩, p.labels)
      else (⟨dflt r.name, r.kind, r.apiVersion⟩, p.labels)

/-! ### the mutation -/

/-- pod_mutator.go:189-197 -/
def setAnnotations (p : Pod) : Pod :=
  { p with annotations := ((((p.annotations.put "sidecar.istio.io/inject".toList "false".toList).put
      "prometheus.io/path".toList "/stats/prometheus".toList).put "prometheus.io/port".toList "16090".toList).put
      "prometheus.io/scrape".toList "true".toList) }

/-- pod_mutator.go:200-208 -/
def firstValue : List Str → Str
  | [] => []
  | v :: vs => if v ≠ [] then v else firstValue vs

/-- pod_mutator.go:214-222: a label that is set only if it is missing -/
def putNew (m : Map) (k v : Str) : Map := if (m.get k).isSome then m else m.put k v

/-- pod_mutator.go:199-226 -/
def setLabels (c : Config) (p : Pod) : Pod :=
  let d := deployOf p
  let l1 := putNew d.2 "security.istio.io/tlsMode".toList "istio".toList
  let l2 := putNew l1 "service.istio.io/canonical-name".toList
    (firstValue [l1.val "app.kubernetes.io/name".toList, l1.val "app".toList, d.1.name])
  let l3 := putNew l2 "service.istio.io/canonical-revision".toList
    (firstValue [l2.val "app.kubernetes.io/version".toList, l2.val "version".toList, "latest".toList])
  { p with labels := (l3.put "istio.io/rev".toList c.revision).put "topology.istio.io/network".toList c.network }

/-- pod_mutator.go:236-239, 306-309: the labels in some order -/
def labelsText (order : Map → Map) (m : Map) : Str := join ',' ((order m).map fun kv => kv.1 ++ ':' :: kv.2)

/-- `strings.ToLower` -/
def lower (s : Str) : Str := s.map Char.toLower

/-- pod_mutator.go:179-187 -/
def ownerText (ns : Str) (d : Deploy) : Str :=
  "kubernetes://apis/".toList ++ d.apiVersion ++ "/namespaces/".toList ++ ns ++ '/' :: (lower d.kind ++ 's' :: '/' :: d.name)

/-- pod_mutator.go:253-341: the variables added to every container -/
def naspEnv (c : Config) (ns : Str) (d : Deploy) (names : List Str) (labels : Str) : List (Str × EnvVal) :=
  [("NASP_ENABLED".toList, .lit "true".toList),
   ("NASP_TYPE".toList, .lit "sidecar".toList),
   ("NASP_POD_NAME".toList, .field "metadata.name".toList),
   ("NASP_POD_NAMESPACE".toList, .field "metadata.namespace".toList),
   ("NASP_POD_OWNER".toList, .lit (ownerText ns d)),
   ("NASP_POD_SERVICE_ACCOUNT".toList, .field "spec.serviceAccountName".toList),
   ("NASP_WORKLOAD_NAME".toList, .lit d.name),
   ("NASP_APP_CONTAINERS".toList, .lit (join ',' names)),
   ("NASP_INSTANCE_IP".toList, .field "status.podIPs".toList),
   ("NASP_LABELS".toList, .lit labels),
   ("NASP_NETWORK".toList, .lit c.network),
   ("NASP_SEARCH_DOMAINS".toList, .lit (ns ++ ".svc.cluster.local,svc.cluster.local".toList)),
   ("NASP_CLUSTER_ID".toList, .lit c.cluster),
   ("NASP_DNS_DOMAIN".toList, .lit "cluster.local".toList),
   ("NASP_MESH_ID".toList, .lit c.mesh),
   ("NASP_ISTIO_CA_ADDR".toList, .lit c.ca),
   ("NASP_ISTIO_VERSION".toList, .lit c.version),
   ("NASP_ISTIO_REVISION".toList, .lit c.revision)]

/-- pod_mutator.go:228-345 -/
def setEnvs (c : Config) (order : Map → Map) (p : Pod) : Pod :=
  let d := deployOf p
  let names := p.containers.map (·.name)
  { p with
    labels := d.2
    containers := p.containers.map fun k => { k with
      ports := k.ports ++ [(16090, "http-envoy-prom".toList)]
      env := k.env ++ naspEnv c p.ns d.1 names (labelsText order d.2) } }

/-- pod_mutator.go:139-177 -/
def setVolumes (cm : Str) (p : Pod) : Pod :=
  { p with volumes := p.volumes ++ [("istio-token".toList, .token "istio-ca".toList "istio-token".toList),
      ("istiod-ca-cert".toList, .configMap cm)] }

/-- pod_mutator.go:118-137 -/
def setMounts (p : Pod) : Pod :=
  { p with containers := p.containers.map fun k => { k with
      mounts := k.mounts ++ [("istiod-ca-cert".toList, "/var/run/secrets/istio".toList),
        ("istio-token".toList, "/var/run/secrets/tokens".toList)] } }

/-- pod_mutator.go:69-110 `Handle`: the pod after the mutation; `reqNs` is the namespace of the request -/
def mutate (c : Config) (order : Map → Map) (cm reqNs : Str) (p : Pod) : Pod :=
  let p := if p.ns = [] then { p with ns := reqNs } else p
  setMounts (setVolumes cm (setEnvs c order (setLabels c (setAnnotations p))))

end Verif.Heimdall
