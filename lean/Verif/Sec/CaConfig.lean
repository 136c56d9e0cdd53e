import Verif.Heimdall.Text
/-
Model of how the configuration for the CA of the mesh is found: pkg/ca/istio/config.go:86-176 (`GetIstioCAClientConfigWithKubeConfig`),
204-415 (the lookups in the cluster), pkg/k8s/service/endpoint.go, and of the choice of the source in pkg/istio/istio.go:99-121
(`IstioCAConfigGetterAuto`) and pkg/ca/istio/config.go:445-496 (`GetIstioCAClientConfigFromHeimdall`).

The cluster answers every call (errors of the API make the functions return an error); lists are in the order of the API server. Not
modelled, taken as parameters: DNS, YAML and JSON of the mesh configuration, how the token is obtained, what a gateway resource contains.
-/
namespace Verif.Sec.CaConfig
open Verif.Heimdall

/-- texts and file contents of pkg/ca/istio/config.go -/
abbrev Bytes := List UInt8
/-- labels and label selectors of Kubernetes objects -/
abbrev Labels := List (Str × Str)

/-- `client.MatchingLabels`; (controller-runtime, used in pkg/ca/istio/config.go:204-347) -/
def has (l : Labels) (sel : Labels) : Bool := sel.all fun e => l.lookup e.1 == some e.2

/-- `corev1.ServiceType`, as distinguished in pkg/k8s/service/endpoint.go:68-83 -/
inductive SvcType where
  | clusterIP | nodePort | loadBalancer | externalName
deriving Repr, DecidableEq

/-- what pkg/k8s/service/endpoint.go:36-86 and pkg/ca/istio/config.go read of a service -/
structure Svc where
  name : Str
  ns : Str
  labels : Labels
  type : SvcType
  clusterIP : Str
  /-- IP and host name of each ingress -/
  ingress : List (Str × Str)
  annotations : Labels
deriving Repr, DecidableEq

/-- what pkg/ca/istio/config.go:312-402 reads of a config map -/
structure ConfigMap where
  name : Str
  ns : Str
  labels : Labels
  data : List (Str × Str)
deriving Repr, DecidableEq

/-- an `IstioMeshGateway`: the first address in its status, if there is one that is a string; (pkg/ca/istio/config.go:267-298) -/
structure Imgw where
  ns : Str
  labels : Labels
  address : Option Str
deriving Repr, DecidableEq

/-- what the API server holds (the environment of pkg/ca/istio/config.go) -/
structure Cluster where
  services : List Svc
  configMaps : List ConfigMap
  imgws : List Imgw
deriving Repr, DecidableEq

/-- the result of a Go function: value, error or panic -/
inductive Res (α : Type) where
  | ok (a : α)
  | error
  | panic
deriving Repr, DecidableEq

/-- `net.LookupIP`, in the order of the bytes of the addresses: each with whether it is of version 4; `none`: an error; (the environment of pkg/k8s/service/endpoint.go:88-105) -/
abbrev Dns := Str → Option (List (Str × Bool))

/-- pkg/k8s/service/endpoint.go (constant) -/
def ipOverride : Str := "service.banzaicloud.io/ip-address-override".toList
/-- pkg/k8s/service/endpoint.go (constant) -/
def hostOverride : Str := "service.banzaicloud.io/hostname-override".toList
/-- `corev1.ClusterIPNone` (pkg/k8s/service/endpoint.go:68-83) -/
def headless : Str := "None".toList

/-- endpoint.go:88-105 `getIPsForHostname` -/
def hostIPs (dns : Dns) (h : Str) : Option (List Str) := (dns h).map fun l => (l.filter (·.2)).map (·.1)

/-- endpoint.go:68-83: the address by the type of the service -/
def byType (dns : Dns) (s : Svc) : Res (List Str) := match s.type with
  | .clusterIP => .ok (if s.clusterIP ≠ headless then [s.clusterIP] else [])
  | .loadBalancer => match s.ingress with
    | [] => .panic
    | (ip, h) :: _ =>
      if ip ≠ [] then .ok [ip]
      else if h ≠ [] then (match hostIPs dns h with
        | none => .error
        | some l => .ok l)
      else .ok []
  | _ => .ok []

/-- the value of an annotation, if it is there and not empty; pkg/k8s/service/endpoint.go:36-66 -/
def annotation (s : Svc) (k : Str) : Option Str := match s.annotations.lookup k with
  | some v => if v ≠ [] then some v else none
  | none => none

/-- endpoint.go:36-86 `GetServiceEndpointIPs` -/
def endpointIPs (dns : Dns) (s : Svc) : Res (List Str) :=
  if s.type = .loadBalancer ∧ s.ingress = [] then .error
  else match annotation s ipOverride with
    | some ip => .ok [ip]
    | none => match annotation s hostOverride with
      | some h => (match hostIPs dns h with
        | none => .error
        | some l => .ok l)
      | none => byType dns s

/-- constant of pkg/ca/istio/config.go:204-402 -/
def istioNs : Str := "istio-system".toList
/-- constant of pkg/ca/istio/config.go:204-402 -/
def kIstio : Str := "istio".toList
/-- constant of pkg/ca/istio/config.go:204-402 -/
def kRev : Str := "istio.io/rev".toList
/-- constant of pkg/ca/istio/config.go:312-347 -/
def kConfig : Str := "istio.io/config".toList
/-- constant of pkg/ca/istio/config.go:204-310 -/
def kApp : Str := "app".toList
/-- constant of pkg/ca/istio/config.go:312-347 -/
def vTrue : Str := "true".toList
/-- constant of pkg/ca/istio/config.go:204-235 -/
def vIstiod : Str := "istiod".toList
/-- constant of pkg/ca/istio/config.go:204-235 -/
def vPilot : Str := "pilot".toList
/-- constant of pkg/ca/istio/config.go:237-257 -/
def vEastWest : Str := "eastwestgateway".toList
/-- constant of pkg/ca/istio/config.go:259-310 -/
def vMexp : Str := "istio-meshexpansion-gateway".toList
/-- constant of pkg/ca/istio/config.go:349-402 -/
def kMesh : Str := "mesh".toList
/-- constant of pkg/ca/istio/config.go:312-347 -/
def kRoot : Str := "root-cert.pem".toList

/-- `c.List(…, client.MatchingLabels(…))` of services (pkg/ca/istio/config.go:204-257) -/
def Cluster.svcs (c : Cluster) (sel : Labels) : List Svc := c.services.filter fun s => s.ns = istioNs ∧ has s.labels sel = true
/-- `c.List(…, client.MatchingLabels(…))` of config maps (pkg/ca/istio/config.go:312-402) -/
def Cluster.cms (c : Cluster) (sel : Labels) : List ConfigMap := c.configMaps.filter fun s => s.ns = istioNs ∧ has s.labels sel = true

/-- the first list that is not empty, of several tried in order; (pkg/ca/istio/config.go:204-235) -/
def firstOf {α : Type} : List (List α) → Option α
  | [] => none
  | [] :: r => firstOf r
  | (a :: _) :: _ => some a

/-- config.go:204-235 `GetIstiodService` -/
def istiod (c : Cluster) (rev : Str) : Option Svc := firstOf [c.svcs [(kIstio, vIstiod), (kRev, rev)], c.svcs [(kIstio, vPilot), (kRev, rev)]]

/-- config.go:237-257 `GetEastWestGWAddress`; `none` as the result: there is no such service -/
def eastWest (dns : Dns) (c : Cluster) (rev : Str) : Res (Option Str) := match c.svcs [(kIstio, vEastWest), (kRev, rev)] with
  | [] => .ok none
  | s :: _ => match endpointIPs dns s with
    | .ok (ip :: _) => .ok (some ip)
    | .ok [] => .panic
    | .error => .error
    | .panic => .panic

/-- config.go:276-310 `GetIMGWAddress` -/
def imgw (c : Cluster) (rev : Str) : Option Str :=
  match c.imgws.filter fun g => g.ns = istioNs ∧ has g.labels [(kApp, vMexp), (kRev, rev)] = true with
  | [] => none
  | g :: _ => match g.address with
    | some a => if a ≠ [] then some a else none
    | none => none

/-- config.go:116-127 -/
def address (dns : Dns) (c : Cluster) (rev : Str) : Res Str := match eastWest dns c rev with
  | .panic => .panic
  | .error => .error
  | .ok a => if a.getD [] ≠ [] then .ok (a.getD []) else match imgw c rev with
    | some a => .ok a
    | none => .error

/-- config.go:312-347 `GetIstioRootCAPEM` -/
def rootPem (c : Cluster) (rev : Str) : Option Str :=
  (firstOf [c.cms [(kRev, rev), (kConfig, vTrue)], c.cms [(kConfig, vTrue)]]).map fun m => (m.data.lookup kRoot).getD []

/-- config.go:349-402 `GetMeshConfig`; `parse`: mesh id and trust domain in the text -/
def meshConfig (parse : Str → Option (Str × Str)) (c : Cluster) (rev : Str) : Option (Str × Str) :=
  match (c.cms [(kRev, rev)]).findSome? fun m => m.data.lookup kMesh with
  | none => none
  | some t => parse t

/-- `IstioCAClientConfig` (istio_ca.go:40-49) -/
structure Config where
  endpoint : Str
  san : Str
  clusterID : Str
  token : Bytes
  pem : Str
  revision : Str
  meshID : Str
  trustDomain : Str
deriving Repr, DecidableEq

/-- constant of pkg/ca/istio/config.go:116-127 -/
def port15012 : Str := ":15012".toList
/-- constant of pkg/ca/istio/config.go:116-127 -/
def dotSvc : Str := ".svc".toList

/-- config.go:90-176; `token`: how the token is obtained -/
def config (dns : Dns) (parse : Str → Option (Str × Str)) (token : Option Bytes) (c : Cluster) (clusterID rev : Str) : Res Config :=
  match istiod c rev with
  | none => .error
  | some svc => match address dns c rev with
    | .panic => .panic
    | .error => .error
    | .ok a => match token with
      | none => .error
      | some t => match rootPem c rev with
        | none => .error
        | some pem => match meshConfig parse c rev with
          | none => .error
          | some (m, d) => .ok ⟨a ++ port15012, svc.name ++ '.' :: svc.ns ++ dotSvc, clusterID, t, pem, rev, m, d⟩

/-! ### the source -/

/-- what `os.Stat` says of the token file; (pkg/istio/istio.go:99-121) -/
inductive Stat where
  | file | dir | notExist
  /-- another error, for example missing permission -/
  | fails
deriving Repr, DecidableEq

/-- the ways `IstioCAConfigGetterAuto` (pkg/istio/istio.go:99-121) can take -/
inductive Source where
  | heimdall | local_ | remote | panic
deriving Repr, DecidableEq

/-- istio.go:99-121 `IstioCAConfigGetterAuto` -/
def auto (heimdallURL : Str) (st : Stat) : Source :=
  if heimdallURL ≠ [] then .heimdall
  else match st with
    | .file => .local_
    | .dir => .remote
    | .notExist => .remote
    | .fails => .panic

/-- constant of pkg/ca/istio/config.go:453-455 -/
def bearer : Str := "Bearer ".toList

/-- `strings.HasPrefix` -/
def hasPrefix (p s : Str) : Bool := p.isPrefixOf s

/-- config.go:453-455 -/
def authHeader (token : Str) : Str := if hasPrefix bearer token then token else bearer ++ token

/-- a running program: its host, its process id and that of its parent, in decimal; (pkg/ca/istio/config.go:433-438) -/
structure Proc where
  host : Str
  pid : Str
  parent : Str
deriving Repr, DecidableEq

/-- config.go:433-438: the name the program gives itself (the pod name sent to Heimdall): host name and process id of the parent -/
def podName (p : Proc) : Str := p.host ++ '-' :: p.parent

end Verif.Sec.CaConfig
