import Verif.Heimdall.Pod
/-
Model of pkg/environment/istio.go: reading the environment, overriding it and what is derived from it.
The parsing rules of the library go-envconfig are assumed: elements of lists and maps are separated by commas, key and value of a map
element by the first colon, and all are trimmed; an element without colon is an error; an empty value leaves the field unset.
-/
namespace Verif.Heimdall

/-- istio.go:25-52 (PlatformMetadata and AdditionalMetadata as Labels; durations in seconds) -/
structure IstioEnv where
  enabled : Bool := false
  type : Str := []
  podName : Str := []
  podNamespace : Str := []
  podOwner : Str := []
  podServiceAccount : Str := []
  workloadName : Str := []
  appContainers : List Str := []
  instanceIPs : List Str := []
  labels : Map := []
  platformMetadata : Map := []
  network : Str := []
  searchDomains : List Str := []
  secretTTL : Nat := 0
  additionalMetadata : Map := []
  clusterID : Str := []
  dnsDomain : Str := []
  trustDomain : Str := []
  meshID : Str := []
  istioCAAddress : Str := []
  istioVersion : Str := []
  istioRevision : Str := []
deriving DecidableEq, Repr

/-- `strings.TrimSpace`, as used in pkg/environment/istio.go -/
def trim (s : Str) : Str := ((s.dropWhile (· = ' ')).reverse.dropWhile (· = ' ')).reverse

/-- as used in pkg/environment/istio.go -/
def parseList (s : Str) : List Str := if s = [] then [] else (split ',' s).map trim

/-- as used in pkg/environment/istio.go -/
def parseMapItems : List Str → Option Map
  | [] => some []
  | i :: is => match split2 ':' i with
    | (_, none) => none
    | (k, some v) => (parseMapItems is).map fun m => (trim k, trim v) :: m

/-- as used in pkg/environment/istio.go -/
def parseMap (s : Str) : Option Map := if s = [] then some [] else parseMapItems (split ',' s)

/-- the variables of a process, as a function (`os.LookupEnv`; of several entries with one name the last counts) (pkg/environment/istio.go) -/
def lookup (env : List (Str × Str)) (k : Str) : Option Str := Map.get env.reverse k

/-- istio.go:54-63 `GetIstioEnvironment` for the variables the mutator sets (the others stay at their defaults unless they are set;
they are not read here; a value of ENABLED that is no boolean, an error in the code, counts as false). `none`: an error. -/
def readEnv (get : Str → Option Str) (pre : Str) : Option IstioEnv :=
  let str := fun (k : String) => (get (pre ++ k.toList)).getD []
  let lst := fun (k : String) => ((get (pre ++ k.toList)).map parseList).getD []
  let mp := match get (pre ++ "LABELS".toList) with
    | none => some []
    | some v => parseMap v
  mp.map fun labels =>
    { enabled := decide (str "ENABLED" = "true".toList), type := str "TYPE", podName := str "POD_NAME",
      podNamespace := str "POD_NAMESPACE", podOwner := str "POD_OWNER", podServiceAccount := str "POD_SERVICE_ACCOUNT",
      workloadName := str "WORKLOAD_NAME", appContainers := lst "APP_CONTAINERS", instanceIPs := lst "INSTANCE_IP",
      labels := labels, network := str "NETWORK", searchDomains := lst "SEARCH_DOMAINS", clusterID := str "CLUSTER_ID",
      dnsDomain := str "DNS_DOMAIN", meshID := str "MESH_ID", istioCAAddress := str "ISTIO_CA_ADDR",
      istioVersion := str "ISTIO_VERSION", istioRevision := str "ISTIO_REVISION" }

/-- the variables of a container in a running pod: fields are resolved by `field`; (pkg/environment/istio.go) -/
def resolve (field : Str → Str) (env : List (Str × EnvVal)) : List (Str × Str) :=
  env.map fun kv => (kv.1, match kv.2 with
    | .lit v => v
    | .field p => field p)

/-- istio.go:83-90 -/
def dnsDomainOf (e : IstioEnv) : Str := if e.dnsDomain.length = 0 then "cluster.local".toList else e.dnsDomain

/-- istio.go:65-73 `GetNodeID` -/
def nodeID (e : IstioEnv) : Str :=
  join '~' [e.type, e.instanceIPs.head?.getD [], e.podName ++ '.' :: e.podNamespace, e.podNamespace ++ ".svc.".toList ++ dnsDomainOf e]

/-- istio.go:75-77 -/
def clusterName (e : IstioEnv) : Str := e.workloadName ++ '.' :: e.podNamespace

/-- istio.go:79-81 `GetSpiffeID` -/
def spiffeID (e : IstioEnv) : Str :=
  "spiffe://".toList ++ dnsDomainOf e ++ "/ns/".toList ++ e.podNamespace ++ "/sa/".toList ++ e.podServiceAccount

/-- istio.go:152-175 `Override` -/
def override (e o : IstioEnv) : IstioEnv :=
  { e with
    type := o.type, podName := o.podName, podNamespace := o.podNamespace, podOwner := o.podOwner,
    podServiceAccount := o.podServiceAccount, workloadName := o.workloadName, appContainers := o.appContainers,
    instanceIPs := o.instanceIPs, labels := o.labels, platformMetadata := o.platformMetadata, network := o.network,
    searchDomains := o.searchDomains, additionalMetadata := o.additionalMetadata, clusterID := o.clusterID, dnsDomain := o.dnsDomain,
    meshID := o.meshID, istioCAAddress := o.istioCAAddress, istioRevision := o.istioRevision, istioVersion := o.istioVersion }

end Verif.Heimdall
