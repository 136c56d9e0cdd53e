import Verif.Heimdall.Text
/-
Model of components/bifrost/pkg/controllers/endpoints.go: from the ports of the tunnel servers to the endpoints of services.
Sessions and services are association lists in the iteration order of Go's maps. The address of a port is replaced by the address of the
server's pod (endpoints.go:255-259), so of the address only matters whether it can be parsed. YAML and owner references are not modelled;
the API server is modelled by what it rejects: subsets without address and port names that occur twice.
-/
namespace Verif.Bifrost
open Verif.Heimdall

/-- configmap.go:64-72 -/
structure PortConfig where
  name : Str := []
  /-- the address can be parsed -/
  addressOk : Bool := true
  port : Nat
  targetPort : Nat
  svcName : Str
  svcNs : Str
  /-- the address after endpoints.go:259 -/
  ip : Nat := 0
deriving DecidableEq, Repr

/-- the target of a service port: a number or the name of a container port; (components/bifrost/pkg/controllers/endpoints.go) -/
inductive Target where
  | int (n : Nat)
  | str (s : Str)
deriving DecidableEq, Repr

/-- `strconv.Atoi` for digits, 0 on errors (`intstr.IntOrString.IntValue`) -/
def atoi (s : Str) : Nat :=
  if s ≠ [] ∧ s.all Char.isDigit then s.foldl (fun n c => n * 10 + (c.toNat - '0'.toNat)) 0 else 0

/-- as used in components/bifrost/pkg/controllers/endpoints.go -/
def Target.strVal : Target → Str
  | .int _ => []
  | .str s => s

/-- as used in components/bifrost/pkg/controllers/endpoints.go -/
def Target.intValue : Target → Nat
  | .int n => n
  | .str s => atoi s

/-- as used in components/bifrost/pkg/controllers/endpoints.go -/
structure SvcPort where
  name : Str
  target : Target
deriving DecidableEq, Repr

/-- as used in components/bifrost/pkg/controllers/endpoints.go -/
structure Subset where
  addresses : List Nat := []
  ports : List (Str × Nat) := []
deriving DecidableEq, Repr

/-- as used in components/bifrost/pkg/controllers/endpoints.go -/
def metrics : Str := "http-metrics".toList

/-- endpoints.go:178-192 `isSvcPortExists`: the name under which the port is published -/
def svcPortName (p : PortConfig) : List SvcPort → Option Str
  | [] => if p.name = metrics then some p.name else none
  | q :: qs => if p.name = metrics then some p.name
    else if q.target.strVal = p.name ∨ q.target.intValue = p.targetPort then some q.name else svcPortName p qs

/-- endpoints.go:194-222 -/
def addPort (svc : List SvcPort) (s : Subset) (p : PortConfig) : Subset :=
  match svcPortName p svc with
  | none => s
  | some n => if p.addressOk = false then s
    else { addresses := if p.ip ∈ s.addresses then s.addresses else s.addresses ++ [p.ip], ports := s.ports ++ [(n, p.port)] }

/-- endpoints.go:172-225 `getSubset` -/
def getSubset (ports : List PortConfig) (svc : List SvcPort) : Subset := ports.foldl (addPort svc) {}

/-- configmap.go:79-81 `String` -/
def svcString (name ns : Str) : Str := name ++ '.' :: ns

/-- configmap.go:83-90 `ParsePortConfigService`: name and namespace (`none`: the index is out of range and the program crashes) -/
def parseSvc (s : Str) : Option (Str × Str) :=
  match split2 '.' s with
  | (a, some b) => some (a, b)
  | (_, none) => none

/-- as used in components/bifrost/pkg/controllers/endpoints.go -/
abbrev Sessions := List (Str × List PortConfig)
/-- as used in components/bifrost/pkg/controllers/endpoints.go -/
abbrev Services := List (Str × Sessions)

/-- append to the entry of a key, creating it; (components/bifrost/pkg/controllers/endpoints.go) -/
def addSession (m : Sessions) (sid : Str) (p : Option PortConfig) : Sessions :=
  match m with
  | [] => [(sid, p.toList)]
  | (k, ps) :: r => if k = sid then (k, ps ++ p.toList) :: r else (k, ps) :: addSession r sid p

/-- as used in components/bifrost/pkg/controllers/endpoints.go -/
def addService (m : Services) (svc sid : Str) (p : Option PortConfig) : Services :=
  match m with
  | [] => [(svc, addSession [] sid p)]
  | (k, ss) :: r => if k = svc then (k, addSession ss sid p) :: r else (k, ss) :: addService r svc sid p

/-- endpoints.go:237-262: one port of a config map with the address `ip`; the entry is created before the address is parsed -/
def collectPort (ip : Nat) (sid : Str) (m : Services) (p : PortConfig) : Services :=
  if p.svcName = [] ∨ p.svcNs = [] then m
  else addService m (svcString p.svcName p.svcNs) sid (if p.addressOk then some { p with ip := ip } else none)

/-- endpoints.go:227-268 `collectPortsBySessionAndService` -/
def collect (cms : List (Nat × Sessions)) : Services :=
  cms.foldl (fun m cm => cm.2.foldl (fun m s => s.2.foldl (collectPort cm.1 s.1) m) m) []

/-- what the API server accepts; (components/bifrost/pkg/controllers/endpoints.go) -/
def valid (ss : List Subset) : Bool := ss.all fun s => decide (s.addresses ≠ []) && decide (s.ports.map (·.1)).Nodup

/-- the cluster: the ports of services (`none`: the service does not exist or reading it fails) and whether writing endpoints fails; (the surroundings of components/bifrost/pkg/controllers/endpoints.go; a parameter of the model) -/
structure Cluster where
  svc : Str → Option (List SvcPort)
  writeFails : Str → Bool := fun _ => false

/-- endpoints.go:70-105: the endpoints of one service, if they were written -/
def desired (c : Cluster) (s : Str × Sessions) : Option (Str × List Subset) :=
  match c.svc s.1 with
  | none => none
  | some ports =>
    let subsets := s.2.map fun x => getSubset x.2 ports
    if valid subsets ∧ c.writeFails s.1 = false then some (s.1, subsets) else none

/-- endpoints.go:60-126 `Reconcile`: the managed endpoints afterwards: those written; all others are deleted -/
def reconcile (c : Cluster) (services : Services) (_before : List (Str × List Subset)) : List (Str × List Subset) :=
  services.filterMap (desired c)

end Verif.Bifrost
