import Verif.Ads.Balance
/-
Model of what updates of the configuration do to the counters of the load balancers: `onEndpointsUpdated` (pkg/ads/clusterloadassignments.go:88-122), the second part of
`onClustersUpdated` (pkg/ads/cluster.go:80-120), `onRouteConfigurationsUpdated` (pkg/ads/route_config.go:59-91) and `Keep` (pkg/ads/internal/util/util.go).

Addresses are texts (`net.Addr.String()`). Every update is one step: each of them runs in the goroutine that handles responses, and the counters of different names are
independent. The counters and the selection are those of Balance.lean.
-/
namespace Verif.Bal

/-- `Keep` (pkg/ads/internal/util/util.go): entries with other names are removed -/
def Table.keep (t : Table) (names : List String) : Table := fun n => if n ∈ names then t n else none

/-- `if _, ok := Get(n); !ok { Set(n, &Stats{}) }` (clusterloadassignments.go:112-114, cluster.go:87-89) -/
def Table.ensure (t : Table) (n : String) : Table := fun m => if m = n ∧ t n = none then some {} else t m

/-- `ResetRoundRobinCount`, `ResetWeightedClusterSelectionCount` (endpoint/stats.go:105-112, cluster/stats.go:52-59) -/
def Table.reset (t : Table) (n : String) : Table := t.adjust n fun s => { s with picks := 0 }

/-- the addresses of the endpoints of a load assignment; nothing for an endpoint without socket address (clusterloadassignments.go:99-110) -/
abbrev Addrs := List (Option String)

/-- `onEndpointsUpdated` (clusterloadassignments.go:88-122) -/
def onEndpoints (clas : List Addrs) (t : Table) : Table :=
  let as := clas.flatten.filterMap id
  (as.foldl Table.ensure t).keep as

/-- load balancing policies as far as they matter here (cluster.go:105-106) -/
inductive Lb where
  | roundRobin
  | leastRequest
  | other
deriving DecidableEq, Repr

/-- a cluster: name, policy and the name of its load assignment, if it has one (cluster.go:82-93) -/
structure Cl where
  name : String
  lb : Lb
  ref : Option String
deriving DecidableEq, Repr

/-- a load assignment: addresses, and whether all weights are equal (cluster.go:98-104) -/
structure La where
  addrs : Addrs
  equal : Bool
deriving DecidableEq, Repr

/-- cluster.go:105-106: the counters of the endpoints are not used by this cluster -/
def Cl.idle (c : Cl) (la : La) : Bool := (c.lb ≠ .roundRobin && c.lb ≠ .leastRequest) || (c.lb = .leastRequest && la.equal)

/-- cluster.go:92-117 for one cluster: the counters of its endpoints start anew if it does not use them. `las`: the load assignments received; nothing before the first -/
def Cl.resets (las : Option (String → Option La)) (et : Table) (c : Cl) : Table := match c.ref, las with
  | some r, some f => match f r with
    | some la => if c.idle la then (la.addrs.filterMap id).foldl Table.reset et else et
    | none => et
  | _, _ => et

/-- the second part of `onClustersUpdated` (cluster.go:80-120): counters of clusters and of endpoints -/
def onClusters (cs : List Cl) (las : Option (String → Option La)) (ct et : Table) : Table × Table :=
  (((cs.map (·.name)).foldl Table.ensure ct).keep (cs.map (·.name)), cs.foldl (Cl.resets las) et)

/-- where a route leads (route_config.go:76-87) -/
inductive Target where
  | single (cluster : String)
  | weighted (ws : List (String × Nat))
  | elsewhere
deriving DecidableEq, Repr

/-- `onRouteConfigurationsUpdated` (route_config.go:59-91), over all routes of all virtual hosts of all route configurations -/
def onRoutes (rs : List Target) (ct : Table) : Table :=
  rs.foldl (fun t r => match r with
    | .single c => t.reset c
    | _ => t) ct

end Verif.Bal
