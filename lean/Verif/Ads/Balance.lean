/-
Load balancing: pkg/ads/internal/loadbalancer/{lb_random,lb_wlr,lb_wrr}.go,
pkg/ads/internal/cluster/cluster.go (SelectCluster), pkg/ads/internal/{cluster,endpoint}/stats.go,
pkg/ads/internal/endpoint/endpoint.go (Filter, IsHealthy, healthScore, GetLoadDistribution, ...) and
the endpoint choice of pkg/ads/api_tcp_client.go (newClientProperties).

Simplifications: an endpoint address is the string `net.TCPAddr.String()` gives (IP parsing:
Net/Ip.lean; `none` = no socket address).  A Go map is an association list with distinct keys; where
the code ranges over a map the list order is arbitrary, and theorems quantify over the list.
Calls are sequential: one pick reads and updates the counters as one step.
-/
import Verif.Ads.Flt

namespace Verif.Bal
open Verif.Flt

/-! ### float64 -/

/-- A non-negative `float64`: a finite number, `+Inf` or `NaN`. (Go's float64, used in lb_wrr.go:44-104 and endpoint.go:184-359) -/
inductive F where
  | fin (q : Rat)
  | inf
  | nan
deriving DecidableEq

namespace F
/-- float64 `a + b`: the exact sum, rounded (specification of Go's arithmetic) -/
def add : F → F → F
  | .fin a, .fin b => .fin (rnd (a + b))
  | .nan, _ => .nan
  | _, .nan => .nan
  | _, _ => .inf

/-- float64 `a * b`: the exact product, rounded (specification of Go's arithmetic) -/
def mul : F → F → F
  | .fin a, .fin b => .fin (rnd (a * b))
  | .nan, _ => .nan
  | _, .nan => .nan
  | .fin a, .inf => if a = 0 then .nan else .inf
  | .inf, .fin a => if a = 0 then .nan else .inf
  | .inf, .inf => .inf

/-- float64 `a / b` with the IEEE rules for zero (specification of Go's arithmetic) -/
def div : F → F → F
  | .fin a, .fin b => if b = 0 then (if a = 0 then .nan else .inf) else .fin (rnd (a / b))
  | .nan, _ => .nan
  | _, .nan => .nan
  | .fin _, .inf => .fin 0
  | .inf, .fin _ => .inf
  | .inf, .inf => .nan

/-- `a < b`; comparisons with NaN are false. (Go's float64) -/
def lt : F → F → Bool
  | .fin a, .fin b => decide (a < b)
  | .fin _, .inf => true
  | _, _ => false

/-- `a >= b`. (Go's float64) -/
def ge : F → F → Bool
  | .fin a, .fin b => decide (b ≤ a)
  | .inf, .fin _ => true
  | .inf, .inf => true
  | _, _ => false

/-- `a == b`. (Go's float64) -/
def eqF : F → F → Bool
  | .fin a, .fin b => decide (a = b)
  | .inf, .inf => true
  | _, _ => false

/-- `math.Round`. (used in endpoint.go:254, 297) -/
def round : F → F
  | .fin a => .fin (roundHalfUp a : Rat)
  | x => x

/-- `math.RoundToEven`. (used in endpoint.go:352) -/
def roundEven : F → F
  | .fin a => .fin (Flt.roundEven a : Rat)
  | x => x

/-- `math.MaxFloat64`. (lb_wrr.go:44-58) -/
def max : F := .fin ((2 ^ 1024 - 2 ^ 971 : Nat) : Rat)

/-- `float64(n)` of an integer. (Go's float64) -/
def ofNat (n : Nat) : F := .fin (rnd (n : Rat))

/-- A decimal constant. (Go's float64) -/
def lit (q : Rat) : F := .fin (rnd q)
end F

/-! ### Counters (stats.go) -/

/-- uint32 arithmetic. (the counters of endpoint/stats.go:21-30 and cluster/stats.go) -/
def u32 (n : Nat) : Nat := n % 2 ^ 32

/-- `Stats` of an endpoint (endpoint/stats.go:21-30); a cluster's `Stats` has only the first
counter (cluster/stats.go:22-26). -/
structure Stats where
  picks : Nat := 0   -- roundRobinCount / weightedClusterSelectionCount
  active : Nat := 0  -- activeRequestsCount
deriving DecidableEq

/-- `EndpointsStats` / `ClustersStats`: the known names and their counters. pkg/ads/internal/endpoint/stats.go:51-53, pkg/ads/internal/cluster/stats.go:39-41 -/
abbrev Table := String → Option Stats

/-- `RoundRobinCount`, `WeightedClusterSelectionCount` (endpoint/stats.go:42-48 and 65-69,
cluster/stats.go:30-36 and 63-67): 0 for an unknown name. -/
def Table.picks (t : Table) (n : String) : Nat := ((t n).map (·.picks)).getD 0

/-- `ActiveRequestsCount` (endpoint/stats.go:33-39, 72-76). -/
def Table.active (t : Table) (n : String) : Nat := ((t n).map (·.active)).getD 0

/-- Update of a known entry under the lock; unknown names are ignored (endpoint/stats.go:55-62,
78-121). -/
def Table.adjust (t : Table) (n : String) (f : Stats → Stats) : Table :=
  fun m => if m = n then (t n).map f else t m

/-- `IncRoundRobinCount`, `IncWeightedClusterSelectionCount` (endpoint/stats.go:55-62,
cluster/stats.go:43-50). -/
def Table.incPicks (t : Table) (n : String) : Table :=
  t.adjust n fun s => { s with picks := u32 (s.picks + 1) }

/-- `IncActiveRequestsCount` (endpoint/stats.go:87-94). -/
def Table.incActive (t : Table) (n : String) : Table :=
  t.adjust n fun s => { s with active := u32 (s.active + 1) }

/-- `DecActiveRequestsCount` (endpoint/stats.go:96-103): uint32 decrement wraps. -/
def Table.decActive (t : Table) (n : String) : Table :=
  t.adjust n fun s => { s with active := u32 (s.active + (2 ^ 32 - 1)) }

/-! ### The selection loop shared by SelectCluster and the round-robin balancer -/

/-- A candidate: name, the share of the traffic it may get (`endpointLoad`,
`clusterWeight/totalWeight`), and the weight that breaks ties. (lb_wrr.go:59-99, cluster.go:84-112) -/
structure Item where
  name : String
  share : F
  tie : F

/-- Loop variables `selected…`, `selected…Load/Weight`, `minLoad`. (lb_wrr.go:53-58, cluster.go:79-83) -/
structure Sel where
  sel : Option Item := none
  tie : F := .fin 0
  minLoad : F := F.max

/-- The loop body of lb_wrr.go:59-99 and of cluster.go:84-112 (the two are the same text up to
names). `tot` is the incremented total. -/
def scanStep (cnt : String → Nat) (tot : Nat) (s : Sel) (i : Item) : Sel :=
  let maxSel := i.share.mul (F.ofNat tot)
  let c := F.ofNat (cnt i.name)
  if c.ge maxSel then s
  else
    let rel := c.div maxSel
    if rel.lt s.minLoad then { sel := some i, tie := i.tie, minLoad := rel }
    else if s.minLoad.eqF rel then
      if s.tie.lt i.tie then { s with sel := some i, tie := i.tie }
      else if i.tie.eqF s.tie && s.sel.isNone then { s with sel := some i }
      else s
    else s

/-- The whole loop. (lb_wrr.go:59-99, cluster.go:84-112) -/
def scan (cnt : String → Nat) (tot : Nat) (is : List Item) : Option Item :=
  (is.foldl (scanStep cnt tot) {}).sel

/-- `totalRoundRobinCount` / `totalSelectionCount` (lb_wrr.go:45-51, cluster.go:71-77): the uint32
sum of the counters plus one. -/
def nextTotal (cnt : String → Nat) (names : List String) : Nat :=
  u32 ((names.map cnt).sum + 1)

/-! ### SelectCluster (cluster.go:66-117) -/

/-- the candidates of pkg/ads/internal/cluster/cluster.go:66-117 -/
def clusterItems (ws : List (String × Nat)) : List Item :=
  let total := u32 ((ws.map (·.2)).sum)
  ws.map fun w => { name := w.1, share := (F.ofNat w.2).div (F.ofNat total), tie := F.ofNat w.2 }

/-- `SelectCluster`; `ws` lists the map in the order of iteration. The first result is the cluster
selected, `none` for the empty string. pkg/ads/internal/cluster/cluster.go:66-117 -/
def selectCluster (ws : List (String × Nat)) (t : Table) : Option String × Table :=
  if ws = [] then (none, t)
  else
    match scan t.picks (nextTotal t.picks (ws.map (·.1))) (clusterItems ws) with
    | some i => (some i.name, t.incPicks i.name)
    | none => (none, t)

/-! ### Endpoints -/

/-- `HealthStatus` (envoy config.core.v3). (endpoint.go:169-180) -/
inductive Health where
  | unknown | healthy | unhealthy | draining | timeout | degraded
deriving DecidableEq

/-- what pkg/ads/internal/endpoint/endpoint.go reads of an `LbEndpoint` -/
structure LbEndpoint where
  addr : Option String           -- GetAddress().GetSocketAddress(), nil if it has none
  health : Health
  weight : Option Nat := none    -- LoadBalancingWeight
deriving DecidableEq

/-- `LocalityLbEndpoints`; `name` is `localityToString(GetLocality())` (endpoint.go:428-434). -/
structure Locality where
  name : String
  priority : Nat
  weight : Option Nat := none
  eps : List LbEndpoint
deriving DecidableEq

/-- A `ClusterLoadAssignment`'s endpoints. (pkg/ads/internal/endpoint/endpoint.go) -/
abbrev Cla := List Locality

/-- `IsHealthy` (endpoint.go:169-180). -/
def LbEndpoint.isHealthy (e : LbEndpoint) : Bool :=
  match e.health with
  | .unknown | .healthy | .degraded => true
  | _ => false

/-- `GetLoadBalancingWeight` (endpoint.go:361-369). -/
def LbEndpoint.lbWeight (e : LbEndpoint) : Nat := e.weight.getD 1

/-- `getLocalityLoadBalancingWeight` (endpoint.go:418-426). -/
def Locality.lbWeight (l : Locality) : Nat := l.weight.getD 1

/-- `Filter(cla.GetEndpoints(), HasSocketAddress(), WithHealthyStatus())` (endpoint.go:145-166,
api_tcp_client.go:338, 346, 369, 383): the addresses of the endpoints that have one and are
healthy. -/
def healthyAddrs (cla : Cla) : List String :=
  (cla.flatMap (·.eps)).filterMap fun e => if e.isHealthy then e.addr else none

/-- `healthScore` (endpoint.go:184-204); nil elements are not modelled. -/
def healthScore (es : List LbEndpoint) : F :=
  if es.length = 0 then .fin 0
  else (F.ofNat (es.filter (·.isHealthy)).length).div (F.ofNat es.length)

/-- `overProvisioningFactor * healthScore(endpoints)` capped at 1.0 (endpoint.go:230-233, 283-286). -/
def availability (opf : F) (es : List LbEndpoint) : F :=
  let a := opf.mul (healthScore es)
  if (F.fin 1).lt a then .fin 1 else a

/-- Association-list map update. (Go's map assignment) -/
def put {α β : Type} [DecidableEq α] (k : α) (v : β) : List (α × β) → List (α × β)
  | [] => [(k, v)]
  | (k', v') :: r => if k' = k then (k, v) :: r else (k', v') :: put k v r

/-- Map lookup. (Go's map access) -/
def lookup {α β : Type} [DecidableEq α] (k : α) : List (α × β) → Option β
  | [] => none
  | (k', v') :: r => if k' = k then some v' else lookup k r

/-- Insertion of a key in ascending order, without duplicates. (the sorted keys of endpoint.go:222-244) -/
def insertKey (p : Nat) : List Nat → List Nat
  | [] => [p]
  | q :: r => if p < q then p :: q :: r else if p = q then q :: r else q :: insertKey p r

/-- The sorted distinct priority levels (endpoint.go:222-244). -/
def levels (cla : Cla) : List Nat := cla.foldl (fun acc l => insertKey l.priority acc) []

/-- `endpointsByPriorityLevel[p]` (endpoint.go:214-220). -/
def atLevel (cla : Cla) (p : Nat) : List LbEndpoint := (cla.filter (·.priority = p)).flatMap (·.eps)

/-- `1.0 - x`. The sum of loads exceeds 1.0 by rounding errors only; Go then gets a negative number
that `math.Round(x*10000)` turns into zero, here it is zero at once. (endpoint.go:246-258) -/
def oneMinus : F → F
  | .fin a => .fin (rnd (1 - a))
  | _ => .nan

/-- `math.Round(x*10000) / 10000` (endpoint.go:254, 297). -/
def round4 (x : F) : F := ((x.mul (F.ofNat 10000)).round).div (F.ofNat 10000)

/-- `math.RoundToEven(x*100) / 100` (endpoint.go:352). -/
def round2 (x : F) : F := ((x.mul (F.ofNat 100)).roundEven).div (F.ofNat 100)

/-- `getPriorityLevelsLoadDistribution` (endpoint.go:209-261). The total is summed in ascending
order of the level; Go sums in map order, which can differ in the last bit. -/
def levelLoads (cla : Cla) (opf : F) : List (Nat × F) :=
  let ps := levels cla
  let score := fun p => availability opf (atLevel cla p)
  let tot := ps.foldl (fun acc p => acc.add (score p)) (.fin 0)
  let tot := if (F.fin 1).lt tot then F.fin 1 else tot
  (ps.foldl (fun (acc : List (Nat × F) × F) p =>
    let l := (score p).div tot
    let l := if (oneMinus acc.2).lt l then oneMinus acc.2 else l
    let l := round4 l
    (acc.1 ++ [(p, l)], acc.2.add l)) ([], .fin 0)).1

/-- `endpointsByLocality[name]` (endpoint.go:267-275). -/
def atLocality (cla : Cla) (n : String) : List LbEndpoint := (cla.filter (·.name = n)).flatMap (·.eps)

/-- `getLocalityLoadDistribution` (endpoint.go:265-303). -/
def localityLoads (cla : Cla) (opf : F) : List (String × F) :=
  let pl := levelLoads cla opf
  let ew := fun (l : Locality) =>
    ((F.ofNat l.lbWeight).mul (availability opf (atLocality cla l.name))).mul ((lookup l.priority pl).getD (.fin 0))
  let weights := cla.foldl (fun acc l => put l.name (ew l) acc) []
  let sum := cla.foldl (fun acc l => acc.add (ew l)) (.fin 0)
  cla.foldl (fun acc l => put l.name (round4 (((lookup l.name weights).getD (.fin 0)).div sum)) acc) []

/-- The weight of an endpoint after the active-request bias (endpoint.go:324-327, 343-349);
`bias` is `none` for a negative `activeRequestBias`, otherwise `math.Pow(float64(n), bias)` as a
function of `n = activeRequests+1` (uint32). -/
def biased (t : Table) (bias : Option (Nat → F)) (w : F) (a : String) : F :=
  match bias with
  | none => w
  | some pow => w.div (pow (u32 (t.active a + 1)))

/-- `activeRequestBias` 1.0, the default: `math.Pow(x, 1.0) = x`. (api_tcp_client.go:341, 352) -/
def biasOne : Nat → F := F.ofNat

/-- `totalWeightPerLocality[name]` (endpoint.go:311-330). -/
def localityWeight (cla : Cla) (t : Table) (bias : Option (Nat → F)) (n : String) : F :=
  (atLocality cla n).foldl (fun acc e =>
    if e.isHealthy then
      match e.addr with
      | some a => acc.add (biased t bias (F.ofNat e.lbWeight) a)
      | none => acc
    else acc) (.fin 0)

/-- `GetLoadDistribution` (endpoint.go:309-359). -/
def loadDistribution (cla : Cla) (t : Table) (opf : F) (bias : Option (Nat → F)) : List (String × F) :=
  let ll := localityLoads cla opf
  cla.foldl (fun acc l =>
    l.eps.foldl (fun acc e =>
      match e.addr with
      | none => acc
      | some a =>
        let w := if e.isHealthy then F.ofNat e.lbWeight else F.fin 0
        let load := ((biased t bias w a).div (localityWeight cla t bias l.name)).mul ((lookup l.name ll).getD (.fin 0))
        put a (round2 load) acc) acc) []

/-- `LoadBalancingWeightsAreEqual` (endpoint.go:372-416). -/
def weightsEqual (cla : Cla) : Bool :=
  if cla.length ≤ 1 then true
  else (levels cla).all fun p =>
    let ls := cla.filter (·.priority = p)
    match ls with
    | [] => true
    | l0 :: rest =>
      rest.all (fun l => l.lbWeight = l0.lbWeight && l.eps.length = l0.eps.length) &&
      ls.all (fun l => match l.eps with
        | [] => true
        | e0 :: es => es.all fun e => e.lbWeight = e0.lbWeight)

/-! ### The balancers -/

/-- Result of `NextEndpoint`. (pkg/ads/internal/loadbalancer/lb.go:19-23) -/
inductive Pick where
  | addr (a : String)
  | nil
  | panic
deriving DecidableEq

/-- `weightedRoundRobinLoadBalancer.NextEndpoint` (lb_wrr.go:44-104). -/
def wrrItems (eps : List String) (loads : List (String × F)) : List Item :=
  eps.filterMap fun a => (lookup a loads).map fun l => { name := a, share := l, tie := l }

/-- pkg/ads/internal/loadbalancer/lb_wrr.go:44-104 -/
def wrrNext (eps : List String) (loads : List (String × F)) (t : Table) : Pick × Table :=
  match scan t.picks (nextTotal t.picks (loads.map (·.1))) (wrrItems eps loads) with
  | some i => (.addr i.name, t.incPicks i.name)
  | none => (.nil, t)

/-- `randomLoadBalancer.NextEndpoint` (lb_random.go:36-48); `r` is the random number drawn. -/
def randomNext (eps : List String) (r : Nat) : Pick :=
  match eps with
  | [] => .nil
  | [a] => .addr a
  | eps => match eps[r % eps.length]? with
    | some a => .addr a
    | none => .panic

/-- Exchange of two positions. (lb_wlr.go:84-91) -/
def swapAt (l : List String) (i j : Nat) : List String :=
  match l[i]?, l[j]? with
  | some a, some b => (l.set i b).set j a
  | _, _ => l

/-- The sampling loop (lb_wlr.go:84-91); `r i` is the i-th random number. `Int31n` panics on a bound
that is not positive. -/
def sample (r : Nat → Nat) : Nat → Nat → List String → Option (List String)
  | 0, _, l => some l
  | k + 1, i, l =>
    if l.length ≤ i then none
    else sample r k (i + 1) (swapAt l (r i % (l.length - i)) (l.length - i - 1))

/-- The selection loop (lb_wlr.go:94-113). -/
def leastActive (t : Table) : List String → Option String
  | [] => none
  | a :: rest => some (rest.foldl (fun s b => if t.active b < t.active s then b else s) a)

/-- `p2cNextEndpoint` (lb_wlr.go:70-116). -/
def p2cNext (eps : List String) (choice : Nat) (t : Table) (r : Nat → Nat) : Pick :=
  match eps with
  | [] => .nil
  | [a] => .addr a
  | eps =>
    let sorted := eps.mergeSort (fun a b => decide (a ≤ b))
    match sample r choice 0 sorted with
    | none => .panic
    | some l => match leastActive t (l.drop (l.length - choice)) with
      | some a => .addr a
      | none => .nil

/-- `weightedLeastRequestLoadBalancer.NextEndpoint` (lb_wlr.go:56-68). -/
def wlrNext (eps : List String) (loads : List (String × F)) (equal : Bool) (choice : Nat) (t : Table)
    (r : Nat → Nat) : Pick × Table :=
  if equal then (p2cNext eps choice t r, t) else wrrNext eps loads t

/-- The load-balancing policies the code distinguishes (api_tcp_client.go:336-376). -/
inductive Policy where
  | random
  | roundRobin
  | leastRequest (choice : Nat) (bias : Option (Nat → F))
  | other

/-- The default policy parameters (api_tcp_client.go:341, 352). -/
def defaultOpf : F := F.lit (14/10)

/-- The endpoint choice of `newClientProperties` (api_tcp_client.go:333-387). -/
def nextEndpoint (p : Policy) (cla : Cla) (opf : F) (t : Table) (r : Nat → Nat) : Pick × Table :=
  match p with
  | .random => (randomNext (healthyAddrs cla) (r 0), t)
  | .roundRobin => wrrNext (healthyAddrs cla) (loadDistribution cla t opf none) t
  | .leastRequest choice bias =>
    wlrNext (healthyAddrs cla) (loadDistribution cla t opf bias) (weightsEqual cla) choice t r
  | .other => match healthyAddrs cla with
    | a :: _ => (.addr a, t)
    | [] => (.nil, t)

/-- `endpoint.GetFilterMetadata(cla, endpointAddress)` (endpoint.go:89-103): with a nil
`endpointAddress` the comparison calls a method of a nil interface as soon as the load assignment
holds an endpoint with a socket address. The result is only whether it panics. -/
def metadataPanics (cla : Cla) (p : Pick) : Bool :=
  match p with
  | .addr _ => false
  | .panic => true
  | .nil => (cla.flatMap (·.eps)).any (·.addr.isSome)

/-- What the caller of the client-properties API gets as address (api_tcp_client.go:333-392, 64-69):
an address, the error "no endpoint found", or a crash of the process. -/
def clientAddress (p : Policy) (cla : Cla) (opf : F) (t : Table) (r : Nat → Nat) : Pick × Table :=
  let x := nextEndpoint p cla opf t r
  if metadataPanics cla x.1 then (.panic, x.2) else x

end Verif.Bal
