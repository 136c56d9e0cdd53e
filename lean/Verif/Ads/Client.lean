import Verif.Ads.Cache
/-
Model of the protocol part of the xDS client: `/repo/pkg/ads/client.go` (`reset`,
`connectToStream`, `handleStreamReceive`, `handleResponse`, `ack`, `nack`, the subscription
requests), `cluster.go: onClustersUpdated` and `listener.go: onListenersUpdated`.

* Requests are recorded in the order in which they are put into `requestsChan`; the channel is
  assumed to be drained by `handleStreamSend` (blocking on a full channel is not modelled).  Node
  information in requests is left out.
* `resp.Validate()` is a flag of the response.  Round-robin counters touched by the hooks, the
  refreshing of API results and `onEndpointsUpdated`/`onRouteConfigurationsUpdated` (which only
  touch statistics) are not modelled; of the cluster statistics the set of cluster names is.
-/
namespace Verif.Ads

/-- Resource types (client.go:503-516). `other`: a type the client does not support. -/
inductive RType
  | cluster | endpoint | listener | route | nameTable | other (url : String)
deriving Repr, DecidableEq

/-- The type named by a URL: the key lookup `c.resources[url]`. (pkg/ads/client.go:44-59) -/
def RType.ofUrl (s : String) : RType :=
  if s = "type.googleapis.com/envoy.config.cluster.v3.Cluster" then .cluster
  else if s = "type.googleapis.com/envoy.config.endpoint.v3.ClusterLoadAssignment" then .endpoint
  else if s = "type.googleapis.com/envoy.config.listener.v3.Listener" then .listener
  else if s = "type.googleapis.com/envoy.config.route.v3.RouteConfiguration" then .route
  else if s = "type.googleapis.com/istio.networking.nds.v1.NameTable" then .nameTable
  else .other s

/-- The capabilities the protocol depends on. (`config.ManagementServerCapabilities`, pkg/ads/config) -/
structure Cfg where
  incremental : Bool
  deltaWild : Bool
  sotwWild : Bool
deriving Repr, DecidableEq

/-- A request to the management server; `err`: `ErrorDetail` is set. (pkg/ads/client.go:578-603, pkg/ads/client.go:607-629, pkg/ads/client.go:252-278, pkg/ads/client.go:227-250) -/
inductive Req
  | sotw (typ : RType) (version nonce : String) (names : List String) (err : Bool)
  | delta (typ : RType) (nonce : String) (sub unsub : List String) (err : Bool)
deriving Repr, DecidableEq

/-- A response; `valid`: `Validate()` finds nothing. (pkg/ads/client.go:442-466, pkg/ads/client.go:468-485) -/
inductive Resp
  | sotw (typ : RType) (version nonce : String) (valid : Bool) (res : List AnyRes)
  | delta (typ : RType) (nonce : String) (valid : Bool) (res : List (String × AnyRes))
      (removed : List String)
deriving Repr, DecidableEq

/-- The client. `receiving`: `handleStreamReceive` is running. `sent`: requests, oldest first. pkg/ads/client.go:44-59 -/
structure Client where
  cl : Cache
  ep : Cache
  ls : Cache
  rt : Cache
  nt : Cache
  stats : List String
  sent : List Req
  receiving : Bool
deriving Repr, DecidableEq

/-- pkg/ads/client.go:62-78 -/
def Client.new : Client :=
  { cl := .empty, ep := .empty, ls := .empty, rt := .empty, nt := .empty, stats := [], sent := [],
    receiving := false }

/-- `c.resources[t]`; `none` for unknown types. (pkg/ads/client.go:44-59) -/
def Client.cache (c : Client) : RType → Option Cache
  | .cluster => some c.cl
  | .endpoint => some c.ep
  | .listener => some c.ls
  | .route => some c.rt
  | .nameTable => some c.nt
  | .other _ => none

/-- assignment to a field of the cache of a type; models no code -/
def Client.setCache (c : Client) (t : RType) (x : Cache) : Client :=
  match t with
  | .cluster => { c with cl := x }
  | .endpoint => { c with ep := x }
  | .listener => { c with ls := x }
  | .route => { c with rt := x }
  | .nameTable => { c with nt := x }
  | .other _ => c

/-- `getSubscribedResourceNames` followed by the wildcard rule (client.go:573-578). -/
def wild (supported : Bool) (names : List String) : List String :=
  if names = ["*"] ∧ supported = false then [] else names

/-- `enqueueDeltaSubscriptionRequest` / `enqueueSotWSubscriptionRequest` (client.go:227-276);
version and nonce are those of the last accepted response. -/
def Client.subscribeReq (cfg : Cfg) (c : Client) (t : RType) (names unsub : List String) : Client :=
  let ca := (c.cache t).getD .empty
  let r := if cfg.incremental then Req.delta t "" (wild cfg.deltaWild names) unsub false
           else Req.sotw t ca.version ca.nonce (wild cfg.sotwWild names) false
  { c with sent := c.sent ++ [r] }

/-- `reset` (client.go:141-151) -/
def Client.reset (c : Client) : Client :=
  { c with cl := c.cl.resetInit, ep := c.ep.resetInit.resetSub, ls := c.ls.resetInit
           rt := c.rt.resetInit.resetSub, nt := c.nt.resetInit }

/-- `connectToStream` up to `handleStream` (client.go:153-224). -/
def Client.connect (cfg : Cfg) (c : Client) : Client :=
  let c := c.reset
  let c := { c with cl := c.cl.subscribe ["*"], ls := c.ls.subscribe ["*"], nt := c.nt.subscribe ["*"]
                    receiving := true }
  let c := c.subscribeReq cfg .cluster ["*"] []
  let c := c.subscribeReq cfg .listener ["*"] []
  c.subscribeReq cfg .nameTable ["*"] []

/-- `GetClusterLoadAssignmentReference` (internal/endpoint/endpoint.go:53-72) -/
def clusterRef (r : Resource) : String :=
  if r.eds then (if r.service ≠ "" then r.service else r.name) else ""

/-- `GetRouteConfigName` (internal/listener/listener.go:153-173): the first one only. -/
def routeRef (r : Resource) : String := r.rds.head?.getD ""

/-- `GetClusterLoadAssignmentReferences` (internal/endpoint/endpoint.go:32-51) and
`GetRouteReferences` (internal/listener/listener.go:132-150). -/
def references (ref : Resource → String) (m : AMap) : List String :=
  sortedSet ((m.map fun e => ref e.2).filter (· ≠ ""))

/-- `StringSliceSubtract` (internal/util/util.go:222-250) -/
def subtract (a b : List String) : List String := a.filter fun x => !b.contains x

/-- The common part of `onClustersUpdated` (cluster.go:31-79) and `onListenersUpdated`
(listener.go:31-78): the dependent subscription.  The flag tells whether the hook returned early
because nothing changed. -/
def Client.resubscribe (cfg : Cfg) (c : Client) (dep : RType) (names : List String) : Client × Bool :=
  let ca := (c.cache dep).getD .empty
  if names = ca.subNames then (c, true)
  else
    let unsub := subtract ca.subNames names
    let ca := if cfg.incremental then ca else ca.remove unsub
    let c := c.setCache dep (ca.subscribe names)
    (c.subscribeReq cfg dep names unsub, false)

/-- `onClustersUpdated` (cluster.go:31-120): after an early return the statistics are not
updated. -/
def Client.onClusters (cfg : Cfg) (c : Client) : Client :=
  match c.resubscribe cfg .endpoint (references clusterRef c.cl.res) with
  | (c', true) => c'
  | (c', false) =>
    let names := c.cl.res.map (·.2.name)
    { c' with stats := (c'.stats ++ names.filter (fun n => !c'.stats.contains n)).filter
                         (fun n => names.contains n) }

/-- `onListenersUpdated` (listener.go:31-98) -/
def Client.onListeners (cfg : Cfg) (c : Client) : Client :=
  (c.resubscribe cfg .route (references routeRef c.ls.res)).1

/-- `handleSotWResponse` (client.go:438-463): the new cache and success. -/
def sotwUpdate (t : RType) (ca : Cache) (res : List AnyRes) : Cache × Bool :=
  match t with
  | .cluster | .listener => ca.setRes res true
  | .endpoint | .route => ca.setRes res false
  | .nameTable => ca.setIstio res
  | .other _ => (ca, true)

/-- `handleDeltaResponse` (client.go:465-482) -/
def deltaUpdate (t : RType) (ca : Cache) (res : List (String × AnyRes)) (removed : List String) :
    Cache × Bool :=
  match t with
  | .nameTable => ca.removeAll.addIstio (res.map (·.2))
  | .other _ => (ca, true)
  | _ =>
    match ca.add res with
    | (ca', true) => (ca'.remove removed, true)
    | (ca', false) => (ca', false)

/-- the `TypeUrl` of a response (pkg/ads/client.go:412-440) -/
def Resp.typ : Resp → RType
  | .sotw t .. => t
  | .delta t .. => t

/-- `handleResponse` (client.go:404-436) -/
def Client.handleResponse (c : Client) : Resp → Client × Bool
  | .sotw t _ _ valid res =>
    if !valid then (c, false)
    else match c.cache t with
      | none => (c, true)
      | some ca => let r := sotwUpdate t ca res; (c.setCache t r.1, r.2)
  | .delta t _ valid res removed =>
    if !valid then (c, false)
    else match c.cache t with
      | none => (c, true)
      | some ca => let r := deltaUpdate t ca res removed; (c.setCache t r.1, r.2)

/-- `ack` (client.go:562-592) -/
def Client.ack (cfg : Cfg) (c : Client) : Resp → Client
  | .sotw t v n _ _ =>
    match c.cache t with
    | none => { c with sent := c.sent ++ [.sotw t v n [] false] }
    | some ca =>
      let ca := { ca with version := v, nonce := n }
      let c := c.setCache t ca
      { c with sent := c.sent ++ [.sotw t v n (wild cfg.sotwWild ca.subNames) false] }
  | .delta t n _ _ _ => { c with sent := c.sent ++ [.delta t n [] [] false] }

/-- `nack` (client.go:596-620); the nonce of the response is looked up as if it were a type
(client.go:612). -/
def Client.nack (cfg : Cfg) (c : Client) : Resp → Client
  | .sotw t _ n _ _ =>
    let ca := (c.cache t).getD .empty
    let nonce := ((c.cache (RType.ofUrl n)).getD .empty).nonce
    { c with sent := c.sent ++ [.sotw t ca.version nonce (wild cfg.sotwWild ca.subNames) true] }
  | .delta t n _ _ _ => { c with sent := c.sent ++ [.delta t n [] [] true] }

/-- The hooks (client.go:345-358); `err` there is the error of `recv`, so they also run after a
NACK. -/
def Client.hooks (cfg : Cfg) (c : Client) : RType → Client
  | .cluster => c.onClusters cfg
  | .listener => c.onListeners cfg
  | _ => c

/-- pkg/ads/client.go:508-519 -/
def RType.supported : RType → Bool
  | .other _ => false
  | _ => true

/-- One round of `handleStreamReceive` (client.go:314-361). -/
def Client.recv (cfg : Cfg) (c : Client) (r : Resp) : Client :=
  if !c.receiving then c
  else if !r.typ.supported then { c with receiving := false }
  else
    let h := c.handleResponse r
    let c' := if h.2 then h.1.ack cfg r else h.1.nack cfg r
    c'.hooks cfg r.typ

/-- What happens to the client. (specification; models no code) -/
inductive Ev
  | connect
  | recv (r : Resp)
deriving Repr, DecidableEq

/-- an event; the functions are cited above -/
def Client.step (cfg : Cfg) (c : Client) : Ev → Client
  | .connect => c.connect cfg
  | .recv r => c.recv cfg r

/-- A history, newest event first. (specification; models no code) -/
def Client.run (cfg : Cfg) : List Ev → Client
  | [] => .new
  | e :: es => (Client.run cfg es).step cfg e

end Verif.Ads
