/-
Choosing a configuration for an address: pkg/ads/api_listener_properties.go,
pkg/ads/api_http_client.go, pkg/ads/api_tcp_client.go (target cluster), pkg/ads/nametable.go,
pkg/ads/internal/{listener,route,virtualhost,cluster}.

Simplifications: protobuf messages are records with the fields the code reads; a repeated field
is a list without nil elements and `[]` stands for nil (an unmarshalled message has no non-nil
empty slice); `Any` payloads are their decoded values, `none` if decoding fails. Resources listed
from a Go map come as a list in the order of iteration; theorems quantify over the list.
-/
import Verif.Ads.Balance

deriving instance DecidableEq for Except

namespace Verif.Route
open Verif.Bal (Table lookup put selectCluster)

/-! ### Addresses -/

/-- A parsed `net.IP`: family (as `To4` decides it) and value. (Go's net package) -/
structure Ip where
  v6 : Bool
  val : Nat
deriving DecidableEq

/-- A successfully parsed CIDR (`net.ParseCIDR`). (Go's net package) -/
structure Cidr where
  v6 : Bool
  net : Nat
  len : Nat
deriving DecidableEq

/-- number of bits of an address (Go's net package) -/
def width (v6 : Bool) : Nat := if v6 then 128 else 32

/-- `net.IPNet.Contains` (Go standard library): same family and equal masked values. A nil IP has
length 0 and is never contained. (used in pkg/ads/api_listener_properties.go:320-337) -/
def Cidr.contains (c : Cidr) : Option Ip → Bool
  | none => false
  | some ip => c.v6 = ip.v6 && c.net / 2 ^ (width c.v6 - c.len) = ip.val / 2 ^ (width c.v6 - c.len)

/-- `CidrRange`: the address prefix string and the result of parsing "prefix/len". (pkg/ads/api_listener_properties.go:320-337) -/
structure CidrRange where
  addr : String
  parsed : Option Cidr
deriving DecidableEq

/-! ### Listeners -/

/-- `DownstreamTlsContext`: the fields read by `getListenerProperties`; `validation` stands for the
certificate verifier configuration derived from it. (pkg/ads/api_listener_properties.go:180-257) -/
structure TlsCtx where
  requireClientCert : Bool
  validation : Option Nat
deriving DecidableEq

/-- Decoded network filters. (internal/listener/listener.go:152-173, pkg/ads/internal/util/util.go:155-164) -/
inductive NetConf where
  | httpRds (routeName : String)          -- HttpConnectionManager with an Rds route specifier
  | tcp (cluster : String) (weighted : Option (List (String × Nat)))
  | other                                 -- no usable configuration
deriving DecidableEq

/-- a network filter of a filter chain (internal/listener/listener.go:66-76) -/
structure NetFilter where
  name : String
  conf : NetConf
deriving DecidableEq

/-- `wellknown.HTTPConnectionManager` -/
def hcmName : String := "envoy.filters.network.http_connection_manager"
/-- `wellknown.TCPProxy` -/
def tcpName : String := "envoy.filters.network.tcp_proxy"

/-- what pkg/ads/api_listener_properties.go:166-316 reads of a `FilterChain` -/
structure FilterChain where
  port : Option Nat := none              -- FilterChainMatch.DestinationPort
  ranges : List CidrRange := []
  proto : String := ""                   -- FilterChainMatch.TransportProtocol
  tls : Option TlsCtx := none            -- GetDownstreamTlsContext(fc.TransportSocket)
  filters : List NetFilter := []
deriving DecidableEq

/-- `core.TrafficDirection` (pkg/ads/internal/listener/listener.go:43-45) -/
inductive Dir where
  | unspecified | inbound | outbound
deriving DecidableEq

/-- what pkg/ads reads of a `Listener` -/
structure Listener where
  name : String
  dir : Dir
  addr : String                          -- net.TCPAddr{IP, Port}.String() of its socket address
  chains : List FilterChain := []
  dflt : Option FilterChain := none
deriving DecidableEq

/-- `matchPrefixRanges` (api_listener_properties.go:318-337): `none` is the parse error. -/
def matchPrefixRanges : List CidrRange → Option Ip → Option Bool
  | [], _ => some false
  | r :: rs, ip =>
    if r.addr = "" then matchPrefixRanges rs ip
    else match r.parsed with
      | none => none
      | some c => if c.contains ip then some true else matchPrefixRanges rs ip

/-- Step 1 of `findFilterChain` (api_listener_properties.go:258-283). -/
def matchPort (fcs : List FilterChain) (port : Nat) : List FilterChain :=
  let exact := fcs.filter fun fc => fc.port.getD 0 = port
  if exact.length > 0 then exact else fcs.filter fun fc => fc.port.getD 0 = 0

/-- The loop of step 2 (api_listener_properties.go:286-299). -/
def matchIp (ip : Option Ip) : List FilterChain → Option (List FilterChain)
  | [] => some []
  | fc :: rest =>
    if fc.ranges = [] then matchIp ip rest
    else match matchPrefixRanges fc.ranges ip with
      | none => none
      | some ok => (matchIp ip rest).map fun l => if ok then fc :: l else l

/-- `findFilterChain` (api_listener_properties.go:252-316). -/
def findFilterChain (fcs : List FilterChain) (port : Nat) (ip : Option Ip) : Option (List FilterChain) :=
  let byPort := matchPort fcs port
  (matchIp ip byPort).map fun l =>
    if l.length = 0 then byPort.filter (fun fc => fc.ranges = []) else l

/-- pkg/ads/api_listener_properties.go:35-42 -/
structure ListenerProps where
  useTLS : Bool
  permissive : Bool
  requireClientCert : Bool
  validation : Option Nat
  listener : String        -- whose metadata it is
deriving DecidableEq

/-- the errors, as far as callers can tell them apart -/
inductive Err where
  | notFound | ambiguous | badConfig
deriving DecidableEq

/-- The loop over the matched chains (api_listener_properties.go:199-222). -/
def chainStep (p : ListenerProps × Bool) (fc : FilterChain) : ListenerProps × Bool :=
  if fc.proto = "tls" then
    match fc.tls with
    | none => ({ p.1 with useTLS := true }, p.2)
    | some ts => ({ p.1 with useTLS := true, requireClientCert := ts.requireClientCert,
                             validation := (ts.validation.map some).getD p.1.validation }, p.2)
  else if fc.proto = "raw_buffer" then (p.1, true)
  else p

/-- api_listener_properties.go:192-240: the result for the matched chains -/
def chainProps (l : Listener) (fcs : List FilterChain) : ListenerProps :=
  let r := fcs.foldl chainStep ({ useTLS := false, permissive := false, requireClientCert := false, validation := none, listener := l.name }, false)
  { r.1 with permissive := r.1.useTLS && r.2 }

/-- The filter chains used of a listener (api_listener_properties.go:181-190). -/
def listenerChains (l : Listener) (port : Nat) (ip : Option Ip) : Option (List FilterChain) :=
  (findFilterChain l.chains port ip).map fun fcs =>
    match fcs, l.dflt with
    | [], some d => [d]
    | fcs, _ => fcs

/-- `getListenerProperties` (api_listener_properties.go:166-249); the metadata conversion error is
not modelled. -/
def listenerLoop (port : Nat) (ip : Option Ip) : List Listener → Option ListenerProps → Except Err (Option ListenerProps)
  | [], lp => .ok lp
  | l :: rest, lp =>
    match listenerChains l port ip with
    | none => .error .badConfig
    | some [] => listenerLoop port ip rest lp
    | some fcs =>
      if lp.isSome then .error .ambiguous
      else listenerLoop port ip rest (some (chainProps l fcs))

/-- pkg/ads/api_listener_properties.go:180-257 -/
def listenerProperties (ls : List Listener) (port : Nat) (ip : Option Ip) : Except Err ListenerProps :=
  match listenerLoop port ip (ls.filter (·.dir = .inbound)) none with
  | .error e => .error e
  | .ok none => .error .notFound
  | .ok (some lp) => .ok lp

/-! ### Name resolution -/

/-- `ResolveHost` (nametable.go:29-72). `parseIP` is `net.ParseIP` followed by `String()`; the name
table maps host names to IP strings. `none` is `HostNotFoundError`. -/
def tryNames (nt : String → Option (List String)) : List String → Option (List String)
  | [] => none
  | h :: hs => match nt h with
    | some ips => some ips
    | none => tryNames nt hs

/-- pkg/ads/nametable.go:29-72 -/
def resolveHost (parseIP : String → Option String) (nt : String → Option (List String)) (search : List String)
    (host : String) : Option (List String) :=
  match parseIP host with
  | some ip => some [ip]
  | none => (tryNames nt (host :: search.map fun d => host ++ "." ++ d)).map fun ips => ips.filterMap parseIP

/-! ### Outbound listeners -/

/-- `net.JoinHostPort` and `net.TCPAddr.String` of a rendered IP. (Go's net package, used in pkg/ads/api_tcp_client.go:276-311) -/
def joinHostPort (h : String) (port : Nat) : String :=
  if ':' ∈ h.toList then "[" ++ h ++ "]:" ++ Nat.repr port else h ++ ":" ++ Nat.repr port

/-- `hasNetworkFilter.Filter` (internal/listener/listener.go:66-76). -/
def Listener.hasFilter (l : Listener) (n : String) : Bool :=
  l.chains.any fun fc => fc.filters.any fun f => f.name = n

/-- The check `len(x) > 1`, `len(x) == 0` and `x[0]` (api_http_client.go:285-293,
api_tcp_client.go:289-297). -/
def theOne {α : Type} : List α → Except Err α
  | [] => .error .notFound
  | [l] => .ok l
  | _ => .error .ambiguous

/-- `getHTTPOutboundListener` / `getTCPOutboundListener` (api_http_client.go:257-296,
api_tcp_client.go:261-300), the same text with another filter name. -/
def outboundListener (filterName : String) (ls : List Listener) (ips : List String) (port : Nat) : Except Err Listener :=
  let base := ls.filter fun l => l.dir = .outbound && l.hasFilter filterName
  let ex := base.filter fun l => ips.any fun ip => l.addr = joinHostPort ip port
  let ex := if ex.length = 0 then base.filter (fun l => l.addr = joinHostPort "0.0.0.0" port) else ex
  theOne ex

/-- The filters of the HTTP connection managers that name an RDS route configuration. (pkg/ads/internal/listener/listener.go:153-173) -/
def rdsName : List NetFilter → Option String
  | [] => none
  | f :: fs =>
    if f.name ≠ hcmName then rdsName fs
    else match f.conf with
      | .httpRds n => some n
      | _ => rdsName fs

/-- `GetRouteConfigName` (internal/listener/listener.go:152-173): the first one found. -/
def routeConfigName : List FilterChain → Option String
  | [] => none
  | c :: cs => match rdsName c.filters with
    | some n => some n
    | none => routeConfigName cs

/-! ### Routes -/

/-- what pkg/ads/internal/route/route.go:45-75 reads of a `RouteMatch` -/
structure RouteMatch where
  pfx : String := ""
  path : String := ""
  regex : Option String := none
  ignoreCase : Bool := false     -- CaseSensitive present and false
deriving DecidableEq

/-- what pkg/ads/internal/route/route.go reads of a `Route` -/
structure RouteT where
  name : String
  m : RouteMatch
  cluster : String := ""
  weighted : Option (List (String × Nat)) := none
deriving DecidableEq

/-- what pkg/ads/internal/virtualhost/virtualhost.go reads of a `VirtualHost` -/
structure VirtualHost where
  name : String
  domains : List String
  routes : List RouteT
deriving DecidableEq

/-- what pkg/ads/api_http_client.go:170-258 reads of a `RouteConfiguration` -/
abbrev RouteConfig := List VirtualHost

/-- `strings.HasPrefix`. -/
def hasPrefix (s p : String) : Bool := p.toList.isPrefixOf s.toList

/-- `routePathFilter.Filter` (internal/route/route.go:45-77). `rx` is `regexp.MatchString` (false
for an expression that does not compile); lower-casing and `EqualFold` are ASCII only. -/
def RouteMatch.matchesPath (rx : String → String → Bool) (m : RouteMatch) (path : String) : Bool :=
  if m.pfx ≠ "" ∨ m.path ≠ "" then
    if m.ignoreCase then
      if m.pfx ≠ "" then hasPrefix path.toLower m.pfx.toLower else path.toLower = m.path.toLower
    else
      if m.pfx ≠ "" then hasPrefix path m.pfx else path = m.path
  else match m.regex with
    | some r => rx r path
    | none => false

/-- `routeToClusterActionFilter.Filter` (internal/route/route.go:33-35). -/
def RouteT.toCluster (r : RouteT) : Bool := r.cluster ≠ "" || r.weighted.isSome

/-- `route.Filter` with the two options (internal/route/route.go:84-111). -/
def matchingRoutes (rx : String → String → Bool) (vh : VirtualHost) : List RouteT :=
  vh.routes.filter fun r => r.toCluster && r.m.matchesPath rx "/"

/-- `virtualhost.Filter(MatchingDomain, HasRoutesMatching)` (internal/virtualhost/virtualhost.go:29-83). -/
def matchingHosts (rx : String → String → Bool) (rc : RouteConfig) (d : String) : List VirtualHost :=
  rc.filter fun vh => decide (d ∈ vh.domains) && decide ((matchingRoutes rx vh).length ≠ 0)

/-- The domains tried, in order (api_http_client.go:185-205). -/
def domainCandidates (parseIP : String → Option String) (ips : List String) (host : String) (port : Nat) : List String :=
  ips.map (joinHostPort · port) ++ ips ++
    (if (parseIP host).isNone then [joinHostPort host port, host] else [])

/-- The loop over the domains (api_http_client.go:212-221). -/
def selectHosts (rx : String → String → Bool) (rc : RouteConfig) : List String → List VirtualHost
  | [] => []
  | d :: ds =>
    let vhs := matchingHosts rx rc d
    if vhs.length > 0 then vhs else selectHosts rx rc ds

/-- `clustersWeightMap` (internal/route/route.go:121-124, api_tcp_client.go:234-237): a later entry
of the same name replaces the earlier one. -/
def weightMap (ws : List (String × Nat)) : List (String × Nat) :=
  ws.foldl (fun acc w => put w.1 w.2 acc) []

/-- `GetTargetClusterName` (internal/route/route.go:114-131). -/
def targetClusterName (r : RouteT) (t : Table) : Option String × Table :=
  if r.cluster ≠ "" then (some r.cluster, t)
  else match r.weighted with
    | some ws => selectCluster (weightMap ws) t
    | none => (none, t)

/-- The known resources. (the caches of pkg/ads/client.go:44-59) -/
structure Res where
  listeners : List Listener
  routeConfigs : String → Option RouteConfig
  clusters : String → Bool
  names : String → Option (List String)

/-- The part of `getHttpClientTargetCluster` (api_http_client.go:164-255) after the route
configuration is known: the route chosen for the address. -/
def selectRoute (rx : String → String → Bool) (rc : RouteConfig) (cands : List String) : Except Err RouteT :=
  match selectHosts rx rc cands with
  | [] => .error .notFound
  | [vh] => match matchingRoutes rx vh with
    | [] => .error .notFound
    | [r] => .ok r
    | _ => .error .ambiguous
  | _ => .error .ambiguous

/-- `getHttpClientTargetCluster` (api_http_client.go:164-255). -/
def httpTarget (parseIP : String → Option String) (rx : String → String → Bool) (search : List String) (res : Res)
    (host : String) (port : Nat) (t : Table) : Except Err (String × RouteT) × Table :=
  match resolveHost parseIP res.names search host with
  | none => (.error .notFound, t)
  | some ips => match outboundListener hcmName res.listeners ips port with
    | .error e => (.error e, t)
    | .ok l => match routeConfigName l.chains with
      | none => (.error .notFound, t)
      | some rcn =>
        if rcn = "" then (.error .notFound, t)
        else match res.routeConfigs rcn with
        | none => (.error .notFound, t)
        | some rc => match selectRoute rx rc (domainCandidates parseIP ips host port) with
          | .error e => (.error e, t)
          | .ok r =>
            let x := targetClusterName r t
            match x.1 with
            | none => (.error .notFound, x.2)
            | some c => if res.clusters c then (.ok (c, r), x.2) else (.error .notFound, x.2)

/-! ### TCP target cluster (api_tcp_client.go:208-259) -/

/-- The inner loop over a chain's filters; the first component is `clusterName` ("" as none). (pkg/ads/api_tcp_client.go:218-274) -/
def tcpFilters : List NetFilter → Option String × Table → Option String × Table
  | [], x => x
  | f :: fs, x =>
    if f.name ≠ tcpName then tcpFilters fs x
    else match f.conf with
      | .tcp c w =>
        if c ≠ "" then (some c, x.2)
        else match w with
          | some ws =>
            let y := selectCluster (weightMap ws) x.2
            if y.1.isSome then y else tcpFilters fs y
          | none => tcpFilters fs x
      | _ => tcpFilters fs x

/-- the loop over the filter chains in pkg/ads/api_tcp_client.go:218-274 -/
def tcpChains (cs : List FilterChain) (t : Table) : Option String × Table :=
  cs.foldl (fun x c => tcpFilters c.filters x) (none, t)

/-- pkg/ads/api_tcp_client.go:218-274 -/
def tcpTarget (parseIP : String → Option String) (search : List String) (res : Res) (host : String) (port : Nat)
    (t : Table) : Except Err String × Table :=
  match resolveHost parseIP res.names search host with
  | none => (.error .notFound, t)
  | some ips => match outboundListener tcpName res.listeners ips port with
    | .error e => (.error e, t)
    | .ok l =>
      let x := tcpChains l.chains t
      match x.1 with
      | none => (.error .notFound, x.2)
      | some c => if res.clusters c then (.ok c, x.2) else (.error .notFound, x.2)

/-! ### Transport sockets (internal/cluster/cluster.go:131-216) -/

/-- `wellknown.TransportSocketTLS` -/
def tlsSocket : String := "envoy.transport_sockets.tls"
/-- `wellknown.TransportSocketRawBuffer` -/
def rawSocket : String := "envoy.transport_sockets.raw_buffer"

/-- A `TransportSocketMatch`: criteria as a string map (`none` for a value that is not a string), and
the name of its socket. (pkg/ads/internal/cluster/cluster.go:180-216) -/
structure TsMatch where
  criteria : List (String × Option String)
  socket : Option String
deriving DecidableEq

/-- One entry; `none` is the panic of a failed type assertion. (pkg/ads/internal/cluster/cluster.go:180-216) -/
def tsmStep (md : List (String × Option String)) : List (String × Option String) → Option Bool
  | [] => some true
  | (k, v) :: rest =>
    match lookup k md with
    | some (some w) => match v with
      | some v => if w ≠ v then some false else tsmStep md rest
      | none => none
    | _ => none

/-- the loop of pkg/ads/internal/cluster/cluster.go:180-216 -/
def matchingSockets (md : List (String × Option String)) : List TsMatch → Option (List String)
  | [] => some []
  | m :: rest =>
    if m.criteria.length = 0 then (matchingSockets md rest).map fun l => m.socket.toList ++ l
    else if md.length = m.criteria.length then
      match tsmStep md m.criteria with
      | none => none
      | some ok => (matchingSockets md rest).map fun l => if ok then m.socket.toList ++ l else l
    else matchingSockets md rest

/-- `GetMatchingTransportSockets` (cluster.go:172-216). -/
def transportSockets (ms : List TsMatch) (dflt : Option String) (md : List (String × Option String)) :
    Option (List String) :=
  (matchingSockets md ms).map fun l => l ++ dflt.toList

/-- `UsesTls` (cluster.go:141-149). -/
def usesTls : List String → Bool
  | [] => false
  | s :: _ => s = tlsSocket

/-- `IsPermissive` (cluster.go:152-170). -/
def isPermissive (l : List String) : Bool := l.contains tlsSocket && l.contains rawSocket

end Verif.Route
