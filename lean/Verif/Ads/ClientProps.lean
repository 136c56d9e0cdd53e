import Verif.Ads.Balance
import Verif.Ads.Route

/-!
# From the configuration of a destination to the connection: metadata and client properties

pkg/ads/internal/util/util.go:188-221 (`GetUnifiedFilterMetadata`), its uses in
pkg/ads/internal/{cluster,route,endpoint} and `newClientProperties`
(pkg/ads/api_tcp_client.go:315-427), and what the TCP dialer (pkg/istio/tcp/dialer.go:54-70) and the
HTTP transport (pkg/istio/http/transport.go:45-66) make of the result. The choice of the endpoint is
`Verif.Bal.nextEndpoint`, the socket matches are `Verif.Route.transportSockets`. The server name and
the certificate checks are not modelled.
-/

namespace Verif.CliProps

/-- A value of `typed_filter_metadata` (util.go:191-197): its type is not linked into the program
or its bytes are not of that type (`UnmarshalNew` fails); or a message, whose JSON form is `none` if
it has none (a NaN, a value with no kind). `V` is the type of JSON values. -/
inductive Typed (V : Type) where
  | unreadable
  | msg (json : Option V)

/-- `core.v3.Metadata`: two maps, listed in an order of iteration, each key once. The untyped values
are `Struct`s, `none` if they cannot be written as JSON. (util.go:188-205) -/
structure Md (V : Type) where
  typed : List (String × Typed V) := []
  untyped : List (String × Option V) := []

/-- The first loop (util.go:191-197): all typed values, or an error. -/
def readTyped {V : Type} : List (String × Typed V) → Option (List (String × Option V))
  | [] => some []
  | (_, .unreadable) :: _ => none
  | (k, .msg j) :: r => (readTyped r).map fun l => (k, j) :: l

/-- The second loop (util.go:199-204): untyped values of keys not yet present. -/
def addUntyped {V : Type} (raw : List (String × Option V)) : List (String × Option V) → List (String × Option V)
  | [] => raw
  | (k, v) :: r => if raw.any (fun e => e.1 = k) then addUntyped raw r else addUntyped (raw ++ [(k, v)]) r

/-- `json.Marshal` and `json.Unmarshal` into a generic map (util.go:206-219): fails if one value has
no JSON form, and otherwise gives back the JSON values. -/
def viaJson {V : Type} : List (String × Option V) → Option (List (String × V))
  | [] => some []
  | (_, none) :: _ => none
  | (k, some v) :: r => (viaJson r).map fun l => (k, v) :: l

/-- `GetUnifiedFilterMetadata` (util.go:188-221); `none` is an error. -/
def unified {V : Type} (md : Md V) : Option (List (String × V)) :=
  match readTyped md.typed with
  | none => none
  | some raw => viaJson (addUntyped raw md.untyped)

/-- What `newClientProperties` is given (api_tcp_client.go:315-427): metadata of the cluster and of
the route if there is one, the endpoints of the load assignment in order (address and metadata), the
endpoint the policy picks, the socket matches of the cluster and its default socket. -/
structure Dest (V : Type) where
  clusterMd : Md V := {}
  route : Option (Md V) := none
  eps : List (Option String × Md V) := []
  pick : Bal.Pick := .nil
  matches_ : List Route.TsMatch := []
  dflt : Option String := none

/-- The `clientProperties` (api_tcp_client.go:43-52, 401-417); server name and verifier are not
modelled. -/
structure Props (V : Type) where
  useTLS : Bool
  permissive : Bool
  address : Option String
  clusterMd : List (String × V)
  routeMd : List (String × V)
  endpointMd : List (String × V)

/-- The results of `newClientProperties`: an error, a panic, the pair `(nil, nil)`, or properties. -/
inductive Res (V : Type) where
  | fails
  | crash
  | nilResult
  | props (p : Props V)

/-- The metadata of the first endpoint with the address (endpoint.go:89-105); nil is the empty map. -/
def metaOf {V : Type} (a : String) : List (Option String × Md V) → Option (List (String × V))
  | [] => some []
  | (some b, md) :: r => if b = a then unified md else metaOf a r
  | (none, _) :: r => metaOf a r

/-- The optional route's metadata (api_tcp_client.go:325-331). -/
def routeMeta {V : Type} : Option (Md V) → Option (List (String × V))
  | none => some []
  | some md => unified md

/-- `"envoy.transport_socket_match"` (api_tcp_client.go:395) -/
def matchKey : String := "envoy.transport_socket_match"

/-- The match fields of an endpoint (api_tcp_client.go:394-399): none, or those under the key;
`none` is a failed type assertion. -/
def matchFields {V : Type} (asObj : V → Option (List (String × Option String))) (em : List (String × V)) :
    Option (List (String × Option String)) :=
  match Bal.lookup matchKey em with
  | none => some []
  | some v => asObj v

/-- The last part of `newClientProperties` (api_tcp_client.go:394-427), after the metadata are read.
`asObj` is the type assertion to a map: the fields and, of those that are strings, the value. -/
def finish {V : Type} (asObj : V → Option (List (String × Option String))) (d : Dest V)
    (addr : Option String) (cm rm em : List (String × V)) : Res V :=
  match matchFields asObj em with
  | none => .nilResult     -- `errors.WrapIff(err, …)` of a nil `err` is nil: (nil, nil)
  | some fields =>
    match Route.transportSockets d.matches_ d.dflt fields with
    | none => .crash
    | some ts =>
      .props { useTLS := Route.usesTls ts, permissive := Route.isPermissive ts, address := addr,
               clusterMd := cm, routeMd := rm, endpointMd := em }

/-- `newClientProperties` (api_tcp_client.go:315-427), with the load assignment found. -/
def newClientProperties {V : Type} (asObj : V → Option (List (String × Option String))) (d : Dest V) : Res V :=
  match unified d.clusterMd with
  | none => .fails
  | some cm =>
    match routeMeta d.route with
    | none => .fails
    | some rm =>
      match d.pick with
      | .panic => .crash
      | .nil =>
        -- `endpointAddress.String()` of a nil interface (endpoint.go:97)
        if d.eps.any (fun e => e.1.isSome) then .crash else finish asObj d none cm rm []
      | .addr a =>
        match metaOf a d.eps with
        | none => .fails
        | some em => finish asObj d (some a) cm rm em

/-- How a cluster finds its endpoints (`cluster_discovery_type`, `eds_cluster_config`): by subscribing
to a load assignment; or in another way — listed in the cluster itself, by DNS, or by the original
destination. (endpoint.go:53-72) -/
structure Discovery where
  eds : Bool
  service : String
  name : String
deriving DecidableEq

/-- `GetClusterLoadAssignmentReference` (endpoint.go:53-72) -/
def reference (c : Discovery) : String :=
  if c.eds then (if c.service ≠ "" then c.service else c.name) else ""

/-- `newClientProperties` from its first lines (api_tcp_client.go:315-319) with
`getClusterLoadAssignmentForCluster` (clusterloadassignments.go:58-86); `store` are the load
assignments by name, `pick` the policy's choice. An embedded load assignment (`load_assignment` of the
cluster) is not looked at, so it is no argument. -/
def clientProperties {V : Type} (asObj : V → Option (List (String × Option String))) (c : Discovery)
    (store : List (String × List (Option String × Md V))) (pick : List (Option String × Md V) → Bal.Pick)
    (d : Dest V) : Res V :=
  match Bal.lookup (reference c) store with
  | none => .fails
  | some eps => newClientProperties asObj { d with eps := eps, pick := pick eps }

/-- What the dialer does: it crashes, returns an error, or opens a connection, with TLS or without.
(pkg/istio/tcp/dialer.go:54-70, pkg/istio/http/transport.go:48-66 for a plain `http` request) -/
inductive Conn where
  | crash
  | error
  | dial (address : String) (tls : Bool)
deriving DecidableEq

/-- `DialContext`, `RoundTrip`: `prop, _ := …`, so an error is ignored and the given address is
dialled without TLS; the nil pointer of `(nil, nil)` is a non-nil interface value, whose first method
call dereferences it. (tcp/dialer.go:54-70, http/transport.go:48-66, discovery/xds.go:216-252) -/
def connect {V : Type} (given : String) : Res V → Conn
  | .fails => .dial given false
  | .crash => .crash
  | .nilResult => .crash
  | .props p => match p.address with
    | none => .error
    | some a => .dial a p.useTLS

end Verif.CliProps
