import Verif.Wasm.Http
/-
Model of the middlewares shipped with the library: pkg/proxywasm/middleware/envoy_middleware.go (the attributes filters can ask for and
the forwarded headers), pkg/istio/istio_middleware.go and pkg/proxywasm/http/middleware.go.

Simplifications: the properties of a stream are the list of the writes made to them, oldest first, each for the path of one leaf; all
paths written here are paths of maps, for which C48 shows that reading gives the last value written and unrelated paths do not
interfere. `node.*` are properties of the parent and part of the same list. Times are numbers. A text has as many bytes as characters.
The rendering of an X-Forwarded-Client-Cert element (go-sdk/envoyutil) is a parameter. What is read from the flat buffer in
`upstream_peer` is modelled in FlatNode.lean and a parameter here.
-/
namespace Verif.Wasm.Middleware
open Verif.Heimdall Verif.Wasm.Http

/-- as used in pkg/proxywasm/middleware/envoy_middleware.go and pkg/istio/istio_middleware.go -/
inductive Val where
  | str (s : Str)
  /-- `int`, `int64` -/
  | int (n : Int)
  /-- `uint64` -/
  | u64 (n : Nat)
  | bool (b : Bool)
  /-- `map[string]string` -/
  | smap (l : List (Str × Str))
  /-- `func() string` -/
  | fn (s : Str)
  /-- a number of another type: `uint16`, `codes.Code` -/
  | other (n : Nat)
deriving Repr, DecidableEq

/-- what a filter gets; (pkg/proxywasm/middleware/envoy_middleware.go and pkg/istio/istio_middleware.go) -/
inductive View where
  | text (s : Str)
  /-- eight bytes, little endian -/
  | num (n : Nat)
  | flag (b : Bool)
  | map (l : List (Str × Str))
deriving Repr, DecidableEq

/-- properties.go:59-96 `Stringify` -/
def view : Val → View
  | .str s => .text s
  | .int n => .num (n % 18446744073709551616).toNat
  | .u64 n => .num n
  | .bool b => .flag b
  | .smap l => .map l
  | .fn _ => .text []
  | .other _ => .text []

/-- as used in pkg/proxywasm/middleware/envoy_middleware.go and pkg/istio/istio_middleware.go -/
abbrev Path := List Str
/-- the state of pkg/proxywasm/middleware/envoy_middleware.go and pkg/istio/istio_middleware.go, with the environment and ghost fields -/
abbrev Store := List (Path × Val)

/-- as used in pkg/proxywasm/middleware/envoy_middleware.go and pkg/istio/istio_middleware.go -/
def read (s : Store) (p : Path) : Option Val := (s.reverse.find? fun e => e.1 = p).map (·.2)

/-- `Get` of an element of a map of texts; (pkg/proxywasm/middleware/envoy_middleware.go and pkg/istio/istio_middleware.go) -/
def getIn (s : Store) (p : Path) (k : Str) : Option Val :=
  match read s p with
  | some (.smap l) => (l.find? fun e => e.1 = k).map fun e => .str e.2
  | _ => none

/-- a path from its parts; (pkg/proxywasm/middleware/envoy_middleware.go and pkg/istio/istio_middleware.go) -/
def P (l : List String) : Path := l.map String.toList

/-- the entries of a map set under a key; (pkg/proxywasm/middleware/envoy_middleware.go and pkg/istio/istio_middleware.go) -/
def under (k : String) (l : List (String × Val)) : Store := l.map fun e => (P [k, e.1], e.2)

/-- as used in pkg/proxywasm/middleware/envoy_middleware.go and pkg/istio/istio_middleware.go -/
structure Cert where
  subject : Str
  uri : Str
  dns : Str
  digest : Str
deriving Repr, DecidableEq

/-- an address as `net.SplitHostPort` and `strconv.Atoi` understand it -/
abbrev Addr := Option (Str × Option Int)

/-- as used in pkg/proxywasm/middleware/envoy_middleware.go and pkg/istio/istio_middleware.go -/
structure Conn where
  peer : Option Cert
  loc : Option Cert
  /-- server name, version, protocol of a completed handshake -/
  tls : Option (Str × Nat × Str)
  remote : Addr
  local_ : Addr
  ttfb : Int
deriving Repr, DecidableEq

/-- as used in pkg/proxywasm/middleware/envoy_middleware.go and pkg/istio/istio_middleware.go -/
structure Request where
  method : Str
  host : Str
  scheme : Str
  /-- path, query -/
  path : Str
  query : Str
  /-- `URL.RequestURI` -/
  uri : Str
  proto : Str
  header : Hdr
  trailer : Hdr
  /-- the connection state, if the request carries one -/
  conn : Option Conn
deriving Repr, DecidableEq

/-- as used in pkg/proxywasm/middleware/envoy_middleware.go and pkg/istio/istio_middleware.go -/
structure Response where
  status : Int
  /-- -1: not known in advance -/
  contentLength : Int
  header : Hdr
  trailer : Hdr
  conn : Option Conn
deriving Repr, DecidableEq

/-- header.go:102-110 `Flatten` -/
def flatten (h : Hdr) : List (Str × Str) :=
  (h.map (·.1)).eraseDups.map fun k => (k, join ',' ((h.filter fun e => e.1 = k).map (·.2)))

/-- header.go:89-100 `ByteSize` -/
def byteSize (h : Hdr) : Nat := (((h.map (·.1)).eraseDups).map List.length).sum + (h.map fun e => e.2.length).sum

/-- the value of a decimal; `none` if it is none; (pkg/proxywasm/middleware/envoy_middleware.go and pkg/istio/istio_middleware.go) -/
def digits (s : Str) : Option Nat :=
  if s = [] ∨ s.any (fun c => !(decide ('0' ≤ c) && decide (c ≤ '9'))) then none
  else some (s.foldl (fun n c => n * 10 + (c.toNat - 48)) 0)

/-- `strconv.Atoi`: the value and whether there is an error; out of range it is the nearest number together with an error -/
def atoi (s : Str) : Int × Bool :=
  let (neg, t) := match s with
    | '-' :: t => (true, t)
    | '+' :: t => (false, t)
    | t => (false, t)
  match digits t with
  | none => (0, true)
  | some n =>
    if neg then if n ≤ 9223372036854775808 then (-n, false) else (-9223372036854775808, true)
    else if n < 9223372036854775808 then (n, false) else (9223372036854775807, true)

/-- envoy_middleware.go:229-234: the converted length is used if there *is* an error -/
def requestSize (h : Hdr) : Int :=
  let v := h.get "Content-Length".toList
  if v = [] then 0 else if (atoi v).2 then (atoi v).1 else 0

/-- envoy_middleware.go:225-267 `setRequestProperties` -/
def requestProps (r : Request) (ttfb : Int) : Store :=
  under "request" [("path", .str r.uri), ("url_path", .str r.path), ("host", .str r.host), ("scheme", .str r.scheme),
    ("method", .str r.method), ("headers", .smap (flatten r.header)), ("trailers", .smap (flatten r.trailer)),
    ("referer", .fn (r.header.get "Referer".toList)), ("useragent", .fn (r.header.get "User-Agent".toList)), ("time", .int ttfb),
    ("id", .fn (r.header.get "X-Request-Id".toList)), ("protocol", .str r.proto), ("query", .str r.query),
    ("size", .int (requestSize r.header)),
    ("total_size", .u64 (((requestSize r.header % 18446744073709551616).toNat + byteSize r.header + byteSize r.trailer) % 18446744073709551616))]

/-- as used in pkg/proxywasm/middleware/envoy_middleware.go and pkg/istio/istio_middleware.go -/
inductive Dir where
  | inbound
  | outbound
deriving Repr, DecidableEq

/-- as used in pkg/proxywasm/middleware/envoy_middleware.go and pkg/istio/istio_middleware.go -/
def addrProps (k : String) : Addr → Store
  | none => []
  | some (ip, port) => (P [k, "address"], .str ip) :: (match port with
    | some n => [(P [k, "port"], .int n)]
    | none => [])

/-- as used in pkg/proxywasm/middleware/envoy_middleware.go and pkg/istio/istio_middleware.go -/
def peerProps (k : String) : Option Cert → Store
  | none => []
  | some c => under k [("subject_peer_certificate", .str c.subject), ("dns_san_peer_certificate", .str c.dns),
      ("uri_san_peer_certificate", .str c.uri), ("sha256_peer_certificate_digest", .str c.digest)]

/-- as used in pkg/proxywasm/middleware/envoy_middleware.go and pkg/istio/istio_middleware.go -/
def localProps (k : String) : Option Cert → Store
  | none => []
  | some c => under k [("subject_local_certificate", .str c.subject), ("dns_san_local_certificate", .str c.dns),
      ("uri_san_local_certificate", .str c.uri)]

/-- as used in pkg/proxywasm/middleware/envoy_middleware.go and pkg/istio/istio_middleware.go -/
def tlsProps (k : String) : Option (Str × Nat × Str) → Store
  | none => []
  | some (n, v, p) => under k [("requested_server_name", .str n), ("tls_version", .other v), ("negotiated_protocol", .str p)]

/-- as used in pkg/proxywasm/middleware/envoy_middleware.go and pkg/istio/istio_middleware.go -/
def Dir.connKey : Dir → String
  | .inbound => "connection"
  | .outbound => "upstream"
/-- as used in pkg/proxywasm/middleware/envoy_middleware.go and pkg/istio/istio_middleware.go -/
def Dir.remoteKey : Dir → String
  | .inbound => "source"
  | .outbound => "upstream"

/-- envoy_middleware.go:176-223 `SetEnvoyConnectionInfo` -/
def connInfo (d : Dir) (c : Conn) : Store :=
  under d.connKey [("mtls", .bool c.peer.isSome)] ++ peerProps d.connKey c.peer ++ localProps d.connKey c.loc ++ tlsProps d.connKey c.tls ++
    addrProps d.remoteKey c.remote ++ addrProps "upstream" c.remote ++ addrProps "destination" c.local_

/-- the fields of an X-Forwarded-Client-Cert element; (pkg/proxywasm/middleware/envoy_middleware.go and pkg/istio/istio_middleware.go) -/
structure Xfcc where
  by_ : Str
  hash : Str
  subject : Str
  dns : List Str
deriving Repr, DecidableEq

/-- envoy_middleware.go:73-81 -/
def strProp (s : Store) (p : Path) : Str :=
  match read s p with
  | some (.str x) => x
  | _ => []

/-- envoy_middleware.go:83-88 -/
def xfcc (s : Store) : Xfcc :=
  ⟨strProp s (P ["connection", "uri_san_local_certificate"]), strProp s (P ["connection", "sha256_peer_certificate_digest"]),
    strProp s (P ["connection", "uri_san_peer_certificate"]), [strProp s (P ["dns_san_peer_certificate"])]⟩

/-- as used in pkg/proxywasm/middleware/envoy_middleware.go and pkg/istio/istio_middleware.go -/
def xfccName : Str := "X-Forwarded-Client-Cert".toList

/-- envoy_middleware.go:72-92 `setXForwardedHeaders` -/
def forwarded (render : Xfcc → Str) (s : Store) (h : Hdr) : Hdr :=
  (h.add xfccName (render (xfcc s))).add "X-Forwarded-Proto".toList "https".toList

/-- envoy_middleware.go:37-44, 94-100, 119-121 `BeforeRequest`: the store and the headers of the request afterwards; `now` is the
current time -/
def envoyBeforeRequest (render : Xfcc → Str) (d : Dir) (now : Int) (r : Request) (s : Store) : Store × Hdr :=
  match d with
  | .outbound => (s ++ requestProps r now, r.header)
  | .inbound => match r.conn with
    | none => (s, r.header)
    | some c =>
      let s := s ++ requestProps r c.ttfb ++ connInfo .inbound c
      (s, forwarded render s r.header)

/-- as used in pkg/proxywasm/middleware/envoy_middleware.go and pkg/istio/istio_middleware.go -/
def intProp (s : Store) (p : Path) : Int :=
  match read s p with
  | some (.int n) => n
  | _ => 0

/-- envoy_middleware.go:126-130 `beforeOutboundResponse` -/
def envoyBeforeResponse (d : Dir) (r : Response) (s : Store) : Store :=
  match d, r.conn with
  | .outbound, some c => s ++ connInfo .outbound c
  | _, _ => s

/-- envoy_middleware.go:141-174 `setResponseInfo` -/
def responseInfo (now : Int) (r : Response) (s : Store) : Store :=
  under "response" [("flags", .int (intProp s (P ["response", "flags"]))), ("code", .int r.status),
    ("grpc_status", .int (intProp s (P ["grpc", "status"]))), ("headers", .smap (flatten r.header)), ("trailers", .smap (flatten r.header))] ++
  match read s (P ["request", "time"]) with
  | some (.int t) => [(P ["request", "duration"], .int (now - t))]
  | _ => []

/-- envoy_middleware.go:108-116, 132-139 `AfterResponse`: the trailers of an HTTP response are its headers (wrappers.go:93-95); sums are
modulo 2^64 -/
def envoyAfterResponse (now : Int) (r : Response) (s : Store) : Store :=
  s ++ responseInfo now r s ++ [(P ["response", "total_size"],
    .u64 (((r.contentLength % 18446744073709551616).toNat + byteSize r.header + byteSize r.header) % 18446744073709551616))]

/-! ### the Istio middleware -/

/-- as used in pkg/proxywasm/middleware/envoy_middleware.go and pkg/istio/istio_middleware.go -/
def serviceName : Path := P ["cluster_metadata", "filter_metadata", "istio", "services", "0", "name"]
/-- as used in pkg/proxywasm/middleware/envoy_middleware.go and pkg/istio/istio_middleware.go -/
def serviceHost : Path := P ["cluster_metadata", "filter_metadata", "istio", "services", "0", "host"]

/-- `fmt.Sprintf("%s.%s.svc.cluster.local", …)`; (pkg/proxywasm/middleware/envoy_middleware.go and pkg/istio/istio_middleware.go) -/
def hostOf (name ns : Str) : Str := name ++ '.' :: ns ++ ".svc.cluster.local".toList

/-- istio_middleware.go:37-51 `BeforeRequest`; a name or namespace that is no text is not modelled (it is taken for absent) -/
def istioBeforeRequest (d : Dir) (s : Store) : Store :=
  match d with
  | .outbound => s
  | .inbound => match read s (P ["node", "metadata", "LABELS", "service.istio.io/canonical-name"]) with
    | some (.str n) => s ++ (serviceName, .str n) :: (match read s (P ["node", "metadata", "NAMESPACE"]) with
      | some (.str ns) => [(serviceHost, .str (hostOf n ns))]
      | _ => [])
    | _ => s

/-- istio_middleware.go:53-75 `AfterResponse`; `peer` reads name and namespace from the flat buffer -/
def istioAfterResponse (peer : Str → Str × Str) (d : Dir) (s : Store) : Store :=
  match d, read s (P ["upstream_peer"]) with
  | .outbound, some (.str b) => s ++ [(serviceName, .str (peer b).1), (serviceHost, .str (hostOf (peer b).1 (peer b).2))]
  | _, _ => s

end Verif.Wasm.Middleware
