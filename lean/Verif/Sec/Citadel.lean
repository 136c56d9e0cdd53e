import Verif.Heimdall.Text
/-
Model of the client of the CA: pkg/ca/istio/istio_ca_client.go (`NewCitadelClient`, `CSRSign`, `getTLSDialOption`, `getRootCertificate`,
`buildConnection`, `reconnectIfNeeded`, `Close`) as used by pkg/ca/istio/istio_ca.go:88-136.

Not modelled: gRPC below (retries, the token provider), x509 itself. A server is what it presents in the handshake: the names its certificate is
for and the root that issued it. Certificates of the client are not used by istio_ca.go (no key and certificate are given), so
`reconnectIfNeeded` never reconnects: `ProvCert` is always empty.
-/
namespace Verif.Sec.Citadel
open Verif.Heimdall

/-- certificates in PEM, as far as they matter: nil, or the roots that could be parsed from it; (pkg/ca/istio/istio_ca_client.go:172-190) -/
abbrev Pem := Option (List Nat)

/-- what is used of `IstioCAClientConfig` (istio_ca.go:33-42) -/
structure Config where
  endpoint : Str
  san : Str
  clusterID : Str
  token : Str
  pem : Pem
deriving Repr, DecidableEq

/-- the server reached when pkg/ca/istio/istio_ca_client.go:94-123 dials (environment) -/
structure Server where
  /-- the host part of the endpoint is one of the names if gRPC asks for no other -/
  names : List Str
  root : Nat
deriving Repr, DecidableEq

/-- constant of pkg/ca/istio/istio_ca_client.go:149-157 -/
def localhost : Str := "localhost".toList
/-- constant of pkg/ca/istio/istio_ca_client.go:149-157 -/
def istiodName : Str := "istiod.istio-system.svc".toList

/-- `strings.Contains` -/
def contains (p : Str) : Str → Bool
  | [] => p.isEmpty
  | c :: s => p.isPrefixOf (c :: s) || contains p s

/-- istio_ca_client.go:163-181 `getRootCertificate`: nil takes those of the system, text without certificates is an error -/
def roots (system : List Nat) : Pem → Option (List Nat)
  | none => some system
  | some [] => none
  | some l => some l

/-- istio_ca_client.go:149-157: the name asked for; otherwise gRPC takes the host of the endpoint -/
def serverName (host : Str → Str) (c : Config) : Str :=
  if c.san ≠ [] then c.san else if contains localhost c.endpoint then istiodName else host c.endpoint

/-- what a server receives from pkg/ca/istio/istio_ca_client.go:94-123 (ghost trace) -/
structure Request where
  token : Str
  clusterID : Str
  ttl : Int
  server : Server
deriving Repr, DecidableEq

/-- the trace of a client with what it holds (pkg/ca/istio/istio_ca.go:32-38) -/
structure St where
  /-- requests sent -/
  sent : List Request := []
  /-- connections made and not closed -/
  opened : Nat := 0
deriving Repr, DecidableEq

/-- the answer of the server: an error, or a chain of texts; the key of the request fits the first; (environment of pkg/ca/istio/istio_ca_client.go:94-123) -/
abbrev Answer := Option (List Nat)

/-- istio_ca.go:88-136 with istio_ca_client.go: one certificate is asked for. `usable` says whether `tls.X509KeyPair` accepts the chain.
The client is never closed. -/
def request (system : List Nat) (host : Str → Str) (usable : List Nat → Bool) (c : Config) (srv : Server) (ttl : Int) (ans : Answer) (s : St) :
    St × Option (List Nat) :=
  match roots system c.pem with
  | none => (s, none)
  | some rs =>
    -- `grpc.Dial` does not wait for the connection
    let s := { s with opened := s.opened + 1 }
    -- the handshake
    if srv.root ∈ rs ∧ serverName host c ∈ srv.names then
      let s := { s with sent := ⟨c.token, c.clusterID, ttl, srv⟩ :: s.sent }
      match ans with
      | none => (s, none)
      -- istio_ca_client.go:112-114
      | some chain => if chain.length ≤ 1 then (s, none) else if usable chain then (s, some chain) else (s, none)
    else (s, none)

/-- any number of certificates, from servers that may change; (a history of calls of pkg/ca/istio/istio_ca.go:71-140) -/
def requests (system : List Nat) (host : Str → Str) (usable : List Nat → Bool) (c : Config) : List (Server × Int × Answer) → St → St
  | [], s => s
  | (srv, ttl, ans) :: r, s => requests system host usable c r (request system host usable c srv ttl ans s).1

end Verif.Sec.Citadel
