/-
Wrapped TLS configurations: /repo/pkg/network/tls.go `WrapTLSConfig`, with the certificate selection of
Go's crypto/tls it replaces (Config.getCertificate, Conn.getClientCertificate; Go 1.20), and
`SetLocalCertificate` (/repo/pkg/network/connection_state.go:216-223).

A certificate is a number and whether its chain is empty (`tls.Certificate{}`, "no certificate").
-/
import Verif.Base

namespace Verif.TlsWrap

/-- as used in pkg/network/tls.go -/
structure Cert where
  id : Nat
  /-- `len(cert.Certificate) == 0` -/
  empty : Bool
deriving DecidableEq, Repr

/-- `new(tls.Certificate)`; (pkg/network/tls.go) -/
def noCert : Cert := ⟨0, true⟩

/-- `tls.ClientHelloInfo`: the server name and `SupportsCertificate(c) == nil`. (pkg/network/tls.go) -/
structure Hello where
  name : List Char
  supports : Cert → Bool

/-- `tls.CertificateRequestInfo`. (pkg/network/tls.go) -/
structure Request where
  supports : Cert → Bool

/-- The relevant fields of `tls.Config`; callbacks return an error, nil, or a certificate. (pkg/network/tls.go) -/
structure Config where
  certs : List Cert := []
  getCertificate : Option (Hello → Except Unit (Option Cert)) := none
  names : Option (List Char → Option Cert) := none
  getClientCertificate : Option (Request → Except Unit (Option Cert)) := none

/-- How a selection ends. the result of a call (pkg/network/tls.go), an error or a panic -/
inductive Out where
  | cert (c : Cert)
  /-- the handshake fails -/
  | err
  /-- index out of range in `SetLocalCertificate` -/
  | crash
deriving DecidableEq, Repr

/-- `strings.ToLower` on ASCII names. -/
def lower (n : List Char) : List Char := n.map Char.toLower

/-- The first label replaced by `*` (tls.go:76-79). -/
def wildcard (n : List Char) : List Char := '*' :: n.dropWhile (· ≠ '.')

/-- The lookup in `NameToCertificate` (tls.go:70-83; the same in crypto/tls). -/
def byName (cfg : Config) (h : Hello) : Option Cert :=
  match cfg.names with
  | none => none
  | some m =>
    match m (lower h.name) with
    | some c => some c
    | none => if lower h.name = [] then none else m (wildcard (lower h.name))

/-- crypto/tls `Config.getCertificate`. (Go's standard library) -/
def stdServer (cfg : Config) (h : Hello) : Out :=
  let rest : Out :=
    match cfg.certs with
    | [] => .err
    | [c] => .cert c
    | first :: more =>
      match byName cfg h with
      | some c => .cert c
      | none =>
        match (first :: more).find? h.supports with
        | some c => .cert c
        | none => .cert first
  match cfg.getCertificate with
  | some f =>
    if cfg.certs = [] ∨ h.name ≠ [] then
      match f h with
      | .error _ => .err
      | .ok (some c) => .cert c
      | .ok none => rest
    else rest
  | none => rest

/-- crypto/tls `Conn.getClientCertificate`. A callback that returns nil is an error in the handshake. (Go's standard library) -/
def stdClient (cfg : Config) (r : Request) : Out :=
  match cfg.getClientCertificate with
  | some f =>
    match f r with
    | .error _ => .err
    | .ok none => .err
    | .ok (some c) => .cert c
  | none =>
    match cfg.certs.find? r.supports with
    | some c => .cert c
    | none => .cert noCert

/-- `getCert` on the server side (tls.go:55-92); `none` is a nil certificate. -/
def getCertServer (cfg : Config) (h : Hello) : Except Unit (Option Cert) :=
  match cfg.getCertificate with
  | some f => f h
  | none =>
    match cfg.certs with
    | [c] => .ok (some c)
    | cs =>
      match byName cfg h with
      | some c => .ok (some c)
      | none =>
        match cs.find? h.supports with
        | some c => .ok (some c)
        | none => .ok (some noCert)

/-- `getCert` on the client side (tls.go:117-139). -/
def getCertClient (cfg : Config) (r : Request) : Except Unit (Option Cert) :=
  let first : Except Unit (Option Cert) :=
    match cfg.getClientCertificate with
    | some f => f r
    | none => .ok (some noCert)
  match first with
  | .error e => .error e
  | .ok c =>
    match cfg.certs.find? r.supports with
    | some c' => .ok (some c')
    | none => .ok c

/-- `SetLocalCertificate` reads the first certificate of the chain; `tracked`: the connection has a state.
The outcome and what is recorded as the local certificate. (pkg/network/tls.go) -/
def record (tracked : Bool) (c : Cert) : Out × Option Cert :=
  if tracked then (if c.empty then (.crash, none) else (.cert c, some c)) else (.cert c, none)

/-- A handshake as a server with the wrapped configuration (tls.go:51-110). -/
def wrapServer (tracked : Bool) (cfg : Config) (h : Hello) : Out × Option Cert :=
  if cfg.certs = [] ∧ cfg.getCertificate.isNone then (stdServer cfg h, none)
  else match getCertServer cfg h with
    | .error _ => (.err, none)
    | .ok none => (.err, none)
    | .ok (some c) => record tracked c

/-- A handshake as a client with the wrapped configuration (tls.go:112-157). -/
def wrapClient (tracked : Bool) (cfg : Config) (r : Request) : Out × Option Cert :=
  if cfg.certs = [] ∧ cfg.getClientCertificate.isNone then (stdClient cfg r, none)
  else match getCertClient cfg r with
    | .error _ => (.err, none)
    | .ok none => (.err, none)
    | .ok (some c) => record tracked c

end Verif.TlsWrap
