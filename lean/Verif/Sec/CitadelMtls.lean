/-!
The certificates of the client of Citadel and its reconnecting:
/repo/pkg/ca/istio/istio_ca_client.go:69-91 (`NewCitadelClient`, `Close`), 94-110 (`CSRSign` up to the
call), 131-155 (`GetClientCertificate`), 192-204 (`isCertExpired`), 206-253 (`buildConnection`,
`reconnectIfNeeded`).

Texts are a type `T`; `crypto/x509` and `crypto/tls` are parameters: when the certificate in the first
block of a text ends, and whether certificate and key are a pair. gRPC makes handshakes of an open
connection whenever it wants to, any number of times; whether dialling succeeds (the roots may not be
readable) is part of the step. Calls run one after the other. What is signed is in `Sec/Citadel.lean`.
-/

namespace Verif.Sec.CitadelMtls

/-- What the libraries say. (istio_ca_client.go:192-204, 147, 235) -/
structure Lib (T : Type) where
  /-- the end of the certificate in the first block of the text, if that is a certificate -/
  notAfter : T → Option Nat
  /-- `tls.X509KeyPair` succeeds -/
  pair : T → T → Bool

/-- `TLSOptions`; the certificate may be nil. (istio_ca_client.go:57-61) -/
structure Tls (T : Type) where
  cert : Option T
  key : T

/-- The answer of `GetClientCertificate`. (istio_ca_client.go:131-155) -/
inductive Given (T : Type) where
  /-- an empty certificate: only the token says who the client is -/
  | nothing
  | fails
  | cert (c k : T)

/-- `GetClientCertificate` at a time (istio_ca_client.go:131-155) -/
def give {T : Type} (L : Lib T) (t : Tls T) (now : Nat) : Given T :=
  match t.cert with
  | none => .nothing
  | some c =>
    match L.notAfter c with
    | none => .nothing
    | some e =>
      if e < now then .nothing
      else if L.pair c t.key then .cert c t.key
      else .fails

/-- One handshake in which the server asked for a certificate (ghost trace): the connection, the time, the answer.
(istio_ca_client.go:131-155) -/
structure Shake (T : Type) where
  conn : Nat
  now : Nat
  given : Given T

/-- The client (istio_ca_client.go:46-55); connections are numbered in the order made. -/
structure St (T : Type) where
  /-- `ProvCert` is set -/
  prov : Bool
  tls : Option (Tls T)
  mtls : Bool := false
  /-- connections made -/
  made : Nat := 1
  /-- the connection used -/
  conn : Nat := 0
  closed : List Nat := []
  shakes : List (Shake T) := []

/-- What `CSRSign` does before the call. (istio_ca_client.go:94-111) -/
inductive Out where
  | goesOn
  | fails
  | crash
deriving DecidableEq

/-- `reconnectIfNeeded` (istio_ca_client.go:230-253); `built` tells whether the new connection can be
made. Closing a closed connection is an error of gRPC. Without TLS options reading them is a panic;
`tls.X509KeyPair` of no certificate is an error. -/
def reconnect {T : Type} (L : Lib T) (built : Bool) (s : St T) : St T × Out :=
  if !s.prov || s.mtls then (s, .goesOn)
  else match s.tls with
    | none => (s, .crash)
    | some t => match t.cert with
      | none => (s, .goesOn)
      | some c =>
        if L.pair c t.key then
          if s.conn ∈ s.closed then (s, .fails)
          else if built then
            ({ s with closed := s.conn :: s.closed, conn := s.made, made := s.made + 1 }, .goesOn)
          else ({ s with closed := s.conn :: s.closed }, .fails)
        else (s, .goesOn)

/-- Steps: signing, a handshake of a connection in which a certificate is asked for, the owner changing
the TLS options (they are shared by pointer), `Close`. (istio_ca_client.go:69-110) -/
inductive Op (T : Type) where
  | sign (built : Bool)
  | shake (conn now : Nat)
  | options (t : Tls T)
  | close

/-- One step; handshakes happen on open connections with TLS. (istio_ca_client.go:69-155) -/
def step {T : Type} (L : Lib T) (s : St T) : Op T → St T
  | .sign b => (reconnect L b s).1
  | .shake k now =>
    if k < s.made ∧ k ∉ s.closed then
      match s.tls with
      | none => s
      | some t =>
        let g := give L t now
        { s with
          mtls := match g with
            | .cert _ _ => true
            | _ => s.mtls
          shakes := s.shakes ++ [⟨k, now, g⟩] }
    else s
  | .options t => { s with tls := s.tls.map (fun _ => t) }
  | .close => if s.conn ∈ s.closed then s else { s with closed := s.conn :: s.closed }

/-- Any number of steps. (istio_ca_client.go:69-253) -/
def run {T : Type} (L : Lib T) (s : St T) (ops : List (Op T)) : St T := ops.foldl (step L) s

end Verif.Sec.CitadelMtls
