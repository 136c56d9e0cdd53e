import Verif.Sec.Cert
import Verif.Net.Unified
/-
Model of a server of the mesh and the policy for its incoming connections: pkg/istio/istio.go:442-516 (`ServeHTTP`,
`updateUnifiedListener`), 713-751 (`GetTCPListener`), pkg/tls/verify/util.go:93-104 (`SetCertVerifierToTLSConfig`), with the listener of
Net/Unified.lean and the certificate verifier of Sec/Cert.lean.

One server. The responses of the mesh come through a channel that holds the latest (C35); a policy is a response without an error. What
`crypto/tls` does is reduced to what the code configures: a client that does not begin with a TLS handshake fails, certificates that cannot
be parsed fail, none fails if one is required, then `VerifyPeerCertificate` is called if it is set, also for no certificates. Both settings
ask the client for a certificate, and session tickets are off (C71). The bytes of the connection are those of C50: `tls` says whether they
begin with a TLS handshake. Connections may be accepted in any order, and a listener that is not permissive reads its mode once.
-/
namespace Verif.Net.Server
open Verif Verif.Cert Verif.Match

/-- `ListenerProperties` (api_listener_properties.go:32-41); the verifier configuration may be nil -/
structure Policy where
  useTLS : Bool
  permissive : Bool
  certRequired : Bool
  verifier : Option Config

/-- as used in pkg/istio/istio.go and pkg/network/listener/unified_tls_listener.go -/
inductive Auth where
  | request | requireAny
deriving Repr, DecidableEq

/-- istio.go:498-503 -/
def modeOf (p : Policy) : Unified.Mode :=
  if p.useTLS && p.permissive then .permissive else if p.useTLS then .strict else .disabled

/-- istio.go:506-509 -/
def authOf (p : Policy) : Auth := if p.certRequired then .requireAny else .request

/-- where a goroutine is (program counter in pkg/istio/istio.go and pkg/network/listener/unified_tls_listener.go) -/
inductive Phase where
  /-- waits for `Accept` -/
  | opened
  /-- `Accept` has seen a permissive mode and waits for the first bytes -/
  | peeking
  /-- `Accept` has returned a TLS connection -/
  | handshake
  /-- the certificates have been received, the verifier has not been called -/
  | certs
  /-- the application gets the connection, without or with TLS -/
  | plain
  | secure
  | rejected
  /-- the handshake panics -/
  | panic
deriving Repr, DecidableEq

/-- as used in pkg/istio/istio.go and pkg/network/listener/unified_tls_listener.go -/
structure Conn where
  tls : Bool
  /-- the certificates the client presents -/
  raw : List (List Nat)
  phase : Phase := .opened
deriving Repr, DecidableEq

/-- the state of pkg/istio/istio.go and pkg/network/listener/unified_tls_listener.go, with the environment and ghost fields -/
structure St where
  /-- `Run` has connected to the mesh -/
  connected : Bool := false
  /-- `GetListenerProperties` has been called; it has subscribed -/
  asked : Bool := false
  watching : Bool := false
  /-- the unified listener exists -/
  started : Bool := false
  /-- the channel of responses; `some none` is an error -/
  chan : Option (Option Policy) := none
  /-- the callback runs; what it writes next -/
  upd : Option (Policy × Nat) := none
  mode : Unified.Mode := .permissive
  auth : Auth := .request
  /-- `VerifyPeerCertificate`, given by the policy it was made from -/
  verify : Option Policy := none
  conns : List Conn := []
  /-- ghost: the policies received, newest first -/
  rcvd : List Policy := []

/-- the atomic steps and calls of pkg/istio/istio.go and pkg/network/listener/unified_tls_listener.go, and what the surroundings do; the lines are cited at the steps or in the transition function -/
inductive Act where
  | connect
  | ask
  | start
  | push (r : Option Policy)
  | recv
  | write
  | dial (tls : Bool) (raw : List (List Nat))
  | accept (i : Nat)
  | peek (i : Nat)
  | certs (i : Nat)
  | verify (i : Nat)

/-- (the surroundings of pkg/istio/istio.go and pkg/network/listener/unified_tls_listener.go; a parameter of the model) -/
structure World where
  match_ : Match.Env
  x509 : X509
  /-- the roots of the CA (istio.go:461-462) -/
  ca : Pool

/-- util.go:94-103: the function `SetCertVerifierToTLSConfig` installs -/
def peerOk (e : World) (p : Policy) (raw : List (List Nat)) : Outcome (List Certificate) :=
  match p.verifier with
  | none => .panic
  | some c => verifyCertificate e.match_ e.x509 { c with roots := some (c.roots.getD e.ca) } raw

/-- unified_tls_listener.go:136-184 up to the first bytes -/
def acceptPhase (m : Unified.Mode) : Phase := match m with
  | .permissive => .peeking
  | .disabled => .plain
  | _ => .handshake

/-- unified_tls_listener.go:167-171 -/
def peekPhase (c : Conn) : Phase := if c.tls then .handshake else .plain

/-- crypto/tls: the certificates of the client, before `VerifyPeerCertificate`; (pkg/istio/istio.go and pkg/network/listener/unified_tls_listener.go) -/
def certPhase (e : World) (a : Auth) (c : Conn) : Phase :=
  if !c.tls then .rejected
  else if (parseAll e.x509 c.raw).isNone then .rejected
  else if c.raw.isEmpty && a == .requireAny then .rejected
  else .certs

/-- crypto/tls: `VerifyPeerCertificate`; (pkg/istio/istio.go and pkg/network/listener/unified_tls_listener.go) -/
def verifyPhase (e : World) (v : Option Policy) (c : Conn) : Phase := match v with
  | none => .secure
  | some p => match peerOk e p c.raw with
    | .ok _ => .secure
    | .error => .rejected
    | .panic => .panic

/-- a connection in phase `a` goes on to the phase `f` gives; update of a component; models no code -/
def St.move (s : St) (i : Nat) (a : Phase) (f : Conn → Phase) : Option St := match s.conns[i]? with
  | none => none
  | some c => if c.phase = a then some { s with conns := s.conns.set i { c with phase := f c } } else none

/-- istio.go:490-513: the callback, write by write -/
def St.writeStep (s : St) : Option St := match s.upd with
  | some (p, 0) => some { s with mode := modeOf p, upd := some (p, 1) }
  | some (p, 1) => some { s with auth := authOf p, upd := some (p, 2) }
  | some (p, _) => some { s with verify := some p, upd := none }
  | none => none

/-- xds.go:173-190, istio.go:493-496: a policy is dropped if there is no listener yet -/
def St.recvStep (s : St) : Option St :=
  if s.watching && s.upd.isNone then match s.chan with
    | none => none
    | some none => some { s with chan := none }
    | some (some p) => some { s with chan := none, rcvd := p :: s.rcvd, upd := if s.started then some (p, 0) else none }
  else none

/-- the transition function of the steps (pkg/istio/istio.go and pkg/network/listener/unified_tls_listener.go); the lines are cited at the steps or at the cases -/
def exec (e : World) (s : St) : Act → Option St
  | .connect => some { s with connected := true }
  -- xds.go:128-131: without a connection to the mesh the call fails, and istio.go:513-515 only logs this
  | .ask => if s.asked then none else some { s with asked := true, watching := s.connected }
  | .start => some { s with started := true }
  | .push r => if s.watching then some { s with chan := some r } else none
  | .recv => s.recvStep
  | .write => s.writeStep
  | .dial t raw => some { s with conns := s.conns ++ [⟨t, raw, .opened⟩] }
  | .accept i => if s.started then s.move i .opened fun _ => acceptPhase s.mode else none
  | .peek i => s.move i .peeking peekPhase
  | .certs i => s.move i .handshake (certPhase e s.auth)
  | .verify i => s.move i .certs (verifyPhase e s.verify)

/-- runs whose actions satisfy a guard; specification / ghost trace; models no code -/
inductive Run (e : World) (g : St → Act → Prop) : St → St → Prop where
  | refl {s} : Run e g s s
  | step {s s' s'' a} : Run e g s s' → g s' a → exec e s' a = some s'' → Run e g s s''

/-- runs (specification; models no code) -/
def runActs (e : World) (s : St) : List Act → Option St
  | [] => some s
  | a :: l => (exec e s a).bind fun s => runActs e s l

end Verif.Net.Server
