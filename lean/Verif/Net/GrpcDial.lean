import Verif.Base
/-
Model of outgoing gRPC connections: pkg/proxywasm/grpc/dialer.go:46-90 (`NewGRPCDialer`, `Dial`) with the TLS settings of
pkg/istio/istio.go:396-431 (`GetGRPCDialOptions`), and the connection state calls see (dialer.go:118, 134-139). What the calls themselves do is
C116, what the underlying dialer does is C72.

Hosts, addresses, server names, verifiers and certificates are numbers. Both `grpc.WithContextDialer(grpcDialer.Dial)` and the interceptor use one
`GRPCDialer`; gRPC may dial again at any time and keeps several connections (one per `ClientConn`, several while addresses change).
-/
namespace Verif.Net.GrpcDial

/-- what the mesh says about a host (`ClientProperties`): the endpoint (none: there is none), whether to use TLS, the name of the server and the
verifier of its certificates; (the surroundings of pkg/proxywasm/grpc/dialer.go; a parameter of the model) -/
structure Peer where
  addr : Option Nat
  useTLS : Bool
  serverName : Nat
  verifier : Nat
deriving Repr, DecidableEq

/-- a server at an address: whether it speaks TLS, and the certificate it presents; (the surroundings of pkg/proxywasm/grpc/dialer.go; a parameter of the model) -/
structure Server where
  tls : Bool
  cert : Nat
deriving Repr, DecidableEq

/-- how a connection was made; (pkg/proxywasm/grpc/dialer.go) -/
structure Conn where
  addr : Nat
  tls : Bool
  /-- the name asked for; `none`: the host of the address -/
  serverName : Option Nat
  /-- `VerifyPeerCertificate`; the configuration has `InsecureSkipVerify` (istio.go:419) -/
  verifier : Option Nat
deriving Repr, DecidableEq

/-- (the surroundings of pkg/proxywasm/grpc/dialer.go; a parameter of the model) -/
structure World where
  /-- the servers listening -/
  net : Nat → Option Server
  /-- a verifier accepts a certificate -/
  accepts : Nat → Nat → Bool

/-- dialer.go:59-90: how the connection is asked for; `none`: an error. An error of discovery counts as no information. -/
def plan (host : Nat) : Option Peer → Option Conn
  | none => some ⟨host, true, none, none⟩
  | some p => match p.addr with
    | none => none
    | some a => some ⟨a, true, some p.serverName, none⟩

/-- crypto/tls and net: a connection is made if there is a server that speaks TLS exactly if the client does and presents a certificate the
verifier accepts, if there is one; (pkg/proxywasm/grpc/dialer.go) -/
def established (w : World) (c : Conn) : Bool := match w.net c.addr with
  | none => false
  | some s => s.tls == c.tls && (match c.verifier with | none => true | some v => w.accepts v s.cert)

/-- the state of pkg/proxywasm/grpc/dialer.go, with the environment and ghost fields -/
structure St where
  conns : List Conn := []
  /-- `g.connectionState`: the connection it belongs to -/
  state : Option Nat := none
  /-- calls, newest first: the connection that carried it and the one whose state the filters saw -/
  calls : List (Nat × Option Nat) := []

/-- the atomic steps and calls of pkg/proxywasm/grpc/dialer.go, and what the surroundings do; the lines are cited at the steps or in the transition function -/
inductive Act where
  | dial (host : Nat) (p : Option Peer)
  | call (conn : Nat)

/-- the transition function of the steps (pkg/proxywasm/grpc/dialer.go); the lines are cited at the steps or at the cases -/
def exec (w : World) (s : St) : Act → Option St
  -- dialer.go:59-90
  | .dial h p => match plan h p with
    | none => none
    | some c => if established w c then some { s with conns := s.conns ++ [c], state := some s.conns.length } else none
  -- dialer.go:118, 139: the state of the dialer
  | .call i => if i < s.conns.length then some { s with calls := (i, s.state) :: s.calls } else none

/-- runs (specification; models no code) -/
inductive Reach (w : World) (g : St → Act → Prop) : St → Prop where
  | init : Reach w g {}
  | step {s s' : St} {a : Act} : Reach w g s → g s a → exec w s a = some s' → Reach w g s'

/-- runs (specification; models no code) -/
def runActs (w : World) (s : St) : List Act → Option St
  | [] => some s
  | a :: l => (exec w s a).bind fun s => runActs w s l

end Verif.Net.GrpcDial
