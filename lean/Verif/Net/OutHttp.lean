import Verif.Base
/-
Model of the outgoing side of HTTP: `/repo/pkg/istio/http/transport.go:46-79` (`RoundTrip`),
`/repo/pkg/network/http.go:42-54` (`WrapHTTPTransport`), `/repo/pkg/network/dialer.go:115-127,170-175`
(`DialContext`, `DialTLSContext`, `getTLSDialer`) and `/repo/pkg/network/tls.go:46-51` (`WrapTLSConfig`: the configuration
is cloned when a connection is dialled).

All requests of a client share one `*tls.Config` (transport.go:60, not cloned) and one `*http.Transport`, whose dial
functions every request replaces.  `net/http`'s transport is represented by its contract: a request is sent on an idle
connection of its scheme and address, or a dial is started for it; the dial reads the transport's current dial function
when it runs and puts the connection among the idle ones, even if the request was served by another one meanwhile.
Hosts, addresses, identities, requests and connections are numbers; an identity stands for the server name and the
verifier of one cluster.
-/
namespace Verif.Net.OutHttp

/-- What the mesh says about a host. (the surroundings of pkg/istio/http/transport.go; a parameter of the model) -/
structure Peer where
  addr : Option Nat
  tls : Option Nat
deriving Repr, DecidableEq

/-- How a connection is secured. (pkg/istio/http/transport.go) -/
inductive Sec
  | plain
  /-- TLS with the default configuration, verified against the address's name -/
  | pub (a : Nat)
  /-- TLS with server name and certificate verifier of the given identities -/
  | mesh (name verifier : Nat)
deriving Repr, DecidableEq

/-- as used in pkg/istio/http/transport.go -/
def Sec.https : Sec → Bool
  | .plain => false
  | _ => true

/-- as used in pkg/istio/http/transport.go -/
structure Req where
  addr : Nat
  https : Bool
  tls : Option Nat
deriving Repr, DecidableEq

/-- where a goroutine is (program counter in pkg/istio/http/transport.go) -/
inductive Phase
  /-- before `tlsConfig.ServerName = …` (transport.go:61) -/
  | name
  /-- before `SetCertVerifierToTLSConfig` (transport.go:66) -/
  | verifier
  /-- before `t.DialContext = …` (http.go:44) -/
  | wrap1
  /-- before `t.DialTLSContext = …` (http.go:45) -/
  | wrap2
  /-- in the transport's `RoundTrip` -/
  | wait
  /-- not begun, or over -/
  | done
deriving Repr, DecidableEq

/-- as used in pkg/istio/http/transport.go -/
structure Conn where
  https : Bool
  addr : Nat
  sec : Sec
deriving Repr, DecidableEq

/-- Observable events, newest first. specification / ghost trace; models no code -/
inductive Ev
  /-- request `r` was made; the mesh wants it sent to `a`, secured as `w` -/
  | asked (r a : Nat) (w : Sec)
  /-- connection `c` was established to `a`, secured as `w` -/
  | made (c a : Nat) (w : Sec)
  /-- request `r` was sent on connection `c` -/
  | sent (r c : Nat)
deriving Repr, DecidableEq

/-- the state of pkg/istio/http/transport.go, with the environment and ghost fields -/
structure St where
  mesh : Nat → Option Peer
  /-- the shared configuration's `ServerName` and verifier -/
  cfgName : Nat
  cfgVer : Nat
  /-- whether the dialers behind `t.DialContext` and `t.DialTLSContext` have the shared configuration (or none) -/
  dialPlain : Bool
  dialTls : Bool
  reqs : Nat → Option Req
  phase : Nat → Phase
  /-- the transport is dialling for the request -/
  pending : Nat → Bool
  conns : Nat → Option Conn
  idle : Nat → Bool
  tr : List Ev

/-- the state of pkg/istio/http/transport.go, with the environment and ghost fields -/
def St.init : St :=
  { mesh := fun _ => none, cfgName := 0, cfgVer := 0, dialPlain := false, dialTls := false, reqs := fun _ => none,
    phase := fun _ => .done, pending := fun _ => false, conns := fun _ => none, idle := fun _ => false, tr := [] }

/-- update of a component; models no code -/
def put {α : Type} (f : Nat → α) (i : Nat) (a : α) : Nat → α := fun j => if j = i then a else f j

/-- the address the mesh wants for a host; (specification; models no code) -/
def wantAddr (p : Option Peer) (host : Nat) : Nat :=
  match p with
  | some ⟨some a, _⟩ => a
  | _ => host
/-- how the mesh wants a request to a host secured; `https`: the scheme the user asked for; (specification; models no code) -/
def wantSec (p : Option Peer) (host : Nat) (https : Bool) : Sec :=
  match p with
  | some ⟨_, some i⟩ => .mesh i i
  | _ => if https then .pub (wantAddr p host) else .plain

/-- the atomic steps and calls of pkg/istio/http/transport.go, and what the surroundings do; the lines are cited at the steps or in the transition function -/
inductive Act
  | config (host : Nat) (p : Option Peer)
  /-- transport.go:46-66: discovery (its error is ignored, `err`), address and scheme override; a mesh host without
  endpoint is refused (transport.go:51-52) -/
  | begin (r host : Nat) (https err : Bool)
  | setName (r : Nat)
  | setVer (r : Nat)
  | wrap1 (r : Nat)
  | wrap2 (r : Nat)
  /-- the dial for `r` runs and makes connection `c` -/
  | dial (r c : Nat)
  /-- the dial for `r` is not started or fails -/
  | noDial (r : Nat)
  /-- the transport sends `r` on idle connection `c` -/
  | use (r c : Nat)
  /-- the response was read, the connection is idle again -/
  | giveBack (c : Nat)
deriving Repr, DecidableEq

/-- how a dial for the request is secured now (dialer.go:115-127, 170-175) -/
def secNow (st : St) (q : Req) : Sec :=
  if q.https then (if st.dialTls then .mesh st.cfgName st.cfgVer else .pub q.addr)
  else (if st.dialPlain then .mesh st.cfgName st.cfgVer else .plain)

/-- the transition function of the steps (pkg/istio/http/transport.go); the lines are cited at the steps or at the cases -/
def exec (st : St) : Act → Option St
  | .config host p => some { st with mesh := put st.mesh host p }
  | .begin r host https err =>
    match st.reqs r with
    | some _ => none
    | none =>
      let tr := Ev.asked r (wantAddr (st.mesh host) host) (wantSec (st.mesh host) host https) :: st.tr
      match (if err then none else st.mesh host) with
      | none => some { st with
          reqs := put st.reqs r (some ⟨host, https, none⟩), phase := put st.phase r .wrap1, tr := tr }
      | some ⟨none, _⟩ => some { st with
          reqs := put st.reqs r (some ⟨host, https, none⟩), phase := put st.phase r .done, tr := tr }
      | some ⟨some a, none⟩ => some { st with
          reqs := put st.reqs r (some ⟨a, https, none⟩), phase := put st.phase r .wrap1, tr := tr }
      | some ⟨some a, some i⟩ => some { st with
          reqs := put st.reqs r (some ⟨a, true, some i⟩), phase := put st.phase r .name, tr := tr }
  | .setName r =>
    match st.reqs r, st.phase r with
    | some ⟨_, _, some i⟩, .name => some { st with cfgName := i, phase := put st.phase r .verifier }
    | _, _ => none
  | .setVer r =>
    match st.reqs r, st.phase r with
    | some ⟨_, _, some i⟩, .verifier => some { st with cfgVer := i, phase := put st.phase r .wrap1 }
    | _, _ => none
  | .wrap1 r =>
    match st.reqs r, st.phase r with
    | some q, .wrap1 => some { st with dialPlain := q.tls.isSome, phase := put st.phase r .wrap2 }
    | _, _ => none
  | .wrap2 r =>
    match st.reqs r, st.phase r with
    | some q, .wrap2 => some { st with
        dialTls := q.tls.isSome, phase := put st.phase r .wait, pending := put st.pending r true }
    | _, _ => none
  | .dial r c =>
    match st.reqs r, st.pending r, st.conns c with
    | some q, true, none => some { st with
        conns := put st.conns c (some ⟨q.https, q.addr, secNow st q⟩), idle := put st.idle c true,
        pending := put st.pending r false, tr := .made c q.addr (secNow st q) :: st.tr }
    | _, _, _ => none
  | .noDial r => some { st with pending := put st.pending r false }
  | .use r c =>
    match st.reqs r, st.phase r, st.conns c with
    | some q, .wait, some k =>
      if st.idle c ∧ k.https = q.https ∧ k.addr = q.addr then
        some { st with idle := put st.idle c false, phase := put st.phase r .done, tr := .sent r c :: st.tr }
      else none
    | _, _, _ => none
  | .giveBack c => some { st with idle := put st.idle c true }

/-- runs (specification; models no code) -/
inductive Reach (g : St → Act → Prop) : St → Prop
  | init : Reach g St.init
  | step {st st' : St} (a : Act) : Reach g st → g st a → exec st a = some st' → Reach g st'

/-! ### Specification, on traces only -/

/-- every request is sent on a connection to its address secured as the mesh wanted; (specification; models no code) -/
def Secured (tr : List Ev) : Prop :=
  ∀ r c a w, Ev.sent r c ∈ tr → Ev.asked r a w ∈ tr → Ev.made c a w ∈ tr
/-- every request that is to be encrypted is sent on an encrypted connection to its address; (specification; models no code) -/
def Encrypted (tr : List Ev) : Prop :=
  ∀ r c a w, Ev.sent r c ∈ tr → Ev.asked r a w ∈ tr → w ≠ .plain → ∃ w', w' ≠ .plain ∧ Ev.made c a w' ∈ tr

/-- No restriction. specification / ghost trace; models no code -/
def Anything (_ : St) (_ : Act) : Prop := True
/-- Guard: discovery does not fail. specification / ghost trace; models no code -/
def Discovering (_ : St) : Act → Prop
  | .begin _ _ _ err => err = false
  | _ => True
/-- Guard: requests are made one after the other, when no dial is under way. specification / ghost trace; models no code -/
def Serial (st : St) : Act → Prop
  | .begin _ _ _ err => err = false ∧ ∀ r, st.phase r = .done ∧ st.pending r = false
  | _ => True
/-- Guard: besides, the settings wanted for a scheme and address do not change. specification / ghost trace; models no code -/
def Settled (st : St) (act : Act) : Prop :=
  Serial st act ∧ match act with
  | .begin _ host https _ => ∀ r a w, Ev.asked r a w ∈ st.tr → a = wantAddr (st.mesh host) host →
      w.https = (wantSec (st.mesh host) host https).https → w = wantSec (st.mesh host) host https
  | _ => True

end Verif.Net.OutHttp
