import Verif.Tunnel.Sessions
/-
Model of the client of the tunnel: `/repo/pkg/network/tunnel/client/client.go:122-250` (Connect, GetTCPListener, requestPort and the three
callbacks), `client/stream.go:66-141` (handling of port responses and connection requests), `client/port.go` (the listener),
`client/session.go:54-64` (control stream), as an interleaving of atomic steps. One goroutine connects again and again; every call of
GetTCPListener, every message (`common/messagehandler.go:59-63`) and every Accept runs in its own goroutine.

Simplifications: ids, addresses and streams are numbers; sending a message succeeds or fails at will; the server sends what it likes; an
`OpenTCPStream` that fails leaves nothing behind; the backoff of Connect, logging and the target port are left out. `sync.Map.Range`
visits all keys present when it starts and possibly later ones.
-/
namespace Verif.Tunnel.Client
open Verif.Tunnel (upd)

/-- `managedPort` (client/port.go:25-33): whether a response came in (`initialized`), whether `connChan` is closed, `remoteAddress` -/
structure Mp where
  inited : Bool := false
  closed : Bool := false
  addr : Option Nat := none
deriving DecidableEq, Repr

/-- the goroutine of Connect (client/client.go:122-156, session.go:51-61) -/
inductive Loop where
  /-- between two connections -/
  | down
  /-- connected, the control stream is being created (client.go:148-154) -/
  | up
  /-- the control stream exists, `onControlStreamConnected` not yet entered (session.go:54-56) -/
  | ctrlSet
  /-- in the `Range` of `onControlStreamConnected`: keys still to visit (client.go:209-219) -/
  | ranging (todo : List Nat)
  /-- handling messages (session.go:58) -/
  | handling
  /-- in the `Range` of `onDisconnected` (client.go:222-232) -/
  | ending (todo : List Nat)
deriving DecidableEq, Repr

/-- a call of GetTCPListener (client.go:175-196) -/
inductive LPc where
  | unused
  /-- the port is stored (client.go:187) -/
  | stored
  /-- the client seemed connected, the request is about to be sent (client.go:189-190) -/
  | sending
  | returned
  | failed
deriving DecidableEq, Repr

/-- a goroutine handling a connection request (client/stream.go:66-106); `la`, `ra` are the addresses named in the request -/
inductive G where
  | idle
  | got (id ident la ra : Nat)
  /-- the port was found (stream.go:76-85) -/
  | found (id ident la ra : Nat)
  /-- stream `x` was opened (stream.go:87-90) -/
  | opened (id x la ra : Nat)
  /-- in the `select` (stream.go:97-105) -/
  | waiting (id x la ra : Nat)
  | done
deriving DecidableEq, Repr

/-- what can be observed, newest first (ghost; models no code) -/
inductive Ev where
  /-- the port `id` was asked for in session `k` -/
  | asked (k id : Nat) (ok : Bool)
  /-- a response for port `id` was received in session `k`: the port assigned, 0 if none -/
  | answered (k id port : Nat)
  /-- goroutine `g` was given a connection request -/
  | connReq (g id ident la ra : Nat)
  /-- goroutine `g` opened stream `x` for the request `ident` -/
  | opened (g x ident : Nat)
  /-- Accept of listener `id` returned stream `x` with these addresses, from goroutine `g` -/
  | accepted (g id x la ra : Nat)
  /-- goroutine `g` closed stream `x` -/
  | closed (g x : Nat)
deriving DecidableEq, Repr

/-- the client (client.go:48-63) with its goroutines -/
structure St where
  /-- the number of the session in `c.session`; 0: none -/
  sess : Nat := 0
  connected : Bool := false
  /-- `c.session.stream != nil` -/
  ctrl : Bool := false
  loop : Loop := .down
  /-- the keys of `managedPorts` -/
  reg : List Nat := []
  mp : Nat → Mp := fun _ => {}
  lst : Nat → LPc := fun _ => .unused
  /-- responses received whose goroutines have not run: port id, assigned port -/
  resp : List (Nat × Nat) := []
  gs : Nat → G := fun _ => .idle
  /-- the next stream -/
  next : Nat := 0
  /-- a goroutine panicked, which ends the program -/
  crashed : Bool := false
  tr : List Ev := []

/-- the steps (client/client.go, client/stream.go, client/port.go); lines at the transition function -/
inductive Act where
  | dial | ctrlUp | ctrlFail | startRange | visit (id : Nat) (ok : Bool) | rangeEnd | disconnect | reset (id : Nat) | down
  | listen (id : Nat) | check (id : Nat) | send (id : Nat) (ok : Bool)
  | recvResp (id port : Nat) | runResp (i : Nat)
  | recvConn (g id ident la ra : Nat) | look (g : Nat) | openS (g : Nat) (ok : Bool) | wrap (g : Nat) (ok : Bool)
  | accept (g : Nat) | timeout (g : Nat)
  | closeL (id : Nat)
deriving DecidableEq, Repr

/-- `managedPort.Close` (client/port.go:96-100): closing twice panics -/
def St.closePort (s : St) (id : Nat) : St :=
  if (s.mp id).closed then { s with crashed := true } else { s with mp := upd s.mp id { s.mp id with closed := true } }

/-- `requestPortResponse` (client/stream.go:113-141) -/
def St.response (s : St) (id port : Nat) : St :=
  if id ∈ s.reg then
    if port = 0 then { s.closePort id with reg := s.reg.filter (· ≠ id) }
    else { s with mp := upd s.mp id { s.mp id with addr := some port, inited := true } }
  else s

/-- one step (client/client.go, client/stream.go, client/port.go; lines at the cases); nothing runs after a panic -/
def exec (s : St) (a : Act) : Option St :=
  if s.crashed then none else
  match a with
  -- `connect` up to `onConnected` (client.go:140-151, 201-205)
  | .dial => if s.loop = .down then some { s with loop := .up, sess := s.sess + 1, ctrl := false, connected := true } else none
  -- `createControlStream` succeeds (session.go:113-152)
  | .ctrlUp => if s.loop = .up then some { s with loop := .ctrlSet, ctrl := true } else none
  -- it fails; `onDisconnected` is entered (session.go:52-54, client.go:152, 222-223)
  | .ctrlFail => if s.loop = .up then some { s with loop := .ending s.reg, connected := false } else none
  | .startRange => if s.loop = .ctrlSet then some { s with loop := .ranging s.reg } else none
  -- the function given to `Range` (client.go:210-216); the error is only logged
  | .visit id ok => match s.loop with
    | .ranging todo => if id ∈ s.reg then
        let s := { s with loop := .ranging (todo.filter (· ≠ id)) }
        if (s.mp id).inited then some s else some { s with tr := .asked s.sess id ok :: s.tr }
      else some { s with loop := .ranging (todo.filter (· ≠ id)) }
    | _ => none
  | .rangeEnd => if s.loop = .ranging [] then some { s with loop := .handling } else none
  -- `Handle` of the control stream returned; `onDisconnected` is entered (client.go:152-156, 222-223)
  | .disconnect => if s.loop = .handling then some { s with loop := .ending s.reg, connected := false } else none
  -- the function given to `Range` (client.go:225-229)
  | .reset id => match s.loop with
    | .ending todo => some { s with loop := .ending (todo.filter (· ≠ id)), mp := upd s.mp id { s.mp id with inited := false } }
    | _ => none
  | .down => if s.loop = .ending [] then some { s with loop := .down } else none
  -- `GetTCPListener` up to `Store` (client.go:175-187)
  | .listen id => if s.lst id = .unused then some { s with lst := upd s.lst id .stored, reg := id :: s.reg } else none
  -- the condition (client.go:189)
  | .check id => if s.lst id = .stored then
      some { s with lst := upd s.lst id (if s.connected && s.ctrl then .sending else .returned) } else none
  -- `requestPort` (client.go:160-173, 190-192); `GetControlStream` of a session without one is nil, writing to it panics
  | .send id ok => if s.lst id = .sending then
      if s.ctrl then some { s with lst := upd s.lst id (if ok then .returned else .failed), tr := .asked s.sess id ok :: s.tr }
      else some { s with crashed := true } else none
  -- a message is read and given to a goroutine (common/messagehandler.go:51-63)
  | .recvResp id port => if s.loop = .handling then
      some { s with resp := s.resp ++ [(id, port)], tr := .answered s.sess id port :: s.tr } else none
  -- the goroutine runs (stream.go:113-141)
  | .runResp i => match s.resp[i]? with
    | some (id, port) => some ({ s with resp := s.resp.eraseIdx i }.response id port)
    | none => none
  | .recvConn g id ident la ra => if s.loop = .handling ∧ s.gs g = .idle then
      some { s with gs := upd s.gs g (.got id ident la ra), tr := .connReq g id ident la ra :: s.tr } else none
  -- the port is looked up (stream.go:76-85)
  | .look g => match s.gs g with
    | .got id ident la ra => some { s with gs := upd s.gs g (if id ∈ s.reg then .found id ident la ra else .done) }
    | _ => none
  -- `OpenTCPStream` (stream.go:87-90)
  | .openS g ok => match s.gs g with
    | .found id ident la ra =>
      if ok then some { s with gs := upd s.gs g (.opened id s.next la ra), next := s.next + 1, tr := .opened g s.next ident :: s.tr }
      else some { s with gs := upd s.gs g .done }
    | _ => none
  -- `newconn` (stream.go:94-95, conn.go:29-47): fails if an address cannot be resolved
  | .wrap g ok => match s.gs g with
    | .opened id x la ra => some { s with gs := upd s.gs g (if ok then .waiting id x la ra else .done) }
    | _ => none
  -- the send to `connChan` and the `Accept` that takes it (stream.go:98, port.go:82-94); sending to a closed channel panics
  | .accept g => match s.gs g with
    | .waiting id x la ra =>
      if (s.mp id).closed then some { s with crashed := true }
      else some { s with gs := upd s.gs g .done, tr := .accepted g id x la ra :: s.tr }
    | _ => none
  -- nobody accepts in time (stream.go:100-105)
  | .timeout g => match s.gs g with
    | .waiting _ x _ _ => some { s with gs := upd s.gs g .done, tr := .closed g x :: s.tr }
    | _ => none
  -- the user closes the listener (port.go:96-100)
  | .closeL id => if s.lst id = .returned then some (s.closePort id) else none

/-- reachable states of runs whose steps all meet the guard (specification; models no code) -/
inductive Reach (guard : St → Act → Prop) : St → Prop
  | init : Reach guard {}
  | step {s s' : St} {a : Act} : Reach guard s → guard s a → exec s a = some s' → Reach guard s'

/-- runs (specification; models no code) -/
def run : St → List Act → Option St
  | s, [] => some s
  | s, a :: as => match exec s a with
    | some s' => run s' as
    | none => none

end Verif.Tunnel.Client
