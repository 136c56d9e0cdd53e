import Verif.Base
/-
Model of the metrics server of the mesh: pkg/istio/istio.go:578-613 `RunMetricsServer`, with what of it runs in other goroutines: `ServeHTTP` (istio.go:442-487),
the loop of net/http `Server.Serve` it ends in, the goroutines of the multi-listener (pkg/network/listener/multi_listener.go:107-231, modelled in full in
Net/Multi.lean) and the listener of the tunnel (pkg/network/tunnel/client/port.go:82-104, stream.go:113-135).

Simplifications: the multi-listener is closed by nobody but `Server.Serve`, in one step with the closing of its TCP listener (multi_listener.go:164-189, 195-200: the
goroutine that closes it runs right after). The listener of the tunnel has an id of its own that is not its address, so `Close` of the multi-listener
does not find it (C170). Clients send their first bytes at once (C50, C174 have what happens if not). Clients are numbered in the order they come; what the server
then answers (the handler of the metrics for its path, 404 for others) is net/http.
-/
namespace Verif.Net.MetricsServer

/-- where the goroutine of `RunMetricsServer` is -/
inductive Pc where
  /-- before `net.Listen`, istio.go:584-594 -/
  | bind
  /-- before the tunnel is asked for a listener, istio.go:595-603 -/
  | tunnel
  /-- before `go h.ServeHTTP`, istio.go:605-609 -/
  | spawn
  /-- istio.go:611 -/
  | waiting
  /-- after `s.Shutdown`, istio.go:613 -/
  | done
deriving Repr, DecidableEq

/-- the goroutine of `ServeHTTP` (istio.go:605-609, 442-487) -/
inductive Srv where
  | idle
  /-- before the filters are created, istio.go:448-451 -/
  | loading
  | serving
  /-- `Accept` has returned an error: `Serve` is about to close its listener and return -/
  | closing
  | returned
deriving Repr, DecidableEq

/-- the listener of the tunnel (client/port.go:25-33) -/
inductive Virt where
  | absent
  | opened
  /-- the mesh has no port for it: its channel is closed (stream.go:120-126) -/
  | stopped
deriving Repr, DecidableEq

/-- what the goroutine of a listener takes and sends (multi_listener.go:200-214): a client or the error of the stopped listener -/
inductive Item where
  | client (c : Nat)
  | err
deriving Repr, DecidableEq

/-- the parameters: whether the address can be bound, whether metrics are exposed through the tunnel (istio.go:595) and whether the filters can be created (istio.go:448) -/
structure Cfg where
  canBind : Bool
  expose : Bool
  filters : Bool
deriving Repr, DecidableEq

/-- the state of istio.go:578-613 with its surroundings and ghost fields -/
structure St where
  pc : Pc := .bind
  srv : Srv := .idle
  /-- the TCP listener is bound -/
  tcp : Bool := false
  virt : Virt := .absent
  /-- clients of each of the two listeners nobody has accepted yet, the oldest first -/
  tcpQ : List Nat := []
  virtQ : List Nat := []
  /-- what the goroutines of the listeners are about to send (multi_listener.go:209) -/
  tcpHold : Option Item := none
  virtHold : Option Item := none
  /-- `acceptChan` (multi_listener.go:71), of capacity one -/
  chan : Option Item := none
  chanClosed : Bool := false
  cancelled : Bool := false
  /-- the program has panicked -/
  crashed : Bool := false
  /-- the number of clients that connected (ghost) -/
  count : Nat := 0
  /-- the clients the HTTP server got, the newest first (ghost) -/
  served : List Nat := []
deriving Repr, DecidableEq

/-- the steps; the lines are at the transition function -/
inductive Act where
  | bind
  | tunnel
  | spawn
  | load
  | cancel
  | shutdown
  | dialTcp
  | dialVirt
  | refuse
  | takeTcp
  | takeVirt
  | sendTcp
  | sendVirt
  | accept
  | close
deriving Repr, DecidableEq

/-- the steps of the surroundings: clients, the mesh, the owner of the context (classification of steps) -/
def Act.outer : Act → Bool
  | .cancel | .dialTcp | .dialVirt | .refuse => true
  | _ => false

/-- multi_listener.go:209: a send to a closed channel panics, to a full one waits -/
def St.send (s : St) (i : Item) (drop : St → St) : Option St :=
  if s.chanClosed then some { s with crashed := true } else match s.chan with
    | none => some (drop { s with chan := some i })
    | some _ => none

/-- the transition function of istio.go:578-613 and what it starts -/
def exec (c : Cfg) (s : St) (a : Act) : Option St :=
  if s.crashed then none else match a with
  -- istio.go:584-594: an address that cannot be bound is only logged
  | .bind => if s.pc = .bind then some { s with pc := .tunnel, tcp := c.canBind } else none
  -- istio.go:595-603
  | .tunnel => if s.pc = .tunnel then some { s with pc := .spawn, virt := if c.expose then .opened else .absent } else none
  -- istio.go:605-609
  | .spawn => if s.pc = .spawn then some { s with pc := .waiting, srv := .loading } else none
  -- istio.go:448-451, 482-486: without filters `ServeHTTP` returns, and its listener stays as it is
  | .load => if s.srv = .loading then some { s with srv := if c.filters then .serving else .returned } else none
  | .cancel => some { s with cancelled := true }
  -- istio.go:611-613: `Shutdown` of a server that was never started, and that has no listeners
  | .shutdown => if s.pc = .waiting ∧ s.cancelled = true then some { s with pc := .done } else none
  -- the kernel completes the connection as soon as the address is bound
  | .dialTcp => if s.tcp then some { s with count := s.count + 1, tcpQ := s.tcpQ ++ [s.count] } else none
  | .dialVirt => if s.virt = .opened then some { s with count := s.count + 1, virtQ := s.virtQ ++ [s.count] } else none
  -- stream.go:120-126
  -- a sender that waits panics (stream.go:98)
  | .refuse => if s.virt = .opened then some { s with virt := .stopped, crashed := !s.virtQ.isEmpty } else none
  -- multi_listener.go:200-207: the goroutine of the TCP listener
  | .takeTcp => match s.tcpQ, s.tcpHold with
    | x :: q, none => if s.tcp then some { s with tcpQ := q, tcpHold := some (.client x) } else none
    | _, _ => none
  -- multi_listener.go:200-207: the goroutine of the listener of the tunnel; the error of port.go:85-87 is not `net.ErrClosed`
  | .takeVirt => match s.virtHold with
    | some _ => none
    | none => match s.virt, s.virtQ with
      | .stopped, _ => some { s with virtHold := some .err }
      | .opened, x :: q => some { s with virtQ := q, virtHold := some (.client x) }
      | _, _ => none
  -- multi_listener.go:209-214
  | .sendTcp => s.tcpHold.bind fun i => s.send i fun t => { t with tcpHold := none }
  | .sendVirt => s.virtHold.bind fun i => s.send i fun t => { t with virtHold := none }
  -- multi_listener.go:147-162; net/http `Serve` returns at an error that is not temporary
  | .accept => if s.srv = .serving then match s.chan with
      | some (.client x) => some { s with chan := none, served := x :: s.served }
      | some .err => some { s with chan := none, srv := .closing }
      | none => none
    else none
  -- net/http `Serve` closes its listener when it returns (multi_listener.go:164-189)
  | .close => if s.srv = .closing then some { s with srv := .returned, tcp := false, tcpQ := [], chanClosed := true } else none

/-- runs of which every step satisfies the guard (specification) -/
inductive Reach (c : Cfg) (g : St → Act → Prop) : St → Prop where
  | init : Reach c g {}
  | step {s s' : St} {a : Act} : Reach c g s → g s a → exec c s a = some s' → Reach c g s'

/-- a run of given steps (specification) -/
def run (c : Cfg) : St → List Act → Option St
  | s, [] => some s
  | s, a :: l => (exec c s a).bind fun s => run c s l

end Verif.Net.MetricsServer
