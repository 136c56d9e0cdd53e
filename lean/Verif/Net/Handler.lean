import Verif.Heimdall.Text
/-
Model of the handler of the mesh integration: pkg/istio/istio.go:153-188 (`SetDefaults`), 216-313 (`NewIstioIntegrationHandler`), 315-353
(`GetDiscoveryClient`), the callers of it (359-563, 713-784), 686-711 (`RunMetricsPusher`), and
pkg/istio/istio_passthrough_handler.go.

Not modelled: what the clients and servers created do (C33-C37, C50, C71, C133), the metrics themselves, the runtimes of the filters.
-/
namespace Verif.Net.Handler
open Verif.Heimdall

/-! ### configuration -/

/-- istio.go:142-147 -/
structure Push where
  address : Str
  /-- nanoseconds, may be negative -/
  interval : Int
deriving Repr, DecidableEq

/-- istio.go:124-140, the fields used here -/
structure Config where
  enabled : Bool
  useTLS : Bool
  metricsAddress : Str
  push : Option Push
  bifrost : Bool
deriving Repr, DecidableEq

/-- what the surroundings answer: the environment (an error, or whether `NASP_ENABLED` is set), the CA configuration, the filters; (the surroundings of pkg/istio/istio.go and istio_passthrough_handler.go; a parameter of the model) -/
structure World where
  env : Option Bool
  ca : Bool
  filters : Bool
deriving Repr, DecidableEq

/-- as used in pkg/istio/istio.go and istio_passthrough_handler.go -/
def defaultAddress : Str := ":16090".toList

/-- istio.go:65-72 `DefaultIstioIntegrationHandlerConfig` -/
def defaultConfig : Config := ⟨true, true, defaultAddress, none, false⟩

/-- istio.go:153-160 -/
def Push.setDefaults (p : Push) : Push := { p with interval := if p.interval = 0 then 5000000000 else p.interval }

/-- istio.go:162-188 -/
def Config.setDefaults (c : Config) : Config :=
  { c with metricsAddress := if c.metricsAddress = [] then defaultAddress else c.metricsAddress, push := c.push.map Push.setDefaults }

/-- as used in pkg/istio/istio.go and istio_passthrough_handler.go -/
inductive Handler where
  | passthrough
  /-- `caClient` is nil unless TLS is used -/
  | real (caClient : Bool) (cfg : Config)
deriving Repr, DecidableEq

/-- the result of a call (pkg/istio/istio.go and istio_passthrough_handler.go), an error or a panic -/
inductive Res (α : Type) where
  | ok (a : α)
  | error
  | panic
deriving Repr, DecidableEq

/-- istio.go:216-313 `NewIstioIntegrationHandler` -/
def new (w : World) (config : Option Config) : Res Handler :=
  let c := (config.getD defaultConfig).setDefaults
  match w.env with
  | none => .error
  | some e =>
    if !e && !c.enabled then .ok .passthrough
    else if c.useTLS && !w.ca then .error
    else match c.push with
      | none => .ok (.real c.useTLS c)
      | some p =>
        if p.address = [] then .error
        -- 300 `GetHTTPTransport`
        else if !w.filters then .error
        else if !c.useTLS then .panic
        else .ok (.real c.useTLS c)

/-- the methods of the handler (istio.go:204-214) -/
inductive Method where
  | run | grpcOptions | serveHTTP | listenAndServe | httpTransport | tcpListener | virtualListener | tcpDialer | discoveryClient
deriving Repr, DecidableEq

/-- the result of a call (pkg/istio/istio.go and istio_passthrough_handler.go), an error or a panic -/
inductive Outcome where
  /-- the argument is returned, or used, unchanged -/
  | same
  /-- something made from the argument -/
  | made
  | nothing
  | error
  | panic
deriving Repr, DecidableEq

/-- istio_passthrough_handler.go and istio.go: what a method does, up to calls of clients and servers it makes. `tunnel` says whether `Run`
has created a tunnel client, `up` whether calls to the network succeed. Methods with `streams` first create the filters. -/
def call (w : World) (tunnel up : Bool) : Handler → Method → Outcome
  | .passthrough, .run => .nothing
  | .passthrough, .grpcOptions => .nothing
  | .passthrough, .discoveryClient => .nothing
  | .passthrough, .virtualListener => .error
  | .passthrough, .listenAndServe => if up then .same else .error
  | .passthrough, _ => .same
  -- 566-568
  | .real _ _, .virtualListener => if !tunnel then .error else if up then .made else .error
  -- 315-321: the CA client is used before anything else
  | .real ca _, .discoveryClient => if !ca then .panic else .made
  -- 519-526
  | .real ca c, .run => if !ca then .panic else if !up then .error else if c.bifrost && !w.filters then .error else .nothing
  -- 754-780: the CA client is used before the filters
  | .real ca _, .tcpDialer => if !ca then .panic else if !w.filters then .error else .made
  | .real ca _, .listenAndServe => if !up then .error else if !w.filters then .error else if !ca then .panic else .made
  | .real ca _, _ => if !w.filters then .error else if !ca then .panic else .made

/-- istio.go:256-260: the label with the port of the metrics -/
def portLabel (address : Str) : Option Str :=
  if address.contains ':' then
    let p := split ':' address
    if p.length > 1 then p.getLast? else none
  else none

/-! ### the discovery client -/

/-- as used in pkg/istio/istio.go and istio_passthrough_handler.go -/
inductive Use where
  | run | other
deriving Repr, DecidableEq

/-- where a goroutine is (program counter in pkg/istio/istio.go and istio_passthrough_handler.go) -/
inductive Phase where
  | start
  /-- 316 has seen nil -/
  | creating
  /-- 345 has stored its client -/
  | stored
  | done (client : Nat)
deriving Repr, DecidableEq

/-- as used in pkg/istio/istio.go and istio_passthrough_handler.go -/
structure Thread where
  use : Use
  phase : Phase := .start
deriving Repr, DecidableEq

/-- the state of pkg/istio/istio.go and istio_passthrough_handler.go, with the environment and ghost fields -/
structure St where
  /-- `h.discoveryClient` -/
  dc : Option Nat := none
  /-- the number of clients created -/
  created : Nat := 0
  connected : List Nat := []
  threads : List Thread := []
deriving Repr, DecidableEq

/-- the atomic steps and calls of pkg/istio/istio.go and istio_passthrough_handler.go, and what the surroundings do; the lines are cited at the steps or in the transition function -/
inductive Act where
  | spawn (u : Use)
  | read (i : Nat)
  | create (i : Nat)
  | reread (i : Nat)
  | connect (i : Nat)
deriving Repr, DecidableEq

/-- update of a component; models no code -/
def St.move (s : St) (i : Nat) (from_ to : Phase) : Option St := match s.threads[i]? with
  | none => none
  | some t => if t.phase = from_ then some { s with threads := s.threads.set i { t with phase := to } } else none

/-- istio.go:315-353 by any number of goroutines, and 519 `Run` -/
def exec (s : St) : Act → Option St
  | .spawn u => some { s with threads := s.threads ++ [{ use := u }] }
  -- 316-318
  | .read i => s.move i .start (match s.dc with | some c => .done c | none => .creating)
  -- 320-350
  | .create i => (s.move i .creating .stored).map fun s => { s with dc := some s.created, created := s.created + 1 }
  -- 352 reads the field again
  | .reread i => s.dc.bind fun c => s.move i .stored (.done c)
  -- 519
  | .connect i => match s.threads[i]? with
    | some ⟨.run, .done c⟩ => some { s with connected := c :: s.connected }
    | _ => none

/-- runs (specification; models no code) -/
inductive Reach (g : St → Act → Prop) : St → Prop where
  | init : Reach g {}
  | step {s s' : St} {a : Act} : Reach g s → g s a → exec s a = some s' → Reach g s'

/-- runs (specification; models no code) -/
def runActs (s : St) : List Act → Option St
  | [] => some s
  | a :: l => (exec s a).bind fun s => runActs s l

/-! ### pushing metrics -/

/-- as used in pkg/istio/istio.go and istio_passthrough_handler.go -/
inductive Req where
  | push | delete
deriving Repr, DecidableEq

/-- where a goroutine is (program counter in pkg/istio/istio.go and istio_passthrough_handler.go) -/
inductive PPhase where
  | select | pushing | deleting
  /-- returned; whether the deletion was answered -/
  | done (ok : Bool)
deriving Repr, DecidableEq

/-- the state of pkg/istio/istio.go and istio_passthrough_handler.go, with the environment and ghost fields -/
structure PSt where
  cancelled : Bool := false
  phase : PPhase := .select
  /-- requests sent and not yet handled by the gateway -/
  fly : List Req := []
  /-- all requests ever sent -/
  sent : List Req := []
  /-- the metrics of this instance are at the gateway -/
  group : Bool := false
  /-- the gateway has handled a deletion -/
  deleted : Bool := false
deriving Repr, DecidableEq

/-- the atomic steps and calls of pkg/istio/istio.go and istio_passthrough_handler.go, and what the surroundings do; the lines are cited at the steps or in the transition function -/
inductive PAct where
  | cancel
  /-- 704: a tick starts a push -/
  | tick
  /-- the push was answered, the connection broke, or the context ended: 706 only logs -/
  | pushed
  /-- 696: the context has ended -/
  | finish
  /-- 699: the deletion was answered or not -/
  | answered
  | failed
  /-- the gateway handles the i-th request in flight -/
  | handle (i : Nat)
  /-- a request is lost -/
  | lose (i : Nat)
deriving Repr, DecidableEq

/-- update of a component; models no code -/
def PSt.send (s : PSt) (r : Req) (p : PPhase) : PSt := { s with phase := p, fly := s.fly ++ [r], sent := s.sent ++ [r] }

/-- istio.go:686-711 `RunMetricsPusher`, with the gateway. A push that is given up may still be in flight. -/
def pexec (s : PSt) : PAct → Option PSt
  | .cancel => some { s with cancelled := true }
  | .tick => if s.phase = .select then some (s.send .push .pushing) else none
  | .pushed => if s.phase = .pushing then some { s with phase := .select } else none
  | .finish => if s.phase = .select ∧ s.cancelled = true then some (s.send .delete .deleting) else none
  | .answered => if s.phase = .deleting ∧ s.deleted = true then some { s with phase := .done true } else none
  | .failed => if s.phase = .deleting then some { s with phase := .done false } else none
  | .handle i => match s.fly[i]? with
    | none => none
    | some .push => some { s with fly := s.fly.eraseIdx i, group := true }
    | some .delete => some { s with fly := s.fly.eraseIdx i, group := false, deleted := true }
  | .lose i => if i < s.fly.length then some { s with fly := s.fly.eraseIdx i } else none

/-- runs (specification; models no code) -/
inductive PReach (g : PSt → PAct → Prop) : PSt → Prop where
  | init : PReach g {}
  | step {s s' : PSt} {a : PAct} : PReach g s → g s a → pexec s a = some s' → PReach g s'

/-- runs (specification; models no code) -/
def prunActs (s : PSt) : List PAct → Option PSt
  | [] => some s
  | a :: l => (pexec s a).bind fun s => prunActs s l

/-- istio.go:691: `time.NewTicker` panics unless the interval is positive, in a goroutine of its own -/
def tickerOk (c : Config) : Bool := match c.push with
  | none => true
  | some p => 0 < p.interval

end Verif.Net.Handler
