import Verif.Bifrost.Endpoints
/-
Model of how the ports of a tunnel server get into its config map: pkg/network/tunnel/server/port.go:50-130 (`CreateListener`, `Listen`: the events), the event bus
(github.com/werbenhu/eventbus, `eventbus.New()`: one goroutine and one unbuffered channel for each topic; `Publish` returns when the goroutine has taken the event, the
subscribers are called by that goroutine), components/bifrost/pkg/commands/server.go:103-124 (the subscribers) and
components/bifrost/pkg/controllers/configmap.go:92-169 (`TriggerReconcile`, `Reconcile`), run by a controller with a work queue.

Simplifications: a listener is closed at most once and its `Accept` and `SetDeadline` errors are left out; `sync.Map.Range` in `Reconcile` gives for every port its value
at some moment between the beginning and the end of the call; the config map is what was written last (or by somebody else), as the map of ports it lists.
-/
namespace Verif.Bifrost.Ports
open Verif.Bifrost Verif.Heimdall

/-- what is listed for a port: configmap.go:64-72 -/
structure Info where
  conf : PortConfig
  session : Str
deriving DecidableEq, Repr

/-- where a goroutine is (program counter in components/bifrost (configmap.go, server.go) and pkg/network/tunnel/server (port.go, session.go)) -/
inductive Stage where
  /-- listening, the event is not yet published -/
  | fresh
  | up
  /-- the release is published, the listener is not yet closed -/
  | down
deriving DecidableEq, Repr

/-- a Go map -/
abbrev Map := Nat → Option Info
/-- a Go map assignment -/
def Map.set (m : Map) (p : Nat) (v : Option Info) : Map := fun q => if q = p then v else m q

/-- the state of components/bifrost (configmap.go, server.go) and pkg/network/tunnel/server (port.go, session.go), with the environment and ghost fields -/
structure St where
  /-- the listeners: one for each port (the operating system refuses a second one) -/
  open_ : Nat → Option (Info × Stage) := fun _ => none
  /-- the event the goroutine of topic port.listen is handling, and whether the port is stored -/
  lh : Option (Nat × Info × Bool) := none
  /-- the same for port.release, and whether the port is deleted -/
  rh : Option (Nat × Bool) := none
  ports : Map := fun _ => none
  /-- reconcile requests not yet in the queue -/
  inflight : Nat := 0
  queued : Bool := false
  /-- a reconcile is running, with what it has read -/
  running : Option Map := none
  /-- the config map -/
  cm : Map := fun _ => none

/-- update of a component; models no code -/
def St.setOpen (s : St) (p : Nat) (v : Option (Info × Stage)) : Nat → Option (Info × Stage) := fun q => if q = p then v else s.open_ q

/-- the atomic steps and calls of components/bifrost (configmap.go, server.go) and pkg/network/tunnel/server (port.go, session.go), and what the surroundings do; the lines are cited at the steps or in the transition function -/
inductive Act where
  /-- session.go:193-199, port.go:55-64: a listener is created -/
  | listen (p : Nat) (i : Info)
  /-- port.go:70-82: the event is taken by the goroutine of its topic -/
  | pubListen (p : Nat)
  /-- server.go:104-116 -/
  | store
  /-- server.go:117 -/
  | triggerListen
  /-- port.go:86-100 -/
  | pubRelease (p : Nat)
  /-- server.go:121 -/
  | delete
  /-- server.go:122 -/
  | triggerRelease
  /-- port.go:67: `defer l.Close()` -/
  | close (p : Nat)
  /-- configmap.go:195-199: a request gets from the channel into the work queue -/
  | deliver
  /-- configmap.go:103-124 begins -/
  | start
  /-- configmap.go:126-135: one port is read -/
  | readPort (p : Nat)
  /-- configmap.go:158-159 -/
  | write
  /-- configmap.go:117-121, 139-141, 154-156, 160-162: the request is put back -/
  | fail
  /-- somebody else changes the config map, which is watched: configmap.go:183-193 -/
  | edit (m : Map)

/-- the transition function of the steps (components/bifrost (configmap.go, server.go) and pkg/network/tunnel/server (port.go, session.go)); the lines are cited at the steps or at the cases -/
def exec (s : St) : Act → Option St
  | .listen p i => match s.open_ p with
    | none => some { s with open_ := s.setOpen p (some (i, .fresh)) }
    | some _ => none
  | .pubListen p => match s.open_ p, s.lh with
    | some (i, .fresh), none => some { s with open_ := s.setOpen p (some (i, .up)), lh := some (p, i, false) }
    | _, _ => none
  | .store => match s.lh with
    | some (p, i, false) => some { s with ports := s.ports.set p (some i), lh := some (p, i, true) }
    | _ => none
  | .triggerListen => match s.lh with
    | some (_, _, true) => some { s with lh := none, inflight := s.inflight + 1 }
    | _ => none
  | .pubRelease p => match s.open_ p, s.rh with
    | some (i, .up), none => some { s with open_ := s.setOpen p (some (i, .down)), rh := some (p, false) }
    | _, _ => none
  | .delete => match s.rh with
    | some (p, false) => some { s with ports := s.ports.set p none, rh := some (p, true) }
    | _ => none
  | .triggerRelease => match s.rh with
    | some (_, true) => some { s with rh := none, inflight := s.inflight + 1 }
    | _ => none
  | .close p => match s.open_ p with
    | some (_, .down) => some { s with open_ := s.setOpen p none }
    | _ => none
  | .deliver => match s.inflight with
    | 0 => none
    | n + 1 => some { s with inflight := n, queued := true }
  | .start => if s.queued ∧ s.running.isNone then some { s with queued := false, running := some s.ports } else none
  | .readPort p => match s.running with
    | some m => some { s with running := some (m.set p (s.ports p)) }
    | none => none
  | .write => match s.running with
    | some m => some { s with running := none, cm := m }
    | none => none
  | .fail => match s.running with
    | some _ => some { s with running := none, queued := true }
    | none => none
  | .edit m => some { s with cm := m, inflight := s.inflight + 1 }

/-- a container that starts: the config map an earlier container of the pod has left is reconciled; (components/bifrost (configmap.go, server.go) and pkg/network/tunnel/server (port.go, session.go)) -/
def start (old : Map) : St := { cm := old, inflight := 1 }

/-- configmap.go:124-135: the ports by session, in the order of the map -/
def addTo (ss : List (Str × List PortConfig)) (i : Info) : List (Str × List PortConfig) :=
  if ss.any (fun q => q.1 = i.session) then ss.map fun q => if q.1 = i.session then (q.1, q.2 ++ [i.conf]) else q
  else ss ++ [(i.session, [i.conf])]
/-- as used in components/bifrost (configmap.go, server.go) and pkg/network/tunnel/server (port.go, session.go) -/
def sessions (l : List Info) : List (Str × List PortConfig) := l.foldl addTo []

end Verif.Bifrost.Ports
