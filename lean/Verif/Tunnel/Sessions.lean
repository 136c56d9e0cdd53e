import Verif.Tunnel.PortProvider
/-
Model of how tunnel server sessions obtain and give back ports
(`/repo/pkg/network/tunnel/server/session.go` `requestPort` 165-205 and `Close` 127-163),
as an interleaving system: every `requestPort` runs in its own goroutine
(`/repo/pkg/network/tunnel/common/messagehandler.go:52-56`) and `Close` is called both from
the connection handler (`server.go:195-202`) and from stream handler goroutines
(`session.go:258,266,283,336,379`), so their atomic actions interleave.

Atomic actions are: one port provider call, one `sync.Map` Store/Load/Delete, reading
`ctxc`, writing `ctxc`.

Simplifications: listeners, contexts, loggers, the control stream and the muxado session
are left out (they do not touch ports); `CreateListener` failing only changes the reply,
not the stored port (session.go:192-195), so it is not an action. `sync.Map.Range` visits
the keys present when it starts, each at most once and in any order, with the value
current at the visit.  Sessions, names and threads range over unbounded sets.
-/
namespace Verif.Tunnel

/-- Program counters of the goroutines of the server (session.go:127-145,165-192). -/
inductive Th
  /-- not running / finished -/
  | idle
  /-- `requestPort` of session `s` got port `p`, next: `s.ports.Store(req.Name, mp)`. -/
  | acq (s : Nat) (name : String) (p : Int)
  /-- `Close` of `s` inside `s.ports.Range`, keys still to visit. -/
  | rng (s : Nat) (todo : List String)
  /-- `Close` of `s` visiting key `k`, next: `ReleasePort(p)`. -/
  | rel (s : Nat) (k : String) (p : Int) (todo : List String)
  /-- `Close` of `s` visiting key `k`, next: `s.ports.Delete(k)`; `p` was released. -/
  | del (s : Nat) (k : String) (p : Int) (todo : List String)
deriving Repr, DecidableEq

/-- Observable events; the trace is a ghost, newest first. -/
inductive Ev
  /-- session `s` asked for a port under this name -/
  | requested (s : Nat) (name : String)
  /-- the provider handed port `p` to session `s` -/
  | assigned (s : Nat) (p : Int)
  /-- `Close` of `s` entered its release loop -/
  | closing (s : Nat)
  /-- `Close` of session `s` released port `p` -/
  | released (s : Nat) (p : Int)
  /-- `Close` of `s` finished -/
  | closed (s : Nat)
deriving Repr, DecidableEq

/-- Server state: provider, per-session `ports` map (session.go:44), per-session
`ctxc != nil` (session.go:49), goroutines. -/
structure St where
  prov : PP
  ports : Nat → List (String × Int)
  alive : Nat → Bool
  ths : Nat → Th
  tr : List Ev

/-- Function update. update of a component; models no code -/
def upd {α : Type} (f : Nat → α) (i : Nat) (a : α) : Nat → α := fun j => if j = i then a else f j

/-- `sync.Map.Delete` (session.go:140). -/
def mapDel (m : List (String × Int)) (k : String) : List (String × Int) :=
  m.filter (fun e => e.1 ≠ k)

/-- `sync.Map.Store` (session.go:190): replaces the value of an existing key. -/
def mapStore (m : List (String × Int)) (k : String) (p : Int) : List (String × Int) :=
  (k, p) :: mapDel m k

/-- `sync.Map.Load` as done by `Range` for one key (session.go:134). -/
def mapGet : List (String × Int) → String → Option Int
  | [], _ => none
  | (k', p) :: m, k => if k' = k then some p else mapGet m k

/-- Atomic actions of thread `i`. the atomic steps and calls of pkg/network/tunnel/server/session.go and server.go, and what the surroundings do; the lines are cited at the steps or in the transition function -/
inductive Act
  /-- `requestPort` up to and including the provider call (session.go:165-186);
  `req` is `RequestedPort`. -/
  | request (i : Nat) (s : Nat) (name : String) (req : Int)
  /-- session.go:190 -/
  | store (i : Nat)
  /-- session.go:128-134: the `ctxc == nil` test and the start of `Range` -/
  | closeBegin (i : Nat) (s : Nat)
  /-- session.go:134-135: visit one key -/
  | visit (i : Nat) (k : String)
  /-- session.go:137 -/
  | release (i : Nat)
  /-- session.go:141 -/
  | delete (i : Nat)
  /-- session.go:153-154, after `Range` has visited all keys -/
  | closeEnd (i : Nat)
deriving Repr, DecidableEq

/-- The provider call of `requestPort` (session.go:172-186): the port obtained, `0` for an
error. -/
def acquire (p : PP) (req : Int) : PP × Int :=
  if req > 0 then
    if (p.getPort req).2 then ((p.getPort req).1, req) else ((p.getPort req).1, 0)
  else p.getFreePort

/-- One atomic action; `none` if thread `i` is not at that point. the transition function of the steps (pkg/network/tunnel/server/session.go and server.go); the lines are cited at the steps or at the cases -/
def exec (st : St) : Act → Option St
  | .request i s name req =>
    match st.ths i with
    | .idle =>
      if (acquire st.prov req).2 = 0 then
        -- ErrRequestedPortNoAvail / ErrFeePortNoAvail: return
        some { st with prov := (acquire st.prov req).1, tr := .requested s name :: st.tr }
      else
        some { st with
          prov := (acquire st.prov req).1
          ths := upd st.ths i (.acq s name (acquire st.prov req).2)
          tr := .assigned s (acquire st.prov req).2 :: .requested s name :: st.tr }
    | _ => none
  | .store i =>
    match st.ths i with
    | .acq s name p =>
      some { st with
        ports := upd st.ports s (mapStore (st.ports s) name p)
        ths := upd st.ths i .idle }
    | _ => none
  | .closeBegin i s =>
    match st.ths i with
    | .idle =>
      if st.alive s then
        some { st with
          ths := upd st.ths i (.rng s ((st.ports s).map (·.1)))
          tr := .closing s :: st.tr }
      else some st
    | _ => none
  | .visit i k =>
    match st.ths i with
    | .rng s todo =>
      if k ∈ todo then
        match mapGet (st.ports s) k with
        | some p => some { st with ths := upd st.ths i (.rel s k p (todo.filter (· ≠ k))) }
        | none => some { st with ths := upd st.ths i (.rng s (todo.filter (· ≠ k))) }
      else none
    | _ => none
  | .release i =>
    match st.ths i with
    | .rel s k p todo =>
      some { st with
        prov := st.prov.releasePort p
        ths := upd st.ths i (.del s k p todo)
        tr := .released s p :: st.tr }
    | _ => none
  | .delete i =>
    match st.ths i with
    | .del s k _ todo =>
      some { st with
        ports := upd st.ports s (mapDel (st.ports s) k)
        ths := upd st.ths i (.rng s todo) }
    | _ => none
  | .closeEnd i =>
    match st.ths i with
    | .rng s [] =>
      some { st with
        alive := upd st.alive s false
        ths := upd st.ths i .idle
        tr := .closed s :: st.tr }
    | _ => none

/-- A server whose sessions are all being handled and own nothing yet. the state of pkg/network/tunnel/server/session.go and server.go, with the environment and ghost fields -/
def St.init (p : PP) : St :=
  { prov := p, ports := fun _ => [], alive := fun _ => true, ths := fun _ => .idle, tr := [] }

/-- States reachable by interleavings in which every action satisfies the guard `g`. specification / ghost trace; models no code -/
inductive Reach (g : St → Act → Prop) (p : PP) : St → Prop
  | init : Reach g p (St.init p)
  | step {st st' : St} (a : Act) : Reach g p st → g st a → exec st a = some st' → Reach g p st'

/-! ### Specification, in terms of the trace only -/

/-- Which session holds port `q` after the events `h` (newest first)?; specification / ghost trace; models no code -/
def holder : List Ev → Int → Option Nat
  | [], _ => none
  | .assigned s p :: h, q => if p = q then some s else holder h q
  | .released _ p :: h, q => if p = q then none else holder h q
  | _ :: h, q => holder h q

/-- Every release in the trace freed a port that the closing session itself held. specification / ghost trace; models no code -/
def NoForeignRelease (tr : List Ev) : Prop :=
  ∀ h1 h2 s p, tr = h1 ++ .released s p :: h2 → holder h2 p = some s

/-- The session whose `Close` is executing in a thread. specification / ghost trace; models no code -/
def Th.closes : Th → Option Nat
  | .rng s _ => some s
  | .rel s _ _ _ => some s
  | .del s _ _ _ => some s
  | _ => none

/-- Guard: calls of `Close` on one session do not overlap. specification / ghost trace; models no code -/
def SerialClose (st : St) : Act → Prop
  | .closeBegin _ s => ∀ j, (st.ths j).closes ≠ some s
  | _ => True

/-- Guard: additionally every request of a session uses a new port name, no request of a
session is made once its `Close` has begun, and none is in flight when it begins. specification / ghost trace; models no code -/
def OrderlyUse (st : St) : Act → Prop
  | .request _ s name _ => .requested s name ∉ st.tr ∧ .closing s ∉ st.tr
  | .closeBegin _ s =>
      (∀ j, (st.ths j).closes ≠ some s) ∧ ∀ j n p, st.ths j ≠ .acq s n p
  | _ => True

end Verif.Tunnel
