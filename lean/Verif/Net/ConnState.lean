/-
The locks of a connection's state during a TLS handshake: /repo/pkg/network/connection_state.go:162-262
(`mux`, `mux2`), /repo/pkg/network/connection.go:121-190 (`Read`, `Write`, `setTLSConnectionState`).

The handshake runs in the goroutine that first reads from the TLS connection and holds the
connection's handshake mutex (crypto/tls).  Each of its network operations goes through
`connection.Read`/`Write`, which then sets the time to first byte (`mux`, exclusive) and once starts
the goroutine that waits for the handshake to end and records its outcome, holding `mux2` all the
time.  Other goroutines may ask for the TLS state (`GetTLSConnectionState`, `GetPeerCertificate`) at
any time: they take `mux` (shared) and then `mux2`.  A waiting writer of a Go `RWMutex` keeps new
readers out.  `SetLocalCertificate` in the handshake takes `mux` like `SetTimeToFirstByte`; it is
covered by the same action.
-/
import Verif.Base

namespace Verif.ConnState

/-- Where the handshake is. where a goroutine is (program counter in pkg/network/connection_state.go) -/
inductive HPc where
  | ready
  /-- waits for `mux` in `SetTimeToFirstByte` (connection_state.go:192-199) -/
  | write
  /-- in `setTLSConnectionState`: before `GetTLSConnectionState` (connection.go:168-170) -/
  | once1
  /-- there, holding `mux` shared, before `mux2` (connection_state.go:236-246) -/
  | once2
  /-- in `SetTLSConnectionStateAsync`, before `mux2` (connection_state.go:248-254) -/
  | once3
  | finished
deriving DecidableEq, Repr

/-- where a goroutine is (program counter in pkg/network/connection_state.go) -/
inductive GPc where
  | none
  /-- holds `mux` shared, before `mux2` -/
  | want2
  | done
deriving DecidableEq, Repr

/-- as used in pkg/network/connection_state.go -/
inductive Owner where
  | free
  /-- the goroutine of `SetTLSConnectionStateAsync` -/
  | async
deriving DecidableEq, Repr

/-- the state of pkg/network/connection_state.go, with the environment and ghost fields -/
structure St where
  /-- network operations of the handshake still to come -/
  io : Nat
  h : HPc := .ready
  /-- the goroutine was started (`tlsConnectionStateSetter`) -/
  spawned : Bool := false
  /-- who holds `mux` shared: `none` is the handshake itself -/
  readers : List (Option Nat) := []
  mux2 : Owner := .free
  g : Nat → GPc := fun _ => .none

/-- the atomic steps and calls of pkg/network/connection_state.go, and what the surroundings do; the lines are cited at the steps or in the transition function -/
inductive Act where
  | hIo | hWrite | hOnceR | hOnce2 | hSpawn | hDone
  /-- the goroutine: the handshake mutex is free, record the outcome, release `mux2` -/
  | aRun
  | gStart (k : Nat)
  | gEnd (k : Nat)
deriving DecidableEq, Repr

/-- the transition function of the steps (pkg/network/connection_state.go); the lines are cited at the steps or at the cases -/
def exec (s : St) : Act → Option St
  | .hIo => if s.h = .ready ∧ s.io > 0 then some { s with io := s.io - 1, h := .write } else none
  | .hWrite => if s.h = .write ∧ s.readers = [] then some { s with h := if s.spawned then .ready else .once1 } else none
  | .hOnceR => if s.h = .once1 then some { s with readers := none :: s.readers, h := .once2 } else none
  | .hOnce2 => if s.h = .once2 ∧ s.mux2 = .free then some { s with readers := s.readers.erase none, h := .once3 } else none
  | .hSpawn => if s.h = .once3 ∧ s.mux2 = .free then some { s with mux2 := .async, spawned := true, h := .ready } else none
  | .hDone => if s.h = .ready ∧ s.io = 0 then some { s with h := .finished } else none
  | .aRun => if s.mux2 = .async ∧ s.h = .finished then some { s with mux2 := .free } else none
  | .gStart k => if s.g k = .none ∧ s.h ≠ .write then some { s with readers := some k :: s.readers, g := fun x => if x = k then .want2 else s.g x } else none
  | .gEnd k => if s.g k = .want2 ∧ s.mux2 = .free then some { s with readers := s.readers.erase (some k), g := fun x => if x = k then .done else s.g x } else none

/-- runs (specification; models no code) -/
inductive Reach (guard : St → Act → Prop) (n : Nat) : St → Prop where
  | init : Reach guard n { io := n }
  | step {s s' : St} {a : Act} : Reach guard n s → guard s a → exec s a = some s' → Reach guard n s'

/-- runs (specification; models no code) -/
inductive Steps : St → St → Prop where
  | refl {s : St} : Steps s s
  | step {s s' s'' : St} {a : Act} : Steps s s' → exec s' a = some s'' → Steps s s''

end Verif.ConnState
