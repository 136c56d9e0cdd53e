/-
Dialing and closing tracked connections: /repo/pkg/network/{dialer,connection,connection_state,http}.go.

A context is nothing or a holder of a connection state (`ConnectionStateToContext`,
`NewConnectionStateHolderToContext`); the nearest holder of a context is the one used, so a context
is at most one holder here.  Connections, states and holders are numbers.  A dial has a start
(`BeforeDial`, choice of the state) and an end (the network dial has ended: holder, wrapping,
`AfterDial`).
-/
import Verif.Base

namespace Verif.Dial

/-- specification / ghost trace; models no code -/
inductive Ev where
  | before (d : Nat) (ok : Bool)
  /-- the network connection `c` of dial `d` is open -/
  | opened (d c : Nat)
  | after (d c : Nat) (ok : Bool)
  /-- `DialContext` returned the connection, or an error -/
  | returned (d c : Nat)
  | failed (d : Nat)
  | beforeClose (c : Nat) (ok : Bool)
  /-- the network connection was closed -/
  | closed (c : Nat)
  | afterClose (c : Nat) (ok : Bool)
  /-- `Close` returned: no error / an error -/
  | closeOk (c : Nat)
  | closeErr (c : Nat)
deriving DecidableEq, Repr

/-- where a goroutine is (program counter in pkg/network/dialer.go and connection.go) -/
inductive Phase where
  | none
  /-- dialing with this state, holder of the context, hooks present -/
  | dialing (state : Nat) (ctx : Option Nat) (hooks : Bool)
  | done
deriving DecidableEq, Repr

/-- the state of pkg/network/dialer.go and connection.go, with the environment and ghost fields -/
structure St where
  phase : Nat → Phase := fun _ => .none
  nextConn : Nat := 0
  nextState : Nat := 0
  /-- `connection.connectionState` of the wrapped connections -/
  stateOf : Nat → Option Nat := fun _ => none
  /-- the connection whose addresses a state shows (`SetLocalAddr`, `SetRemoteAddr`) -/
  shows : Nat → Option Nat := fun _ => none
  /-- what the holders hold -/
  holds : Nat → Option Nat := fun _ => none
  trace : List Ev := []

/-- the atomic steps and calls of pkg/network/dialer.go and connection.go, and what the surroundings do; the lines are cited at the steps or in the transition function -/
inductive Act where
  | dial (d : Nat) (ctx : Option Nat) (hooks beforeOk : Bool)
  | dialed (d : Nat) (ok afterOk : Bool)
  /-- the `GotConn` trace of `transport.RoundTrip` (http.go:126-135) -/
  | gotConn (h c : Nat)
  | close (c : Nat) (hooks beforeOk closeOk afterOk : Bool)
deriving DecidableEq, Repr

/-- update of a component; models no code -/
def St.setPhase (s : St) (d : Nat) (p : Phase) : St := { s with phase := fun k => if k = d then p else s.phase k }

/-- `ConnectionStateFromContext` (connection_state.go:104-110). -/
def fromCtx (s : St) : Option Nat → Option Nat
  | none => none
  | some h => s.holds h

/-- the transition function of the steps (pkg/network/dialer.go and connection.go); the lines are cited at the steps or at the cases -/
def exec (s : St) : Act → Option St
  -- `dialContext` up to the network dial (dialer.go:131-146)
  | .dial d ctx hooks beforeOk =>
    if s.phase d ≠ .none then none
    else if hooks && !beforeOk then
      some { (s.setPhase d .done) with trace := .failed d :: .before d false :: s.trace }
    else
      let tr := if hooks then .before d true :: s.trace else s.trace
      match fromCtx s ctx with
      | some st => some { (s.setPhase d (.dialing st ctx hooks)) with trace := tr }
      | none => some { (s.setPhase d (.dialing s.nextState ctx hooks)) with nextState := s.nextState + 1, trace := tr }
  -- the rest (dialer.go:146-168), `WrapConnection` (connection.go:80-103)
  | .dialed d ok afterOk =>
    match s.phase d with
    | .dialing st ctx hooks =>
      let s := s.setPhase d .done
      if ok then
        let c := s.nextConn
        let s := { s with nextConn := c + 1,
                          holds := (match ctx with
                            | some h => if s.holds h = none then (fun k => if k = h then some st else s.holds k) else s.holds
                            | none => s.holds),
                          stateOf := (fun k => if k = c then some st else s.stateOf k),
                          shows := (fun k => if k = st then some c else s.shows k) }
        if hooks then
          if afterOk then some { s with trace := .returned d c :: .after d c true :: .opened d c :: s.trace }
          else some { s with trace := .failed d :: .after d c false :: .opened d c :: s.trace }
        else some { s with trace := .returned d c :: .opened d c :: s.trace }
      else some { s with trace := .failed d :: s.trace }
    | _ => none
  -- http.go:126-135
  | .gotConn h c =>
    match s.stateOf c with
    | some st => some { s with holds := fun k => if k = h then some st else s.holds k }
    | none => none
  -- `Close` (connection.go:142-160)
  | .close c hooks beforeOk closeOk afterOk =>
    if s.stateOf c = none then none
    else if hooks && !beforeOk then some { s with trace := .closeErr c :: .beforeClose c false :: s.trace }
    else
      let tr := if hooks then .beforeClose c true :: s.trace else s.trace
      if closeOk then
        let tr := .closed c :: tr
        if hooks then
          if afterOk then some { s with trace := .closeOk c :: .afterClose c true :: tr }
          else some { s with trace := .closeErr c :: .afterClose c false :: tr }
        else some { s with trace := .closeOk c :: tr }
      else some { s with trace := .closeErr c :: tr }

/-- runs (specification; models no code) -/
inductive Reach (guard : St → Act → Prop) : St → Prop where
  | init : Reach guard {}
  | step {s s' : St} {a : Act} : Reach guard s → guard s a → exec s a = some s' → Reach guard s'

/-! ### The connection options of a dialer -/

/-- The option slice of a dialer has `len` options and room for `cap`; what is beyond `len` is shared by all
dials if there is room for two more (`append` in dialer.go:156-157). Values are the dial that wrote
them (its address and its state). -/
structure Opts where
  spare : Bool
  shared : Option Nat := none
  /-- own copies of the dials whose `append` had to allocate -/
  own : Nat → Option Nat := fun _ => none
  /-- the dial whose address and state a connection got -/
  got : Nat → Option Nat := fun _ => none

/-- the atomic steps and calls of pkg/network/dialer.go and connection.go, and what the surroundings do; the lines are cited at the steps or in the transition function -/
inductive OAct where
  | append (d : Nat)
  | wrap (d : Nat)
deriving DecidableEq, Repr

/-- the transition function of the steps (pkg/network/dialer.go and connection.go); the lines are cited at the steps or at the cases -/
def oexec (s : Opts) : OAct → Opts
  | .append d => if s.spare then { s with shared := some d } else { s with own := fun k => if k = d then some d else s.own k }
  | .wrap d => if s.spare then { s with got := fun k => if k = d then s.shared else s.got k }
               else { s with got := fun k => if k = d then s.own d else s.got k }

end Verif.Dial
