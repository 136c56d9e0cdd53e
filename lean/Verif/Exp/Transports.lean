import Verif.Base
/-
Model of the lives of HTTP transports and servers of Java programs (experimental/java/main.go:232-253, 647-710) and of transports of mobile programs
(experimental/mobile/main.go:58-89, 121-127).

What matters of a handler is its context: the connection to the mesh, the tunnel and the metrics end when it is cancelled (pkg/istio/istio.go:518-563; C251, C252). Time is in
milliseconds.
-/
namespace Verif.Exp.Transports

/-- a process with Java: one handler for all (java/main.go:232-253); `created`: the transports handed out; `closed`: those the program closed (ghost) -/
structure J where
  cancelled : Bool := false
  created : Nat := 0
  closed : List Nat := []
deriving DecidableEq, Repr

/-- what the program does; `create ok`: whether the handler made a transport (java/main.go:647-662, 708-710) -/
inductive JOp where
  | create (ok : Bool)
  | close (i : Nat)
deriving DecidableEq, Repr

/-- `NewHTTPTransport`, `Close` (java/main.go:647-662, 708-710) -/
def J.op (s : J) : JOp → J
  | .create true => { s with created := s.created + 1 }
  | .create false => { s with cancelled := true }
  | .close i => if i < s.created then { s with cancelled := true, closed := i :: s.closed } else s

/-- `Await` of a transport returns (java/main.go:704-706) -/
def J.awaitReturns (s : J) (_i : Nat) : Bool := s.cancelled

/-- the handler still has its connection to the mesh (istio.go:518-563) -/
def J.mesh (s : J) : Bool := !s.cancelled

/-- a process with mobile transports: for each, whether its context is cancelled (mobile/main.go:32-37); and those the program closed (ghost) -/
structure M where
  transports : List Bool := []
  closed : List Nat := []
deriving DecidableEq, Repr

/-- what the program does; `create ok`: whether a handler could be made and started (mobile/main.go:58-89) -/
inductive MOp where
  | create (ok : Bool)
  | close (i : Nat)
deriving DecidableEq, Repr

/-- `NewHTTPTransport`, whose deferred `cancel` runs when it returns, and `Close` (mobile/main.go:58-89, 125-127) -/
def M.op (s : M) : MOp → M
  | .create true => { s with transports := s.transports ++ [true] }
  | .create false => s
  | .close i => if i < s.transports.length then { transports := s.transports.set i true, closed := i :: s.closed } else s

/-- `Await` of a transport returns (mobile/main.go:121-123) -/
def M.awaitReturns (s : M) (i : Nat) : Bool := s.transports.getD i false

/-- the transport still has its connection to the mesh -/
def M.mesh (s : M) (i : Nat) : Bool := s.transports.getD i true = false

/-- `ListenAndServe` (java/main.go:695-702): the server ends at a time with an error, or never; the function returns after 1000 milliseconds what is there -/
def listenAndServe (ends : Option (Nat × String)) : Nat × Option String :=
  (1000, match ends with
    | some (t, e) => if t < 1000 then some e else none
    | none => none)

end Verif.Exp.Transports
