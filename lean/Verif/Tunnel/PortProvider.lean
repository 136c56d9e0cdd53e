/-
Model of the tunnel server's port provider
(`/repo/pkg/network/tunnel/server/port_provider.go`).

Every method takes the provider's mutex for its whole effect, so a concurrent history is
a sequence of the atomic operations below.  `GetPort` reads `portMin`/`portMax` before
locking, but those are never written after construction (port_provider.go:28-32,35-39).
Go's `int` is modelled by `Int`: the loop counter of `GetFreePort` is bounded by
`portMax`, so no operation overflows.
-/
namespace Verif.Tunnel

/-- `portProvider` (port_provider.go:25-31); `held p` is `p ∈ ports`. The map's values are
always `true`, only membership is ever used. -/
structure PP where
  min : Int
  max : Int
  held : Int → Bool

/-- `NewPortProvider` (port_provider.go:33-44). -/
def PP.new (min max : Int) : Option PP :=
  if min > max then none else some { min := min, max := max, held := fun _ => false }

/-- map insertion `p.ports[i] = true` (port_provider.go:52,73). -/
def PP.take (p : PP) (i : Int) : PP :=
  { p with held := fun q => if q = i then true else p.held q }

/-- The loop of `GetFreePort` (port_provider.go:50-55): `n` is the number of iterations
left, `i` the loop variable. -/
def PP.scan (p : PP) : Nat → Int → Option Int
  | 0, _ => none
  | n + 1, i => if p.held i then PP.scan p n (i + 1) else some i

/-- `GetFreePort` (port_provider.go:46-58): scans `portMin ≤ i < portMax`, `0` if nothing
was found. -/
def PP.getFreePort (p : PP) : PP × Int :=
  match p.scan (p.max - p.min).toNat p.min with
  | some i => (p.take i, i)
  | none => (p, 0)

/-- `GetPort` (port_provider.go:60-75). -/
def PP.getPort (p : PP) (port : Int) : PP × Bool :=
  if port < p.min ∨ port > p.max then (p, false)
  else if p.held port then (p, false)
  else (p.take port, true)

/-- `ReleasePort` (port_provider.go:77-82). -/
def PP.releasePort (p : PP) (port : Int) : PP :=
  { p with held := fun q => if q = port then false else p.held q }

/-! ### Histories -/

/-- One call of the provider's API. (pkg/network/tunnel/server/port_provider.go) -/
inductive PCall
  | free
  | get (port : Int)
  | release (port : Int)
deriving Repr, DecidableEq

/-- A call together with what the caller observed. specification / ghost trace; models no code -/
inductive PEvent
  | free (result : Int)
  | get (port : Int) (result : Bool)
  | release (port : Int)
deriving Repr, DecidableEq

/-- Run one call. specification / ghost trace; models no code -/
def PP.call (p : PP) : PCall → PP × PEvent
  | .free => ((p.getFreePort).1, .free (p.getFreePort).2)
  | .get q => ((p.getPort q).1, .get q (p.getPort q).2)
  | .release q => (p.releasePort q, .release q)

/-- Run a sequence of calls (in the order in which they took the mutex) and record the
observations, oldest first. specification / ghost trace; models no code -/
def PP.run (p : PP) : List PCall → PP × List PEvent
  | [] => (p, [])
  | c :: cs => ((PP.run (p.call c).1 cs).1, (p.call c).2 :: (PP.run (p.call c).1 cs).2)

/-! ### Specification, in terms of observations only -/

/-- The port an observation hands to the caller: `0` from `GetFreePort` means "none". specification / ghost trace; models no code -/
def PEvent.acquires : PEvent → Option Int
  | .free r => if r = 0 then none else some r
  | .get q true => some q
  | .get _ false => none
  | .release _ => none

/-- Is port `q` held after the observations `h` (oldest first)?  It is iff it was handed
out and not released since. specification / ghost trace; models no code -/
def heldAfter : List PEvent → Int → Bool → Bool
  | [], _, b => b
  | .release r :: h, q, b => heldAfter h q (if r = q then false else b)
  | e :: h, q, b => heldAfter h q (if e.acquires = some q then true else b)

end Verif.Tunnel
