import Verif.Base
/-
Model of the creation of a connection pool: `NewChannelPool` (/repo/pkg/network/pool/channel.go:111-151) with the `Close` it
calls when a connection cannot be made (220-247, conn.go:59-68). Connections are numbered in the order they are made.
`makes i`: does the `i`-th call of the factory succeed; `closes c`: does closing connection `c` succeed.
-/
namespace Verif.Pool.Create

/-- the result of a call (pkg/network/pool/channel.go), an error or a panic -/
inductive Err | capacity | factory
deriving Repr, DecidableEq

/-- What the caller sees and what is left behind. the result of a call (pkg/network/pool/channel.go), an error or a panic -/
structure Out where
  /-- the pool's idle connections, oldest first, or the error returned -/
  res : Except Err (List Nat)
  /-- the connections the factory made -/
  made : List Nat
  /-- the connections `Close` was called on -/
  closed : List Nat

/-- channel.go:237-245: the connections `Close` calls `Discard` on; it returns at the first error -/
def drain (closes : Nat → Bool) : List Nat → List Nat
  | [] => []
  | c :: rest => if closes c then c :: drain closes rest else [c]

/-- channel.go:139-146: `k` more connections to make, `n` made -/
def make (makes closes : Nat → Bool) : Nat → Nat → Out
  | 0, n => ⟨.ok (List.range n), List.range n, []⟩
  | k + 1, n => if makes n then make makes closes k (n + 1)
    else ⟨.error .factory, List.range n, drain closes (List.range n)⟩

/-- channel.go:131-150 -/
def newPool (makes closes : Nat → Bool) (initialCap maxCap : Nat) : Out :=
  if initialCap > maxCap then ⟨.error .capacity, [], []⟩ else make makes closes initialCap 0

end Verif.Pool.Create
