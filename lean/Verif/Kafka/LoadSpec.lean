import Verif.Base

/-!
Loading the message specifications: components/kafka-protocol-go/internal/protocol/protocol.go:26-82.
`M` is a parsed message specification. The order of the entries is that of `fs.ReadDir` (by name).
-/

namespace Verif.Kafka.LoadSpec

/-- A directory: its entries in order. A file is its message with the message's name, or `none` if it
cannot be read or parsed. (protocol.go:29-34, 52-68) -/
inductive Dir (M : Type) where
  | nil
  | file (msg : Option (String × M)) (rest : Dir M)
  | sub (d : Dir M) (rest : Dir M)

/-- `m[k] = v` (protocol.go:66) -/
def put {M : Type} (m : List (String × M)) (k : String) (v : M) : List (String × M) :=
  (k, v) :: m.filter (fun e => e.1 ≠ k)

/-- `for k, v := range specs { m[k] = v }` (protocol.go:47-49); the keys of a map are distinct, so the
order does not matter. -/
def merge {M : Type} (m : List (String × M)) : List (String × M) → List (String × M)
  | [] => m
  | (k, v) :: r => merge (put m k v) r

/-- The loop of `LoadProtocolSpec` (protocol.go:34-67) -/
def loadInto {M : Type} : Dir M → List (String × M) → Option (List (String × M))
  | .nil, m => some m
  | .file none _, _ => none
  | .file (some (k, v)) r, m => loadInto r (put m k v)
  | .sub d r, m => match loadInto d [] with
    | none => none
    | some s => loadInto r (merge m s)

/-- `LoadProtocolSpec` (protocol.go:26-70) -/
def load {M : Type} (d : Dir M) : Option (List (String × M)) := loadInto d []

end Verif.Kafka.LoadSpec
