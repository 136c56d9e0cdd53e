import Verif.Kafka.Codec
/-
Model of experimental/java/main.go, part 1: selected keys and `Select`.
Keys are the unsigned 64 bit words of Go as natural numbers.
-/
namespace Verif.Nio
open Verif Verif.Kafka

/-- main.go:51-57: the operations -/
def opRead : Nat := 1
/-- experimental/java/main.go:50-57 -/
def opWrite : Nat := 4
/-- experimental/java/main.go:50-57 -/
def opConnect : Nat := 8
/-- experimental/java/main.go:50-57 -/
def opAccept : Nat := 16
/-- experimental/java/main.go:50-57 -/
def opWakeup : Nat := 32

/-- main.go:112-114 `NewSelectedKey` (`&` and `<<` have the same precedence in Go); operation and id are 32 bit words -/
def newKey (op id : Nat) : Nat := ((op &&& 255) <<< 32) ||| id

/-- main.go:116-118 `Operation` -/
def keyOp (k : Nat) : Nat := (k >>> 32) &&& 255

/-- main.go:120-122 `SelectedKeyId` -/
def keyId (k : Nat) : Nat := k % 2 ^ 32

/-- main.go:133-135: the capacity of the queue -/
def queueCap : Nat := 64

/-- the map `selected` of `Select`: insertion with `|=` (main.go:187, 195) -/
def addSelected (m : List (Nat × Nat)) (k : Nat) : List (Nat × Nat) :=
  match m with
  | [] => [(keyId k, k)]
  | (i, v) :: r => if i = keyId k then (i, v ||| k) :: r else (i, v) :: addSelected r k

/-- main.go:184-197: the events taken from the queue, without wake-ups -/
def collect (q : List Nat) : List (Nat × Nat) :=
  q.foldl (fun m k => if keyOp k = opWakeup then m else addSelected m k) []

/-- main.go:199-205: the result of `Select`: eight bytes per selected key. The order is the iteration order of the map;
`order` stands for it. -/
def encodeKeys (ks : List Nat) : Bytes := ks.flatMap (beBytes 8)

/-- the result of experimental/java/main.go:145-209 as bytes: the merged keys in some order, each as a big endian 64 bit word -/
def selectBytes (order : List (Nat × Nat) → List (Nat × Nat)) (q : List Nat) : Bytes :=
  encodeKeys ((order (collect q)).map (·.2))

/-- what the caller makes of the result (NaspSelectorProvider.java:68-73: `getLong` until nothing remains) -/
def decodeKeys : Nat → Bytes → List Nat
  | 0, _ => []
  | n + 1, b => if b.length < 8 then [] else beNat (b.take 8) 0 :: decodeKeys n (b.drop 8)

/-! ### the queue -/

/-- a send that gives up if the queue is full (main.go:159-162, 173-176, 391-394) -/
def offer (q : List Nat) (k : Nat) : List Nat := if q.length < queueCap then q ++ [k] else q

/-- a blocking send (main.go:229, 332, 585): possible only if there is room -/
def send (q : List Nat) (k : Nat) : Option (List Nat) := if q.length < queueCap then some (q ++ [k]) else none

/-- main.go:155-180: the first part of `Select`: keys whose check succeeds are queued as far as there is room (`readable`,
`writable`: the ids whose checks succeed, in iteration order) -/
def scan (readable writable : List Nat) (q : List Nat) : List Nat :=
  (writable.map (newKey opWrite)).foldl offer ((readable.map (newKey opRead)).foldl offer q)

end Verif.Nio
