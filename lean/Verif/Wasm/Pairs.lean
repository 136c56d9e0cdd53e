import Verif.Base
/-
Model of `serializeMapToPairs` (`/repo/pkg/proxywasm/utils.go:57-81`) and `Stringify`
(`/repo/pkg/proxywasm/properties.go:66-106`).

A Go map is a list of its entries in the (unspecified) order in which `range` visits them; keys
are distinct.  `sort.Strings` is modelled by an insertion sort by bytewise comparison.
-/
namespace Verif.Wasm.Pairs

/-- Go's `<=` on strings: bytewise. (pkg/proxywasm/utils.go) -/
def leBytes : Bytes → Bytes → Bool
  | [], _ => true
  | _ :: _, [] => false
  | a :: as, b :: bs => if a < b then true else if b < a then false else leBytes as bs

/-- Insertion into a sorted list. (pkg/proxywasm/utils.go) -/
def ins (k : Bytes) : List Bytes → List Bytes
  | [] => [k]
  | x :: xs => if leBytes k x then k :: x :: xs else x :: ins k xs

/-- `sort.Strings`; (pkg/proxywasm/utils.go) -/
def sortKeys : List Bytes → List Bytes
  | [] => []
  | x :: xs => ins x (sortKeys xs)

/-- `binary.LittleEndian` encoding of `uint32(n)`. -/
def le32 (n : Nat) : Bytes :=
  [UInt8.ofNat n, UInt8.ofNat (n / 256), UInt8.ofNat (n / 65536), UInt8.ofNat (n / 16777216)]

/-- `binary.LittleEndian.PutUint32(buf[off:], uint32(n))` -/
def put32 (buf : Bytes) (off n : Nat) : Bytes :=
  buf.take off ++ le32 n ++ buf.drop (off + 4)

/-- `pairs[k]`: the zero value `""` if absent. (pkg/proxywasm/utils.go) -/
def lookup (m : List (Bytes × Bytes)) (k : Bytes) : Bytes :=
  match m.find? (·.1 = k) with
  | some e => e.2
  | none => []

/-- The first loop (utils.go:67-73): lengths at offsets `4+i*8` and `8+i*8`. -/
def putSizes (m : List (Bytes × Bytes)) : List Bytes → Nat → Bytes → Bytes
  | [], _, buf => buf
  | k :: ks, i, buf =>
    let v := lookup m k
    let buf := put32 buf (4 + i * 8) k.length
    let buf := put32 buf (8 + i * 8) v.length
    putSizes m ks (i + 1) buf

/-- The second loop (utils.go:74-78): `k + "\x00"` and `v + "\x00"`. -/
def appendPairs (m : List (Bytes × Bytes)) : List Bytes → Bytes → Bytes
  | [], buf => buf
  | k :: ks, buf => appendPairs m ks (buf ++ (k ++ [0]) ++ (lookup m k ++ [0]))

/-- `serializeMapToPairs` (utils.go:57-81). -/
def serialize (m : List (Bytes × Bytes)) : Bytes :=
  let keys := sortKeys (m.map (·.1))
  let buf := List.replicate (4 + m.length * 8) (0 : UInt8)
  let buf := put32 buf 0 m.length
  let buf := putSizes m keys 0 buf
  appendPairs m keys buf

/-- The property values `Stringify` distinguishes. (pkg/proxywasm/utils.go) -/
inductive PVal
  | bool (b : Bool)
  | int64 (v : Int)
  | uint64 (v : Nat)
  | string (s : Bytes)
  /-- `map[string]interface{}`: values that are not strings are `none` -/
  | anyMap (m : List (Bytes × Option Bytes))
  | strMap (m : List (Bytes × Bytes))
  | other

/-- `binary.LittleEndian.PutUint64`. -/
def le64 (n : Nat) : Bytes := le32 n ++ le32 (n / 4294967296)

/-- `Stringify` (properties.go:66-106); `int` and `int64` alike. -/
def stringify : PVal → Bytes
  | .bool b => [if b then 1 else 0]
  | .int64 v => le64 (v % 18446744073709551616).toNat
  | .uint64 v => le64 v
  | .string s => s
  | .anyMap m => serialize (m.filterMap fun e => e.2.map fun v => (e.1, v))
  | .strMap m => serialize m
  | .other => []

end Verif.Wasm.Pairs
