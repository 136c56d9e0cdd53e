import Verif.Base
/-
Model of components/kafka-protocol-go/internal/protocol/versions.go.
Strings are lists of characters (only ASCII digits, '+' and '-' are ever inspected).
-/
namespace Verif.Kafka
open Verif

/-- Go `strings.Split(s, sep)` for a one-character separator -/
def splitOn (c : Char) : List Char → List (List Char)
  | [] => [[]]
  | x :: s =>
    if x = c then [] :: splitOn c s
    else match splitOn c s with
      | h :: t => (x :: h) :: t
      | [] => [[x]]

/-- digits of `strconv.ParseInt`, base 10: every character must be a digit (Horner sum) -/
def parseDigits : List Char → Nat → Option Nat
  | [], acc => some acc
  | c :: s, acc => if '0' ≤ c ∧ c ≤ '9' then parseDigits s (acc * 10 + (c.toNat - '0'.toNat)) else none

/-- `strconv.ParseInt(s, 10, 16)`: optional sign, at least one digit, range check -/
def parseInt16 (s : List Char) : Option Int :=
  let go (neg : Bool) (d : List Char) : Option Int :=
    if d = [] then none
    else match parseDigits d 0 with
      | none => none
      | some n =>
        let i : Int := if neg then -(n : Int) else n
        if -32768 ≤ i ∧ i ≤ 32767 then some i else none
  match s with
  | '+' :: d => go false d
  | '-' :: d => go true d
  | d => go false d

/-- versions.go:30-59 `VersionRange`; `none` is the error result -/
def versionRange (s : List Char) : Option (Int × Int) :=
  match splitOn '-' s with
  | [a, b] => match parseInt16 a with
    | none => none
    | some lo => match parseInt16 b with
      | none => none
      | some hi => some (lo, hi)
  | _ => match splitOn '+' s with
    | [a, _] => match parseInt16 a with
      | none => none
      | some lo => some (lo, 32767)
    | _ => match parseInt16 s with
      | some v => some (v, v)
      | none => none

end Verif.Kafka
