import Verif.Base
/-
Specification: JSON texts (RFC 8259) and base64 (RFC 4648). Nothing here refers to the code of libnasp.
Texts are bytes; whether they are UTF-8 is not examined. `\u` escapes give the UTF-8 of the code unit (surrogates are not combined).
-/
namespace Verif.Json
open Verif

/-- JSON values: numbers without fraction and exponent are integers, others keep their text; (specification; models no code.) -/
inductive J where
  | null
  | bool (b : Bool)
  | num (i : Int)
  | real (t : Bytes)
  | str (s : Bytes)
  | arr (l : List J)
  | obj (l : List (Bytes × J))

/-- blank, tab, line feed, carriage return -/
def ws (c : UInt8) : Bool := c == 32 || c == 9 || c == 10 || c == 13
/-- Specification; models no code. -/
def skip (b : Bytes) : Bytes := b.dropWhile ws

/-- Specification; models no code. -/
def hex (c : UInt8) : Option Nat :=
  if 48 ≤ c ∧ c ≤ 57 then some (c.toNat - 48) else if 97 ≤ c ∧ c ≤ 102 then some (c.toNat - 87) else if 65 ≤ c ∧ c ≤ 70 then some (c.toNat - 55) else none

/-- Specification; models no code. -/
def hex4 (a b c d : UInt8) : Option Nat := do
  let a ← hex a; let b ← hex b; let c ← hex c; let d ← hex d
  pure (((a * 16 + b) * 16 + c) * 16 + d)

/-- Specification; models no code. -/
def utf8 (n : Nat) : Bytes :=
  if n < 128 then [UInt8.ofNat n]
  else if n < 2048 then [UInt8.ofNat (192 + n / 64), UInt8.ofNat (128 + n % 64)]
  else [UInt8.ofNat (224 + n / 4096), UInt8.ofNat (128 + n / 64 % 64), UInt8.ofNat (128 + n % 64)]

/-- one-letter escapes; (specification; models no code.) -/
def escape (c : UInt8) : Option UInt8 :=
  if c = 34 ∨ c = 92 ∨ c = 47 then some c
  else if c = 98 then some 8 else if c = 102 then some 12 else if c = 110 then some 10 else if c = 114 then some 13 else if c = 116 then some 9 else none

/-- the rest of a string after its opening quote, and what follows it. No control characters inside. (specification; models no code.) -/
def strBody : Bytes → Option (Bytes × Bytes)
  | [] => none
  | c :: r =>
    if c = 34 then some ([], r)
    else if c = 92 then match r with
      | [] => none
      | e :: r => if e = 117 then (match r with
          | a :: b :: c :: d :: r => match hex4 a b c d with
            | none => none
            | some n => (strBody r).map fun p => (utf8 n ++ p.1, p.2)
          | _ => none)
        else match escape e with
          | none => none
          | some x => (strBody r).map fun p => (x :: p.1, p.2)
    else if c < 32 then none
    else (strBody r).map fun p => (c :: p.1, p.2)

/-- Specification; models no code. -/
def digit (c : UInt8) : Bool := 48 ≤ c && c ≤ 57
/-- Specification; models no code. -/
def numChar (c : UInt8) : Bool := digit c || c == 45 || c == 43 || c == 46 || c == 101 || c == 69

/-- digits without a leading zero; (specification; models no code.) -/
def natText (t : Bytes) : Bool := !t.isEmpty && t.all digit && (t.length == 1 || t.head? != some 48)
/-- Specification; models no code. -/
def natVal (t : Bytes) : Nat := t.foldl (fun n c => n * 10 + (c.toNat - 48)) 0

/-- after the integer part: fraction and exponent; (specification; models no code.) -/
def expText : Bytes → Bool
  | [] => true
  | c :: r => (c == 101 || c == 69) && (match r with
    | 43 :: r => !r.isEmpty && r.all digit
    | 45 :: r => !r.isEmpty && r.all digit
    | r => !r.isEmpty && r.all digit)
/-- Specification; models no code. -/
def fracText : Bytes → Bool
  | 46 :: r => let d := r.takeWhile digit; !d.isEmpty && expText (r.dropWhile digit)
  | r => expText r

/-- Specification; models no code. -/
def unsigned (t : Bytes) : Bool := let d := t.takeWhile digit; natText d && fracText (t.dropWhile digit)

/-- a run of number characters; (specification; models no code.) -/
def number (t : Bytes) : Option J :=
  if t.head? = some 45 then
    (if natText t.tail then some (.num (-(natVal t.tail : Int))) else if unsigned t.tail then some (.real t) else none)
  else if natText t then some (.num (natVal t)) else if unsigned t then some (.real t) else none

/-- Specification; models no code. -/
def litNull : Bytes := [110, 117, 108, 108]
/-- Specification; models no code. -/
def litTrue : Bytes := [116, 114, 117, 101]
/-- Specification; models no code. -/
def litFalse : Bytes := [102, 97, 108, 115, 101]

/-- literals and numbers; (specification; models no code.) -/
def scalar (b : Bytes) : Option (J × Bytes) :=
  if litNull.isPrefixOf b then some (.null, b.drop 4)
  else if litTrue.isPrefixOf b then some (.bool true, b.drop 4)
  else if litFalse.isPrefixOf b then some (.bool false, b.drop 5)
  else (number (b.takeWhile numChar)).map fun j => (j, b.dropWhile numChar)

mutual
/-- a value and what follows it; the first argument bounds the depth of the search; (specification; models no code.) -/
def value : Nat → Bytes → Option (J × Bytes)
  | 0, _ => none
  | n + 1, b => match skip b with
    | [] => none
    | c :: r =>
      if c = 34 then (strBody r).map fun p => (.str p.1, p.2)
      else if c = 91 then (if (skip r).head? = some 93 then some (.arr [], (skip r).tail) else (elems n r).map fun p => (.arr p.1, p.2))
      else if c = 123 then (if (skip r).head? = some 125 then some (.obj [], (skip r).tail) else (members n r).map fun p => (.obj p.1, p.2))
      else scalar (c :: r)
/-- the elements of an array up to the closing bracket; (specification; models no code.) -/
def elems : Nat → Bytes → Option (List J × Bytes)
  | 0, _ => none
  | n + 1, b => match value n b with
    | none => none
    | some (v, r) => match skip r with
      | [] => none
      | c :: r => if c = 44 then (elems n r).map fun p => (v :: p.1, p.2) else if c = 93 then some ([v], r) else none
/-- the members of an object up to the closing brace; (specification; models no code.) -/
def members : Nat → Bytes → Option (List (Bytes × J) × Bytes)
  | 0, _ => none
  | n + 1, b => match skip b with
    | [] => none
    | q :: r => if q = 34 then (match strBody r with
        | none => none
        | some (k, r) => match skip r with
          | [] => none
          | col :: r => if col = 58 then (match value n r with
              | none => none
              | some (v, r) => match skip r with
                | [] => none
                | c :: r => if c = 44 then (members n r).map fun p => ((k, v) :: p.1, p.2) else if c = 125 then some ([(k, v)], r) else none)
            else none)
      else none
end

/-- a whole text; (specification; models no code.) -/
def parse (b : Bytes) : Option J := match value (b.length + 1) b with
  | none => none
  | some (v, r) => if skip r = [] then some v else none

/-! ### base64 -/

/-- Specification; models no code. -/
def b64Index (c : UInt8) : Option Nat :=
  if 65 ≤ c ∧ c ≤ 90 then some (c.toNat - 65) else if 97 ≤ c ∧ c ≤ 122 then some (c.toNat - 71) else if 48 ≤ c ∧ c ≤ 57 then some (c.toNat + 4)
  else if c = 43 then some 62 else if c = 47 then some 63 else none

/-- decoding with padding (61) (specification; models no code.) -/
def unb64 : Bytes → Option Bytes
  | [] => some []
  | a :: b :: c :: d :: r =>
    match b64Index a, b64Index b with
    | some a, some b =>
      if d = 61 ∧ r = [] then
        (if c = 61 then some [UInt8.ofNat (a * 4 + b / 16)]
         else match b64Index c with
          | none => none
          | some c => some [UInt8.ofNat (a * 4 + b / 16), UInt8.ofNat (b % 16 * 16 + c / 4)])
      else match b64Index c, b64Index d with
        | some c, some d => (unb64 r).map fun t => UInt8.ofNat (a * 4 + b / 16) :: UInt8.ofNat (b % 16 * 16 + c / 4) :: UInt8.ofNat (c % 4 * 64 + d) :: t
        | _, _ => none
    | _, _ => none
  | _ => none

end Verif.Json
