import Verif.Base
/-
Model of `ParseDN` (pkg/tls/verify/util.go:26-66): distinguished names are taken apart with the regular expression `[/;,]?([^= ]+) ?= ?([^/;,]+)`.

Of Go's regexp package (environment): `FindAllStringSubmatch` finds matches from left to right, each behind the one before; of the matches at a position it takes the one a
backtracking matcher finds first, where `?` and `+` prefer more characters. The candidates at a position are listed in this order. Texts are lists of runes.
-/
namespace Verif.Dn

/-- a text -/
abbrev Text := List Char

/-- `[/;,]` (util.go:29) -/
def isSep (c : Char) : Bool := c = '/' || c = ';' || c = ','
/-- `[^= ]` (util.go:29) -/
def isKey (c : Char) : Bool := c ≠ '=' && c ≠ ' '
/-- `[^/;,]` (util.go:29) -/
def isVal (c : Char) : Bool := !isSep c
/-- the space (util.go:29) -/
def isSp (c : Char) : Bool := c = ' '

/-- `f?`: what is left of the text, candidates in order (Go's regexp package) -/
def opt (f : Char → Bool) : Text → List Text
  | c :: r => if f c then [r, c :: r] else [c :: r]
  | [] => [[]]

/-- `f+`: what was matched and what is left, candidates in order (Go's regexp package) -/
def plus (f : Char → Bool) : Text → List (Text × Text)
  | c :: r => if f c then (plus f r).map (fun p => (c :: p.1, p.2)) ++ [([c], r)] else []
  | [] => []

/-- the character `=` (util.go:29) -/
def eqs : Text → List Text
  | c :: r => if c = '=' then [r] else []
  | [] => []

/-- the candidates for a match at the beginning of a text: the two groups and what is left (util.go:29) -/
def cands (t : Text) : List ((Text × Text) × Text) :=
  (opt isSep t).flatMap fun t1 => (plus isKey t1).flatMap fun k => (opt isSp k.2).flatMap fun t3 => (eqs t3).flatMap fun t4 =>
    (opt isSp t4).flatMap fun t5 => (plus isVal t5).map fun v => ((k.1, v.1), v.2)

/-- the loop of `FindAllStringSubmatch(dn, -1)` (util.go:35) -/
def findFrom : Nat → Text → List (Text × Text)
  | 0, _ => []
  | n + 1, t => match (cands t).head? with
    | some (m, rest) => m :: findFrom n rest
    | none => match t with
      | [] => []
      | _ :: r => findFrom n r

/-- `FindAllStringSubmatch(dn, -1)` (util.go:35) -/
def findAll (t : Text) : List (Text × Text) := findFrom (t.length + 1) t

/-- `pkix.Name`, the fields `ParseDN` sets (util.go:42-62) -/
structure Name where
  country : List Text := []
  organization : List Text := []
  unit : List Text := []
  locality : List Text := []
  province : List Text := []
  serial : Text := []
  common : Text := []
deriving DecidableEq, Repr

/-- the loop of `ParseDN` (util.go:37-63) for one match -/
def Name.add (n : Name) (m : Text × Text) : Name :=
  if m.2 = [] then n
  else if m.1 = ['C'] then { n with country := n.country ++ [m.2] }
  else if m.1 = ['O'] then { n with organization := n.organization ++ [m.2] }
  else if m.1 = ['O', 'U'] then { n with unit := n.unit ++ [m.2] }
  else if m.1 = ['L'] then { n with locality := n.locality ++ [m.2] }
  else if m.1 = ['S', 'T'] then { n with province := n.province ++ [m.2] }
  else if m.1 = ['S', 'N'] then { n with serial := m.2 }
  else if m.1 = ['C', 'N'] then { n with common := m.2 }
  else n

/-- `ParseDN` (util.go:32-66) -/
def parseDN (t : Text) : Name := (findAll t).foldl Name.add {}

/-! ### `pkix.Name.String` (environment: Go's crypto/x509/pkix) -/

/-- the escapes of `RDNSequence.String`; `first`: nothing came before (pkix; used with util.go:32) -/
def escFrom (first : Bool) : Text → Text
  | [] => []
  | c :: r =>
    (if c = ',' || c = '+' || c = '"' || c = '\\' || c = '<' || c = '>' || c = ';' || (c = '#' && first) || (c = ' ' && (first || r = [])) then ['\\', c] else [c]) ++
      escFrom false r

/-- one attribute as text (pkix; used with util.go:32) -/
def attrText (k v : Text) : Text := k ++ '=' :: escFrom true v

/-- the values of one field, as one relative name: joined with `+` (pkix; used with util.go:32) -/
def rdn (k : Text) (vs : List Text) : Text := ['+'].intercalate (vs.map (attrText k))

/-- the relative names in the order of the text (pkix `ToRDNSequence`, backwards; used with util.go:32) -/
def Name.rdns (n : Name) : List (Text × List Text) :=
  [("SERIALNUMBER".toList, if n.serial = [] then [] else [n.serial]), (['C', 'N'], if n.common = [] then [] else [n.common]),
   (['S', 'T'], n.province), (['L'], n.locality), (['O', 'U'], n.unit), (['O'], n.organization), (['C'], n.country)]

/-- `Name.String()` (pkix; used with util.go:32) -/
def Name.text (n : Name) : Text := [','].intercalate ((n.rdns.filter fun p => p.2 ≠ []).map fun p => rdn p.1 p.2)

end Verif.Dn
