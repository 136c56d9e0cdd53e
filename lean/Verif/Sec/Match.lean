/-
String matchers: pkg/util/string_matcher.go; SAN matchers: pkg/tls/verify/san.go.

Strings are lists of characters.  Not modelled, taken as parameters: `strings.ToLower` (a map on
characters), the regular expression engine (compilation, and which parts of an input an expression
matches), `host.Name.Matches` of Istio.
-/
import Verif.Base

namespace Verif.Match

/-- texts -/
abbrev Str := List Char

/-- A compiled regular expression: `rx input i j` says that it matches the part `[i, j)` of `input`
(matching may depend on the surroundings, as with `^` or `\b`). (Go's regexp package, used in pkg/util/string_matcher.go:134-162) -/
abbrev Rx := Str → Nat → Nat → Bool

/-- the parameters of the model (Go's strings, regexp and Istio's host package) -/
structure Env where
  /-- `unicode.ToLower` -/
  lower : Char → Char
  /-- `regexp.Compile` -/
  compile : Str → Option Rx
  /-- `host.Name(pattern).Matches(host.Name(input))` -/
  host : Str → Str → Bool

/-- `StringMatchType` (string_matcher.go:28-37). Other strings are invalid. -/
inductive Kind where
  | exact | prefix | suffix | contains | regex | hostname
deriving DecidableEq, Repr

/-- the constants after pkg/util/string_matcher.go:28 -/
def Kind.name : Kind → Str
  | .exact => "EXACT".toList
  | .prefix => "PREFIX".toList
  | .suffix => "SUFFIX".toList
  | .contains => "CONTAINS".toList
  | .regex => "REGEX".toList
  | .hostname => "HOSTNAME".toList

/-- the constants after pkg/util/string_matcher.go:28 -/
def Kind.all : List Kind := [.exact, .prefix, .suffix, .contains, .hostname, .regex]

/-- The `switch matchType` of setMatcher (string_matcher.go:178-197), with the names as strings. -/
def Kind.parse (s : Str) : Option Kind := Kind.all.find? fun k => s == k.name

/-- `stringMatcher` (string_matcher.go:44-52). -/
structure Matcher where
  exact : Option Str := none
  pre : Option Str := none
  suf : Option Str := none
  contains : Option Str := none
  regex : Option (Str × Rx) := none
  dns : Option Str := none
  ignoreCase : Bool := false

/-- `strings.ToLower` when the matcher ignores case (string_matcher.go:142-144, 173-175). -/
def fold (e : Env) (ic : Bool) (s : Str) : Str := if ic then s.map e.lower else s

/-- `setMatcher` (string_matcher.go:172-200). -/
def setMatcher (e : Env) (m : Matcher) (k : Kind) (value : Str) : Option Matcher :=
  let v := fold e m.ignoreCase value
  match k with
  | .exact => some { m with exact := some v }
  | .prefix => some { m with pre := some v }
  | .suffix => some { m with suf := some v }
  | .contains => some { m with contains := some v }
  | .hostname => some { m with dns := some v }
  | .regex => (e.compile v).map fun rx => { m with regex := some (v, rx) }

/-- `NewStringMatcher` (string_matcher.go:54-64). -/
def newMatcher (e : Env) (k : Kind) (value : Str) (ignoreCase : Bool) : Option Matcher :=
  setMatcher e { ignoreCase := ignoreCase } k value

/-- `strings.HasPrefix`. -/
def hasPrefix : Str → Str → Bool
  | _, [] => true
  | [], _ :: _ => false
  | a :: s, b :: p => a == b && hasPrefix s p

/-- `strings.HasSuffix`. -/
def hasSuffix (s p : Str) : Bool := decide (p.length ≤ s.length) && s.drop (s.length - p.length) == p

/-- `strings.Contains`. -/
def containsStr : Str → Str → Bool
  | [], p => hasPrefix [] p
  | a :: s, p => hasPrefix (a :: s) p || containsStr s p

/-- The longest match of `rx` that starts at `i`: its end. (Go's regexp package) -/
def longestFrom (rx : Rx) (s : Str) (i : Nat) : Option Nat :=
  (List.range (s.length + 1)).reverse.find? fun j => decide (i ≤ j) && rx s i j

/-- `Longest` and `FindString`: the longest of the leftmost matches (regexp package documentation). (called in pkg/util/string_matcher.go:134-162) -/
def findFrom (rx : Rx) (s : Str) : List Nat → Option (Nat × Nat)
  | [] => none
  | i :: is => match longestFrom rx s i with
    | some j => some (i, j)
    | none => findFrom rx s is

/-- the leftmost longest match (Go's regexp package) -/
def findLongest (rx : Rx) (s : Str) : Option (Nat × Nat) := findFrom rx s (List.range (s.length + 1))

/-- Length of what `FindString` returns (an empty string when there is no match). (pkg/util/string_matcher.go:134-162) -/
def foundLen (rx : Rx) (s : Str) : Nat := match findLongest rx s with
  | some (i, j) => j - i
  | none => 0

/-- `MatchString`: there is a match anywhere. (Go's regexp package) -/
def matchString (rx : Rx) (s : Str) : Bool := (findLongest rx s).isSome

/-- `Match` (string_matcher.go:141-170). -/
def doMatch (e : Env) (m : Matcher) (input : Str) : Bool :=
  let s := fold e m.ignoreCase input
  match m.exact with
  | some v => s == v
  | none =>
  match m.pre with
  | some v => hasPrefix s v
  | none =>
  match m.suf with
  | some v => hasSuffix s v
  | none =>
  match m.contains with
  | some v => containsStr s v
  | none =>
  match m.dns with
  | some v => e.host v s
  | none =>
  match m.regex with
  | some (_, rx) => if s.length = 0 then matchString rx s else foundLen rx s == s.length
  | none => false

/-- `String` (string_matcher.go:120-139). -/
def toStr (m : Matcher) : Str :=
  let f (k : Kind) (v : Str) : Str := k.name ++ ':' :: v
  match m.exact with
  | some v => f .exact v
  | none =>
  match m.pre with
  | some v => f .prefix v
  | none =>
  match m.suf with
  | some v => f .suffix v
  | none =>
  match m.contains with
  | some v => f .contains v
  | none =>
  match m.dns with
  | some v => f .hostname v
  | none =>
  match m.regex with
  | some (v, _) => f .regex v
  | none => []

/-- `strings.SplitN(s, ":", n + 1)`: at most `n` cuts. -/
def splitN : Nat → Str → List Str
  | 0, s => [s]
  | n + 1, s => match s.dropWhile (· != ':') with
    | [] => [s]
    | _ :: r => s.takeWhile (· != ':') :: splitN n r

/-- `NewStringMatcherFromString` (string_matcher.go:66-78). -/
def fromString (e : Env) (s : Str) : Option Matcher :=
  match splitN 2 s with
  | [k, flag, v] => (Kind.parse k).bind fun k => newMatcher e k v (flag != [] && flag != ['0'])
  | _ => none

/-- The pattern of an XDS `StringMatcher`; `other` stands for a missing or unknown pattern. (pkg/util/string_matcher.go:80-112) -/
inductive Pattern where
  | exact (s : Str) | prefix (s : Str) | suffix (s : Str) | contains (s : Str) | safeRegex (s : Str) | other
deriving DecidableEq, Repr

/-- an XDS `StringMatcher` (pkg/util/string_matcher.go:80-112) -/
structure Proto where
  pattern : Pattern
  ignoreCase : Bool
deriving DecidableEq, Repr

/-- `NewStringMatcherFromXDSProto` (string_matcher.go:80-118); `none` is a nil proto. -/
def fromProto (e : Env) : Option Proto → Option Matcher
  | none => none
  | some p =>
    let m : Matcher := { ignoreCase := p.ignoreCase }
    match p.pattern with
    | .exact s => setMatcher e m .exact s
    | .prefix s => setMatcher e m .prefix s
    | .suffix s => setMatcher e m .suffix s
    | .contains s => setMatcher e m .contains s
    | .safeRegex s => setMatcher e m .regex s
    | .other => none

/-- `SANType` (san.go:26-33); `other` is any other string. -/
inductive SanType where
  | email | dns | uri | ip | other
deriving DecidableEq, Repr

/-- the constants after pkg/tls/verify/san.go:26 -/
def SanType.name : SanType → Str
  | .email => "EMAIL".toList
  | .dns => "DNS".toList
  | .uri => "URI".toList
  | .ip => "IP".toList
  | .other => []

/-- pkg/tls/verify/san.go:35-38 -/
structure SanMatcher where
  type : SanType
  matcher : Matcher

/-- Results of a Go function that may panic. (control flow of Go) -/
inductive Outcome (α : Type) where
  | ok (a : α)
  | error
  | panic

/-- `NewSANMatcherFromString` (san.go:44-63): `p[1]` is out of range without a colon. -/
def sanFromString (e : Env) (s : Str) : Outcome SanMatcher :=
  let p := splitN 1 s
  match [SanType.email, .dns, .uri, .ip].find? (fun t => p.head? == some t.name) with
  | some t => match p.tail.head? with
    | none => .panic
    | some r => match fromString e r with
      | some m => .ok ⟨t, m⟩
      | none => .error
  | none => .error

end Verif.Match
