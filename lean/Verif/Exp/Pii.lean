import Verif.Base
/-
Model of experimental/kafka-message-pii-filter/pii/pii.go: the patterns, `detect` and `DetectPII`, with the part of Go's
regexp package they use. Regular expressions are matched over bytes: all character classes are positive ASCII classes, so
matching runes and matching bytes agree.
-/
namespace Verif.Pii
open Verif

/-! ### regular expressions (package regexp; leftmost-first semantics by backtracking) -/

/-- a position in a text: the byte before it, the bytes after it, its index; (Go's regexp package, called in pii.go:46-47) -/
structure In where
  prev : Option UInt8
  rest : Bytes
  pos : Nat

/-- the beginning of a text (Go's regexp package, called in pii.go:46-47) -/
def In.start (t : Bytes) : In := ⟨none, t, 0⟩

/-- regular expressions, as far as the patterns of pii.go:9-28 use them: a byte of a class, the empty text, a word boundary, sequence, alternative and greedy repetition -/
inductive Re where
  | cls (f : UInt8 → Bool)
  | eps
  | wb
  | seq (a b : Re)
  | alt (a b : Re)
  | star (a : Re)

/-- a character class given by its characters -/
def ch (s : String) (c : UInt8) : Bool := (s.toList.map fun k => UInt8.ofNat k.toNat).contains c
/-- a range in a character class -/
def rng (a b : Char) (c : UInt8) : Bool := decide (a.toNat ≤ c.toNat ∧ c.toNat ≤ b.toNat)

/-- `\w` of Go's regexp package -/
def isWord (c : UInt8) : Bool := rng '0' '9' c || rng 'a' 'z' c || rng 'A' 'Z' c || ch "_" c

/-- `\b`: exactly one of the neighbours is a word character; (Go's regexp package) -/
def atBoundary (s : In) : Bool :=
  (match s.prev with | some c => isWord c | none => false) != (match s.rest with | c :: _ => isWord c | [] => false)

/-- what must match after the current expression (backtracking matcher; Go's regexp package) -/
abbrev Cont := In → Option Nat

/-- greedy repetition, at most `n` times; an iteration that consumes nothing is not repeated; (Go's regexp package) -/
def starLoop (m : In → Cont → Option Nat) : Nat → In → Cont → Option Nat
  | 0, s, k => k s
  | n + 1, s, k => (m s fun s' => if s'.pos = s.pos then none else starLoop m n s' k).or (k s)

/-- the end of the preferred match from position `s` on that the continuation accepts; (Go's regexp package, called in pii.go:46-47) -/
def Re.run : Re → In → Cont → Option Nat
  | .cls f, s, k => match s.rest with
    | c :: r => if f c then k ⟨some c, r, s.pos + 1⟩ else none
    | [] => none
  | .eps, s, k => k s
  | .wb, s, k => if atBoundary s then k s else none
  | .seq a b, s, k => a.run s fun s' => b.run s' k
  | .alt a b, s, k => (a.run s k).or (b.run s k)
  | .star a, s, k => starLoop a.run (s.rest.length + 1) s k

/-- the position `n` bytes further; (Go's regexp package) -/
def In.skip : Nat → In → In
  | 0, s => s
  | n + 1, s => match s.rest with
    | c :: r => In.skip n ⟨some c, r, s.pos + 1⟩
    | [] => s

/-- `FindAllIndex(text, -1)`: successive non-overlapping matches, leftmost first (empty matches, which no pattern below
has, are skipped) pii.go:47 -/
def findFrom (re : Re) : Nat → In → List (Nat × Nat)
  | 0, _ => []
  | n + 1, s =>
    match re.run s (fun s' => if s.pos < s'.pos then some s'.pos else none) with
    | some e => (s.pos, e) :: findFrom re n (s.skip (e - s.pos))
    | none => match s.rest with
      | [] => []
      | c :: r => findFrom re n ⟨some c, r, s.pos + 1⟩

/-- pii.go:47 `r.FindAllIndex(text, -1)` -/
def findAll (re : Re) (t : Bytes) : List (Nat × Nat) := findFrom re (t.length + 1) (.start t)

/-! ### notation for the patterns -/

namespace Re
/-- a sequence of expressions (syntax of pii.go:9-28) -/
def seqs : List Re → Re
  | [] => .eps
  | [a] => a
  | a :: r => .seq a (seqs r)
/-- alternatives (syntax of pii.go:9-28) -/
def alts : List Re → Re
  | [] => .cls fun _ => false
  | [a] => a
  | a :: r => .alt a (alts r)
/-- a literal; (syntax of pii.go:9-28) -/
def lit (s : String) : Re := seqs (s.toList.map fun c => .cls fun d => decide (d = UInt8.ofNat c.toNat))
/-- `a{n}`; (syntax of pii.go:9-28) -/
def rep (n : Nat) (a : Re) : Re := seqs (List.replicate n a)
/-- `a?`; (syntax of pii.go:9-28) -/
def opt (a : Re) : Re := .alt a .eps
/-- up to `n` times, greedy; (syntax of pii.go:9-28) -/
def upTo : Nat → Re → Re
  | 0, _ => .eps
  | n + 1, a => .alt (.seq a (upTo n a)) .eps
/-- `a{n,m}`; (syntax of pii.go:9-28) -/
def between (n m : Nat) (a : Re) : Re := .seq (rep n a) (upTo (m - n) a)
/-- `a{n,}`; (syntax of pii.go:9-28) -/
def atLeast (n : Nat) (a : Re) : Re := .seq (rep n a) (.star a)
/-- `a+`; (syntax of pii.go:9-28) -/
def plus (a : Re) : Re := .seq a (.star a)
end Re
open Re

/-- `[0-9]`, `\d` (pii.go:9-28) -/
def digit : Re := .cls (rng '0' '9')
/-- `\w`, `[A-Za-z0-9_]` (pii.go:9-28) -/
def word : Re := .cls isWord
/-- `[0-9a-fA-F]` (pii.go:9-28) -/
def hex : Re := .cls fun c => rng '0' '9' c || rng 'A' 'F' c || rng 'a' 'f' c
/-- `[A-Za-z0-9]` (pii.go:9-28) -/
def alnum (c : UInt8) : Bool := rng '0' '9' c || rng 'a' 'z' c || rng 'A' 'Z' c

/-! ### pii.go:8-30: the patterns -/

/-- pii.go:9: "IP V4 Address" -/
def ipV4 : Re := seqs [.wb,
  rep 4 (seqs [alts [seqs [lit "25", .cls (rng '0' '5')],
                     seqs [alts [seqs [lit "2", .cls (rng '0' '4')], seqs [lit "1", digit], opt (.cls (rng '1' '9'))], digit]],
               opt (lit "."), .wb]), .wb]
/-- pii.go:10: "IP V6 Address" -/
def ipV6 : Re := seqs [.wb,
  alts [seqs [between 1 6 (seqs [between 1 4 hex, lit ":"]), lit ":"], rep 7 (seqs [between 1 4 hex, lit ":"])],
  between 1 4 hex, .wb]
/-- pii.go:11: "Email" -/
def email : Re := seqs [plus (.cls fun c => alnum c || ch "._%+-" c), lit "@", plus (.cls fun c => alnum c || ch ".-" c),
  lit ".", atLeast 2 (.cls fun c => rng 'a' 'z' c || rng 'A' 'Z' c)]
/-- pii.go:12: "US Social Security No" -/
def ssn : Re := seqs [.wb, rep 3 digit, lit "-", rep 2 digit, lit "-", rep 4 digit, .wb]
/-- pii.go:13: "Credit Card Number" -/
def creditCard : Re := seqs [.wb, rep 4 digit, lit "-", rep 4 digit, lit "-", rep 4 digit, lit "-", rep 4 digit, .wb]
/-- `[\s.-]`; (pii.go:14) -/
def sep : Re := .cls fun c => ch " \t\n.-" c || decide (c = 12) || decide (c = 13)
/-- pii.go:14: "Phone Number" -/
def phone : Re := seqs [.wb,
  opt (seqs [lit "+", between 1 2 digit, .cls fun c => ch " \t\n" c || decide (c = 12) || decide (c = 13)]),
  opt (lit "("), rep 3 digit, opt (lit ")"), sep, rep 3 digit, sep, rep 4 digit, .wb]
/-- pii.go:15: "AWS Access ID" -/
def awsId : Re := seqs [.wb,
  alts [lit "AKIA", lit "A3T", lit "AGPA", lit "AIDA", lit "AROA", lit "AIPA", lit "ANPA", lit "ANVA", lit "ASIA"],
  atLeast 12 (.cls fun c => rng 'A' 'Z' c || rng '0' '9' c), .wb]
/-- `[a-zA-z0-9]` (the range A-z contains a few more characters) (pii.go:16) -/
def macCh : Re := .cls fun c => rng 'a' 'z' c || rng 'A' 'z' c || rng '0' '9' c
/-- pii.go:16: "MAC Address" -/
def mac : Re := seqs [.wb,
  alts [seqs [rep 5 (seqs [rep 2 macCh, .cls (ch "-:")]), rep 2 macCh],
        seqs [rep 5 (seqs [rep 2 macCh, lit ":"]), rep 2 macCh]], .wb]
/-- pii.go:17: "Google API Key" -/
def googleKey : Re := seqs [.wb, lit "AIza", rep 35 (.cls fun c => alnum c || ch "-_" c), .wb]
/-- pii.go:18: "Google OAuth ID" -/
def googleOauth : Re := seqs [.wb, plus digit, lit "-", rep 32 word, lit ".apps.googleusercontent.com", .wb]
/-- pii.go:19: "Github Token" -/
def githubToken : Re := seqs [.wb, alts [lit "ghp", lit "gho", lit "ghu", lit "ghs"], lit "_", rep 36 word, .wb]
/-- pii.go:20: "Heroku API Key" -/
def heroku : Re := seqs [.wb, rep 8 hex, lit "-", rep 4 hex, lit "-", rep 4 hex, lit "-", rep 4 hex, lit "-", rep 12 hex, .wb]
/-- pii.go:21: "Stripe Key" -/
def stripe : Re := seqs [.wb, alts [lit "r", lit "s"], lit "k_", alts [lit "test", lit "live"], lit "_", rep 24 (.cls alnum), .wb]
/-- pii.go:22: "Firebase Auth Domain" -/
def firebase : Re := seqs [.wb, between 1 30 (.cls fun c => rng 'a' 'z' c || rng '0' '9' c || ch "-" c),
  lit ".firebaseapp.com", .wb]
/-- pii.go:23: "Slack App Token" -/
def slack : Re := seqs [.wb, lit "xapp-", plus digit, lit "-", plus word, lit "-", plus digit, lit "-",
  plus (.cls fun c => rng 'a' 'f' c || rng '0' '9' c), .wb]
/-- pii.go:24: "Github Fine Grained PAT" -/
def githubPat : Re := seqs [.wb, lit "github_pat_", rep 82 word, .wb]
/-- `[A-Za-z0-9/+=]+`; (pii.go:25-27) -/
def secret : Re := plus (.cls fun c => alnum c || ch "/+=" c)
/-- pii.go:25: "AWS Env Var" -/
def awsEnv : Re := seqs [lit "AWS_SECRET_ACCESS_KEY=", secret]
/-- pii.go:26: "GCP Env Var" -/
def gcpEnv : Re := seqs [lit "GOOGLE_APPLICATION_CREDENTIALS=", secret]
/-- pii.go:27: "Azure Env Var" -/
def azureEnv : Re := seqs [lit "AZURE_CLIENT_SECRET=", secret]
/-- pii.go:28: "Database Password" -/
def dbUrl : Re := seqs [lit "DATABASE_URL=", alts [lit "postgres", lit "mysql"], lit "://", plus word, lit ":", plus word,
  lit "@", plus word]

/-- the values of the map, in one of its iteration orders; pii.go:9-28 -/
def patterns : List Re := [ipV4, ipV6, email, ssn, creditCard, phone, awsId, mac, googleKey, googleOauth, githubToken, heroku,
  stripe, firebase, slack, githubPat, awsEnv, gcpEnv, azureEnv, dbUrl]

/-! ### pii.go:32-79 -/

/-- `'*'` (pii.go:64) -/
def star : UInt8 := 42
/-- `'='` (pii.go:55) -/
def eqSign : UInt8 := 61

/-- pii.go:66-68: `for i := start; i < end; i++ { text[i] = '*' }` -/
def maskRange (t : Bytes) (a b : Nat) : Bytes := t.mapIdx fun i c => if a ≤ i ∧ i < b then star else c

/-- index of the first `=`; pii.go:59 `bytes.Index` -/
def eqPos : Bytes → Option Nat
  | [] => none
  | c :: r => if c = eqSign then some 0 else (eqPos r).map (· + 1)

/-- pii.go:56-64: of an assignment only what follows the `=` is obfuscated -/
def maskStart (t : Bytes) (a b : Nat) : Nat :=
  match eqPos ((t.drop a).take (b - a)) with
  | some i => a + i + 1
  | none => a

/-- pii.go:52-65: one match -/
def maskMatch (t : Bytes) (m : Nat × Nat) : Bytes := maskRange t (maskStart t m.1 m.2) m.2

/-- pii.go:46-79 `detect`; `find p t`: the matches of a pattern (regexp) -/
def detect {P : Type} (find : P → Bytes → List (Nat × Nat)) (p : P) (t : Bytes) (obfuscate : Bool) : Bytes × Bool :=
  (if obfuscate then (find p t).foldl maskMatch t else t, !(find p t).isEmpty)

/-- pii.go:34-44 `DetectPII`; `order`: the iteration order of the map -/
def detectPII {P : Type} (find : P → Bytes → List (Nat × Nat)) : List P → Bytes → Bool → Bytes × Bool
  | [], t, _ => (t, false)
  | p :: ps, t, o =>
    let r := detect find p t o
    let q := detectPII find ps r.1 o
    (q.1, r.2 || q.2)

end Verif.Pii
