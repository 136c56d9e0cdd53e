import Verif.Heimdall.Text
/-
Model of pkg/proxywasm/envoy_tags.go: the name a filter defines a metric with is taken apart by a table of regular expressions.
The engine is Go's `regexp` for the patterns of the table: leftmost match, alternatives in order, stars only over character classes,
capture groups. Simplification: texts are lists of characters (Go replaces invalid UTF-8 by U+FFFD while matching).
-/
namespace Verif.Wasm.StatTags
open Verif.Heimdall

/-- regular expressions, as far as the patterns of pkg/proxywasm/envoy_tags.go use them -/
inductive Re where
  | eps
  | chr (p : Char → Bool)
  | seq (a b : Re)
  | alt (a b : Re)
  /-- `[p]*?` -/
  | lazy (p : Char → Bool)
  /-- `[p]*` -/
  | greedy (p : Char → Bool)
  | cap (i : Nat) (a : Re)
  /-- `$` -/
  | eot

/-- the groups of a match (Go's regexp package) -/
abbrev Caps := List (Nat × Str)

/-- lazy repetition (Go's regexp package) -/
def lazyLoop (p : Char → Bool) (k : Str → Option Caps) : Str → Option Caps
  | [] => k []
  | x :: s => match k (x :: s) with
    | some r => some r
    | none => if p x then lazyLoop p k s else none

/-- greedy repetition (Go's regexp package) -/
def greedyLoop (p : Char → Bool) (k : Str → Option Caps) : Str → Option Caps
  | [] => k []
  | x :: s =>
    if p x then match greedyLoop p k s with
      | some r => some r
      | none => k (x :: s)
    else k (x :: s)

/-- match at the beginning of a text; `k` continues with the rest; (Go's regexp package) -/
def Re.run : Re → Str → Caps → (Str → Caps → Option Caps) → Option Caps
  | .eps, s, c, k => k s c
  | .chr p, s, c, k => match s with
    | [] => none
    | x :: s' => if p x then k s' c else none
  | .seq a b, s, c, k => a.run s c fun s' c' => b.run s' c' k
  | .alt a b, s, c, k => match a.run s c k with
    | some r => some r
    | none => b.run s c k
  | .lazy p, s, c, k => lazyLoop p (fun s' => k s' c) s
  | .greedy p, s, c, k => greedyLoop p (fun s' => k s' c) s
  | .cap i a, s, c, k => a.run s c fun s' c' => k s' ((i, s.take (s.length - s'.length)) :: c')
  | .eot, s, c, k => if s = [] then k s c else none

/-- the groups of a match at the beginning of a text; (Go's regexp package) -/
def Re.at (re : Re) (s : Str) : Option Caps := re.run s [] fun _ c => some c

/-- `FindStringSubmatch`: the leftmost match; (Go's regexp package) -/
def find (re : Re) : Str → Option Caps
  | [] => re.at []
  | x :: s => match re.at (x :: s) with
    | some r => some r
    | none => find re s

/-- group `i` of a match, empty if it did not take part; (Go's regexp package) -/
def group (c : Caps) (i : Nat) : Str := ((c.find? fun e => e.1 = i).map (·.2)).getD []

/-- a sequence (regexp syntax) -/
def seqs : List Re → Re
  | [] => .eps
  | [a] => a
  | a :: l => .seq a (seqs l)

/-- a literal (regexp syntax) -/
def lit : Str → Re
  | [] => .eps
  | c :: s => .seq (.chr (· = c)) (lit s)

/-- alternatives (regexp syntax) -/
def alts : List Re → Re
  | [] => .chr fun _ => false
  | [a] => a
  | a :: l => .alt a (alts l)

/-- `.`; (regexp syntax) -/
def dot (c : Char) : Bool := c ≠ '\n'
/-- `\d` (regexp syntax) -/
def digit (c : Char) : Bool := decide ('0' ≤ c) && decide (c ≤ '9')
/-- `\w`; (regexp syntax) -/
def word (c : Char) : Bool := digit c || (decide ('a' ≤ c) && decide (c ≤ 'z')) || (decide ('A' ≤ c) && decide (c ≤ 'Z')) || c = '_'

/-- `.*?` and `.+?`; (regexp syntax) -/
def any : Re := .lazy dot
/-- `.+?` (regexp syntax) -/
def some1 : Re := .seq (.chr dot) (.lazy dot)

/-- an entry of the table of pkg/proxywasm/envoy_tags.go: name, whether the first group is removed, pattern -/
structure Tag where
  name : Str
  /-- the pattern begins with `^` -/
  anchored : Bool := false
  re : Re

/-- as used in pkg/proxywasm/envoy_tags.go -/
def sepV : Str := "=.=".toList
/-- as used in pkg/proxywasm/envoy_tags.go -/
def sepF : Str := ";.;".toList

/-- `(k=\.=(.*?);\.;)`; (pkg/proxywasm/envoy_tags.go) -/
def labelRe (k : Str) : Re := .cap 1 (seqs [lit k, lit sepV, .cap 2 any, lit sepF])
/-- as used in pkg/proxywasm/envoy_tags.go -/
def labelTag (k : Str) : Tag := ⟨k, false, labelRe k⟩

/-- `(response_code=\.=(.+?);\.;)|_rq(_(\.d{3}))$`; (pkg/proxywasm/envoy_tags.go) -/
def responseCodeRe : Re :=
  .alt (.cap 1 (seqs [lit "response_code".toList, lit sepV, .cap 2 some1, lit sepF]))
    (seqs [lit "_rq".toList, .cap 3 (seqs [lit "_".toList, .cap 4 (lit ".ddd".toList)]), .eot])

/-- `^p\.((.*?)\.)\w+?$`; (pkg/proxywasm/envoy_tags.go) -/
def prefixTag (name p : String) : Tag :=
  ⟨name.toList, true, seqs [lit p.toList, lit ".".toList, .cap 1 (seqs [.cap 2 any, lit ".".toList]), .chr word, .lazy word, .eot]⟩

/-- `(p\.(.+?)q)`; (pkg/proxywasm/envoy_tags.go) -/
def dottedTag (name p q : String) : Tag :=
  ⟨name.toList, false, .cap 1 (seqs [lit p.toList, lit ".".toList, .cap 2 some1, lit q.toList])⟩

/-- as used in pkg/proxywasm/envoy_tags.go -/
def reporterTags : List Tag := [labelTag "reporter".toList]

/-- as used in pkg/proxywasm/envoy_tags.go -/
def clusterTag : Tag :=
  ⟨"cluster_name".toList, true, seqs [lit "cluster.".toList, .cap 1 (seqs [.cap 2 (seqs [some1,
    .alt (.cap 3 (seqs [lit ".".toList, some1, lit ".svc.cluster.local".toList])) .eps]), lit ".".toList])]⟩

/-- as used in pkg/proxywasm/envoy_tags.go -/
def responseCodeTag : Tag := ⟨"response_code".toList, false, responseCodeRe⟩

/-- as used in pkg/proxywasm/envoy_tags.go -/
def classTag : Tag :=
  ⟨"response_code_class".toList, false,
    seqs [lit "_rq".toList, .cap 1 (seqs [lit "_".toList, .cap 2 (seqs [.chr digit, lit "xx".toList])]), .eot]⟩

/-- as used in pkg/proxywasm/envoy_tags.go -/
def listenerTag : Tag :=
  ⟨"listener_address".toList, true, seqs [lit "listener.".toList, .cap 1 (seqs [.cap 2 (.alt
    (.greedy fun c => c = '_' || c = '.' || digit c)
    (.greedy fun c => "_[]aAbBcCdDeEfF".toList.contains c || digit c)), lit ".".toList])]⟩

/-- as used in pkg/proxywasm/envoy_tags.go -/
def mongoTag : Tag :=
  ⟨"mongo_prefix".toList, true, seqs [lit "mongo.".toList, .cap 1 some1, lit ".".toList,
    .cap 2 (alts (["collection", "cmd", "cx_", "op_", "delays_", "decoding_"].map fun s => lit s.toList)), .cap 3 any, .eot]⟩

/-- the labels of Istio's metrics, after those at the head of the table; (pkg/proxywasm/envoy_tags.go) -/
def istioLabels : List Str :=
  ["source_namespace", "source_workload", "source_workload_namespace", "source_principal", "source_app", "source_version",
    "source_cluster", "destination_namespace", "destination_workload", "destination_workload_namespace", "destination_principal",
    "destination_app", "destination_version", "destination_service", "destination_service_name", "destination_service_namespace",
    "destination_port", "destination_cluster", "request_protocol", "request_operation", "request_host", "response_flags",
    "grpc_response_status", "connection_security_policy", "source_canonical_service", "destination_canonical_service",
    "source_canonical_revision", "destination_canonical_revision"].map String.toList

/-- the entries of the table between `reporter` and the labels; (pkg/proxywasm/envoy_tags.go) -/
def envoyTags : List Tag :=
  [classTag, listenerTag, mongoTag, prefixTag "mysql_cluster" "mysql", prefixTag "postgres_cluster" "postgres"]

/-- the entries after the labels; (pkg/proxywasm/envoy_tags.go) -/
def lastTags : List Tag :=
  [dottedTag "cache" "cache" ".", dottedTag "component" "component" ".", dottedTag "tag" "tag" ";.",
    dottedTag "wasm_filter" "wasm_filter" ".",
    ⟨"authz_enforce_result".toList, false, seqs [lit "rbac".toList, .cap 1 (seqs [lit ".".toList,
      .cap 2 (.alt (lit "allowed".toList) (lit "denied".toList))])]⟩,
    ⟨"authz_dry_run_action".toList, false, .cap 1 (seqs [lit ".istio_dry_run_".toList,
      .cap 2 (.alt (lit "allow".toList) (lit "deny".toList)), lit "_".toList])⟩,
    ⟨"authz_dry_run_result".toList, false, .cap 1 (seqs [lit ".shadow_".toList,
      .cap 2 (.alt (lit "allowed".toList) (lit "denied".toList))])⟩]

/-- envoy_tags.go:22-199 `statTags` -/
def statTags : List Tag :=
  reporterTags ++ [clusterTag, prefixTag "tcp_prefix" "tcp", responseCodeTag] ++ envoyTags ++ istioLabels.map labelTag ++ lastTags

/-- is `w` a prefix of `s`: the rest; proof helper; models no code -/
def strip : Str → Str → Option Str
  | [], s => some s
  | _ :: _, [] => none
  | a :: w, b :: s => if a = b then strip w s else none

/-- `strings.Replace(s, w, "", 1)` -/
def removeFirst (w : Str) : Str → Str
  | [] => []
  | x :: s => match strip w (x :: s) with
    | some r => r
    | none => x :: removeFirst w s

/-- envoy_tags.go:211-221: one entry of the table; the values are in the order of the table -/
def applyTag (st : Str × List (Str × Str)) (t : Tag) : Str × List (Str × Str) :=
  match (if t.anchored then t.re.at st.1 else find t.re st.1) with
  | none => st
  | some c => (removeFirst (group c 1) st.1, st.2 ++ [(t.name, group c 2)])

/-- envoy_tags.go:206-226 `ParseEnvoyStatTag`: the name and the values -/
def parse (s : Str) : Str × List (Str × Str) := statTags.foldl applyTag (s, [])

end Verif.Wasm.StatTags
