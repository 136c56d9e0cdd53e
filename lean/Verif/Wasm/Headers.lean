import Verif.Wasm.Http
/-
Model of the headers filters work with: pkg/proxywasm/header.go (Headers), pkg/proxywasm/http/wrappers.go (httpHeaderMap) and
pkg/proxywasm/grpc/wrappers.go (grpcHeaderMap), with the parts of net/http, net/textproto and google.golang.org/grpc/metadata they use.
A Go map is a list of entries (its iteration order); names are lists of characters, and only ASCII letters have case (metadata names are ASCII).
-/
namespace Verif.Wasm.Headers
open Verif.Heimdall

/-- a Go `map[string][]string`: entries in iteration order (http.Header and metadata.MD, pkg/proxywasm/http/wrappers.go:118-120, pkg/proxywasm/grpc/wrappers.go:165-167) -/
abbrev Raw := List (Str × List Str)

/-- `m[k]`; (Go maps, used throughout pkg/proxywasm/http/wrappers.go:128-172) -/
def Raw.at (m : Raw) (k : Str) : List Str := ((m.find? fun e => e.1 = k).map (·.2)).getD []

/-- `delete(m, k)`; (Go maps, as above) -/
def Raw.erase (m : Raw) (k : Str) : Raw := m.filter fun e => e.1 ≠ k

/-- `m[k] = v`; (Go maps, as above; where a new entry comes in the iteration order does not matter here) -/
def Raw.put (m : Raw) (k : Str) (v : List Str) : Raw := m.erase k ++ [(k, v)]

/-- ASCII capital letter (net/textproto, called by pkg/proxywasm/http/wrappers.go:129-145) -/
def isUpper (c : Char) : Bool := decide ('A' ≤ c) && decide (c ≤ 'Z')
/-- ASCII small letter (net/textproto, called by pkg/proxywasm/http/wrappers.go:129-145) -/
def isLower (c : Char) : Bool := decide ('a' ≤ c) && decide (c ≤ 'z')
/-- ASCII capital letter as a small one (net/textproto, called by pkg/proxywasm/http/wrappers.go:129-145) -/
def toLower (c : Char) : Char := if isUpper c then Char.ofNat (c.toNat + 32) else c
/-- ASCII small letter as a capital one (net/textproto, called by pkg/proxywasm/http/wrappers.go:129-145) -/
def toUpper (c : Char) : Char := if isLower c then Char.ofNat (c.toNat - 32) else c

/-- the bytes a header name may have (net/textproto `validHeaderFieldByte`, called by pkg/proxywasm/http/wrappers.go:129-145) -/
def token (c : Char) : Bool :=
  isUpper c || isLower c || (decide ('0' ≤ c) && decide (c ≤ '9')) || "!#$%&'*+-.^_`|~".toList.contains c

/-- the rest of a canonical name; `up`: at the beginning or after a dash (net/textproto `canonicalMIMEHeaderKey`) -/
def canonGo : Bool → Str → Str
  | _, [] => []
  | up, c :: r => (if up then toUpper c else toLower c) :: canonGo (c = '-') r

/-- net/textproto `CanonicalMIMEHeaderKey`, called by pkg/proxywasm/http/wrappers.go:129-145: names with other characters are left as they are -/
def canon (s : Str) : Str := if s.all token then canonGo true s else s

/-- the two kinds of header maps: pkg/proxywasm/http/wrappers.go:118-120 and pkg/proxywasm/grpc/wrappers.go:165-167 -/
inductive Kind where
  | http
  | grpc
deriving DecidableEq, Repr

/-- the name under which a header is stored: canonical for HTTP, in small letters for gRPC (metadata.MD) -/
def Kind.norm : Kind → Str → Str
  | .http, k => canon k
  | .grpc, k => k.map toLower

/-- pkg/proxywasm/http/wrappers.go:128-135 (an empty value is not found) and pkg/proxywasm/grpc/wrappers.go:175-182 `Get`; header.go:46-55 returns the same -/
def get (d : Kind) (m : Raw) (k : Str) : Option Str :=
  match d, m.at (d.norm k) with
  | _, [] => none
  | .http, v :: _ => if v = [] then none else some v
  | .grpc, v :: _ => some v

/-- pkg/proxywasm/http/wrappers.go:137-139, pkg/proxywasm/grpc/wrappers.go:184-186 `Set`; header.go:57-61 -/
def set (d : Kind) (m : Raw) (k v : Str) : Raw := m.put (d.norm k) [v]

/-- pkg/proxywasm/http/wrappers.go:141-143, pkg/proxywasm/grpc/wrappers.go:188-190 `Add`; header.go:63-67 -/
def add (d : Kind) (m : Raw) (k v : Str) : Raw := m.put (d.norm k) (m.at (d.norm k) ++ [v])

/-- pkg/proxywasm/http/wrappers.go:145-147, pkg/proxywasm/grpc/wrappers.go:192-194 `Del`; header.go:69-73 -/
def del (d : Kind) (m : Raw) (k : Str) : Raw := m.erase (d.norm k)

/-- pkg/proxywasm/http/wrappers.go:149-157, pkg/proxywasm/grpc/wrappers.go:196-204 `Keys` -/
def keys (m : Raw) : List Str := m.map (·.1)

/-- header.go:75-81 `Range`: the calls of the visitor, whose answer is not looked at -/
def range (d : Kind) (m : Raw) (_visit : Str → Str → Bool) : List (Str × Str) :=
  (keys m).filterMap fun k => (get d m k).map fun v => (k, v)

/-- host.go:187-190: the headers of a filter's own response are added to those of the response -/
def addAll (m : Raw) : List (Str × Str) → Raw
  | [] => m
  | (k, v) :: r => addAll (add .http m k v) r

/-- what a filter may do to headers; (header.go:57-73) -/
inductive Op where
  | set (k v : Str)
  | add (k v : Str)
  | del (k : Str)
deriving DecidableEq, Repr

/-- one call; (header.go:57-73) -/
def Op.run (d : Kind) (m : Raw) : Op → Raw
  | .set k v => Headers.set d m k v
  | .add k v => Headers.add d m k v
  | .del k => Headers.del d m k

end Verif.Wasm.Headers
