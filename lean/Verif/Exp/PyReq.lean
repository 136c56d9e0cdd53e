import Verif.Exp.Python
import Verif.Wasm.Headers
/-
Model of requests made by Python programs: experimental/python/nasp/nasp.py (`NaspHTTPTransportAdapter.send`, `send_http_request`, the accessors of responses) and
`SendHTTPRequest`, `Request` of experimental/python/nasp/nasp.go. What becomes of a response in C is in Python.lean (C144, C222).

Environment: `requests` gives the adapter a prepared request, whose body is absent, bytes, or a text (for a form or a text given by the program); `ctypes` passes
`None` as a null pointer and bytes as they are, and refuses a text; `C.GoString` reads up to the first NUL. UTF-8 decoding is a parameter that may fail.
-/
namespace Verif.Exp.PyReq
open Verif.Heimdall Verif.Exp.Python

/-- bytes (nasp.py:162-169) -/
abbrev Bytes := List Nat

/-- the body of a prepared request (nasp.py:189) -/
inductive Body where
  | absent
  | bytes (b : Bytes)
  | text (s : Str)
deriving Repr, DecidableEq

/-- a prepared request (nasp.py:186) -/
structure Req where
  method : Bytes
  url : Bytes
  headers : List (Bytes × Bytes)
  body : Body
deriving Repr, DecidableEq

/-- a request as Go sends it (nasp.go:223-234), with the headers the program asked for -/
structure GoReq where
  method : Bytes
  url : Bytes
  headers : List (Bytes × Bytes)
  body : Bytes
deriving Repr, DecidableEq

/-- exceptions a program can see; (nasp.py:189-211) -/
inductive Exc where
  /-- `ctypes.ArgumentError` -/
  | argument
  | unicode
deriving Repr, DecidableEq

/-- `send_http_request` (nasp.py:162-169) and the beginning of `SendHTTPRequest` (nasp.go:174-183): what Go is asked to send -/
def goRequest (r : Req) : Except Exc GoReq := match r.body with
  | .absent => .ok ⟨cText r.method, cText r.url, [], []⟩
  | .bytes b => .ok ⟨cText r.method, cText r.url, [], cText b⟩
  | .text _ => .error .argument

/-- the response of a server (nasp.go:216-221); header names are different -/
structure GoResp where
  status : Nat
  headers : List (Bytes × List Bytes)
  body : Bytes
deriving Repr, DecidableEq

/-- what came of a request; errors are texts (nasp.go:174-198) -/
inductive Outcome where
  | answer (r : GoResp)
  | failed (err : Str)
deriving Repr, DecidableEq

/-- `strings.Join(v, ",")` (nasp.go:189-195) -/
def joinBytes : List Bytes → Bytes
  | [] => []
  | [b] => b
  | b :: l => b ++ 44 :: joinBytes l

/-- the response a program gets (nasp.py:202-209) -/
structure PyResp where
  status : Nat
  headers : List (Str × Str)
  body : Bytes
  reason : Option Str
deriving Repr, DecidableEq

/-- `http_headers` (nasp.py:92-101): every name and value is decoded -/
def decodeHeaders (dec : Bytes → Option Str) : List (Bytes × List Bytes) → Option (List (Str × Str))
  | [] => some []
  | (k, vs) :: r => match dec (cText k), dec (cText (joinBytes vs)), decodeHeaders dec r with
    | some k', some v', some l => some ((k', v') :: l)
    | _, _, _ => none

/-- the rest of `SendHTTPRequest` (nasp.go:184-198) and of `send` (nasp.py:190-211) -/
def response (dec : Bytes → Option Str) : Outcome → Except Exc PyResp
  | .failed e => .ok ⟨500, [], [], some e⟩
  | .answer r => match decodeHeaders dec r.headers with
    | some h => .ok ⟨r.status, h, cText r.body, none⟩
    | none => .error .unicode

/-- `send` (nasp.py:186-211): `net` is what comes of a request. Returns what was sent, if anything, and what the program gets -/
def send (dec : Bytes → Option Str) (net : GoReq → Outcome) (r : Req) : Option GoReq × Except Exc PyResp :=
  match goRequest r with
  | .error e => (none, .error e)
  | .ok g => (some g, response dec (net g))

/-- the value of a header in a `CaseInsensitiveDict` of a dict (nasp.py:95-99, 204): the last one -/
def PyResp.header (p : PyResp) (k : Str) : Option Str :=
  (p.headers.reverse.find? fun e => decide (e.1.map Wasm.Headers.toLower = k.map Wasm.Headers.toLower)).map (·.2)

end Verif.Exp.PyReq
