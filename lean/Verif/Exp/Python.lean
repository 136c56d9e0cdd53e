import Verif.Heimdall.Text
/-
Model of the Python binding: experimental/python/nasp/nasp.go (`NewHTTPTransport`, `SendHTTPRequest`, `CloseHTTPTransport`, the pool of transports, the
conversion of responses to C and the release of their memory).

Not modelled: the mesh integration itself (C137-C139), HTTP. Texts from Python are lists of characters (`C.GoString`: without NUL). The 64 bit FNV hash is a
parameter. `refCount++` is one step.
-/
namespace Verif.Exp.Python
open Verif.Heimdall

/-! ### transports -/

/-- the arguments of `NewHTTPTransport`; `push`: the address of the gateway for metrics, if one is used; experimental/python/nasp/nasp.go:116 -/
structure Args where
  url : Str
  token : Str
  push : Option Str
deriving Repr, DecidableEq

/-- experimental/python/nasp/nasp.go:209-214 with ghost fields -/
structure Transport where
  args : Args
  refCount : Nat
  /-- the context of its connection to the mesh has been cancelled -/
  cancelled : Bool
deriving Repr, DecidableEq

/-- experimental/python/nasp/nasp.go:257-260 with ghost fields -/
structure St where
  /-- the pool (nasp.go:257-260): the transport of an id -/
  pool : List (Nat × Nat) := []
  transports : List Transport := []
  /-- callers of `NewHTTPTransport` between its steps: what they will do next -/
  pending : List (Args × Option Nat) := []
  /-- ids returned, newest first -/
  returned : List (Args × Nat) := []
deriving Repr, DecidableEq

/-- nasp.go:121-125: the id is a hash of the texts one after the other -/
def ident (hash : Str → Nat) (a : Args) : Nat := hash (a.url ++ a.token)

/-- experimental/python/nasp/nasp.go:262-268 -/
def St.find (s : St) (id : Nat) : Option Nat := s.pool.lookup id

/-- nasp.go:128 -/
def St.inc (s : St) (t : Nat) : St := match s.transports[t]? with
  | none => s
  | some tr => { s with transports := s.transports.set t { tr with refCount := tr.refCount + 1 } }

/-- nasp.go:133-168: a new transport. The context given to `Run` is cancelled when the function returns (`defer cancel()`, 142). -/
def St.make (hash : Str → Nat) (s : St) (a : Args) : St :=
  { s with transports := s.transports ++ [⟨a, 1, true⟩], pool := (ident hash a, s.transports.length) :: s.pool }

/-- ghost: records what experimental/python/nasp/nasp.go:116 returned -/
def St.ret (hash : Str → Nat) (s : St) (a : Args) : St := { s with returned := (a, ident hash a) :: s.returned }

/-- nasp.go:116-171 `NewHTTPTransport`, without interruption; creating a transport may fail -/
def St.new (hash : Str → Nat) (s : St) (a : Args) (ok : Bool) : St := match s.find (ident hash a) with
  | some t => (s.inc t).ret hash a
  | none => if ok then (s.make hash a).ret hash a else s

/-- nasp.go:201-207 `CloseHTTPTransport`, 270-282 `GetAndDelete` -/
def St.close (s : St) (id : Nat) : St := match s.find id with
  | none => s
  | some t => match s.transports[t]? with
    | none => s
    | some tr =>
      if tr.refCount - 1 = 0 then
        { s with pool := s.pool.filter (fun e => e.1 ≠ id), transports := s.transports.set t { tr with refCount := tr.refCount - 1, cancelled := true } }
      else { s with transports := s.transports.set t { tr with refCount := tr.refCount - 1 } }

/-- the exported calls: experimental/python/nasp/nasp.go:116, experimental/python/nasp/nasp.go:174-198, experimental/python/nasp/nasp.go:201-207 -/
inductive Op where
  | new (a : Args) (ok : Bool)
  | close (id : Nat)
deriving Repr, DecidableEq

/-- a call; the functions are cited at `St.new`, `St.send` and `St.close` -/
def St.op (hash : Str → Nat) (s : St) : Op → St
  | .new a ok => s.new hash a ok
  | .close id => s.close id

/-- calls at the same time: a caller looks in the pool, later counts or makes a transport; (steps of experimental/python/nasp/nasp.go:116) -/
inductive Act where
  | look (a : Args)
  | finish (i : Nat)
  | close (id : Nat)
deriving Repr, DecidableEq

/-- the transition relation of the steps of `Act` (experimental/python/nasp/nasp.go:116) -/
def St.exec (hash : Str → Nat) (s : St) : Act → Option St
  | .look a => some { s with pending := s.pending ++ [(a, s.find (ident hash a))] }
  | .finish i => match s.pending[i]? with
    | none => none
    | some (a, some t) => some (({ s with pending := s.pending.eraseIdx i } : St).inc t |>.ret hash a)
    | some (a, none) => some (({ s with pending := s.pending.eraseIdx i } : St).make hash a |>.ret hash a)
  | .close id => some (s.close id)

/-- a run of steps; models no code -/
def runActs (hash : Str → Nat) (s : St) : List Act → Option St
  | [] => some s
  | a :: l => (s.exec hash a).bind fun s => runActs hash s l

/-! ### responses -/

/-- `C.CString` and reading the text back in C: up to the first NUL; (experimental/python/nasp/nasp.go:310-338) -/
def cText (b : List Nat) : List Nat := b.takeWhile (· ≠ 0)

/-- nasp.go:189-195: the values of a header with commas between them -/
def joinValues : List Str → Str := join ','

/-- a response in C (nasp.go:63-68): every text has the address of its memory -/
structure CResponse where
  status : Nat
  version : List Nat × Nat
  /-- null for none; the memory of the array -/
  items : Option Nat
  headers : List ((Str × Nat) × (Str × Nat))
  body : List Nat × Nat
  /-- the memory of the structure -/
  self : Nat
deriving Repr, DecidableEq

/-- nasp.go:316-325: keys and values get memory one after the other -/
def allocHeaders : Nat → List (Str × Str) → List ((Str × Nat) × (Str × Nat)) × Nat
  | n, [] => ([], n)
  | n, (k, v) :: r => let (l, m) := allocHeaders (n + 2) r; (((k, n), (v, n + 1)) :: l, m)

/-- nasp.go:310-339 `cGoHTTPResponse`; memory is numbered from `n`, and the next free number is returned -/
def cResponse (n : Nat) (status : Nat) (version : List Nat) (headers : List (Str × Str)) (body : List Nat) : CResponse × Nat :=
  if headers = [] then (⟨status, (cText version, n), none, [], (cText body, n + 1), n + 2⟩, n + 3)
  else
    let h := allocHeaders (n + 1) headers
    (⟨status, (cText version, h.2), some n, h.1, (cText body, h.2 + 1), h.2 + 2⟩, h.2 + 3)

/-- nasp.go:95-106 `free_http_headers`, 345-354 `FreeGoHTTPResponse`: the memory released, in order -/
def CResponse.free (r : CResponse) : List Nat :=
  r.version.2 :: (match r.items with
    | none => []
    | some p => (r.headers.flatMap fun e => [e.1.2, e.2.2]) ++ [p]) ++ [r.body.2, r.self]

end Verif.Exp.Python
