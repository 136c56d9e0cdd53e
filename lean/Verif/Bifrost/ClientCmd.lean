import Verif.Sec.ParseDn
/-
Model of the tunnel client of the command line (components/bifrost/pkg/commands/client.go): the addresses to expose, `runProxies` (:142-192) and `proxyclient.Run` (:214-236).

Of Go's regexp package see Sec/ParseDn.lean; texts are lists of runes. `net.ResolveTCPAddr` is any partial function of the address, a listener of the tunnel is either made or
not. What a proxy does with two connections is in Net/Proxy.lean.
-/
namespace Verif.Bifrost.Cmd
open Verif.Dn (Text plus)

/-- `\d` (client.go:41) -/
def isDigit (c : Char) : Bool := decide ('0'.toNat ≤ c.toNat) && decide (c.toNat ≤ '9'.toNat)
/-- `.` (client.go:41) -/
def isDot (c : Char) : Bool := c ≠ '\n'

/-- `f*`: what was matched and what is left, candidates in order (Go's regexp package) -/
def star (f : Char → Bool) (t : Text) : List (Text × Text) := plus f t ++ [([], t)]

/-- a character (Go's regexp package) -/
def lit (x : Char) : Text → List Text
  | c :: r => if c = x then [r] else []
  | [] => []

/-- the candidates of `(.*):(\d+)$` (client.go:41): the two groups -/
def hostPort (t : Text) : List (Text × Text) :=
  (star isDot t).flatMap fun h => (lit ':' h.2).flatMap fun t1 => (plus isDigit t1).flatMap fun p => if p.2 = [] then [(h.1, p.1)] else []

/-- the candidates of `^((\d+):)?(.*):(\d+)$` (client.go:41): groups 2, 3 and 4; group 2 is empty if it took no part -/
def cands (t : Text) : List (Text × Text × Text) :=
  ((plus isDigit t).flatMap fun d => (lit ':' d.2).flatMap fun t1 => (hostPort t1).map fun hp => (d.1, hp.1, hp.2)) ++ (hostPort t).map fun hp => ([], hp.1, hp.2)

/-- `addrRegex.FindStringSubmatch(addr)` (client.go:148) -/
def parse (t : Text) : Option (Text × Text × Text) := (cands t).head?

/-- the number of a digit -/
def digit (c : Char) : Nat := c.toNat - '0'.toNat

/-- the number digits stand for (strconv, called in client.go:153-158) -/
def number (t : Text) : Nat := t.foldl (fun n c => 10 * n + digit c) 0

/-- `if v, err := strconv.Atoi(…); err == nil` on digits: 64-bit numbers, else the variable keeps 0 (client.go:153-158) -/
def atoi (t : Text) : Nat := if t = [] then 0 else if number t < 2 ^ 63 then number t else 0

/-- a listener that was asked for and where its connections go (client.go:160-186): port asked for, port of the service, name, address -/
structure Proxy (A : Type) where
  requested : Nat
  target : Nat
  name : Nat
  dest : A
deriving DecidableEq, Repr

/-- the loop of `runProxies` (client.go:145-187): the proxies started, and whether it went through all addresses. `k`: how many came before; names are `port-<k+1>` -/
def runFrom {A : Type} (resolve : Text → Option A) (listen : Nat → Nat → Nat → Bool) : Nat → List Text → List (Proxy A) × Bool
  | _, [] => ([], true)
  | k, t :: ts => match parse t with
    | none => runFrom resolve listen (k + 1) ts
    | some (d, h, p) => match resolve (h ++ ':' :: p) with
      | none => ([], false)
      | some a =>
        if listen (atoi d) (atoi p) (k + 1) then
          let (ps, ok) := runFrom resolve listen (k + 1) ts
          (⟨atoi d, atoi p, k + 1, a⟩ :: ps, ok)
        else ([], false)

/-- `runProxies` (client.go:142-192): when it fails the command ends and with it the proxies that were started -/
def runProxies {A : Type} (resolve : Text → Option A) (listen : Nat → Nat → Nat → Bool) (ts : List Text) : Option (List (Proxy A)) :=
  let (ps, ok) := runFrom resolve listen 0 ts
  if ok then some ps else none

/-! ### `proxyclient.Run` -/

/-- what `Accept` returns (client.go:216): a connection and whether the service can be reached for it; an error that passes; or that the listener was stopped -/
inductive Acc where
  | conn (id : Nat) (up : Bool)
  | err
  | stopped
deriving DecidableEq, Repr

/-- what is done with a connection (client.go:225-234) -/
inductive Did where
  | proxied (id : Nat)
  | closed (id : Nat)
deriving DecidableEq, Repr

/-- `Run` (client.go:214-236): what is done, and whether it has returned -/
def run : List Acc → List Did × Bool
  | [] => ([], false)
  | .stopped :: _ => ([], true)
  | .err :: r => run r
  | .conn i true :: r => let (d, e) := run r; (.proxied i :: d, e)
  | .conn i false :: r => let (d, e) := run r; (.closed i :: d, e)

/-- with times: a connection comes at a time, and reaching the service for it takes a time (at most ten seconds, client.go:67-69). The next is accepted only when this is done
(client.go:215-236). The result: when each is connected to the service; `now`: when `Accept` is called -/
def times : Nat → List (Nat × Nat) → List Nat
  | _, [] => []
  | now, (t, d) :: r => let done := max now t + d; done :: times done r

end Verif.Bifrost.Cmd
