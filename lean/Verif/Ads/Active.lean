import Verif.Base
/-
Model of the accounting of active requests per endpoint:
`/repo/pkg/ads/internal/endpoint/stats.go:85-103` (`IncActiveRequestsCount`, `DecActiveRequestsCount`),
`/repo/pkg/ads/clusterloadassignments.go:88-122` (`onEndpointsUpdated`),
`/repo/pkg/istio/discovery/connection_wrappers.go` (dial and close wrappers),
`/repo/pkg/network/connection.go:147-167` (`Close`), `/repo/pkg/network/dialer.go:130-168` (`dialContext`),
`/repo/pkg/istio/http/transport.go:68-69` (per request) and `/repo/pkg/proxywasm/grpc/dialer.go:95-98`.

Every counter operation holds the collection's mutex, so histories are sequences of the actions below.
`onEndpointsUpdated` takes the mutex several times, but it runs in one goroutine only and its single steps concern
different addresses or commute with the counter operations, so it is one action here.
Addresses are numbers (`net.Addr.String()` values); a connection's remote address may differ from the address that was
dialled (host names).  Parent wrappers, which the code base never installs, are left out.
-/
namespace Verif.Ads.Active

/-- uint32; (the counter of pkg/ads/internal/endpoint/stats.go:22-30) -/
abbrev M32 : Nat := 4294967296

/-- A connection made by `dialer.dialContext`: the address it was dialled with, `RemoteAddr().String()`, and the close
wrapper of the dialer that made it (the wrapper is part of the dialer's connection options, tcp/dialer.go:72,
http/transport.go:72, so every connection of one dialer has the same one). -/
structure Conn where
  addr : Nat
  remote : Nat
  closer : Nat
deriving Repr, DecidableEq

/-- Observable events, newest first. (ghost trace; models no code) -/
inductive Ev
  /-- connection `c` to endpoint address `a` was established -/
  | opened (c a : Nat)
  /-- `Close` of connection `c` was called (for the first time or again) -/
  | closed (c : Nat)
  /-- request `r` to address `a` began / ended -/
  | began (r a : Nat)
  | ended (r : Nat)
deriving Repr, DecidableEq

/-- pkg/ads/internal/endpoint/stats.go:51-53 with the connections and requests in progress and ghost fields -/
structure St where
  /-- `EndpointsStats`: the count of each known endpoint (stats.go:50-53) -/
  stats : Nat → Option Nat
  conns : Nat → Option Conn
  /-- requests in flight -/
  reqs : Nat → Option Nat
  /-- which close wrappers have run their `sync.Once` -/
  fired : Nat → Bool
  tr : List Ev

/-- pkg/ads/internal/endpoint/stats.go:123-127 -/
def St.init : St :=
  { stats := fun _ => none, conns := fun _ => none, reqs := fun _ => none, fired := fun _ => false, tr := [] }

/-- function update; models no code -/
def set {α : Type} (f : Nat → α) (i : Nat) (a : α) : Nat → α := fun j => if j = i then a else f j

/-- stats.go:87-94 -/
def inc (s : Nat → Option Nat) (a : Nat) : Nat → Option Nat :=
  fun b => match s a with
    | some n => set s a (some ((n + 1) % M32)) b
    | none => s b

/-- stats.go:96-103; a uint32 decrement wraps around -/
def dec (s : Nat → Option Nat) (a : Nat) : Nat → Option Nat :=
  fun b => match s a with
    | some n => set s a (some ((n + (M32 - 1)) % M32)) b
    | none => s b

/-- clusterloadassignments.go:88-122: new endpoints start at zero, absent ones are dropped -/
def update (s : Nat → Option Nat) (l : List Nat) : Nat → Option Nat :=
  fun a => if a ∈ l then (match s a with | some n => some n | none => some 0) else none

/-- what happens: endpoint updates, connections opened and closed, requests begun and ended -/
inductive Act
  /-- the control plane's endpoints are now `l` -/
  | endpoints (l : List Nat)
  /-- `dialContext` succeeds (dialer.go:130-168): `AfterDial` increments the dialled address
  (connection_wrappers.go:50-51) -/
  | dial (c : Nat) (conn : Conn)
  /-- `connection.Close` (connection.go:147-167): `BeforeClose` decrements the *remote* address, once per close wrapper
  (connection_wrappers.go:88-99; a `*connection` has no method `GetOriginalAddress`) -/
  | close (c : Nat)
  /-- transport.go:68 -/
  | begin (r a : Nat)
  /-- transport.go:69, deferred -/
  | finish (r : Nat)
deriving Repr, DecidableEq

/-- the transition relation of the actions of `Act`; the functions it calls are cited above -/
def exec (st : St) : Act → Option St
  | .endpoints l => some { st with stats := update st.stats l }
  | .dial c conn =>
    match st.conns c with
    | some _ => none
    | none => some { st with
        stats := inc st.stats conn.addr, conns := set st.conns c (some conn), tr := .opened c conn.addr :: st.tr }
  | .close c =>
    match st.conns c with
    | none => none
    | some conn =>
      if st.fired conn.closer then some { st with tr := .closed c :: st.tr }
      else some { st with
        stats := dec st.stats conn.remote, fired := set st.fired conn.closer true, tr := .closed c :: st.tr }
  | .begin r a =>
    match st.reqs r with
    | some _ => none
    | none => some { st with stats := inc st.stats a, reqs := set st.reqs r (some a), tr := .began r a :: st.tr }
  | .finish r =>
    match st.reqs r with
    | none => none
    | some a => some { st with stats := dec st.stats a, reqs := set st.reqs r none, tr := .ended r :: st.tr }

/-- (specification; models no code) -/
inductive Reach (g : St → Act → Prop) : St → Prop
  | init : Reach g St.init
  | step {st st' : St} (a : Act) : Reach g st → g st a → exec st a = some st' → Reach g st'

/-- a run of actions; models no code -/
def run (st : St) : List Act → Option St
  | [] => some st
  | a :: as => (exec st a).bind fun st' => run st' as

/-! ### Specification, in terms of the trace only -/

/-- connections opened and not closed after the events (newest first), with the address dialled; (specification; models no code) -/
def openConns : List Ev → List (Nat × Nat)
  | [] => []
  | .opened c a :: h => (c, a) :: openConns h
  | .closed c :: h => (openConns h).filter fun e => e.1 ≠ c
  | _ :: h => openConns h

/-- requests begun and not ended, with their address; (specification; models no code) -/
def inFlight : List Ev → List (Nat × Nat)
  | [] => []
  | .began r a :: h => (r, a) :: inFlight h
  | .ended r :: h => (inFlight h).filter fun e => e.1 ≠ r
  | _ :: h => inFlight h

/-- the number of active uses of endpoint `a`: open connections to it and requests in flight; (specification; models no code) -/
def uses (tr : List Ev) (a : Nat) : Nat :=
  (openConns tr).countP (fun e => e.2 = a) + (inFlight tr).countP (fun e => e.2 = a)

/-- every known endpoint's count is its number of active uses; (specification; models no code) -/
def Accurate (st : St) : Prop := ∀ a n, st.stats a = some n → n = uses st.tr a

/-- No restriction. (specification; models no code) -/
def Anything (_ : St) (_ : Act) : Prop := True

/-- Guard: connections are dialled by their literal remote address with a close wrapper of their own, only known
endpoints are used, and endpoints in use stay known. (specification; models no code) -/
def Orderly (st : St) : Act → Prop
  | .endpoints l => ∀ a, 0 < uses st.tr a → a ∈ l
  | .dial _ conn => conn.remote = conn.addr ∧ (∀ c' conn', st.conns c' = some conn' → conn'.closer ≠ conn.closer) ∧
      st.fired conn.closer = false ∧ (st.stats conn.addr).isSome ∧ uses st.tr conn.addr + 1 < M32
  | .begin _ a => (st.stats a).isSome ∧ uses st.tr a + 1 < M32
  | _ => True

end Verif.Ads.Active
