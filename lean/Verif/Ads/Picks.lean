import Verif.Ads.Balance

/-!
# Which picks of the load balancer the connections get

pkg/ads/api_result.go:31-130 (`apiResultObservable`) as the callers of
`GetTCPClientPropertiesByHost` and `GetHTTPClientPropertiesByHost` use it
(pkg/ads/api_tcp_client.go:127-153, pkg/ads/api_http_client.go:78-100, pkg/istio/discovery/xds.go:216-252):
one call per connection, which takes the first response. The order and the delivery of the results are
in `Verif.Res` (Ads/Result.lean); here `computeResponse` is a function of the shared load-balancer state
(`newClientProperties` calls `NextEndpoint`, which counts the pick, api_tcp_client.go:333-387).

Simplifications: a connection that gets its response is done (an error response, after which the
goroutine stays, has the same effect on the picks: none); the mesh configuration stays the same; every
response is not nil (the client is initialized).
-/

namespace Verif.Picks

variable {I R T : Type} [DecidableEq I]

/-- `apiResultObservable` (api_result.go:31-47), the state of the load balancer, and the connections. -/
structure St (I R T : Type) where
  lb : T
  /-- the keys of `observerChansByInput`: never removed (`cancel` leaves an empty list, api_result.go:82-103) -/
  asked : List I := []
  /-- `resultsByInput` -/
  results : I → Option R := fun _ => none
  /-- connections that registered and have not read their result -/
  waiting : List (Nat × I) := []
  /-- connections and the result they got, newest first (ghost) -/
  got : List (Nat × I × R) := []
  /-- the calls of `computeResponse`, newest first: the input and the result (ghost) -/
  calls : List (I × R) := []

/-- The steps: a connection registers (a critical section), a connection reads its result (another
one), the refresher recomputes everything (a critical section), with the order of the map's keys. -/
inductive Act (I : Type) where
  | register (conn : Nat) (input : I)
  | read (conn : Nat)
  | refresh (order : List I)

/-- `r.computeResponse(input)`, stored (api_result.go:61-73, 113-126; if the new response equals the
old one it is not stored, which changes nothing) -/
def computeOne (pick : I → T → R × T) (s : St I R T) (i : I) : St I R T :=
  let x := pick i s.lb
  { s with lb := x.2, results := (fun j => if j = i then some x.1 else s.results j), calls := (i, x.1) :: s.calls }

/-- the key is in the map after `m[i] = append(m[i], ch)` (api_result.go:59) -/
def addKey (i : I) (l : List I) : List I := if i ∈ l then l else i :: l

/-- one step; `none` if it is not possible (api_result.go:51-80 `registerForUpdates`, 105-109 `get`, 111-137 `Refresh`) -/
def exec (pick : I → T → R × T) (s : St I R T) : Act I → Option (St I R T)
  | .register c i =>
    let s := computeOne pick s i
    some { s with asked := addKey i s.asked, waiting := (c, i) :: s.waiting }
  | .read c =>
    match s.waiting.find? (fun w => w.1 = c) with
    | none => none
    | some (_, i) =>
      match s.results i with
      | none => none
      | some r => some { s with waiting := s.waiting.filter (fun w => w.1 ≠ c), got := (c, i, r) :: s.got }
  | .refresh order =>
    -- an iteration order of the map: each key once
    if (∀ i ∈ order, i ∈ s.asked) ∧ order.length = s.asked.length ∧ (∀ i ∈ s.asked, i ∈ order) then
      some (order.foldl (computeOne pick) s)
    else none

/-- a sequence of steps; models no code -/
def run (pick : I → T → R × T) (s : St I R T) : List (Act I) → Option (St I R T)
  | [] => some s
  | a :: as => match exec pick s a with
    | none => none
    | some s' => run pick s' as

end Verif.Picks
