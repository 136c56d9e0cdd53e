/-
Model of the xDS resource cache `/repo/pkg/ads/common.go` (`resourceCache`).

* A resource carries its own name, what the subscriptions derived from it depend on (is it an
  EDS cluster and with which service name; which route configurations its HTTP connection
  managers reference) and a tag standing for everything else.
* A Go map is an association list; `nil` and empty maps are not distinguished (the code treats
  them alike: merging into an empty map and replacing it are the same).
* Every method holds the cache's mutex for its whole duration, so methods are atomic.
  `proto.Clone` of results is not modelled.
-/
namespace Verif.Ads

/-- A decoded resource. (the values of `resources` in pkg/ads/common.go:44-51) -/
structure Resource where
  name : String
  /-- cluster of discovery type EDS -/
  eds : Bool
  /-- `EdsClusterConfig.ServiceName` -/
  service : String
  /-- RDS route configuration names of the listener's HTTP connection managers, in order -/
  rds : List String
  tag : Nat
deriving Repr, DecidableEq

/-- An `Any` in a response: absent, not decodable as the response's type, or a resource.
`table`: an Istio name table. (pkg/ads/common.go:168-213) -/
inductive AnyRes
  | null
  | bad
  | good (r : Resource)
  | table (t : List (String × Option Resource))
deriving Repr, DecidableEq

/-- `map[string]proto.Message`; (pkg/ads/common.go:44-51) -/
abbrev AMap := List (String × Resource)

/-- Go's map access -/
def AMap.get (m : AMap) (k : String) : Option Resource := (m.find? (·.1 = k)).map (·.2)
/-- Go's `delete` -/
def AMap.del (m : AMap) (k : String) : AMap := m.filter (·.1 ≠ k)
/-- Go's map assignment -/
def AMap.put (m : AMap) (k : String) (v : Resource) : AMap := (k, v) :: m.del k
/-- `for k, v := range typed { m[k] = v }`; (pkg/ads/common.go:168-213) -/
def AMap.putAll (m : AMap) (t : AMap) : AMap := t.foldr (fun e m => m.put e.1 e.2) m

/-- `resourceCache` and `resourceSubscription` (common.go:34-52). -/
structure Cache where
  sub : List String
  nonce : String
  version : String
  res : AMap
  init : Bool
deriving Repr, DecidableEq

/-- a new pkg/ads/common.go:44-51 -/
def Cache.empty : Cache := { sub := [], nonce := "", version := "", res := [], init := false }

/-- `IsSubscribedForAll` (common.go:439-444) -/
def Cache.isSubAll (c : Cache) : Bool := c.sub.contains "*"

/-- `IsSubscribedFor` (common.go:446-453) -/
def Cache.isSub (c : Cache) (n : String) : Bool := c.isSubAll || c.sub.contains n

/-- Insertion of a string into a sorted list without duplicates. (`sort.Strings`, used in pkg/ads/common.go) -/
def insS (s : String) : List String → List String
  | [] => [s]
  | x :: xs => if s = x then x :: xs else if s < x then s :: x :: xs else x :: insS s xs

/-- The keys of a `map[string]struct{}` filled from a list, sorted with `sort.Strings`. (pkg/ads/common.go) -/
def sortedSet (l : List String) : List String := l.foldr insS []

/-- `Subscribe` (common.go:56-68): nothing happens for an empty list. -/
def Cache.subscribe (c : Cache) (names : List String) : Cache :=
  if names = [] then c else { c with sub := names }

/-- `ResetSubscription` (common.go:77-82) -/
def Cache.resetSub (c : Cache) : Cache := { c with sub := [] }

/-- `ResetInitialized` (common.go:84-89) -/
def Cache.resetInit (c : Cache) : Cache := { c with init := false }

/-- `GetSubscribedResourceNames` (common.go:92-108) -/
def Cache.subNames (c : Cache) : List String := sortedSet c.sub

/-- `RemoveResources` (common.go:146-154) -/
def Cache.remove (c : Cache) (names : List String) : Cache :=
  { c with res := names.foldl (fun m n => m.del n) c.res }

/-- `RemoveAllResources` (common.go:158-163) -/
def Cache.removeAll (c : Cache) : Cache := { c with res := [] }

/-- The loop of `AddResources` (common.go:176-197): `none` is an error. -/
def addLoop (c : Cache) : List (String × AnyRes) → AMap → Option AMap
  | [], t => some t
  | (_, .null) :: rs, t => addLoop c rs t
  | (_, .bad) :: _, _ => none
  | (_, .table _) :: _, _ => none
  | (n, .good r) :: rs, t =>
    if !c.isSub n then addLoop c rs t
    else if (t.get n).isSome then none
    else addLoop c rs (t.put n r)

/-- `AddResources` (common.go:167-214): new cache and whether it succeeded. -/
def Cache.add (c : Cache) (rs : List (String × AnyRes)) : Cache × Bool :=
  if rs = [] then (c, true)
  else
    match addLoop c rs [] with
    | none => (c, false)
    | some t => ({ c with res := c.res.putAll t, init := true }, true)

/-- The loop over one name table in `AddIstioResources` (common.go:236-252).  `del` tells whether
names that are not subscribed are deleted from the cache (`SetIstioResources`,
common.go:369-388). The second component is the cache so far (deletions are not undone). -/
def tableLoop (del : Bool) (c : Cache) : List (String × Option Resource) → AMap → AMap →
    AMap × Option AMap
  | [], res, t => (res, some t)
  | (_, none) :: es, res, t => tableLoop del c es res t
  | (n, some r) :: es, res, t =>
    if !c.isSub n then tableLoop del c es (if del then res.del n else res) t
    else if (t.get n).isSome then (res, none)
    else tableLoop del c es res (t.put n r)

/-- The loop over the resources in `AddIstioResources`/`SetIstioResources`. pkg/ads/common.go:215-270, pkg/ads/common.go:347-407 -/
def istioLoop (del : Bool) (c : Cache) : List AnyRes → AMap → AMap → AMap × Option AMap
  | [], res, t => (res, some t)
  | .null :: rs, res, t => istioLoop del c rs res t
  | .bad :: _, res, _ => (res, none)
  | .good _ :: _, res, _ => (res, none)
  | .table es :: rs, res, t =>
    match tableLoop del c es res t with
    | (res', none) => (res', none)
    | (res', some t') => istioLoop del c rs res' t'

/-- `AddIstioResources` (common.go:216-272) -/
def Cache.addIstio (c : Cache) (rs : List AnyRes) : Cache × Bool :=
  if rs = [] then (c, true)
  else
    match istioLoop false c rs c.res [] with
    | (_, none) => (c, false)
    | (_, some t) => ({ c with res := c.res.putAll t, init := true }, true)

/-- The loop of `SetResources` (common.go:290-326).  Names that are not subscribed are deleted
from the cache at once; an error returns with these deletions done. -/
def setLoop (c : Cache) : List AnyRes → AMap → AMap → AMap × Option AMap
  | [], res, t => (res, some t)
  | .null :: rs, res, t => setLoop c rs res t
  | .bad :: _, res, _ => (res, none)
  | .table _ :: _, res, _ => (res, none)
  | .good r :: rs, res, t =>
    if !c.isSub r.name then setLoop c rs (res.del r.name) t
    else if (t.get r.name).isSome then (res, none)
    else setLoop c rs res (t.put r.name r)

/-- `SetResources` (common.go:277-343): note that `replace` clears the cache before the
resources are validated. -/
def Cache.setRes (c : Cache) (rs : List AnyRes) (replace : Bool) : Cache × Bool :=
  if rs = [] then ({ c with res := [] }, true)
  else
    match setLoop c rs (if replace then [] else c.res) [] with
    | (res, none) => ({ c with res := res }, false)
    | (res, some t) =>
      ({ c with res := if c.isSubAll then t else res.putAll t, init := true }, true)

/-- `SetIstioResources` (common.go:347-409) -/
def Cache.setIstio (c : Cache) (rs : List AnyRes) : Cache × Bool :=
  if rs = [] then ({ c with res := [] }, true)
  else
    match istioLoop true c rs c.res [] with
    | (res, none) => ({ c with res := res }, false)
    | (res, some t) =>
      ({ c with res := if c.isSubAll then t else res.putAll t, init := true }, true)

/-- `GetResource` (common.go:428-437) -/
def Cache.getRes (c : Cache) (n : String) : Option Resource := c.res.get n

end Verif.Ads
