import Verif.Sec.Dotn
/-
Model of the properties a filter reads and sets: pkg/proxywasm/host.go:110-131 `GetProperty`, `SetProperty`, and the chain of property
holders of pkg/proxywasm/properties.go:22-56 and context.go. The holders themselves are those of Sec/Dotn.lean; a chain is the list of
their contents, the own one first, then the parent, its parent, and so on. How a value is turned into bytes (`Stringify`) is modelled in
Wasm/Middleware.lean.
-/
namespace Verif.Wasm.HostProps
open Verif.Dotn

/-- as used in pkg/proxywasm/host.go -/
abbrev Chain := List KVs

/-- properties.go:42-52 `propertyHolderWrapper.Get`: the own properties first, then those of the parent -/
def chainGet (pi : Str → Option Int) : Chain → Str → Got
  | [], _ => .missing
  | m :: r, key => match Verif.Dotn.get pi m key with
    | .missing => chainGet pi r key
    | g => g

/-- properties.go:54-56 `Set`: always the own properties -/
def chainSet : Chain → Str → V → Chain
  | [], _, _ => []
  | m :: r, key, v => Verif.Dotn.set m key v :: r

/-- `strings.TrimRight(s, ".")` -/
def trimDots (s : Str) : Str := (s.reverse.dropWhile fun c => c == '.').reverse

/-- host.go:111 -/
def hostKey (key : Str) : Str := trimDots (unNul key)

/-- host.go:110-122 `GetProperty`: the value before it is turned into bytes -/
def getProperty (pi : Str → Option Int) (c : Chain) (key : Str) : Got := chainGet pi c (hostKey key)

/-- host.go:124-130 `SetProperty`: the key is passed on as it is -/
def setProperty (c : Chain) (key : Str) (v : V) : Chain := chainSet c key v

end Verif.Wasm.HostProps
