import Verif.Heimdall.Text
/-
Model of the contexts of Wasm plugins: pkg/proxywasm/context.go, of what a plugin keeps in its context (plugin_manager.go:107-157,
plugin.go:208-228, 328-371) and of `SetEffectiveContextID` (host.go:203-241).

`int32` numbers are taken modulo 2^32 (as unsigned numbers). Contexts, plugins and instances are numbered. One action is one access to the
registry of contexts, except in `getOrCreate` and `base`, which are whole calls.
-/
namespace Verif.Wasm.Context
open Verif.Heimdall

/-- arithmetic of Go's fixed-size integers, as used in pkg/proxywasm/context.go -/
def M : Nat := 4294967296

/-- context.go:29-38 -/
structure Ctx where
  rootID : Str
  id : Nat
  latest : Nat
  parent : Option Nat
  /-- the configuration and the plugin stored as properties; a plugin has a number -/
  config : Option Nat
  plugin : Option Nat
deriving Repr, DecidableEq

/-- a plugin: its context, its configuration, and the filter contexts registered for its instances; (pkg/proxywasm/context.go) -/
structure Plugin where
  ctx : Nat
  config : Nat
  filters : List (Nat × Nat)
deriving Repr, DecidableEq

/-- the state of pkg/proxywasm/context.go, with the environment and ghost fields -/
structure St where
  ctxs : List Ctx := []
  /-- the registry (`contexts`), newest first -/
  reg : List (Str × Nat) := []
  plugins : List Plugin := []
  /-- ghost: ids handed out by a context, newest first -/
  ids : List (Nat × Nat) := []
deriving Repr, DecidableEq

/-- context.go:91-99 `getContext` -/
def St.find (s : St) (k : Str) : Option Nat := (s.reg.find? fun e => e.1 = k).map (·.2)

/-- context.go:48-62 `NewContext` -/
def St.fresh (s : St) (k : Str) : St × Nat :=
  ({ s with ctxs := s.ctxs ++ [⟨k, 1, 1, none, none, none⟩], reg := (k, s.ctxs.length) :: s.reg }, s.ctxs.length)

/-- context.go:40-46 `GetBaseContext` -/
def St.base (s : St) (k : Str) : St × Nat :=
  match s.find k with
  | some i => (s, i)
  | none => s.fresh k

/-- context.go:68-70 `NewContextID` -/
def St.newId (s : St) (i : Nat) : Option (St × Nat) :=
  match s.ctxs[i]? with
  | none => none
  | some c =>
    let n := (c.latest + 1) % M
    some ({ s with ctxs := s.ctxs.set i { c with latest := n }, ids := (i, n) :: s.ids }, n)

/-- context.go:73 -/
def childKey (c : Ctx) (r : Str) : Str := c.rootID ++ '.' :: r

/-- context.go:82-89 `newContext` after `NewContext`: the new context `j` gets its number from the parent -/
def St.adopt (s : St) (i j : Nat) : Option St :=
  match s.newId i with
  | none => none
  | some (s, n) => match s.ctxs[j]? with
    | none => none
    | some c => some { s with ctxs := s.ctxs.set j { c with id := n, latest := n, parent := some i } }

/-- context.go:72-80 `GetOrCreateContext` -/
def St.getOrCreate (s : St) (i : Nat) (r : Str) : Option (St × Nat) :=
  match s.ctxs[i]? with
  | none => none
  | some p => match s.find (childKey p r) with
    | some j => some (s, j)
    | none =>
      let (s, j) := s.fresh (childKey p r)
      (s.adopt i j).map fun s => (s, j)

/-! ### plugins -/

/-- plugin_manager.go:141-150, plugin.go:208-228: the plugin gets its context and stores itself and its configuration there -/
def St.addPlugin (s : St) (i : Nat) (r : Str) (config : Nat) : Option (St × Nat) :=
  match s.getOrCreate i r with
  | none => none
  | some (s, j) => match s.ctxs[j]? with
    | none => none
    | some c => some ({ s with ctxs := s.ctxs.set j { c with config := some config, plugin := some s.plugins.length },
                               plugins := s.plugins ++ [⟨j, config, []⟩] }, s.plugins.length)

/-- filter.go:57-71: a filter context for an instance of a plugin -/
def St.addFilter (s : St) (p inst : Nat) : Option (St × Nat) :=
  match s.plugins[p]? with
  | none => none
  | some pl => match s.newId pl.ctx with
    | none => none
    | some (s, n) => some ({ s with plugins := s.plugins.set p { pl with filters := (inst, n) :: pl.filters } }, n)

/-- plugin.go:230-245 `getPluginConfig`, host.go:78-86: the configuration an instance of a plugin is started with -/
def St.configOf (s : St) (p : Nat) : Option Nat :=
  match s.plugins[p]? with
  | none => none
  | some pl => (s.ctxs[pl.ctx]?).bind (·.config)

/-- specification / ghost trace; models no code -/
inductive Eff where
  | root
  | filter (n : Nat)
  | notFound
  | failure
deriving Repr, DecidableEq

/-- host.go:203-241 `setEffectiveContextID`, called by an instance of the plugin `p` -/
def St.effective (s : St) (p inst id : Nat) : Eff :=
  match s.plugins[p]? with
  | none => .failure
  | some pl => match s.ctxs[pl.ctx]? with
    | none => .failure
    | some c => match c.plugin with
      | none => .failure
      | some q => match s.plugins[q]? with
        | none => .failure
        | some ql => if (s.ctxs[ql.ctx]?).map (·.id) = some id then .root
          else if (inst, id) ∈ ql.filters then .filter id else .notFound

/-! ### histories -/

/-- the atomic steps and calls of pkg/proxywasm/context.go, and what the surroundings do; the lines are cited at the steps or in the transition function -/
inductive Act where
  | base (k : Str)
  | child (i : Nat) (r : Str)
  | newId (i : Nat)
  | plugin (i : Nat) (r : Str) (config : Nat)
  | filter (p inst : Nat)
deriving Repr, DecidableEq

/-- the transition function of the steps (pkg/proxywasm/context.go); the lines are cited at the steps or at the cases -/
def exec (s : St) : Act → Option St
  | .base k => some (s.base k).1
  | .child i r => (s.getOrCreate i r).map (·.1)
  | .newId i => (s.newId i).map (·.1)
  | .plugin i r c => (s.addPlugin i r c).map (·.1)
  | .filter p i => (s.addFilter p i).map (·.1)

/-- runs (specification; models no code) -/
inductive Reach : St → Prop where
  | init : Reach {}
  | step {s s' a} : Reach s → exec s a = some s' → Reach s'

end Verif.Wasm.Context
