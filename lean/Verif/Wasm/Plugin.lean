/-
Wasm plugins, their instances, and the plugin manager: /repo/pkg/proxywasm/{plugin,plugin_manager,
vm_store,vm,filter}.go.

One action is one critical section of the plugin's lock (`GetInstance`, `ReleaseInstance`, the first
part of `Close`, the second part of `EnsureInstances`) or one read outside of it.  Instances are
numbers; what an instance answers to `Acquire` and whether one can be created and started is an
input of the action.  Starting and stopping contexts inside an instance (`startInstance`,
`stopInstance`) is one step that may fail.
-/
import Verif.Base

namespace Verif.Plugin

/-- `uint32` arithmetic. arithmetic of Go's fixed-size integers, as used in pkg/proxywasm/plugin.go and plugin_manager.go -/
def U32 : Nat := 2 ^ 32
/-- arithmetic of Go's fixed-size integers, as used in pkg/proxywasm/plugin.go and plugin_manager.go -/
def inc (n : Nat) : Nat := (n + 1) % U32
/-- arithmetic of Go's fixed-size integers, as used in pkg/proxywasm/plugin.go and plugin_manager.go -/
def dec (n : Nat) : Nat := (n + (U32 - 1)) % U32

/-- Observable effects on instances, newest first. specification / ghost trace; models no code -/
inductive Ev where
  /-- `NewInstance`, `Start` and `startInstance` succeeded -/
  | started (i : Nat)
  /-- `Acquire` returned true and `GetInstance` returned the instance -/
  | got (i : Nat)
  /-- `Release` was called on the instance -/
  | released (i : Nat)
  /-- `Stop` was called on the instance -/
  | stopped (i : Nat)
  /-- `GetInstance` returned an error -/
  | refused
  /-- `Close` has returned -/
  | closed
deriving DecidableEq, Repr

/-- Where a call of `EnsureInstances` or `Close` is. where a goroutine is (program counter in pkg/proxywasm/plugin.go and plugin_manager.go) -/
inductive Phase where
  | none
  /-- in `EnsureInstances`, after reading the count, before taking the lock; `fromClose`: called by `Close` -/
  | ensure (desired actual : Nat) (fromClose : Bool)
  /-- in `Close`, between its critical section and `EnsureInstances(0)` -/
  | toEnsure
  /-- in `Close`, before `vm.Release` -/
  | toVM
  | done
deriving DecidableEq, Repr

/-- The fields of `wasmPlugin` (plugin.go:30-50). -/
structure St where
  /-- `instances`; a nil entry is `none` -/
  insts : List (Option Nat) := []
  /-- `instancesIndex` -/
  index : Nat := 0
  /-- `borrowedInstancesCount` -/
  bcount : Nat := 0
  /-- `borrowedInstances` -/
  bmap : List (Nat × Nat) := []
  /-- `instanceCount` -/
  count : Nat := 0
  /-- the next new instance -/
  next : Nat := 0
  phase : Nat → Phase := fun _ => .none
  /-- a nil instance was used: the process ended -/
  crashed : Bool := false
  trace : List Ev := []

/-- Map access. (pkg/proxywasm/plugin.go and plugin_manager.go) -/
def look (i : Nat) : List (Nat × Nat) → Option Nat
  | [] => none
  | (k, v) :: r => if k = i then some v else look i r

/-- Map update. update of a component; models no code -/
def upd (i v : Nat) : List (Nat × Nat) → List (Nat × Nat)
  | [] => [(i, v)]
  | (k, w) :: r => if k = i then (k, v) :: r else (k, w) :: upd i v r

/-- the result of a call (pkg/proxywasm/plugin.go and plugin_manager.go), an error or a panic -/
inductive Got where
  | inst (i : Nat)
  | fail
  | crash
deriving DecidableEq, Repr

/-- The loop of `GetInstance` (plugin.go:80-93); `ok` is what the instances answer to `Acquire`. -/
def getLoop (ok : Nat → Bool) (insts : List (Option Nat)) : Nat → Nat → Got × Nat
  | 0, idx => (.fail, idx)
  | k + 1, idx =>
    match insts[idx % insts.length]? with
    | some (some i) => if ok i then (.inst i, inc idx) else getLoop ok insts k (inc idx)
    | _ => (.crash, inc idx)

/-- `bi` times `Release` for every borrowed instance (plugin.go:127-134). -/
def releaseAll (bmap : List (Nat × Nat)) : List Ev := bmap.flatMap fun e => List.replicate e.2 (.released e.1)

/-- The number of decrements done by `Close`. (pkg/proxywasm/plugin.go and plugin_manager.go) -/
def total (bmap : List (Nat × Nat)) : Nat := (bmap.map (·.2)).sum

/-- `n` uint32 decrements. arithmetic of Go's fixed-size integers, as used in pkg/proxywasm/plugin.go and plugin_manager.go -/
def decN (n x : Nat) : Nat := (x + n * (U32 - 1)) % U32

/-- The creation loop (plugin.go:180-200): one attempt per element of `ok`; ids of those that worked. -/
def create (next : Nat) : List Bool → List Nat
  | [] => []
  | true :: r => next :: create (next + 1) r
  | false :: r => create (next + 1) r

/-- the atomic steps and calls of pkg/proxywasm/plugin.go and plugin_manager.go, and what the surroundings do; the lines are cited at the steps or in the transition function -/
inductive Act where
  | get (ok : Nat → Bool)
  | release (i : Nat)
  | ensure (c desired : Nat)
  | ensureLock (c : Nat) (ok : List Bool)
  | close (c : Nat)
  | closeEnsure (c : Nat)
  | closeVM (c : Nat)

/-- update of a component; models no code -/
def St.setPhase (s : St) (c : Nat) (p : Phase) : St := { s with phase := fun k => if k = c then p else s.phase k }

/-- `InstanceCount` and the comparison (plugin.go:150-156). -/
def ensureRead (s : St) (c desired : Nat) (fromClose : Bool) : St :=
  if s.count = desired then s.setPhase c (if fromClose then .toVM else .done)
  else s.setPhase c (.ensure desired s.count fromClose)

/-- the transition function of the steps (pkg/proxywasm/plugin.go and plugin_manager.go); the lines are cited at the steps or at the cases -/
def exec (s : St) (a : Act) : Option St :=
  if s.crashed then none else
  match a with
  -- `GetInstance` (plugin.go:76-96)
  | .get ok =>
    match getLoop ok s.insts s.insts.length s.index with
    | (.inst i, idx) => some { s with index := idx, bcount := inc s.bcount, bmap := upd i (inc ((look i s.bmap).getD 0)) s.bmap,
                                      trace := .got i :: s.trace }
    | (.fail, idx) => some { s with index := idx, trace := .refused :: s.trace }
    | (.crash, _) => some { s with crashed := true }
  -- `ReleaseInstance` (plugin.go:98-110)
  | .release i =>
    some { s with bmap := (match look i s.bmap with | some v => upd i (dec v) s.bmap | none => s.bmap),
                  bcount := dec s.bcount, index := dec s.index, trace := .released i :: s.trace }
  -- `EnsureInstances` (plugin.go:147-156)
  | .ensure c desired => if s.phase c = .none then some (ensureRead s c desired false) else none
  -- `EnsureInstances` under the lock (plugin.go:158-205)
  | .ensureLock c ok =>
    match s.phase c with
    | .ensure desired actual fromClose =>
      let s := s.setPhase c (if fromClose then .toVM else .done)
      if desired < actual then
        let dropped := s.insts.drop desired
        if dropped.contains none then some { s with crashed := true }
        else some { s with insts := s.insts.take desired ++ List.replicate (desired - s.insts.length) none,
                           count := desired, trace := (dropped.filterMap id).reverse.map .stopped ++ s.trace }
      else if ok.length = desired - actual then
        let new := create s.next ok
        some { s with insts := s.insts ++ new.map some, count := (s.count + new.length) % U32, next := s.next + ok.length,
                      trace := new.reverse.map .started ++ s.trace }
      else none
    | _ => none
  -- `Close`, critical section (plugin.go:124-136)
  | .close c =>
    if s.phase c = .none then
      some { (s.setPhase c .toEnsure) with bmap := [], bcount := decN (total s.bmap) s.bcount,
                                           index := decN (total s.bmap) s.index, trace := releaseAll s.bmap ++ s.trace }
    else none
  -- `p.EnsureInstances(0)` (plugin.go:138)
  | .closeEnsure c => if s.phase c = .toEnsure then some (ensureRead s c 0 true) else none
  -- `p.vm.Release(p)` (plugin.go:140)
  | .closeVM c => if s.phase c = .toVM then some { (s.setPhase c .done) with trace := .closed :: s.trace } else none

/-- Runs; `guard` restricts the schedule and the callers. specification / ghost trace; models no code -/
inductive Reach (guard : St → Act → Prop) : St → Prop where
  | init : Reach guard {}
  | step {s s' : St} {a : Act} : Reach guard s → guard s a → exec s a = some s' → Reach guard s'

/-! ### The plugin manager -/

/-- What can go wrong in `Add` after the lock is taken. (pkg/proxywasm/plugin.go and plugin_manager.go) -/
inductive Step where
  | ok | vmErr | codeErr | moduleErr | configErr
deriving DecidableEq, Repr

/-- A configuration: its name and everything else its key (`json.Marshal`) contains. (pkg/proxywasm/plugin.go and plugin_manager.go) -/
structure Config where
  name : String
  instances : Nat := 0
  rest : Nat := 0
deriving DecidableEq, Repr

/-- A call of the manager. (pkg/proxywasm/plugin.go and plugin_manager.go) -/
inductive Call where
  | idle
  /-- `GetOrCreate` has missed and released the lock -/
  | toAdd (cfg : Config)
  /-- `Delete` holds the lock and calls `Get`, which locks again -/
  | deleting (cfg : Config)
deriving DecidableEq, Repr

/-- specification / ghost trace; models no code -/
inductive MEv where
  /-- a call for the configuration returned plugin `p` -/
  | returned (cfg : Config) (p : Nat)
  | failed (cfg : Config)
  | deleted (cfg : Config)
deriving DecidableEq, Repr

/-- `wasmPluginManager` (plugin_manager.go:28-36); `users` are the plugins that hold a VM
(vm.go:23-31), one VM for simplicity. -/
structure Mgr where
  locked : Bool := false
  plugins : List (Config × Nat) := []
  /-- the number of plugins made so far, and the instances each asked for at creation -/
  made : Nat := 0
  ensured : Nat → Nat := fun _ => 0
  users : List Nat := []
  refCount : Nat := 0
  calls : Nat → Call := fun _ => .idle
  trace : List MEv := []

/-- as used in pkg/proxywasm/plugin.go and plugin_manager.go -/
def mlook (c : Config) : List (Config × Nat) → Option Nat
  | [] => none
  | (k, v) :: r => if k = c then some v else mlook c r

/-- the atomic steps and calls of pkg/proxywasm/plugin.go and plugin_manager.go, and what the surroundings do; the lines are cited at the steps or in the transition function -/
inductive MAct where
  | get (cfg : Config)
  | getOrCreate (c : Nat) (cfg : Config)
  | add (c : Nat) (step : Step) (uuid : String)
  | addDirect (cfg : Config) (step : Step) (uuid : String)
  | delete (c : Nat) (cfg : Config)
  | deleteGet (c : Nat)
deriving DecidableEq, Repr

/-- `Acquire` of a new user (vm.go:58-70). -/
def Mgr.acquire (m : Mgr) (p : Nat) : Mgr :=
  if p ∈ m.users then m else { m with users := p :: m.users, refCount := inc m.refCount }

/-- `Add` (plugin_manager.go:98-157), under the lock. `plugin.EnsureInstances(config.InstanceCount)`
gets the argument's count, which is 0 if the caller left it open, not the default computed at
lines 118-120; the key is that of the (named) configuration, whose count EnsureInstances has set to
the same value. -/
def addUnder (m : Mgr) (cfg : Config) (step : Step) (uuid : String) : Mgr :=
  let named := if cfg.name = "" then { cfg with name := uuid } else cfg
  let p := m.made
  match step with
  | .vmErr => { m with made := p + 1, trace := .failed cfg :: m.trace }
  | .codeErr | .moduleErr | .configErr => { (m.acquire p) with made := p + 1, trace := .failed cfg :: m.trace }
  | .ok => { (m.acquire p) with made := p + 1, ensured := (fun k => if k = p then cfg.instances else m.ensured k),
                                plugins := (named, p) :: m.plugins, trace := .returned cfg p :: m.trace }

/-- update of a component; models no code -/
def Mgr.setCall (m : Mgr) (c : Nat) (x : Call) : Mgr := { m with calls := fun k => if k = c then x else m.calls k }

/-- the transition function of the steps (pkg/proxywasm/plugin.go and plugin_manager.go); the lines are cited at the steps or at the cases -/
def mexec (m : Mgr) : MAct → Option Mgr
  -- `Get` (plugin_manager.go:68-79)
  | .get cfg =>
    if m.locked then none else
    match mlook cfg m.plugins with
    | some p => some { m with trace := .returned cfg p :: m.trace }
    | none => some { m with trace := .failed cfg :: m.trace }
  -- `GetOrCreate`, first part (plugin_manager.go:82-93)
  | .getOrCreate c cfg =>
    if m.locked || m.calls c ≠ .idle then none else
    match mlook cfg m.plugins with
    | some p => some { m with trace := .returned cfg p :: m.trace }
    | none => some (m.setCall c (.toAdd cfg))
  -- `m.Add(config)` (plugin_manager.go:95, 98-157)
  | .add c step uuid =>
    match m.calls c with
    | .toAdd cfg => if m.locked then none else some (addUnder (m.setCall c .idle) cfg step uuid)
    | _ => none
  -- `Add` called by the user
  | .addDirect cfg step uuid => if m.locked then none else some (addUnder m cfg step uuid)
  -- `Delete`: lock (plugin_manager.go:52-54)
  | .delete c cfg => if m.locked || m.calls c ≠ .idle then none else some { (m.setCall c (.deleting cfg)) with locked := true }
  -- `m.Get(config)` inside `Delete` (plugin_manager.go:56, 69): locks the mutex again
  | .deleteGet c =>
    match m.calls c with
    | .deleting cfg =>
      if m.locked then none
      else some { (m.setCall c .idle) with trace := .deleted cfg :: m.trace }
    | _ => none

/-- runs (specification; models no code) -/
inductive MReach (guard : Mgr → MAct → Prop) : Mgr → Prop where
  | init : MReach guard {}
  | step {m m' : Mgr} {a : MAct} : MReach guard m → guard m a → mexec m a = some m' → MReach guard m'

/-- runs (specification; models no code) -/
inductive MSteps : Mgr → Mgr → Prop where
  | refl {m : Mgr} : MSteps m m
  | step {m m' m'' : Mgr} {a : MAct} : MSteps m m' → mexec m' a = some m'' → MSteps m m''

end Verif.Plugin
