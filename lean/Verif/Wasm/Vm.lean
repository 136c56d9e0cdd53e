import Verif.Heimdall.Text
/-
Model of the store of Wasm virtual machines, their users, and the sources of their code: pkg/proxywasm/api/vm.go, vm_store.go, vm.go,
data_store.go.

Simplifications: SHA-256 in hexadecimal is a parameter, and so is the JSON of the VM configuration, which is taken as bytes. The code of
a configuration is what its source gives (a source that fails makes the call fail before it does anything). One action is one access to
the shared map (`sync.Map`), or one critical section of a VM.
-/
namespace Verif.Wasm.Vm
open Verif.Heimdall

/-- texts or bytes; models no code -/
abbrev Bytes := List UInt8

/-- api/vm.go:37-42 `WasmVMConfig`; `json` is the marshalled `Configuration` -/
structure Cfg where
  id : Str
  runtime : Str
  code : Bytes
  json : Bytes
deriving Repr, DecidableEq

/-- as used in pkg/proxywasm/vm_store.go, vm.go and data_store.go -/
def noId : Str := "vm-id-not-specified".toList

/-- api/vm.go:46-62 `GetVMKey` -/
def vmKey (sha : Bytes → Str) (c : Cfg) : Str :=
  (if c.id = [] then noId else c.id) ++ '.' :: sha c.code ++ '.' :: sha c.json

/-! ### the store -/

/-- what a call of `GetOrCreateVM` returned; (pkg/proxywasm/vm_store.go, vm.go and data_store.go) -/
structure Ret where
  cfg : Cfg
  /-- the VM, or an error -/
  vm : Option Nat
deriving Repr, DecidableEq

/-- the state of pkg/proxywasm/vm_store.go, vm.go and data_store.go, with the environment and ghost fields -/
structure Store where
  vms : List (Str × Nat) := []
  /-- the runtimes of the VMs created, in order -/
  created : List Str := []
  /-- calls that have not found a VM and are about to create one -/
  pending : List Cfg := []
  /-- ghost: newest first -/
  log : List Ret := []
deriving Repr, DecidableEq

/-- `vms.Load`; (pkg/proxywasm/vm_store.go, vm.go and data_store.go) -/
def Store.find (s : Store) (k : Str) : Option Nat := (s.vms.find? fun e => e.1 = k).map (·.2)

/-- the atomic steps and calls of pkg/proxywasm/vm_store.go, vm.go and data_store.go, and what the surroundings do; the lines are cited at the steps or in the transition function -/
inductive Act where
  /-- the call up to the lookup (vm_store.go:45-60) -/
  | call (c : Cfg)
  /-- the rest of the `i`-th pending call (vm_store.go:62-75) -/
  | create (i : Nat)
deriving Repr, DecidableEq

/-- vm_store.go:44-76 `GetOrCreateVM`; `known`: the runtimes that can be created -/
def exec (sha : Bytes → Str) (known : List Str) (s : Store) : Act → Option Store
  | .call c => match s.find (vmKey sha c) with
    | some v => some { s with log := ⟨c, some v⟩ :: s.log }
    | none => some { s with pending := s.pending ++ [c] }
  | .create i => match s.pending[i]? with
    | none => none
    | some c =>
      if c.runtime = [] ∨ c.runtime ∉ known then some { s with pending := s.pending.eraseIdx i, log := ⟨c, none⟩ :: s.log }
      else some { vms := (vmKey sha c, s.created.length) :: s.vms, created := s.created ++ [c.runtime], pending := s.pending.eraseIdx i,
                  log := ⟨c, some s.created.length⟩ :: s.log }

/-- runs whose actions satisfy a guard; specification / ghost trace; models no code -/
inductive Reach (sha : Bytes → Str) (known : List Str) (g : Store → Act → Prop) : Store → Prop where
  | init : Reach sha known g {}
  | step {s s' a} : Reach sha known g s → g s a → exec sha known s a = some s' → Reach sha known g s'

/-! ### the users of a VM -/

/-- the state of pkg/proxywasm/vm_store.go, vm.go and data_store.go, with the environment and ghost fields -/
structure Users where
  closing : Bool := false
  users : List Nat := []
  refCount : Nat := 0
  /-- calls of `Acquire` and `Release` that have passed the check of `closing` -/
  acq : List Nat := []
  rel : List Nat := []
  /-- ghost: users closed by `Close`, newest first -/
  closed : List Nat := []
deriving Repr, DecidableEq

/-- the atomic steps and calls of pkg/proxywasm/vm_store.go, vm.go and data_store.go, and what the surroundings do; the lines are cited at the steps or in the transition function -/
inductive UAct where
  | acquire (u : Nat)
  | acquireIn (u : Nat)
  | release (u : Nat)
  | releaseIn (u : Nat)
  | close
deriving Repr, DecidableEq

/-- vm.go:40-84; the users are closed while the lock is held, and what they call back (`Release`) sees `closing` -/
def uexec (s : Users) : UAct → Option Users
  | .acquire u => if s.closing then some s else some { s with acq := u :: s.acq }
  | .acquireIn u => if u ∈ s.acq then
      if u ∈ s.users then some { s with acq := s.acq.erase u }
      else some { s with acq := s.acq.erase u, users := u :: s.users, refCount := s.refCount + 1 }
    else none
  | .release u => if s.closing then some s else some { s with rel := u :: s.rel }
  | .releaseIn u => if u ∈ s.rel then
      if u ∈ s.users then some { s with rel := s.rel.erase u, users := s.users.erase u, refCount := s.refCount - 1 }
      else some { s with rel := s.rel.erase u }
    else none
  | .close => some { s with closing := true, users := [], refCount := s.refCount - s.users.length, closed := s.users ++ s.closed }

/-- runs (specification; models no code) -/
inductive UReach (g : Users → UAct → Prop) : Users → Prop where
  | init : UReach g {}
  | step {s s' a} : UReach g s → g s a → uexec s a = some s' → UReach g s'

/-! ### sources of code -/

/-- the outcome of an HTTP request: no response, or a status, the body, and whether it could be read to its end; (the surroundings of pkg/proxywasm/vm_store.go, vm.go and data_store.go; a parameter of the model) -/
inductive Fetch where
  | fail
  | resp (status : Nat) (body : Bytes) (whole : Bool)
deriving Repr, DecidableEq

/-- data_store.go:57-78 `urlDataSource.Get`: the cached bytes (nil: `none`; `io.ReadAll` never returns nil without an error) and the
result; `none` as the request: none is made -/
def urlGet (cache : Option Bytes) (f : Fetch) : Option Bytes × Option Bytes × Bool :=
  match cache with
  | some b => (some b, some b, false)
  | none => match f with
    | .fail => (none, none, true)
    | .resp _ body whole => if whole then (some body, some body, true) else (none, none, true)

/-- calls one after the other, with the outcome a request would have at each; specification / ghost trace; models no code -/
def urlGets : Option Bytes → List Fetch → List (Option Bytes × Bool)
  | _, [] => []
  | c, f :: r => (urlGet c f).2 :: urlGets (urlGet c f).1 r

/-- what a file system answers: an error at `Open`, at reading, or the content; (the surroundings of pkg/proxywasm/vm_store.go, vm.go and data_store.go; a parameter of the model) -/
inductive File where
  | noOpen
  | noRead
  | content (b : Bytes)
deriving Repr, DecidableEq

/-- data_store.go:30-34 `dataSource` -/
structure Src where
  /-- nil: `none` -/
  fs : Option (Str → File)
  filename : Str
  bytes : Option Bytes

/-- the result of a call (pkg/proxywasm/vm_store.go, vm.go and data_store.go), an error or a panic -/
inductive Got where
  | bytes (b : Bytes)
  | error
  /-- nil bytes without an error -/
  | nothing
  | panic
deriving Repr, DecidableEq

/-- data_store.go:96-118 `dataSource.Get` -/
def Src.read (s : Src) : Src × Got :=
  match s.bytes with
  | some b => (s, .bytes b)
  | none => match s.fs with
    | none => (s, .panic)
    | some fs => match fs s.filename with
      | .noOpen => (s, .error)
      | .noRead => if s.filename ≠ [] then (s, .error) else (s, .nothing)
      | .content b => if s.filename ≠ [] then ({ s with bytes := some b }, .bytes b) else (s, .nothing)

/-- data_store.go:80-94 -/
def newFile (fs : Str → File) (n : Str) : Src := ⟨some fs, n, none⟩
/-- as used in pkg/proxywasm/vm_store.go, vm.go and data_store.go -/
def newBytes (b : Option Bytes) : Src := ⟨none, [], b⟩

end Verif.Wasm.Vm
