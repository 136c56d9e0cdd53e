/-
Model of pkg/proxywasm/http/middleware.go: the set of middlewares of a handler, transport or dialer, changed by `AddMiddleware`/`RemoveMiddleware` and used by the requests
(`BeforeRequest`, …: `for mw := range h.GetMiddlewares()`) of several goroutines. `GetMiddlewares` returns the map itself, so the loop runs without the lock.

Go's maps: an entry not yet reached by a loop and deleted is not produced, an entry added during a loop may or may not be produced; a goroutine that writes to a map sets a flag
for the time of the write, and a loop of another goroutine that finds the flag set stops the program ("concurrent map iteration and map write"). Undetected races are not modelled.
-/
namespace Verif.Wasm.MwHandler

/-- as used in pkg/proxywasm/http/middleware.go -/
abbrev Mw := Nat

/-- a loop over the middlewares: which are produced and which are still to come; (pkg/proxywasm/http/middleware.go) -/
structure Loop where
  todo : List Mw
  called : List Mw := []
  /-- ghost: the middlewares registered when the loop began -/
  all : List Mw
  done : Bool := false
deriving DecidableEq, Repr

/-- the state of pkg/proxywasm/http/middleware.go, with the environment and ghost fields -/
structure St where
  mws : List Mw := []
  /-- a goroutine holds the lock and writes to the map -/
  writing : Option (Bool × Mw) := none
  loops : List Loop := []
  crashed : Bool := false
deriving DecidableEq, Repr

/-- the atomic steps and calls of pkg/proxywasm/http/middleware.go, and what the surroundings do; the lines are cited at the steps or in the transition function -/
inductive Act where
  /-- middleware.go:51-53, 58-60: the lock is taken (`true`: add) -/
  | lock (add : Bool) (m : Mw)
  /-- middleware.go:55, 62; `seen`: the loops that will come to the new entry -/
  | change (seen : Nat → Bool)
  /-- middleware.go:65-70 and the beginning of a loop (72-94): the entries in some order -/
  | begin_ (order : List Mw)
  /-- the next entry of loop `i` is produced and called -/
  | next (i : Nat)
deriving Inhabited

/-- `delete` removes the entry from what is still to come; update of a component; models no code -/
def drop (m : Mw) (l : Loop) : Loop := { l with todo := l.todo.filter fun x => x ≠ m }

/-- an entry may be appended to what is still to come; update of a component; models no code -/
def add (m : Mw) (b : Bool) (l : Loop) : Loop := if b ∧ ¬ l.done then { l with todo := l.todo ++ [m] } else l

/-- `l` lists the members of `m`, each once; (pkg/proxywasm/http/middleware.go) -/
def isOrder (l m : List Mw) : Bool := l.length = m.length ∧ l.all (· ∈ m) ∧ m.all (· ∈ l)

/-- the transition function of the steps (pkg/proxywasm/http/middleware.go); the lines are cited at the steps or at the cases -/
def exec (s : St) (a : Act) : Option St :=
  if s.crashed then none else
  match a with
  | .lock b m => if s.writing.isNone then some { s with writing := some (b, m) } else none
  | .change seen => match s.writing with
    | none => none
    | some (true, m) =>
      if m ∈ s.mws then some { s with writing := none }
      else some { s with mws := s.mws ++ [m], writing := none, loops := s.loops.mapIdx fun i l => add m (seen i) l }
    | some (false, m) => some { s with mws := s.mws.filter (fun x => x ≠ m), writing := none, loops := s.loops.map (drop m) }
  | .begin_ order => if isOrder order s.mws = false then none
    -- GetMiddlewares waits for the lock
    else if s.writing.isSome then none
    else some { s with loops := s.loops ++ [{ todo := order, all := s.mws }] }
  | .next i => match s.loops[i]? with
    | none => none
    | some l =>
      if l.done then none
      else if s.writing.isSome then some { s with crashed := true }
      else match l.todo with
        | [] => some { s with loops := s.loops.set i { l with done := true } }
        | m :: r => some { s with loops := s.loops.set i { l with todo := r, called := l.called ++ [m] } }

end Verif.Wasm.MwHandler
