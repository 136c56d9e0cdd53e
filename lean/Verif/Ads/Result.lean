/-
Publication of API results to observers: pkg/ads/api_result.go (apiResultObservable, sendLatest), the
observer goroutines of GetHTTPClientPropertiesByHost, GetTCPClientPropertiesByHost and
GetListenerProperties (api_http_client.go:78-98, api_tcp_client.go:131-151,
api_listener_properties.go:112-128) and apiResultsRefresher (client.go:488-506).

Goroutines are observers (one per API call), the consumers of their channels, and the one refresher.
An action is one atomic step: a critical section of the mutex, one channel operation or one
`select` decision.  Simplification: what `computeResponse` returns is an arbitrary input of the
action (it depends on the resources and counters at that moment).
-/
import Verif.Base

namespace Verif.Res

/-- A response: its content and whether it carries an error. (pkg/ads/api_result.go:24-26) -/
structure Resp where
  data : Nat
  err : Bool
deriving DecidableEq, Repr

/-- An entry of `resultsByInput`: the response (`none` is a nil pointer) and, as a ghost, the number
of the store that put it there. -/
structure Val where
  ver : Nat
  resp : Option Resp
deriving DecidableEq, Repr

/-- Where an observer goroutine is. (api_http_client.go:78-98, api_tcp_client.go:131-151, api_listener_properties.go:112-128) -/
inductive PC where
  | idle
  /-- before `registerForUpdates` -/
  | register
  /-- at the `select` on ctx.Done and the notification channel -/
  | wait
  /-- notified, before `get` -/
  | get
  /-- in `sendLatest`, before testing `len(ch) > 0` (api_result.go:143) -/
  | drain (v : Val)
  /-- in the `select` inside the loop (api_result.go:144-148): receives from the channel -/
  | take (v : Val)
  /-- in the final `select` (api_result.go:150-154) -/
  | push (v : Val)
  /-- before `cancel()` (deferred) -/
  | cancel
  /-- before `close(ch)` (deferred) -/
  | close
  | finished
  /-- the goroutine panicked, which ends the process -/
  | crashed
deriving DecidableEq, Repr

/-- Where the refresher is. (pkg/ads/client.go:489-506) -/
inductive RPC where
  | idle
  /-- holds the mutex; inputs still to do, observers still to be notified of the current one -/
  | busy (todo : List Nat) (sends : List Nat)
  | crashed
deriving DecidableEq, Repr

/-- Observable events, newest first. (ghost trace; models no code) -/
inductive Ev where
  /-- a response was put into observer `o`'s result channel -/
  | pushed (o : Nat) (v : Val)
  /-- the consumer of observer `o` received a response -/
  | received (o : Nat) (v : Val)
  /-- observer `o`'s context was cancelled by the caller -/
  | cancelled (o : Nat)
  /-- observer `o`'s result channel was closed -/
  | closed (o : Nat)
deriving DecidableEq, Repr

/-- an observer: an API call with its channels (api_http_client.go:78-98, api_tcp_client.go:131-151, api_listener_properties.go:112-128) -/
structure Obs where
  pc : PC := .idle
  input : Nat := 0
  /-- the goroutine ends after the first response without error (HTTP and TCP, not listeners) -/
  once : Bool := false
  ctxDone : Bool := false
  /-- the notification channel (capacity 1) holds an item / is closed -/
  note : Bool := false
  noteClosed : Bool := false
  /-- the result channel (capacity 1) / is closed -/
  out : Option Val := none
  outClosed : Bool := false
deriving DecidableEq

/-- pkg/ads/api_result.go:31-47 with the observers, the refresher and ghost fields -/
structure St where
  obs : Nat → Obs := fun _ => {}
  /-- `observerChansByInput` -/
  reg : Nat → List Nat := fun _ => []
  /-- `resultsByInput` -/
  results : Nat → Option Val := fun _ => none
  /-- ghost: number of stores so far -/
  ver : Nat := 0
  ref : RPC := .idle
  /-- the client's own context is done -/
  clientDone : Bool := false
  trace : List Ev := []

/-- the atomic steps; the lines are cited in `exec` -/
inductive Act where
  | start (o i : Nat) (once : Bool)
  | register (o : Nat) (r : Option Resp)
  | cancelCtx (o : Nat)
  | seeDone (o : Nat)
  | recv (o : Nat)
  | get (o : Nat)
  | check (o : Nat)
  | take (o : Nat)
  | takeDone (o : Nat)
  | push (o : Nat)
  | pushDone (o : Nat)
  | cancel (o : Nat)
  | close (o : Nat)
  | consume (o : Nat)
  | refStart (order : List Nat)
  | refInput (r : Option Resp)
  | refSend
  | refAbort
  | refEnd
  | stopClient
deriving DecidableEq, Repr

/-- replaces one observer; models no code -/
def St.setObs (s : St) (o : Nat) (x : Obs) : St := { s with obs := fun k => if k = o then x else s.obs k }

/-- Nobody holds the mutex. (Critical sections other than `Refresh` are one action.) (pkg/ads/api_result.go:31-47) -/
def St.free (s : St) : Bool := match s.ref with
  | .idle => true
  | _ => false

/-- After `sendLatest` (api_http_client.go:90-94): return after the first response without error, a
nil response is dereferenced; listener observers go on. -/
def afterSend (x : Obs) (v : Val) : PC :=
  if x.once then
    match v.resp with
    | none => .crashed
    | some r => if r.err then .wait else .cancel
  else .wait

/-- the transition relation of the steps of `Act`; the lines are cited at the cases -/
def exec (s : St) : Act → Option St
  -- the API call: `go func()` (api_http_client.go:76-78)
  | .start o i once =>
    if (s.obs o).pc = .idle then some (s.setObs o { (s.obs o) with pc := .register, input := i, once := once }) else none
  -- `registerForUpdates` (api_result.go:50-78)
  | .register o r =>
    let x := s.obs o
    if x.pc = .register ∧ s.free then
      let s1 := { s with reg := fun k => if k = x.input then s.reg x.input ++ [o] else s.reg k }
      match r with
      | none => some (s1.setObs o { x with pc := .wait })
      | some r =>
        let s2 := { s1 with ver := s.ver + 1
                            results := fun k => if k = x.input then some ⟨s.ver + 1, some r⟩ else s.results k }
        some (s2.setObs o { x with pc := .wait, note := true })
    else none
  -- the caller cancels its context
  | .cancelCtx o =>
    let x := s.obs o
    if x.ctxDone then none else some { s.setObs o { x with ctxDone := true } with trace := .cancelled o :: s.trace }
  -- `case <-ctx.Done(): return` (api_http_client.go:84-85)
  | .seeDone o =>
    let x := s.obs o
    if x.pc = .wait ∧ x.ctxDone then some (s.setObs o { x with pc := .cancel }) else none
  -- `case <-resultUpdated` (api_http_client.go:86)
  | .recv o =>
    let x := s.obs o
    if x.pc = .wait ∧ x.note then some (s.setObs o { x with pc := .get, note := false }) else none
  -- `get(input)` (api_result.go:102-108, api_http_client.go:87)
  | .get o =>
    let x := s.obs o
    if x.pc = .get ∧ s.free then
      match s.results x.input with
      | none => some (s.setObs o { x with pc := .wait })
      | some v => some (s.setObs o { x with pc := .drain v })
    else none
  -- `for len(ch) > 0` (api_result.go:143)
  | .check o =>
    let x := s.obs o
    match x.pc with
    | .drain v => some (s.setObs o { x with pc := if x.out.isSome then .take v else .push v })
    | _ => none
  -- `case <-ch` (api_result.go:147)
  | .take o =>
    let x := s.obs o
    match x.pc with
    | .take v => if x.out.isSome then some (s.setObs o { x with pc := .drain v, out := none }) else none
    | _ => none
  -- `case <-ctx.Done(): return` (api_result.go:145-146)
  | .takeDone o =>
    let x := s.obs o
    match x.pc with
    | .take v => if x.ctxDone then some (s.setObs o { x with pc := afterSend x v }) else none
    | _ => none
  -- `case ch <- data` (api_result.go:153)
  | .push o =>
    let x := s.obs o
    match x.pc with
    | .push v =>
      if x.out.isNone then
        some { s.setObs o { x with pc := afterSend x v, out := some v } with trace := .pushed o v :: s.trace }
      else none
    | _ => none
  -- `case <-ctx.Done(): return` (api_result.go:151-152)
  | .pushDone o =>
    let x := s.obs o
    match x.pc with
    | .push v => if x.ctxDone then some (s.setObs o { x with pc := afterSend x v }) else none
    | _ => none
  -- `cancel` (api_result.go:80-100)
  | .cancel o =>
    let x := s.obs o
    if x.pc = .cancel ∧ s.free then
      some (({ s with reg := fun k => if k = x.input then (s.reg x.input).erase o else s.reg k } : St).setObs o
        { x with pc := .close, noteClosed := true })
    else none
  -- `defer close(ch)` (api_http_client.go:79)
  | .close o =>
    let x := s.obs o
    if x.pc = .close then
      some { s.setObs o { x with pc := .finished, outClosed := true } with trace := .closed o :: s.trace }
    else none
  -- the consumer receives from the channel it was given
  | .consume o =>
    let x := s.obs o
    match x.out with
    | some v => some { s.setObs o { x with out := none } with trace := .received o v :: s.trace }
    | none => none
  -- `Refresh`: lock, the map's keys in some order (api_result.go:110-114)
  | .refStart order =>
    if s.ref = .idle then some { s with ref := .busy order [] } else none
  -- next input: recompute, compare with the stored one, store (api_result.go:115-128)
  | .refInput r =>
    match s.ref with
    | .busy (i :: todo) [] =>
      if r = ((s.results i).bind (·.resp)) then some { s with ref := .busy todo [] }
      else some { s with ver := s.ver + 1
                         results := fun k => if k = i then some ⟨s.ver + 1, r⟩ else s.results k
                         ref := .busy todo (s.reg i) }
    | _ => none
  -- `case resultsUpdated <- struct{}{}` (api_result.go:134); sending on a closed channel panics
  | .refSend =>
    match s.ref with
    | .busy todo (o :: rest) =>
      let x := s.obs o
      if x.noteClosed then some { s with ref := .crashed }
      else if x.note then none
      else some { s.setObs o { x with note := true } with ref := .busy todo rest }
    | _ => none
  -- `case <-ctx.Done(): return` (api_result.go:132-133)
  | .refAbort =>
    match s.ref with
    | .busy _ (_ :: _) => if s.clientDone then some { s with ref := .idle } else none
    | _ => none
  | .refEnd =>
    match s.ref with
    | .busy [] [] => some { s with ref := .idle }
    | _ => none
  | .stopClient => if s.clientDone then none else some { s with clientDone := true }

/-- Runs. The refresher ranges over a map: every input that has an observer, once, in any order;
`guard` restricts the schedule. (pkg/ads/client.go:489-506) -/
def covers (s : St) : Act → Prop
  | .refStart order => order.Nodup ∧ ∀ i, s.reg i ≠ [] → i ∈ order
  | _ => True

/-- (specification; models no code) -/
inductive Reach (guard : St → Act → Prop) : St → Prop where
  | init : Reach guard {}
  | step {s s' : St} {a : Act} : Reach guard s → covers s a → guard s a → exec s a = some s' → Reach guard s'

/-- Continuations of a run. (specification; models no code) -/
inductive Steps (guard : St → Act → Prop) : St → St → Prop where
  | refl {s : St} : Steps guard s s
  | step {s t u : St} {a : Act} : Steps guard s t → covers t a → guard t a → exec t a = some u → Steps guard s u

end Verif.Res
