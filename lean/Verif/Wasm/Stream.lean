import Verif.Wasm.Conn
/-
Model of the filter streams of `/repo/pkg/proxywasm/stream.go` and of
`filterContext.Close` / `StopWasmContext` (`filter.go`, `utils.go`).

* A filter context is named by its plugin.  What filters do is an arbitrary answer per call:
  `ask c` is the answer to the `c`-th call made (counting from the start of the history), which
  covers all behaviours depending on what happened before.
* Handlers return the events they cause: locking and unlocking the filter's instance and
  calling one of its exported functions.  Filters do not modify bodies.  Properties and headers
  are not modelled.
* A request body is a list of what its `Read` will return, as in `Conn.lean`.
-/
namespace Verif.Wasm.Stream

open Verif.Wasm

/-- The calls into a filter (`Done` is a host function called by `StopWasmContext`). (pkg/proxywasm/stream.go) -/
inductive Cb
  | newConnection
  | reqHeaders (n : Nat)
  | reqBody (n : Nat) (eos : Bool)
  | respHeaders (n : Nat)
  | respBody (n : Nat) (eos : Bool)
  | downstreamData (n : Nat) (eos : Bool)
  | upstreamData (n : Nat) (eos : Bool)
  | upstreamClose
  | downstreamClose
  | onDone | done | onLog | onDelete
deriving Repr, DecidableEq

/-- What can be observed of a handler. specification / ghost trace; models no code -/
inductive Ev
  | lock (f : String)
  | call (f : String) (cb : Cb) (a : FAns)
  | unlock (f : String)
  /-- `ReleaseInstance` and `UnregisterFilterContext` -/
  | release (f : String)
deriving Repr, DecidableEq

/-- The calls among the events. (specification; models no code) -/
def calls : List Ev → List (String × Cb × FAns)
  | [] => []
  | .call f cb a :: es => (f, cb, a) :: calls es
  | _ :: es => calls es

/-- Result of a handler: filters and data pass, a filter paused (`false, nil`), or an error. the result of a call (pkg/proxywasm/stream.go), an error or a panic -/
inductive Res
  | pass | paused | error
deriving Repr, DecidableEq

/-- The selection of filters in `NewStream` (stream.go:103-117): `names` is the set collected by
`UsedFiltersStreamOption` (stream.go:71-79). -/
def select (names : List String) (plugins : List String) : List String :=
  plugins.filter fun p => !(0 < names.length ∧ ¬ p ∈ names)

/-- One locked call (the closures at stream.go:127-132, 160-165 and so on). -/
def visit (f : String) (cb : Cb) (a : FAns) : List Ev := [.lock f, .call f cb a, .unlock f]

/-- The loops over the filter contexts: `stops` tells whether a pause ends the loop (stream.go:
126-139 request headers, 252-266 and 276-290 data) or is ignored (159-169 request body, 185-195
response headers, 215-225 response body, 296-306 new connection).  Returns the events, the
result and the number of calls made so far. -/
def chain (stops : Bool) (cb : Cb) (ask : Nat → FAns) : List String → Nat → List Ev × Res × Nat
  | [], c => ([], .pass, c)
  | f :: fs, c =>
    match ask c with
    | .err => (visit f cb .err, .error, c + 1)
    | .pause =>
      if stops then (visit f cb .pause, .paused, c + 1)
      else
        let r := chain stops cb ask fs (c + 1)
        (visit f cb .pause ++ r.1, r.2)
    | .cont =>
      let r := chain stops cb ask fs (c + 1)
      (visit f cb .cont ++ r.1, r.2)

/-- `HandleDownstreamData` (stream.go:246-269) -/
def handleDownstreamData (fs : List String) (ask : Nat → FAns) (n : Nat) (eos : Bool) (c : Nat) :=
  chain true (.downstreamData n eos) ask fs c

/-- `HandleUpstreamData` (stream.go:271-293) -/
def handleUpstreamData (fs : List String) (ask : Nat → FAns) (n : Nat) (eos : Bool) (c : Nat) :=
  chain true (.upstreamData n eos) ask fs c

/-- `HandleTCPNewConnection` (stream.go:295-309) -/
def handleTCPNewConnection (fs : List String) (ask : Nat → FAns) (c : Nat) :=
  chain false .newConnection ask fs c

/-- The size of a body still to be read, for termination. (proof helper; models no code) -/
def bodySize (net : List NetEv) : Nat := (net.map fun e => e.bytes.length + 1).sum

theorem bodySize_netRead {k : Nat} {net net' : List NetEv} {ev : NetEv} (hk : 0 < k)
    (h : netRead k net = some (ev, net')) : bodySize net' < bodySize net := by
  cases net with
  | nil => cases h
  | cons e rest =>
    simp only [netRead] at h
    split at h
    · injection h with h; simp only [Prod.mk.injEq] at h
      obtain ⟨rfl, rfl⟩ := h
      simp only [bodySize, List.map_cons, List.sum_cons]; omega
    · injection h with h; simp only [Prod.mk.injEq] at h
      obtain ⟨rfl, rfl⟩ := h
      simp only [bodySize, List.map_cons, List.sum_cons, List.length_drop]; omega

/-- The body loop of `HandleHTTPRequest` (stream.go:150-178) and of `HandleHTTPResponse`
(stream.go:206-234); `cb` is the body callback.  Returns events, result, number of calls and the
new body.  `none`: blocked in `Read`. -/
def bodyLoop (cb : Nat → Bool → Cb) (ask : Nat → FAns) (fs : List String) (net : List NetEv)
    (c : Nat) (body : Bytes) : Option (List Ev × Res × Nat × Bytes) :=
  match h : netRead 4096 net with
  | none => none
  | some (ev, net') =>
    if ev.err ≠ none ∧ ev.err ≠ some .eof then some ([], .error, c, body)
    else
      let eos : Bool := ev.err = some .eof
      if 0 < ev.bytes.length ∨ eos then
        let body' := body ++ ev.bytes
        let r := chain false (cb ev.bytes.length eos) ask fs c
        if r.2.1 = .error then some (r.1, .error, r.2.2, body')
        else if eos then some (r.1, .pass, r.2.2, body')
        else
          match bodyLoop cb ask fs net' r.2.2 body' with
          | none => none
          | some (es, x) => some (r.1 ++ es, x)
      else bodyLoop cb ask fs net' c body
termination_by bodySize net
decreasing_by
  · exact bodySize_netRead (by omega) h
  · exact bodySize_netRead (by omega) h

/-- The body a request or response has after the handler: unread original, or the buffer. texts or bytes; models no code -/
inductive Body
  | none
  | original (net : List NetEv)
  | buffered (b : Bytes)
deriving Repr, DecidableEq

/-- `HandleHTTPRequest` (stream.go:124-181).  Its only result is an error or `nil`: `Res.pass`
stands for `nil`. -/
def handleHTTPRequest (fs : List String) (ask : Nat → FAns) (hdr : Nat) (body : Option (List NetEv))
    (c : Nat) : Option (List Ev × Res × Nat × Body) :=
  let orig := match body with | none => Body.none | some net => .original net
  let h := chain true (.reqHeaders hdr) ask fs c
  match h.2.1 with
  | .error => some (h.1, .error, h.2.2, orig)
  | .paused => some (h.1, .pass, h.2.2, orig)
  | .pass =>
    match body with
    | none => some (h.1, .pass, h.2.2, .none)
    | some net =>
      match bodyLoop .reqBody ask fs net h.2.2 [] with
      | none => none
      | some (es, res, c', b) => some (h.1 ++ es, res, c', .buffered b)

/-- `HandleHTTPResponse` (stream.go:183-237). -/
def handleHTTPResponse (fs : List String) (ask : Nat → FAns) (hdr : Nat) (body : Option (List NetEv))
    (c : Nat) : Option (List Ev × Res × Nat × Body) :=
  let orig := match body with | none => Body.none | some net => .original net
  let h := chain false (.respHeaders hdr) ask fs c
  if h.2.1 = .error then some (h.1, .error, h.2.2, orig)
  else
    match body with
    | none => some (h.1, .pass, h.2.2, .none)
    | some net =>
      match bodyLoop .respBody ask fs net h.2.2 [] with
      | none => none
      | some (es, res, c', b) => some (h.1 ++ es, res, c', .buffered b)

/-- A list of calls to one filter, ended by the first error. (pkg/proxywasm/stream.go) -/
def callSeq (f : String) (ask : Nat → FAns) : List Cb → Nat → List Ev × Bool × Nat
  | [], c => ([], true, c)
  | cb :: cbs, c =>
    match ask c with
    | .err => ([.call f cb .err], false, c + 1)
    | a =>
      let r := callSeq f ask cbs (c + 1)
      (.call f cb a :: r.1, r.2)

/-- `HandleTCPCloseConnection` (stream.go:311-332). -/
def handleTCPClose (ask : Nat → FAns) : List String → Nat → List Ev × Res × Nat
  | [], c => ([], .pass, c)
  | f :: fs, c =>
    let s := callSeq f ask [.upstreamClose, .downstreamClose] c
    let es := .lock f :: s.1 ++ [.unlock f]
    if s.2.1 then
      let r := handleTCPClose ask fs s.2.2
      (es ++ r.1, r.2)
    else (es, .error, s.2.2)

/-- `stream.Close` (stream.go:342-354) with `filterContext.Close` (filter.go:84-92) and
`StopWasmContext` (utils.go:27-54): the filter is unlocked and its instance released whether or
not stopping succeeded. -/
def closeStream (ask : Nat → FAns) : List String → Nat → List Ev × Res × Nat
  | [], c => ([], .pass, c)
  | f :: fs, c =>
    let s := callSeq f ask [.onDone, .done, .onLog, .onDelete] c
    let es := .lock f :: s.1 ++ [.unlock f, .release f]
    if s.2.1 then
      let r := closeStream ask fs s.2.2
      (es ++ r.1, r.2)
    else (es, .error, s.2.2)

end Verif.Wasm.Stream
