import Verif.Heimdall.Text
/-
Model of the HTTP and gRPC wrappers: pkg/proxywasm/http/handler.go, transport.go and pkg/proxywasm/grpc/dialer.go (RequestInterceptor),
wrappers.go (WrapGRPCRequest). The filters of a stream (C44) and the middlewares are arbitrary functions of what they are given. The
writer of Go's net/http server, which the wrapper writes to, is modelled as far as a handler can observe or use it; it is also what the
application would write to without the wrapper, so it serves as specification.

Simplifications: headers are lists of name and value with names in canonical form; trailers are those set with `http.TrailerPrefix`;
framing (Content-Length, chunks), informational responses and HEAD requests are not modelled; a body is its bytes.
-/
namespace Verif.Wasm.Http
open Verif.Heimdall

/-- `http.Header` as a list of keys and values (Go's net/http; canonical keys) -/
abbrev Hdr := List (Str × Str)
/-- texts or bytes; models no code -/
abbrev Body := List Nat

/-- `http.Header.Set` (Go's net/http) -/
def Hdr.set (h : Hdr) (k v : Str) : Hdr := h.filter (fun e => e.1 ≠ k) ++ [(k, v)]
/-- `http.Header.Add` (Go's net/http) -/
def Hdr.add (h : Hdr) (k v : Str) : Hdr := h ++ [(k, v)]
/-- `http.Header.Del` (Go's net/http) -/
def Hdr.del (h : Hdr) (k : Str) : Hdr := h.filter fun e => e.1 ≠ k
/-- `http.Header.Get`: the first value; (Go's net/http) -/
def Hdr.get (h : Hdr) (k : Str) : Str := ((h.find? fun e => e.1 = k).map (·.2)).getD []

/-! ### the writer of net/http -/

/-- `http.TrailerPrefix`; (Go's net/http) -/
def trailerPrefix : Str := "Trailer:".toList
/-- a key with `http.TrailerPrefix` (Go's net/http) -/
def isTrailer (k : Str) : Bool := trailerPrefix.isPrefixOf k

/-- the response writer of Go's net/http server -/
structure W where
  hdr : Hdr
  /-- the status and the headers once they are decided -/
  sent : Option (Nat × Hdr) := none
  body : Body := []
  /-- the part of the body the client has certainly got -/
  seen : Option Body := none
deriving Repr, DecidableEq

/-- statuses without body: `bodyAllowedForStatus`; (Go's net/http) -/
def noBody (c : Nat) : Bool := c = 204 || c = 304

/-- `WriteHeader`: a second call is ignored, an informational status does not end the headers; (Go's net/http) -/
def W.writeHeader (w : W) (c : Nat) : W :=
  if w.sent = none ∧ ¬ (100 ≤ c ∧ c < 200 ∧ c ≠ 101) then { w with sent := some (c, w.hdr) } else w

/-- the headers are decided at the latest with the first byte; (Go's net/http) -/
def W.start (w : W) : W := w.writeHeader 200

/-- `Write` of the response writer (Go's net/http) -/
def W.write (w : W) (b : Body) : W :=
  let w := w.start
  match w.sent with
  | some (c, _) => if noBody c then w else { w with body := w.body ++ b }
  | none => w

/-- `Flush` of the response writer (Go's net/http) -/
def W.flush (w : W) : W := let w := w.start; { w with seen := some w.body }

/-- what the client gets; (specification; models no code) -/
inductive Client where
  | aborted
  | got (status : Nat) (header : Hdr) (body : Body) (trailer : Hdr)
deriving Repr, DecidableEq

/-- the handler returns; (Go's net/http) -/
def W.finish (w : W) : Client :=
  let w := w.start
  match w.sent with
  | some (c, h) => .got c (h.filter fun e => !isTrailer e.1) w.body (w.hdr.filter fun e => isTrailer e.1)
  | none => .aborted

/-! ### the application -/

/-- what a handler does with its `http.ResponseWriter`; (the application behind pkg/proxywasm/http/handler.go) -/
inductive Op where
  | setH (k v : Str)
  | addH (k v : Str)
  | delH (k : Str)
  | writeHeader (c : Nat)
  | write (b : Body)
  | flush
deriving Repr, DecidableEq

/-- as used in pkg/proxywasm/http/handler.go, transport.go and wrappers.go -/
structure Req where
  method : Str
  /-- host and path -/
  url : Str × Str
  header : Hdr
  body : Option Body
  /-- the context it is bound to: 0 is `context.Background()` -/
  ctx : Nat
deriving Repr, DecidableEq

/-- an application: what it does for a request, and whether it panics at the end; (pkg/proxywasm/http/handler.go, transport.go and wrappers.go) -/
abbrev App := Req → List Op × Bool

/-- an operation on the writer of net/http; (Go's net/http) -/
def W.op (w : W) : Op → W
  | .setH k v => { w with hdr := w.hdr.set k v }
  | .addH k v => { w with hdr := w.hdr.add k v }
  | .delH k => { w with hdr := w.hdr.del k }
  | .writeHeader c => w.writeHeader c
  | .write b => w.write b
  | .flush => w.flush

/-! ### the wrapper of handlers -/

/-- handler.go:162-198 `customResponseWriter`, with the header map of the writer below, which it shares -/
structure Crw where
  hdr : Hdr
  body : Body := []
  status : Nat := 0
  /-- what the client has certainly got of the body -/
  seen : Option Body := none
deriving Repr, DecidableEq

/-- handler.go:169-188: `Flush` does nothing while the application runs -/
def Crw.op (w : Crw) : Op → Crw
  | .setH k v => { w with hdr := w.hdr.set k v }
  | .addH k v => { w with hdr := w.hdr.add k v }
  | .delH k => { w with hdr := w.hdr.del k }
  | .writeHeader c => { w with status := c }
  | .write b => { w with body := w.body ++ b }
  | .flush => w

/-- as used in pkg/proxywasm/http/handler.go, transport.go and wrappers.go -/
structure Resp where
  status : Int
  header : Hdr
  body : Body
deriving Repr, DecidableEq

/-- the outcome of `HandleHTTPRequest`: the request after the filters, the response headers (shared with the writer), the response a
filter has sent (`SendHttpResp`, host.go:178-197), if any -/
structure ReqOut where
  err : Bool := false
  /-- a filter has paused: the body was not looked at (stream.go:137-139) -/
  paused : Bool := false
  req : Req
  hdr : Hdr := []
  reply : Option (Int × Body) := none
deriving Repr, DecidableEq

/-- (the surroundings of pkg/proxywasm/http/handler.go, transport.go and wrappers.go; a parameter of the model) -/
structure Env where
  /-- `NewStream` succeeds -/
  stream : Bool := true
  /-- the application is a gRPC server -/
  grpcServer : Bool := false
  /-- the writer can flush -/
  flusher : Bool := true
  before : Req → Req := id
  filterReq : Req → ReqOut := fun r => { req := r }
  beforeResp : Resp → Resp := id
  /-- `none`: an error -/
  filterResp : Resp → Option Resp := some
  afterResp : Resp → Resp := id

/-- specification / ghost trace; models no code -/
inductive Ev where
  | newStream (ok : Bool)
  | beforeReq
  | filterReq
  | app (r : Req)
  | send (r : Req)
  | afterReq
  | beforeResp
  | filterResp
  | afterResp
  | reply
  | closeStream
deriving Repr, DecidableEq

/-- handler.go:137-150 `writeResponse` (the trailers of the response are never set, wrappers.go:93-95); net/http panics on a status of
other than three digits -/
def writeResponse (flusher : Bool) (r : Resp) : Client :=
  if r.status < 100 ∨ 999 < r.status then .aborted
  else
    let w := W.writeHeader { hdr := r.header } r.status.toNat
    let w := if flusher then w.flush else w
    (if r.body = [] then w else w.write r.body).finish

/-- handler.go:114-134: the application is called with the request the filters have left, and its response goes through them -/
def runApp (e : Env) (app : App) (out : ReqOut) : List Ev × Client :=
  if (app out.req).2 then ([.app out.req], .aborted)
  else
    let w := (app out.req).1.foldl Crw.op { hdr := out.hdr }
    let r := e.beforeResp ⟨if w.status = 0 then 200 else w.status, w.hdr, w.body⟩
    match e.filterResp r with
    | none => ([.app out.req, .afterReq, .beforeResp, .filterResp], W.finish { hdr := r.header })
    | some r => ([.app out.req, .afterReq, .beforeResp, .filterResp, .afterResp, .reply], writeResponse e.flusher (e.afterResp r))

/-- handler.go:75-135 `serve` -/
def serveStream (e : Env) (app : App) (req : Req) : List Ev × Client :=
  if e.grpcServer ∧ ¬ e.flusher then ([], W.finish { hdr := [] })
  else
    let out := e.filterReq (e.before { req with header := req.header.add ":method".toList req.method })
    if out.err then ([.beforeReq, .filterReq], W.finish { hdr := out.hdr })
    else
      let r := match out.reply with
        | some (c, b) => if 0 < c then ([Ev.reply], writeResponse e.flusher ⟨c, out.hdr, b⟩) else runApp e app out
        | none => runApp e app out
      (.beforeReq :: .filterReq :: r.1, r.2)

/-- handler.go:57-73 `ServeHTTP`: the stream is closed by a deferred call -/
def serve (e : Env) (app : App) (req : Req) : List Ev × Client :=
  if e.stream then
    let r := serveStream e app req
    (.newStream true :: r.1 ++ [.closeStream], r.2)
  else ([.newStream false], W.finish { hdr := [] })

/-! ### the wrapper of transports -/

/-- what becomes of the bodies of a round trip; (pkg/proxywasm/http/handler.go, transport.go and wrappers.go) -/
structure Bodies where
  /-- the body of the caller's request has been closed -/
  req : Bool := false
  /-- the body of the response received from the network is left neither closed nor handed out nor read to its end -/
  respLeft : Bool := false
deriving Repr, DecidableEq

/-- (the surroundings of pkg/proxywasm/http/handler.go, transport.go and wrappers.go; a parameter of the model) -/
structure TEnv where
  stream : Bool := true
  before : Req → Req := id
  filterReq : Req → ReqOut := fun r => { req := r }
  /-- the transport below: it closes the body of the request it is given -/
  send : Req → Option Resp
  beforeResp : Resp → Resp := id
  /-- `none`: an error; then the body has not been read to the end -/
  filterResp : Resp → Option Resp := some
  afterResp : Resp → Resp := id

/-- stream.go:141-150: the body is replaced by a buffer unless there is none or a filter has paused; the transport then closes only the
buffer -/
def closedBySend (r : Req) (out : ReqOut) : Bool := r.body.isSome && out.paused

/-- transport.go:47-91 `RoundTrip` -/
def roundTrip (e : TEnv) (r : Req) : List Ev × Option Resp × Bodies :=
  if !e.stream then ([.newStream false], none, {})
  else
    let req := e.before { r with ctx := 0 }
    let out := e.filterReq req
    let evs := [Ev.newStream true, .beforeReq, .filterReq]
    if out.err then (evs ++ [.closeStream], none, {})
    else
      let evs := evs ++ [.afterReq, .send out.req]
      let bs : Bodies := { req := closedBySend r out }
      match e.send out.req with
      | none => (evs ++ [.closeStream], none, bs)
      | some resp =>
        let evs := evs ++ [.beforeResp, .filterResp]
        match e.filterResp (e.beforeResp resp) with
        | none => (evs ++ [.closeStream], none, { bs with respLeft := true })
        | some resp => (evs ++ [.afterResp, .closeStream], some (e.afterResp resp), bs)

/-! ### the interceptor of gRPC calls -/

/-- wrappers.go:114-127 `WrapGRPCRequest`: the address is only kept if it can *not* be parsed, and then it is nil -/
def wrapGRPCRequest (parsed : Option (Str × Str)) (header : Hdr) : Option Req :=
  match parsed with
  | none => none
  | some _ => some ⟨[], ([], []), header, none, 0⟩

/-- the result of the remote call; (the surroundings of pkg/proxywasm/http/handler.go, transport.go and wrappers.go; a parameter of the model) -/
structure Answer where
  /-- the gRPC status, 0 is OK -/
  code : Nat
  header : Hdr
deriving Repr, DecidableEq

/-- (the surroundings of pkg/proxywasm/http/handler.go, transport.go and wrappers.go; a parameter of the model) -/
structure GEnv where
  discovery : Bool := true
  stream : Bool := true
  before : Req → Req := id
  filterReq : Req → ReqOut := fun r => { req := r }
  invoke : Hdr → Answer
  filterResp : Resp → Option Resp := some

/-- specification / ghost trace; models no code -/
inductive GEv where
  | inc | dec
  | http (e : Ev)
  | invoke (h : Hdr)
  /-- the process crashes -/
  | crash
deriving Repr, DecidableEq

/-- dialer.go:97-151 `RequestInterceptor`: the events and the code returned (`none`: another error or none at all). `parsed` is the
parsed address of the method, `md` the metadata of the caller's context. A middleware or filter works on the header map shared with
the call. -/
def intercept (e : GEnv) (parsed : Option (Str × Str)) (md : Hdr) : List GEv × Option Nat :=
  let cnt (l : List GEv) : List GEv := if e.discovery then .inc :: l ++ [.dec] else l
  if !e.stream then (cnt [.http (.newStream false)], none)
  else
    let cl (l : List GEv) : List GEv := cnt (.http (.newStream true) :: l ++ [.http .closeStream])
    match wrapGRPCRequest parsed (Hdr.add [] "content-type".toList "application/grpc".toList ++ md) with
    | none => (cl [.http .beforeReq, .crash], none)
    | some req =>
      let out := e.filterReq (e.before req)
      let l := [GEv.http .beforeReq, .http .filterReq]
      if out.err then (cl l, none)
      else
        let l := l ++ [.http .afterReq, .invoke out.req.header]
        let a := e.invoke out.req.header
        if a.code ≠ 0 then (cl l, some a.code)
        else
          let l := l ++ [.http .beforeResp, .http .filterResp]
          match e.filterResp ⟨200, a.header, []⟩ with
          | none => (cl l, none)
          | some _ => (cl (l ++ [.http .afterResp]), some 0)

end Verif.Wasm.Http
