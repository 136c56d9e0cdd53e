import Verif.Exp.Pii
import Verif.Kafka.Envelope
/-
Model of experimental/kafka-message-pii-filter/main.go: the network filter that finds Kafka messages in the byte streams of
a connection, hides PII in the record values of Produce requests and matches responses with requests.
Not modelled: logging, Avro schemas (read but not used), failures of the host calls (GetDownstreamData … are assumed to
succeed), memory pools.
-/
namespace Verif.Pii
open Verif Verif.Kafka Verif.Kafka.Gen

/-! ### record values of a message -/

/-- a function applied to all record batches in a field, as the loops of experimental/kafka-message-pii-filter/main.go:486-555 do -/
def Prim.mapRecs (f : RecordBatch → RecordBatch) : (p : Prim) → p.Val → p.Val
  | .records, a => ⟨a.items.map f, a.isNil⟩
  | .bool, a => a
  | .int _, a => a
  | .u16, a => a
  | .f64, a => a
  | .uuid, a => a
  | .str, a => a
  | .bytes, a => a

/-- (specification: the record batches in a field; models no code) -/
def Prim.recs : (p : Prim) → p.Val → List RecordBatch
  | .records, a => a.items
  | _, _ => []

/-- applies `f` to all record batches of a message. Of a Produce request these are the batches of `Records()` of each
`PartitionData()` of each `TopicData()` (main.go:513-524); it has no other records. -/
def mapRecs (f : RecordBatch → RecordBatch) : (s : Sch) → s.Val → s.Val
  | .nil, u => u
  | .prim _ _ p _ rest, v => (Prim.mapRecs f p v.1, mapRecs f rest v.2)
  | .arr _ _ p rest, v => (v.1.map (List.map (Prim.mapRecs f p)), mapRecs f rest v.2)
  | .struct _ _ _ _ sub rest, v => ({ v.1 with fields := mapRecs f sub v.1.fields }, mapRecs f rest v.2)
  | .arrS _ _ _ _ sub rest, v =>
    (v.1.map (List.map fun e => { e with fields := mapRecs f sub e.fields }), mapRecs f rest v.2)

/-- all record batches of a message, in order; (specification; models no code) -/
def recs : (s : Sch) → s.Val → List RecordBatch
  | .nil, _ => []
  | .prim _ _ p _ rest, v => Prim.recs p v.1 ++ recs rest v.2
  | .arr _ _ p rest, v => (v.1.getD []).flatMap (Prim.recs p) ++ recs rest v.2
  | .struct _ _ _ _ sub rest, v => recs sub v.1.fields ++ recs rest v.2
  | .arrS _ _ _ _ sub rest, v => (v.1.getD []).flatMap (fun e => recs sub e.fields) ++ recs rest v.2

/-- a DetectPII call with obfuscation (its iteration order, chosen anew for every call in Go, is a function of the text here) experimental/kafka-message-pii-filter/pii/pii.go:33-43 -/
abbrev Det := Bytes → Bytes × Bool

/-- the innermost loop of experimental/kafka-message-pii-filter/main.go:486-555 -/
def maskRecord (det : Det) (r : BatchRecord) : BatchRecord := { r with value := r.value.map fun v => (det v).1 }
/-- the loop over the records of a batch in experimental/kafka-message-pii-filter/main.go:486-555 -/
def maskBatch (det : Det) (b : RecordBatch) : RecordBatch := { b with records := b.records.map (List.map (maskRecord det)) }

/-- main.go:512-524: `r.Value()` is masked in place; the result says whether anything was found -/
def maskRequest (det : Det) (r : Request) : Request × Bool :=
  (⟨r.hdr, ⟨r.data.1, { r.data.2 with fields := mapRecs (maskBatch det) r.data.1.msg.fields r.data.2.fields }⟩⟩,
   (recs r.data.1.msg.fields r.data.2.fields).any fun b => b.recordList.any fun k => (det (k.value.getD [])).2)

/-! ### in-flight requests (main.go:710-748) -/

/-- main.go:171-175 `requestReference` -/
structure Ref where
  key : Int
  ver : Int
  corr : Int
deriving DecidableEq, Repr

/-- the slice `inFlightRequests` with its capacity, and the read position; experimental/kafka-message-pii-filter/main.go:710-732, experimental/kafka-message-pii-filter/main.go:734-743 -/
structure Queue where
  items : List Ref := []
  cap : Nat := 100
  r : Nat := 0

/-- main.go:710-732 `enqueueInFlightRequest`; `grow`: the capacity `append` allocates -/
def Queue.push (grow : Nat → Nat) (q : Queue) (x : Ref) : Queue :=
  if q.items.length ≥ q.cap then
    if q.r ≥ q.cap / 2 then ⟨q.items.drop q.r ++ [x], q.cap, 0⟩
    else ⟨q.items ++ [x], grow q.cap, q.r⟩
  else ⟨q.items ++ [x], q.cap, q.r⟩

/-- main.go:745-748 `resetInFlightRequests` -/
def Queue.reset (q : Queue) : Queue := ⟨[], q.cap, 0⟩

/-- main.go:734-743 `nextInFlightRequest`; `none`: index out of range -/
def Queue.next (q : Queue) : Option (Ref × Queue) :=
  match q.items[q.r]? with
  | none => none
  | some x => some (x, if q.r + 1 ≥ q.items.length then q.reset else ⟨q.items, q.cap, q.r + 1⟩)

/-! ### the filter -/

/-- downstream or upstream, i.e. experimental/kafka-message-pii-filter/main.go:205-289 or experimental/kafka-message-pii-filter/main.go:295-378 -/
inductive Side where | down | up
deriving DecidableEq, Repr
/-- experimental/kafka-message-pii-filter/main.go:106 and the constants after it -/
inductive Dir where | unspecified | inbound | outbound
deriving DecidableEq, Repr

/-- what a side carries: requests come from downstream on inbound and go upstream on outbound connections
(main.go:392-484) -/
def carriesRequests : Dir → Side → Bool
  | .inbound, .down => true
  | .outbound, .up => true
  | _, _ => false

/-- state of a request or response handler; (the fields of experimental/kafka-message-pii-filter/main.go:131-169) -/
structure Handler where
  failed : Bool := false
  size : Int := 0
deriving DecidableEq, Repr

/-- main.go:131-169 `networkContext` -/
structure Ctx where
  dir : Dir
  inc : Side → Bytes := fun _ => []
  out : Side → Bytes := fun _ => []
  req : Handler := {}
  resp : Handler := {}
  q : Queue := {}

/-- function update; models no code -/
def upd {α : Type} (f : Side → α) (s : Side) (a : α) : Side → α := fun t => if t = s then a else f t

/-- the handler of a side; experimental/kafka-message-pii-filter/main.go:452-467, experimental/kafka-message-pii-filter/main.go:469-484 -/
def Ctx.handler (c : Ctx) (s : Side) : Handler := if carriesRequests c.dir s then c.req else c.resp
/-- the same for assignments, e.g. experimental/kafka-message-pii-filter/main.go:422-430 -/
def Ctx.setHandler (c : Ctx) (s : Side) (h : Handler) : Ctx := if carriesRequests c.dir s then { c with req := h } else { c with resp := h }

/-- main.go:422-450 `failDownstreamMessageHandler` … -/
def Ctx.fail (c : Ctx) (s : Side) : Ctx := { c.setHandler s { c.handler s with failed := true } with q := c.q.reset }
/-- main.go:392-420 -/
def Ctx.resetHandler (c : Ctx) (s : Side) : Ctx := c.setHandler s {}
/-- main.go:604-612 -/
def Ctx.resetBuffers (c : Ctx) (s : Side) : Ctx := { c with inc := upd c.inc s [], out := upd c.out s [] }

/-- how a step of the plugin ends; (control flow of Go: result, error, panic) -/
inductive Out (α : Type) where
  | ok (a : α)
  | fail
  | crash
deriving Repr

/-- models no code -/
def ofRes {α : Type} : Res α → Out α
  | .ok a => .ok a
  | .error .panic => .crash
  | .error _ => .fail

/-- main.go:836-844 `kafkaMessageSize` -/
def msgSize (b : Bytes) : Option Int := if b.length < 4 then none else some (wrapS 4 (beNat (b.take 4) 0))
/-- `int(kafkaMsgSizeBytesLen + msgSize)` in 32 bit arithmetic; in experimental/kafka-message-pii-filter/main.go:615-660 -/
def completeSize (n : Int) : Int := wrapS 4 (4 + n)

/-- the environment: compression and checksums (`x`), slice growth; (parameters of the model; models no code) -/
structure Env where
  x : Ext
  grow : Nat → Nat

/-- main.go:486-555 `handleKafkaRequestMessage`: the bytes passed on and the request reference -/
def handleRequest (x : Ext) (det : Det) (frame : Bytes) : Out (Bytes × Ref) :=
  match ofRes (Request.parse x (frame.drop 4)) with
  | .crash => .crash
  | .fail => .fail
  | .ok r =>
    let ref : Ref := ⟨r.apiKey, r.apiVersion, r.correlationId⟩
    if r.apiKey ≠ 0 then .ok (frame, ref)
    else if !(maskRequest det r).2 then .ok (frame, ref)
    else match ofRes (Request.serialize x (maskRequest det r).1 r.apiVersion) with
      | .crash => .crash
      | .fail => .fail
      | .ok b => .ok (beBytes 4 b.length ++ b, ref)

/-- main.go:557-577 `handleKafkaResponseMessage`: without requests in flight the response is skipped -/
def handleResponse (x : Ext) (q : Queue) (frame : Bytes) : Out (Bytes × Option Ref × Queue) :=
  if q.items = [] then .ok ([], none, q)
  else match q.next with
    | none => .crash
    | some (ref, q') => match ofRes (Response.parse x (frame.drop 4) ref.key ref.ver ref.corr) with
      | .crash => .crash
      | .fail => .fail
      | .ok _ => .ok (frame, some ref, q')

/-- what happened to a message: the frame, what was passed on for it, and the request (for a response: the request it was
taken to answer, if any) (ghost trace; models no code) -/
inductive Ev where
  | req (frame out : Bytes) (det : Det) (ref : Ref)
  | resp (frame out : Bytes) (ref : Option Ref)

/-- main.go:452-484 `handleDownstreamKafkaMessage` / `handleUpstreamKafkaMessage` -/
def handleMsg (e : Env) (det : Det) (s : Side) (c : Ctx) (frame : Bytes) : Out (Ctx × Ev) :=
  if carriesRequests c.dir s then
    match handleRequest e.x det frame with
    | .crash => .crash
    | .fail => .fail
    | .ok (b, ref) => .ok ({ c with out := upd c.out s (c.out s ++ b), q := c.q.push e.grow ref }, .req frame b det ref)
  else
    match handleResponse e.x c.q frame with
    | .crash => .crash
    | .fail => .fail
    | .ok (b, ref, q') => .ok ({ c with out := upd c.out s (c.out s ++ b), q := q' }, .resp frame b ref)

/-- result of the processing loop: the context, the data the host buffer was replaced with (`none`: not replaced), the
messages handled (newest first) (the loop in experimental/kafka-message-pii-filter/main.go:205-289) -/
structure LoopRes where
  ctx : Ctx
  replaced : Option Bytes
  evs : List Ev

/-- main.go:579-602 `onCompleteDownstreamDataProcessingDone`, `onCompleteUpstreamDataProcessingDone` -/
def loopDone (s : Side) (c : Ctx) (evs : List Ev) : LoopRes :=
  ⟨{ c.resetHandler s with out := upd c.out s [] }, some (c.out s), evs⟩

/-- main.go:258-287, 347-376: the loop over complete messages; `n` bounds the number of iterations (every one consumes a
byte or ends) -/
def loop (e : Env) (det : Det) (s : Side) : Nat → Ctx → List Ev → Option LoopRes
  | 0, c, evs => some (loopDone s c evs)
  | n + 1, c, evs =>
    if c.inc s = [] then some (loopDone s c evs)
    else match msgSize (c.inc s) with
      | none => some ⟨c.fail s, none, evs⟩
      | some m =>
        if ((c.inc s).length : Int) < completeSize m then some (loopDone s c evs)
        else if completeSize m < 4 then none                  -- Buffer.Next or the slice expression [4:] panics
        else
          let frame := (c.inc s).take (completeSize m).toNat
          let c1 := { c with inc := upd c.inc s ((c.inc s).drop (completeSize m).toNat) }
          match handleMsg e det s c1 frame with
          | .crash => none
          | .fail => some ⟨c1.fail s, some (c1.inc s), evs⟩
          | .ok (c2, ev) => loop e det s n c2 (ev :: evs)

/-- the result of experimental/kafka-message-pii-filter/main.go:205-289 and experimental/kafka-message-pii-filter/main.go:295-378 (`types.Action` of the proxy-wasm SDK) -/
inductive Action where | pause | continue
deriving DecidableEq, Repr

/-- main.go:615-708, 750-798 `downstreamKafkaMessageDataAvailable`: is there a complete message? The size found is remembered. -/
def available (s : Side) (c : Ctx) (data : Bytes) : Bool × Ctx :=
  let avail := data.length + (c.inc s).length
  let cached := (c.handler s).size
  if cached = 0 ∧ avail < 4 then (false, c)
  else
    let m := if cached = 0 then wrapS 4 (beNat ((c.inc s ++ data).take 4) 0) else cached
    (decide (completeSize m ≤ avail), c.setHandler s { c.handler s with size := m })

/-- main.go:205-288, 295-377 `OnDownstreamData` / `OnUpstreamData` with the data the host has buffered. Result: the action,
the replacement of the host's buffer (`none`: left as it is), the context and the messages handled; the outer `none` is a
crash of the plugin. -/
def onData (e : Env) (det : Det) (s : Side) (data : Bytes) (eos : Bool) (c : Ctx) : Option (Action × LoopRes) :=
  if c.req.failed ∨ c.resp.failed ∨ c.dir = .unspecified then some (.continue, ⟨c, none, []⟩)
  else if eos ∧ data.length + (c.inc s).length = 0 then some (.continue, ⟨(c.resetBuffers s).resetHandler s, none, []⟩)
  else
    let a := available s c data
    if !a.1 then
      if eos ∧ data = [] then some (.continue, ⟨(a.2.resetBuffers s).resetHandler s, none, []⟩)
      else some (.pause, ⟨a.2, none, []⟩)
    else
      let c1 := { a.2 with inc := upd a.2.inc s (a.2.inc s ++ data) }
      (loop e det s ((c1.inc s).length + 1) c1 []).map fun r => (.continue, r)

/-! ### a connection: the filter in its host -/

/-- The host keeps the data of a side while the filter says pause, and passes on its (possibly replaced) buffer when it says
continue (proxy-wasm ABI). Ghost: everything received and passed on per side, and the messages handled, newest first. (the host; experimental/kafka-message-pii-filter/main.go:131-169) -/
structure Sys where
  ctx : Ctx
  host : Side → Bytes := fun _ => []
  rcvd : Side → Bytes := fun _ => []
  sent : Side → Bytes := fun _ => []
  evs : List Ev := []

/-- what happens to a connection: calls of experimental/kafka-message-pii-filter/main.go:205-289, experimental/kafka-message-pii-filter/main.go:295-378, experimental/kafka-message-pii-filter/main.go:380-384 and experimental/kafka-message-pii-filter/main.go:386-390 -/
inductive Act where
  /-- data arrives on a side; `det` stands for the DetectPII calls during its processing -/
  | data (s : Side) (chunk : Bytes) (eos : Bool) (det : Det)
  /-- main.go:380-390 `OnDownstreamClose`, `OnUpstreamClose` -/
  | close (s : Side)
  /-- main.go:179-199 `OnNewConnection` -/
  | newConnection

/-- `none`: the plugin crashed; (the calls listed at `Act`) -/
def exec (e : Env) (w : Sys) : Act → Option Sys
  | .data s chunk eos det =>
    match onData e det s (w.host s ++ chunk) eos w.ctx with
    | none => none
    | some (.pause, r) =>
      some ⟨r.ctx, upd w.host s (w.host s ++ chunk), upd w.rcvd s (w.rcvd s ++ chunk), w.sent, r.evs ++ w.evs⟩
    | some (.continue, r) =>
      some ⟨r.ctx, upd w.host s [], upd w.rcvd s (w.rcvd s ++ chunk),
            upd w.sent s (w.sent s ++ r.replaced.getD (w.host s ++ chunk)), r.evs ++ w.evs⟩
  | .close s => some { w with ctx := { w.ctx.resetBuffers s with req := {}, resp := {} } }
  | .newConnection =>
    some ⟨{ (w.ctx.resetBuffers .down).resetBuffers .up with req := {}, resp := {}, q := w.ctx.q.reset },
          fun _ => [], fun _ => [], fun _ => [], []⟩

/-- a run of calls; models no code -/
def runs (e : Env) : List Act → Sys → Option Sys
  | [], w => some w
  | a :: as, w => (exec e w a).bind (runs e as)

end Verif.Pii
