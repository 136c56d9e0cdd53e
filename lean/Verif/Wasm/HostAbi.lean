import Verif.Base
/-
Model of what the host answers a filter: pkg/proxywasm/host.go:31-341 `HostFunctions` (the methods it defines itself) and
pkg/proxywasm/default.go:26-229 `DefaultHostFunctions`, from which it inherits all others (host.go:57-61). One constructor of `Call` per method of the
imports handler. The properties of the context the call runs in are a parameter (`Props`); which calls can change them, and what the
properties, metrics, headers and the effective context are, is modelled in Wasm/HostProps, Wasm/Metrics, Wasm/Headers, Wasm/InstCtx and Wasm/Ticker.
The wall clock is a number of nanoseconds since the epoch. That a Go panic in a host function ends the call of the filter (or the
process), depending on the Wasm runtime, is not modelled: the answer is just `panic`.
-/
namespace Verif.Wasm.HostAbi

/-- the methods of the imports handler (default.go:34-229, host.go:81-341) -/
inductive Call where
  | wait | getRootContextID | getVmConfig | getPluginConfig | log (level : Int) | setEffectiveContextID (id : Int)
  | setTickPeriod (ms : Int) | getTime | done
  | getDownStreamData | getUpstreamData | resumeDownstream | resumeUpstream
  | getReqHeader | getReqBody | getReqTrailer | getRespHeader | getRespBody | getRespTrailer
  | getCallRespHeaders | getCallRespBody | getCallRespTrailer | httpCall | resumeReq | resumeResp | sendHttpResp (status : Int)
  | openGrpc | sendGrpc | cancelGrpc | closeGrpc | grpcCall | getGrpcMeta | getGrpcBuffer | getGrpcTrailer
  | foreign (name : String) | getFuncCallData | getProperty (key : String) | setProperty (key value : String)
  | defineMetric | incrementMetric (id : Int) | recordMetric (id : Int) | getMetric (id : Int) | removeMetric (id : Int)
  | getCustomBuffer | getCustomHeader
deriving Repr, DecidableEq

/-- what the context has; numbers are the identities of header maps and buffers (host.go:81-89, 128-197, 207-341) -/
structure Props where
  pluginConfig : Option Nat := none
  reqHeaders : Option Nat := none
  reqBody : Option Nat := none
  respHeaders : Option Nat := none
  respBody : Option Nat := none
  downstream : Option Nat := none
  upstream : Option Nat := none
  hasRoot : Bool := true
  hasPlugin : Bool := true
  rootID : Int := 1
  contexts : List Int := []
  property : String → Option String := fun _ => none
  /-- the metrics handler, if there is one: the result of `DefineMetric`, and the metrics that exist -/
  metrics : Option (Int × List Int) := none

/-- the result codes of the ABI that occur (host.go:99, 103, 114-117, 196, 213, 306) -/
inductive Code where
  | ok | notFound | internalFailure | unimplemented
deriving Repr, DecidableEq

/-- the answer to a call (pkg/proxywasm/host.go, default.go) -/
inductive Ans where
  | continue
  | code (c : Code)
  /-- a buffer or header map, or nil -/
  | data (d : Option Nat)
  | text (s : String) (c : Code)
  | num (n : Int) (c : Code)
  | panic
deriving Repr, DecidableEq

/-- `time.Now().Nanosecond()` (default.go:64): the offset within the second, [0, 999999999] -/
def nanosecond (now : Nat) : Nat := now % 1000000000

/-- default.go:30-229: the methods `HostFunctions` does not define itself -/
def dflt (now : Nat) : Call → Ans
  -- default.go:34-36
  | .wait => .continue
  -- default.go:63-67
  | .getTime => .num (nanosecond now) .ok
  -- all others: panic("… not implemented")
  | _ => .panic

/-- host.go:81-341, the rest from default.go -/
def answer (now : Nat) (p : Props) : Call → Ans
  -- host.go:81-89
  | .getPluginConfig => .data p.pluginConfig
  -- host.go:91-100
  | .log _ => .code .ok
  -- host.go:102-104
  | .foreign _ => .code .unimplemented
  -- host.go:106-118 (the value is that for the normalised key, Wasm/HostProps)
  | .getProperty k => match p.property k with
    | some v => .text v .ok
    | none => .text "" .notFound
  -- host.go:120-126
  | .setProperty _ _ => .code .ok
  -- host.go:128-135
  | .getReqHeader => .data p.reqHeaders
  -- host.go:137-143
  | .getReqBody => .data p.reqBody
  -- host.go:145-151
  | .getRespBody => .data p.respBody
  -- host.go:153-160
  | .getRespHeader => .data p.respHeaders
  -- host.go:162-168
  | .getDownStreamData => .data p.downstream
  -- host.go:170-176
  | .getUpstreamData => .data p.upstream
  -- host.go:178-197
  | .sendHttpResp _ => if p.respHeaders.isSome then .code .ok else .code .notFound
  -- host.go:199-240
  | .setEffectiveContextID id =>
    if !p.hasRoot || !p.hasPlugin then .code .internalFailure
    else if id = p.rootID ∨ id ∈ p.contexts then .code .ok else .code .notFound
  -- host.go:242-292 (a period of 0 or less makes the goroutine panic: Wasm/Ticker)
  | .setTickPeriod _ => if !p.hasRoot || !p.hasPlugin then .code .internalFailure else .code .ok
  -- host.go:294-302
  | .done => .code .ok
  -- host.go:304-315
  | .defineMetric => match p.metrics with
    | none => .num 0 .unimplemented
    | some (n, _) => if n < 0 then .num n .internalFailure else .num n .ok
  -- host.go:317-328
  | .recordMetric id => match p.metrics with
    | none => .code .notFound
    | some (_, l) => if id ∈ l then .code .ok else .code .notFound
  -- host.go:330-341
  | .incrementMetric id => match p.metrics with
    | none => .code .notFound
    | some (_, l) => if id ∈ l then .code .ok else .code .notFound
  | c => dflt now c

/-- the verbosity a message of a filter is logged at (host.go:91-97): 0 is what is always shown -/
def verbosity (level : Int) : Int := if level < 2 then 2 - level else 0

/-- a filter measuring time: the difference of two readings of the clock (specification; models no code) -/
def elapsed (t0 t1 : Nat) (p : Props) : Option Int :=
  match answer t0 p .getTime, answer t1 p .getTime with
  | .num a .ok, .num b .ok => some (b - a)
  | _, _ => none

end Verif.Wasm.HostAbi
