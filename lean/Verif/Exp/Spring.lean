import Verif.Wasm.Headers
/-
Model of the HTTP server for Spring programs: experimental/spring/spring-boot-nasp/src/main/java/com/cisco/nasp/spring/NaspServerHttpRequest.java (`getBody`) and
NaspServerHttpResponse.java, with what they call in experimental/java/main.go (735-778).

Environment: the body of a request in Go's net/http gives its bytes one after another, and its end either alone or together with the last byte (it does the latter
for a body with a `Content-Length`; for a chunked one it depends on what has arrived), or fails. gobind turns a Go error into an exception, and hands the bytes that
Go wrote into the array back to Java. The JDK: `InputStream.read(byte[], int, int)` calls `read()` for every byte, fails only if the first call fails and otherwise
stops at a failure; a channel on an input stream reads once per buffer. Spring: `readInputStream` reads buffers of 512 bytes until one cannot be filled at all;
a response is committed (headers, then body) when its body is written or it is completed.
-/
namespace Verif.Exp.Spring
open Verif.Heimdall Verif.Wasm.Headers

/-- bytes; a Java `byte[]` (NaspServerHttpRequest.java:61) -/
abbrev Bytes := List UInt8

/-- how the body of a request ends (Go's net/http; NaspServerHttpRequest.java:66-73) -/
inductive End where
  /-- the end comes with the last byte -/
  | together
  /-- the end comes alone -/
  | alone
  /-- the connection fails -/
  | fail
deriving DecidableEq, Repr

/-- a byte as the signed number Java returns (NaspServerHttpRequest.java:67) -/
def signed (b : UInt8) : Int := if b.toNat < 128 then b.toNat else (b.toNat : Int) - 256

/-- `read()` of the body (NaspServerHttpRequest.java:64-74): a number, or nothing for an `IOException`; and what is left of the body -/
def read1 (e : End) : Bytes → Option Int × Bytes
  | [] => (if e = .fail then none else some (-1), [])
  | [b] => if e = .together then (some (-1), []) else (some (signed b), [])
  | b :: r => (some (signed b), r)

/-- what Java makes of a number that stands for a byte: `(byte) c` (JDK, `InputStream.read`, called below NaspServerHttpRequest.java:59) -/
def toByte (c : Int) : UInt8 := UInt8.ofNat (c % 256).toNat

/-- the rest of `read(byte[], int, int)`: up to `n` further bytes, until the end or a failure (JDK) -/
def readMore (e : End) : Nat → Bytes → Bytes × Bytes
  | 0, s => ([], s)
  | n + 1, s => match read1 e s with
    | (some c, s1) => if c = -1 then ([], s1) else let (l, s2) := readMore e n s1; (toByte c :: l, s2)
    | (none, s1) => ([], s1)

/-- what one read of a buffer gives (JDK, NaspServerHttpRequest.java:59-84) -/
inductive Got where
  | bytes (l : Bytes) (rest : Bytes)
  | finished
  | failed
deriving DecidableEq, Repr

/-- `read(byte[], int, int)` for a buffer of `n + 1` bytes (JDK) -/
def readBuf (e : End) (n : Nat) (s : Bytes) : Got :=
  match read1 e s with
  | (some c, s1) => if c = -1 then .finished else let (l, s2) := readMore e n s1; .bytes (toByte c :: l) s2
  | (none, _) => .failed

/-- what the program gets of a body: its bytes, and whether the body ended well (NaspServerHttpRequest.java:57-85). At most `fuel` buffers; every buffer takes at
least one byte, so the length of the body is enough. -/
def readAll (e : End) (n : Nat) : Nat → Bytes → Bytes × Bool
  | 0, _ => ([], false)
  | fuel + 1, s => match readBuf e n s with
    | .finished => ([], true)
    | .failed => ([], false)
    | .bytes l rest => let (l', ok) := readAll e n fuel rest; (l ++ l', ok)

/-- `getBody` (NaspServerHttpRequest.java:57-85): buffers of 512 bytes -/
def getBody (e : End) (s : Bytes) : Bytes × Bool := readAll e 511 (s.length + 1) s

/-! ### responses -/

/-- the response a program makes (Spring's `ServerHttpResponse`; NaspServerHttpResponse.java:25-60) -/
structure Resp where
  status : Option Nat
  /-- names (none twice, in whatever case) with their values -/
  headers : List (Str × List Str)
  /-- values of `Set-Cookie` for the cookies that were added -/
  cookies : List Str
  /-- the buffers of the body; nothing for a response without body -/
  body : List Bytes
deriving Repr

/-- what goes to the client (experimental/java/main.go:759-778) -/
structure Sent where
  status : Nat
  headers : Raw
  body : Bytes
deriving Repr

/-- `applyHeaders` (NaspServerHttpResponse.java:46-55), the headers; `h0` are those that Go has already -/
def applyHeaders (h0 : Raw) : List (Str × List Str) → Raw
  | [] => h0
  | (k, vs) :: r => applyHeaders (vs.foldl (fun m v => add .http m k v) h0) r

/-- the response as it is sent (NaspServerHttpResponse.java:25-60): headers and status, no cookies, and of the body what `Mono.from` takes of it: the first buffer.
Without a status Go sends 200. -/
def Resp.send (h0 : Raw) (r : Resp) : Sent := ⟨r.status.getD 200, applyHeaders h0 r.headers, r.body.headD []⟩

/-- `writeAndFlushWithInternal` (NaspServerHttpResponse.java:37-40) returns null, so that a response written with flushes fails -/
def Resp.sendFlushing (_h0 : Raw) (_r : Resp) : Option Sent := none

end Verif.Exp.Spring
