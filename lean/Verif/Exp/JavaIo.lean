import Verif.Base
/-
Model of how Java programs read and write NASP connections. All files are in
experimental/java/examples/nio-java/src/main/java/com/ciscoopen/app: `NaspSocketChannel.java` (`read`, `write`, the gathering `write`),
`NaspSocketInputStream.java`, `NaspSocketOutputStream.java` (the same code is in ../tcp-java as WrappedInputStream.java and WrappedOutputStream.java).

The connection is what it answers (experimental/java/main.go:435-445, 528-549): an asynchronous read gives at most as many bytes as asked for, or reports the end;
an asynchronous write accepts some of the bytes given (all or none of them in main.go:528-541; any beginning here); a plain read gives at most as many bytes as
asked for or an error. `ByteBuffer` is modelled with position and limit, without mark and capacity; numbers are unbounded.
-/
namespace Verif.Exp.JavaIo

/-- a `java.nio.ByteBuffer` (environment of NaspSocketChannel.java:158-230) -/
structure Buf where
  data : Bytes
  pos : Nat
  lim : Nat
deriving Repr, DecidableEq

/-- position and limit are in order (environment: the JDK; NaspSocketChannel.java:158-230) -/
def Buf.ok (b : Buf) : Prop := b.pos ≤ b.lim ∧ b.lim ≤ b.data.length

/-- `remaining` (JDK; used in NaspSocketChannel.java:160, 184) -/
def Buf.remaining (b : Buf) : Nat := b.lim - b.pos

/-- the bytes between position and limit (JDK; NaspSocketChannel.java:190-191) -/
def Buf.content (b : Buf) : Bytes := (b.data.take b.lim).drop b.pos

/-- `put(buff, 0, num)` (JDK; NaspSocketChannel.java:165) -/
def Buf.put (b : Buf) (bs : Bytes) : Buf := { b with data := b.data.take b.pos ++ bs ++ b.data.drop (b.pos + bs.length), pos := b.pos + bs.length }

/-- the answer to `asyncRead` (experimental/java/main.go:435-445) -/
inductive Got where
  | eof
  | bytes (bs : Bytes)
deriving Repr, DecidableEq

/-- `read(ByteBuffer)` (NaspSocketChannel.java:157-171); `conn n` is the answer when `n` bytes are asked for. The result is the number returned -/
def chRead (conn : Nat → Got) (dst : Buf) : Buf × Int :=
  match conn dst.remaining with
  | .eof => (dst, -1)
  | .bytes bs => (dst.put bs, bs.length)

/-- `write(ByteBuffer)` (NaspSocketChannel.java:181-201); `k`: how many bytes `asyncWrite` accepts at most. The buffer, the bytes accepted and the number returned -/
def chWrite (k : Nat) (src : Buf) : Buf × Bytes × Nat :=
  let rem := src.remaining
  if rem = 0 then (src, [], 0)
  else
    let temp := (src.data.drop src.pos).take rem
    let src1 := { src with pos := src.pos + rem }
    let written := min k rem
    (if written < rem then { src1 with pos := src.pos + written } else src1, temp.take written, written)

/-- the loop of the gathering `write` (NaspSocketChannel.java:212-227) over the buffers from `offset` to `offset + length`; `ks`: what the calls of `asyncWrite`
accept at most -/
def gatherLoop : List Nat → List Buf → List Buf × Bytes × Nat
  | _, [] => ([], [], 0)
  | ks, b :: rest =>
    if b.remaining = 0 then
      let (rest', acc, n) := gatherLoop ks rest
      (b :: rest', acc, n)
    else
      let (b', acc, n) := chWrite (ks.headD 0) b
      if n < b.remaining then (b' :: rest, acc, n)
      else
        let (rest', acc', n') := gatherLoop ks.tail rest
        (b' :: rest', acc ++ acc', n + n')

/-- `write(ByteBuffer[], int, int)` (NaspSocketChannel.java:208-229); `none`: the indices are out of range -/
def gather (ks : List Nat) (srcs : List Buf) (offset length : Nat) : Option (List Buf × Bytes × Nat) :=
  if offset + length ≤ srcs.length then
    let (mid, acc, n) := gatherLoop ks ((srcs.drop offset).take length)
    some (srcs.take offset ++ mid ++ srcs.drop (offset + length), acc, n)
  else none

/-! ### streams -/

/-- the answer of the connection to a plain read (experimental/java/main.go:543-545): bytes, the end, or an error; an error hides the bytes that came with it -/
inductive Ans where
  | bytes (bs : Bytes)
  | eof
  | error
deriving Repr, DecidableEq

/-- what a call of a stream does: returns a number, or throws an `IOException` (NaspSocketInputStream.java:16-38) -/
inductive Ret where
  | num (n : Int)
  | ioException
deriving Repr, DecidableEq

/-- `read(byte[], int, int)` (NaspSocketInputStream.java:20-38): the array afterwards and the result; `conn n`: the answer for an array of `n` bytes -/
def isRead (conn : Nat → Ans) (b : Bytes) (_off len : Nat) : Bytes × Ret :=
  if b.length < len then (b, .ioException)
  else if b.length = len then
    match conn len with
    | .bytes bs => (bs ++ b.drop bs.length, .num bs.length)
    | .eof => (b, .num (-1))
    | .error => (b, .ioException)
  else
    -- the bytes go to a copy
    match conn len with
    | .bytes bs => (b, .num bs.length)
    | .eof => (b, .num (-1))
    | .error => (b, .ioException)

/-- `read()` (NaspSocketInputStream.java:15-18) -/
def isReadByte (conn : Nat → Ans) : Ret := (isRead conn [0] 0 0).2

/-- `write(byte[], int, int)` (NaspSocketOutputStream.java:22-30): the bytes given to the connection, or none if the copy fails -/
def osWrite (b : Bytes) (_off len : Nat) : Option Bytes :=
  if len ≤ b.length then some (b.take len ++ List.replicate (b.length - len) 0) else none

/-- `write(int)` (NaspSocketOutputStream.java:16-19) -/
def osWriteByte (b : Nat) : Option Bytes := osWrite [UInt8.ofNat b] 0 1

end Verif.Exp.JavaIo
