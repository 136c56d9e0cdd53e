import Verif.Exp.NioKey
/-
Model of experimental/java/main.go, part 2: asynchronous reading from and writing to a connection.
A key stands for a selector together with a key id in it. Not modelled: logging; other connections of the selector appear
only through the queue (`RAct.other`). Simplifications: `StartAsyncRead` and `StartAsyncWrite` (swap of the progress flag,
registration and start of the goroutine) are one step; `AsyncRead`'s end-of-file check and its read from the buffer are one
step; the scan of the readers in `Select` is one step; the channel of a connection is closed by whoever sets `eof`
(`setEofReceived`, main.go:508-512), so the two are one flag.
-/
namespace Verif.Nio
open Verif Verif.Kafka

/-! ### reading -/

/-- where a reader goroutine (main.go:387-432) is -/
inductive RPhase where
  | notify                 -- main.go:390-395
  | reading                -- main.go:396
  | got (chunk : Bytes)    -- main.go:415-419
  | eofStore               -- main.go:401, 409: readInProgress.Store(false)
  | eofDelete              -- main.go:430
  | finished
deriving DecidableEq, Repr

/-- state of the reading side of a `Connection` (experimental/java/main.go:87-100) with its selector, the network and ghost fields -/
structure RSt where
  /-- bytes from the peer that have not been read from the network -/
  net : Bytes := []
  /-- the peer has closed its side: after `net` reads return io.EOF -/
  peerDone : Bool := false
  /-- the connection is closed, reset or broken: reads return an error of the kind that ends the reader, from now on -/
  dead : Bool := false
  terminated : Bool := false
  eof : Bool := false
  buf : Bytes := []
  /-- (key, phase) of the readers, oldest first -/
  readers : List (Nat × RPhase) := []
  inProg : Nat → Option Bool := fun _ => none
  registered : List Nat := []
  queue : List Nat := []
  /-- ghost: everything the peer sent, everything AsyncRead returned -/
  rcvd : Bytes := []
  delivered : Bytes := []
  /-- ghost: AsyncRead returned -1 -/
  sawEof : Bool := false

/-- the atomic steps of experimental/java/main.go:370-433, experimental/java/main.go:435-445, experimental/java/main.go:515-526, experimental/java/main.go:145-209 and of the environment -/
inductive RAct where
  | peer (b : Bytes)
  | peerClose
  /-- reset or TLS record error (main.go:398-410) -/
  | fail
  /-- main.go:370-388 `StartAsyncRead` -/
  | start (key : Nat)
  | notify (i : Nat)
  /-- main.go:396: a read of `n` bytes -/
  | read (i n : Nat)
  /-- main.go:397-402: a read that ends the reader -/
  | readEnd (i : Nat)
  /-- main.go:404, 412: another error: the loop continues -/
  | readErr (i : Nat)
  | store (i : Nat)
  | endStore (i : Nat)
  | endDelete (i : Nat)
  /-- main.go:435-445 `AsyncRead` with a slice of `n` bytes -/
  | asyncRead (n : Nat)
  /-- main.go:155-167: the readers part of `Select` -/
  | scan
  /-- main.go:184-197: the queue is emptied -/
  | drain
  /-- an event of another connection is queued -/
  | other (k : Nat)
  /-- main.go:515-521 `Close`: terminated and end of file -/
  | close
  /-- main.go:522: the network connection is closed -/
  | connClose

/-- function update; models no code -/
def updO {α : Type} (f : Nat → α) (k : Nat) (a : α) : Nat → α := fun x => if x = k then a else f x

/-- no read will return data any more; (specification; models no code) -/
def RSt.over (s : RSt) : Prop := s.dead = true ∨ (s.peerDone = true ∧ s.net = [])

instance (s : RSt) : Decidable s.over := by unfold RSt.over; infer_instance

/-- replaces the phase of one reader goroutine; models no code -/
def setR (l : List (Nat × RPhase)) (i : Nat) (p : RPhase) : List (Nat × RPhase) := l.modify i fun r => (r.1, p)

/-- main.go:156-167: one key of the readers: queue it if its buffer holds data, drop it if its reader has ended -/
def scanKey (s : RSt) (k : Nat) : RSt :=
  if s.buf ≠ [] then { s with queue := offer s.queue (newKey opRead k) }
  else if s.inProg k = some false then
    { s with registered := s.registered.filter (· ≠ k), inProg := updO s.inProg k none }
  else s

/-- the transition relation of the steps of `RAct`; the lines are cited at the constructors of `RPhase` and `RAct` -/
def rexec (s : RSt) : RAct → Option RSt
  | .peer b => if s.peerDone then none else some { s with net := s.net ++ b, rcvd := s.rcvd ++ b }
  | .peerClose => some { s with peerDone := true }
  | .fail => some { s with dead := true }
  | .start k =>
    if s.inProg k = some true then some s
    else some { s with
      inProg := updO s.inProg k (some true), readers := s.readers ++ [(k, .notify)],
      registered := if k ∈ s.registered then s.registered else s.registered ++ [k] }
  | .notify i => match s.readers[i]? with
    | some (k, .notify) => some { s with
        queue := if s.buf ≠ [] then offer s.queue (newKey opRead k) else s.queue, readers := setR s.readers i .reading }
    | _ => none
  | .read i n => match s.readers[i]? with
    | some (_, .reading) =>
      if s.dead = false ∧ 0 < n ∧ n ≤ 1024 ∧ n ≤ s.net.length then
        some { s with net := s.net.drop n, readers := setR s.readers i (.got (s.net.take n)) }
      else none
    | _ => none
  | .readEnd i => match s.readers[i]? with
    | some (_, .reading) => if s.over then some { s with eof := true, readers := setR s.readers i .eofStore } else none
    | _ => none
  | .readErr i => match s.readers[i]? with
    | some (_, .reading) => some { s with readers := setR s.readers i .notify }
    | _ => none
  | .store i => match s.readers[i]? with
    | some (_, .got c) => some { s with buf := s.buf ++ c, readers := setR s.readers i .notify }
    | _ => none
  | .endStore i => match s.readers[i]? with
    | some (k, .eofStore) => some { s with inProg := updO s.inProg k (some false), readers := setR s.readers i .eofDelete }
    | _ => none
  | .endDelete i => match s.readers[i]? with
    | some (k, .eofDelete) => some { s with inProg := updO s.inProg k none, readers := setR s.readers i .finished }
    | _ => none
  | .asyncRead n =>
    if s.eof then some { s with sawEof := true }
    else some { s with buf := s.buf.drop n, delivered := s.delivered ++ s.buf.take n }
  | .scan => some (s.registered.foldl scanKey s)
  | .drain => some { s with queue := [] }
  | .other k => some { s with queue := offer s.queue k }
  | .close => some { s with terminated := true, eof := true }
  | .connClose => if s.terminated then some { s with dead := true } else none

/-- a run of steps; models no code -/
def rruns : List RAct → RSt → Option RSt
  | [], s => some s
  | a :: as, s => (rexec s a).bind (rruns as)

/-! ### writing -/

/-- main.go:47 -/
def maxWriteBuffers : Nat := 64

/-- where a writer goroutine (main.go:468-496) is -/
inductive WPhase where
  | take                   -- main.go:470: next buffer
  | write (buff : Bytes)   -- main.go:472
  | endStore               -- main.go:475, 480: writeInProgress.Store(false)
  | endDelete              -- main.go:493-494
  | finished
deriving DecidableEq, Repr

/-- state of the writing side of a `Connection` (experimental/java/main.go:87-100) with its selector and ghost fields -/
structure WSt where
  chan : List Bytes := []
  eof : Bool := false
  terminated : Bool := false
  /-- every write fails from now on -/
  dead : Bool := false
  writers : List (Nat × WPhase) := []
  inProg : Nat → Option Bool := fun _ => none
  registered : List Nat := []
  /-- AsyncWrite calls between the end-of-file check and the send -/
  calls : List Bytes := []
  /-- a send on the closed channel -/
  crashed : Bool := false
  /-- ghost: bytes AsyncWrite has accepted; bytes that went out -/
  accepted : Bytes := []
  wire : Bytes := []

/-- the atomic steps of experimental/java/main.go:447-497, experimental/java/main.go:528-541 and of the environment -/
inductive WAct where
  /-- main.go:528-534: the check at the beginning of `AsyncWrite` -/
  | call (b : Bytes)
  /-- main.go:535-540: the send -/
  | send (i : Nat)
  /-- main.go:447-468 `StartAsyncWrite` -/
  | start (key : Nat)
  | next (i : Nat)
  /-- main.go:472: a write of `n` bytes without error -/
  | wrote (i n : Nat)
  /-- main.go:473-486: a write of `n` bytes with an error: io.EOF or another one; `perm`: writes fail from now on -/
  | failed (i n : Nat) (isEof perm : Bool)
  | endStore (i : Nat)
  | endDelete (i : Nat)
  /-- the reader has seen the end of the stream (main.go:400, 408) -/
  | readEof
  | close
  | connClose
  /-- main.go:215-217 `UnregisterWriter` -/
  | unregister (k : Nat)

/-- replaces the phase of one writer goroutine; models no code -/
def setW (l : List (Nat × WPhase)) (i : Nat) (p : WPhase) : List (Nat × WPhase) := l.modify i fun r => (r.1, p)

/-- the transition relation of the steps of `WAct`; the lines are cited at the constructors of `WPhase` and `WAct` -/
def wexec (s : WSt) : WAct → Option WSt
  | .call b => if s.eof then some s else some { s with calls := s.calls ++ [b] }
  | .send i => match s.calls[i]? with
    | none => none
    | some b =>
      if s.eof then some { s with crashed := true, calls := s.calls.eraseIdx i }
      else if s.chan.length < maxWriteBuffers then
        some { s with chan := s.chan ++ [b], accepted := s.accepted ++ b, calls := s.calls.eraseIdx i }
      else some { s with calls := s.calls.eraseIdx i }
  | .start k =>
    if s.inProg k = some true then some { s with registered := if k ∈ s.registered then s.registered else s.registered ++ [k] }
    else some { s with
      inProg := updO s.inProg k (some true), writers := s.writers ++ [(k, .take)],
      registered := if k ∈ s.registered then s.registered else s.registered ++ [k] }
  | .next i => match s.writers[i]? with
    | some (_, .take) => match s.chan with
      | b :: r => some { s with chan := r, writers := setW s.writers i (.write b) }
      | [] => if s.eof then some { s with writers := setW s.writers i .endDelete } else none
    | _ => none
  | .wrote i n => match s.writers[i]? with
    | some (_, .write b) =>
      if s.dead = false ∧ n ≤ b.length then
        some { s with wire := s.wire ++ b.take n, writers := setW s.writers i (if n = b.length then .take else .write (b.drop n)) }
      else none
    | _ => none
  | .failed i n isEof perm => match s.writers[i]? with
    | some (_, .write b) =>
      if n ≤ b.length then
        if s.terminated then
          some { s with wire := s.wire ++ b.take n, dead := s.dead || perm, writers := setW s.writers i .endStore }
        else if isEof then
          some { s with wire := s.wire ++ b.take n, dead := s.dead || perm, eof := true, writers := setW s.writers i .endStore }
        else some { s with wire := s.wire ++ b.take n, dead := s.dead || perm }
      else none
    | _ => none
  | .endStore i => match s.writers[i]? with
    | some (k, .endStore) => some { s with inProg := updO s.inProg k (some false), writers := setW s.writers i .endDelete }
    | _ => none
  | .endDelete i => match s.writers[i]? with
    | some (k, .endDelete) => some { s with
        inProg := updO s.inProg k none, registered := s.registered.filter (· ≠ k), writers := setW s.writers i .finished }
    | _ => none
  | .readEof => some { s with eof := true }
  | .close => some { s with terminated := true, eof := true }
  | .connClose => if s.terminated then some { s with dead := true } else none
  | .unregister k => some { s with registered := s.registered.filter (· ≠ k) }

/-- a run of steps; models no code -/
def wruns : List WAct → WSt → Option WSt
  | [], s => some s
  | a :: as, s => (wexec s a).bind (wruns as)

end Verif.Nio
