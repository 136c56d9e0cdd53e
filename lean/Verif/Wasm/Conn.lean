import Verif.Base
/-
Model of the filtered TCP connection `/repo/pkg/proxywasm/tcp/conn.go` (`Read`, `read`,
`Write`, `Close`).

* The underlying connection is a list of what its `Read` will return (`NetEv`: bytes together
  with an optional error); a chunk longer than the buffer handed to it is split.  An exhausted
  list means that `Read` would block.
* The filters do not modify the data buffers ("let data pass"); what each filter chain call
  answers (continue, pause, error) is an arbitrary list, consumed one by one.
* `Read` and `Write` are each serialized by their mutex (conn.go:115,192), so histories are
  sequences of calls.  `setConnectionState` is not modelled.  Only the length of the caller's
  buffer is modelled, with `cap(b) = len(b)`.
-/
namespace Verif.Wasm

/-- Errors. the result of a call (pkg/proxywasm/tcp/conn.go), an error or a panic -/
inductive RErr
  | eof | net | filter
deriving Repr, DecidableEq

/-- One future result of the underlying `Conn.Read`. (pkg/proxywasm/tcp/conn.go) -/
structure NetEv where
  bytes : Bytes
  err : Option RErr
deriving Repr, DecidableEq

/-- Answer of `HandleUpstreamData`/`HandleDownstreamData`. the result of a call (pkg/proxywasm/tcp/conn.go), an error or a panic -/
inductive FAns
  | cont | pause | err
deriving Repr, DecidableEq

/-- The reading half of `wrappedConn` (conn.go:37-53). -/
structure RdSt where
  /-- `readCacheBuffer` -/
  cache : Bytes
  /-- `readBuffer` -/
  rbuf : Bytes
  /-- `len(internalBuffer)` -/
  ibuf : Nat
  closed : Bool
  net : List NetEv
  filt : List FAns
deriving Repr, DecidableEq

/-- `NewWrappedConn` (conn.go:55-72), `internalBufferSize = 2048`. -/
def RdSt.init (net : List NetEv) (filt : List FAns) : RdSt :=
  { cache := [], rbuf := [], ibuf := 2048, closed := false, net := net, filt := filt }

/-- The underlying connection's `Read` with a buffer of `k` bytes. (pkg/proxywasm/tcp/conn.go) -/
def netRead (k : Nat) : List NetEv → Option (NetEv × List NetEv)
  | [] => none
  | ev :: rest =>
    if ev.bytes.length ≤ k then some (ev, rest)
    else some (⟨ev.bytes.take k, none⟩, ⟨ev.bytes.drop k, ev.err⟩ :: rest)

/-- How the loop of `read` ends: with an error to be returned at once (conn.go:147-169), or
normally with `netErr` (conn.go:171-173). -/
inductive LoopRes
  | fail (e : RErr)
  | done (netErr : Option RErr)
deriving Repr, DecidableEq

/-- The loop of `read` (conn.go:142-174), recursing on the filter answers: one is consumed per
iteration.  `none`: blocked. -/
def readLoop (k : Nat) : List FAns → Bytes → List NetEv →
    Option (LoopRes × Bytes × List NetEv × List FAns)
  | fs, rbuf, net =>
    match netRead k net with
    | none => none
    | some (ev, net') =>
      match ev.err with
      | some .net => some (.fail .net, rbuf, net', fs)
      | some .filter => some (.fail .filter, rbuf, net', fs)
      | e =>
        match fs with
        | [] => none
        | f :: fs' =>
          let rbuf' := rbuf ++ ev.bytes
          match f with
          | .err => some (.fail .filter, rbuf', net', fs')
          | .cont => some (.done e, rbuf', net', fs')
          | .pause => if e = some .eof then some (.done e, rbuf', net', fs')
                      else readLoop k fs' rbuf' net'

/-- `read` with a buffer of `len` bytes (conn.go:114-189): new state, bytes put into the
buffer, error. -/
def RdSt.read1 (st : RdSt) (len : Nat) : Option (RdSt × Bytes × Option RErr) :=
  if st.closed then some (st, [], some .eof)
  else
    let x := st.cache.take len
    let cache := st.cache.drop len
    if x.length = len then some ({ st with cache := cache }, x, none)
    else
      let k := if st.ibuf < len then len else st.ibuf
      match readLoop k st.filt st.rbuf st.net with
      | none => none
      | some (.fail e, rbuf, net, fs) =>
        some ({ st with cache := cache, rbuf := rbuf, ibuf := k, net := net, filt := fs }, x, some e)
      | some (.done e, rbuf, net, fs) =>
        let y := rbuf.take (len - x.length)
        some ({ st with cache := cache ++ rbuf.drop (len - x.length), rbuf := [], ibuf := k
                        net := net, filt := fs }, x ++ y, e)

/-- `Read` (conn.go:102-112): another attempt if nothing was read without an error. -/
def RdSt.read (st : RdSt) (len : Nat) : Option (RdSt × Bytes × Option RErr) :=
  match st.read1 len with
  | none => none
  | some (st', out, e) => if out.length = 0 ∧ e = none then st'.read1 len else some (st', out, e)

/-- A sequence of `Read` calls with buffers of the given sizes. specification / ghost trace; models no code -/
def RdSt.reads (st : RdSt) : List Nat → Option (RdSt × List (Bytes × Option RErr))
  | [] => some (st, [])
  | n :: ns =>
    match st.read n with
    | none => none
    | some (st', out, e) =>
      match st'.reads ns with
      | none => none
      | some (st'', outs) => some (st'', (out, e) :: outs)

/-- All bytes the underlying connection will deliver. specification / ghost trace; models no code -/
def netBytes (net : List NetEv) : Bytes := (net.map (·.bytes)).flatten

/-! ### Writing -/

/-- The writing half.  `wire`: the bytes the underlying `Conn.Write` accepted; `fails`: what
each of its calls will answer (`true`: error, nothing accepted). (pkg/proxywasm/tcp/conn.go) -/
structure WrSt where
  /-- `writeBuffer` -/
  wbuf : Bytes
  closed : Bool
  wire : Bytes
  fails : List Bool
  filt : List FAns
deriving Repr, DecidableEq

/-- the state of pkg/proxywasm/tcp/conn.go, with the environment and ghost fields -/
def WrSt.init (fails : List Bool) (filt : List FAns) : WrSt :=
  { wbuf := [], closed := false, wire := [], fails := fails, filt := filt }

/-- The flush loop (conn.go:221-230), `internalWriteBufferSize = 4096`. -/
def flushLoop (n : Nat) (wbuf wire : Bytes) (fails : List Bool) :
    Option (Bytes × Bytes × List Bool × Nat × Bool) :=
  if wbuf = [] then some ([], wire, fails, n, true)
  else
    match fails with
    | [] => none
    | true :: fs => some (wbuf.drop 4096, wire, fs, 0, false)
    | false :: fs => flushLoop n (wbuf.drop 4096) (wire ++ wbuf.take 4096) fs

/-- `Write` (conn.go:191-231): new state, returned count, success?  -/
def WrSt.write (st : WrSt) (b : Bytes) : Option (WrSt × Nat × Bool) :=
  if st.closed then some (st, 0, false)
  else
    match st.filt with
    | [] => none
    | f :: fs =>
      let wbuf := st.wbuf ++ b
      match f with
      | .err => some ({ st with wbuf := wbuf, filt := fs }, b.length, false)
      | .pause => some ({ st with wbuf := wbuf, filt := fs }, b.length, true)
      | .cont =>
        match flushLoop b.length wbuf st.wire st.fails with
        | none => none
        | some (wbuf', wire', fails', n, ok) =>
          some ({ st with wbuf := wbuf', wire := wire', fails := fails', filt := fs }, n, ok)

/-- `Close` (conn.go:78-100): the write buffer is not flushed. -/
def WrSt.close (st : WrSt) : WrSt := { st with closed := true }

/-- A sequence of `Write` calls. specification / ghost trace; models no code -/
def WrSt.writes (st : WrSt) : List Bytes → Option (WrSt × List (Nat × Bool))
  | [] => some (st, [])
  | b :: bs =>
    match st.write b with
    | none => none
    | some (st', n, ok) =>
      match st'.writes bs with
      | none => none
      | some (st'', rs) => some (st'', (n, ok) :: rs)

end Verif.Wasm
