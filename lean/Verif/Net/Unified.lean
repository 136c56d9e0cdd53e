/-
The listener that accepts TLS and plain text on one port: pkg/network/listener/unified_tls_listener.go.

The connection is a stream of bytes that arrive in chunks and then ends, fails or stays silent.
`bufio.Reader` (default size 4096) is modelled from its documentation and source: `Peek` fills the buffer by
repeated reads, `Read` empties the buffer before it reads the connection again.
Not modelled: TLS itself (the TLS connection reads the stream through the returned connection), the
connection wrapper, deadlines.
-/
import Verif.Base

namespace Verif.Unified

/-- how a connection ends (environment) -/
inductive Fin where
  | eof
  | err
  /-- the peer sends nothing more and does not close -/
  | silent
deriving DecidableEq, Repr

/-- A connection: chunks that will arrive (none is empty), then its end. (pkg/network/listener/unified_tls_listener.go) -/
structure Src where
  chunks : List (List Nat)
  fin : Fin
deriving DecidableEq, Repr

/-- specification; models no code -/
def Src.bytes (s : Src) : List Nat := s.chunks.flatten

/-- Result of a read: data, an error, or it does not return. the result of a call (pkg/network/listener/unified_tls_listener.go), an error or a panic -/
inductive Rd where
  | data (b : List Nat)
  | eof
  | err
  | blocked
deriving DecidableEq, Repr

/-- as used in pkg/network/listener/unified_tls_listener.go -/
def Fin.rd : Fin → Rd
  | .eof => .eof
  | .err => .err
  | .silent => .blocked

/-- `net.Conn.Read` into `k > 0` bytes. (Go's net package) -/
def Src.read (s : Src) (k : Nat) : Rd × Src := match s.chunks with
  | [] => (s.fin.rd, s)
  | c :: cs => (.data (c.take k), { s with chunks := if c.drop k = [] then cs else c.drop k :: cs })

/-- `unifiedConn`: the buffer and the connection. (pkg/network/listener/unified_tls_listener.go) -/
structure Conn where
  buf : List Nat
  src : Src
deriving DecidableEq, Repr

/-- the default size of `bufio.Reader` -/
def bufSize : Nat := 4096

/-- `bufio.Reader.Peek(n)`: reads until `n` bytes are buffered or an error occurs. The fuel is the
number of reads left; every read brings at least one byte. (Go's bufio package) -/
def peek (n : Nat) : Nat → Conn → Rd × Conn
  | 0, c => (.err, c)
  | fuel + 1, c =>
    if n ≤ c.buf.length then (.data (c.buf.take n), c) else
    match c.src.read (bufSize - c.buf.length) with
    | (.data b, src) => peek n fuel { buf := c.buf ++ b, src := src }
    | (r, src) => (r, { c with src := src })

/-- `unifiedConn.Read` (unified_tls_listener.go:56-58), that is `bufio.Reader.Read` into `k` bytes. -/
def Conn.read (c : Conn) (k : Nat) : Rd × Conn :=
  match c.buf with
  | [] =>
    if bufSize ≤ k then
      let (r, src) := c.src.read k
      (r, { c with src := src })
    else match c.src.read bufSize with
      | (.data b, src) => (.data (b.take k), { buf := b.drop k, src := src })
      | (r, src) => (r, { c with src := src })
  | buf => (.data (buf.take k), { c with buf := buf.drop k })

/-- as used in pkg/network/listener/unified_tls_listener.go -/
inductive Mode where
  | strict | permissive | disabled
  /-- any other string -/
  | other
deriving DecidableEq, Repr

/-- `isTLSHandhsake` (unified_tls_listener.go:37-48). -/
def isTLS (b : List Nat) : Bool := match b with
  | b0 :: b1 :: b2 :: _ =>
    if b0 != 22 then false else
    let v := b1 * 256 + b2
    v == 0x0301 || v == 0x0302 || v == 0x0303 || v == 0x0304
  | _ => false

/-- What `Accept` hands out, or that it does not return. (pkg/network/listener/unified_tls_listener.go) -/
inductive Accepted where
  | tls (c : Conn)
  | plain (c : Conn)
  /-- a closed connection, without an error -/
  | closed
  | error
  | blocked
deriving DecidableEq, Repr

/-- `Accept` (unified_tls_listener.go:136-184), after the inner listener accepted `src`. -/
def accept (mode : Mode) (src : Src) : Accepted := match mode with
  | .permissive => match peek 3 4 { buf := [], src := src } with
    | (.data hdr, c) => if isTLS hdr then .tls c else .plain c
    | (.eof, _) => .closed
    | (.err, _) => .error
    | (.blocked, _) => .blocked
  | .disabled => .plain { buf := [], src := src }
  | _ => .tls { buf := [], src := src }

/-- Successive reads with buffers of the given sizes, until one does not give data. specification / ghost trace; models no code -/
def readAll : Conn → List Nat → List (List Nat) × Conn
  | c, [] => ([], c)
  | c, k :: ks => match c.read k with
    | (.data b, c') => let (bs, c'') := readAll c' ks; (b :: bs, c'')
    | (_, c') => ([], c')

end Verif.Unified
