import Verif.Base
/-
Model of the readers and writers of compressed record batches: components/kafka-protocol-go/pkg/compression/gzip/gzip.go (`Reader.Read`, `ReadByte`,
`fillInternalBuf`) and pkg/compression/snappy/snappy.go (`NewReader`, `Writer`).

Not modelled: the compression itself (compress/gzip, go-xerial-snappy), lz4.go and zstd.go, which only create the readers and writers of libraries.
`compress/gzip`'s reader is a source of bytes that may return fewer than asked for, at least one, and ends with io.EOF or an error, with its last
bytes or after them. The buffer `buf[r:w]` of the reader is a list: `r` and `w` are set to 0 whenever they meet, so whenever the buffer is filled
it is filled from its start.
-/
namespace Verif.Kafka.Gzip
open Verif

/-- how a stream ends; (errors of Go `gzip.Reader`) -/
inductive End where
  | eof | fail
deriving Repr, DecidableEq

/-- gzip.Reader: the bytes still to come, how many it returns at a time (at least one, at most what is asked for), how it ends, and whether it says so
together with the last bytes; (the Go standard library by contract) -/
structure Src where
  data : Bytes
  sizes : List Nat
  fin : End
  together : Bool
deriving Repr, DecidableEq

/-- how many bytes a read of Go `gzip.Reader` returns -/
def Src.count (s : Src) (n : Nat) : Nat := max 1 (min (s.sizes.headD n) (min n s.data.length))

/-- `gzip.Reader.Read` into `n` > 0 bytes; (the Go standard library by contract) -/
def Src.read (s : Src) (n : Nat) : Bytes × Option End × Src :=
  if s.data = [] then ([], some s.fin, s)
  else (s.data.take (s.count n), if s.data.drop (s.count n) = [] && s.together then some s.fin else none,
    { s with data := s.data.drop (s.count n), sizes := s.sizes.drop 1 })

/-- gzip.go:29 -/
def bufLen : Nat := 16 * 1024

theorem read_shorter {s s' : Src} {n : Nat} {out : Bytes} (h : s.read n = (out, none, s')) : s'.data.length < s.data.length := by
  unfold Src.read at h
  by_cases hd : s.data = []
  · rw [if_pos hd] at h; cases h
  · rw [if_neg hd] at h
    injection h with _ h; injection h with _ h
    rw [← h]
    show (s.data.drop (s.count n)).length < s.data.length
    have h1 : 0 < s.data.length := List.length_pos_iff.mpr hd
    have h2 : 1 ≤ s.count n := Nat.le_max_left ..
    rw [List.length_drop]; omega

/-- gzip.go:108-125 `fillInternalBuf`: the buffer, what is left, and whether an error is returned -/
def fill (buf : Bytes) (s : Src) : Bytes × Src × Bool :=
  if bufLen ≤ buf.length then (buf, s, false)
  else match h : s.read (bufLen - buf.length) with
    | (out, none, s') => fill (buf ++ out) s'
    | (out, some .eof, s') => (buf ++ out, s', false)
    | (out, some .fail, s') => (buf ++ out, s', true)
termination_by s.data.length
decreasing_by exact read_shorter h

/-- `reader` (components/kafka-protocol-go/pkg/compression/gzip/gzip.go:26-31) -/
structure St where
  buf : Bytes := []
  src : Src

/-- gzip.go:64-79 and 86-105: the buffer has been filled -/
def afterFill (copied : Bytes) (p : Nat) (r : Bytes × Src × Bool) : Bytes × Option End × St := match r with
  -- 65-67: what has been copied is not counted
  | (b, s, true) => ([], some .fail, ⟨b, s⟩)
  | (b, s, false) => if b = [] then (copied, some .eof, ⟨[], s⟩) else (copied ++ b.take p, none, ⟨b.drop p, s⟩)

/-- gzip.go:33-79 `Read` into `p` bytes: the bytes reported as read and the error -/
def gread (st : St) (p : Nat) : Bytes × Option End × St :=
  if p = 0 then ([], none, st)
  else if st.buf ≠ [] ∧ p ≤ st.buf.length then (st.buf.take p, none, { st with buf := st.buf.drop p })
  else if bufLen ≤ p - st.buf.length then
    let r := st.src.read (p - st.buf.length)
    (st.buf ++ r.1, r.2.1, ⟨[], r.2.2⟩)
  else afterFill st.buf (p - st.buf.length) (fill [] st.src)

/-- gzip.go:81-106 `ReadByte` -/
def readByte (st : St) : Bytes × Option End × St :=
  if st.buf ≠ [] then (st.buf.take 1, none, { st with buf := st.buf.drop 1 })
  else afterFill [] 1 (fill [] st.src)

/-- a call of Read or ReadByte (components/kafka-protocol-go/pkg/compression/gzip/gzip.go:33-79, components/kafka-protocol-go/pkg/compression/gzip/gzip.go:81-105) -/
inductive Op where
  | read (p : Nat)
  | byte
deriving Repr, DecidableEq

/-- (models no code of its own) -/
def Op.run (st : St) : Op → Bytes × Option End × St
  | .read p => gread st p
  | .byte => readByte st

/-- a sequence of reads: all bytes reported, the errors, newest first; (models no code of its own) -/
def runOps : St → List Op → Bytes × List (Option End) × St
  | st, [] => ([], [], st)
  | st, o :: r =>
    let a := o.run st
    let b := runOps a.2.2 r
    (a.1 ++ b.1, a.2.1 :: b.2.1, b.2.2)

/-! ### snappy -/

/-- snappy.go:43-47: a writer -/
structure Writer where
  buf : Bytes := []
  /-- what the slice below has received -/
  out : Bytes := []
deriving Repr, DecidableEq

/-- snappy.go:49-67 `Write` (the loop ends after one step: `bytes.Buffer` takes everything) -/
def Writer.write (w : Writer) (p : Bytes) : Writer := { w with buf := w.buf ++ p }

/-- snappy.go:69-87 `Close`, `flush`; `encode`: go-xerial-snappy `EncodeStream` -/
def Writer.close (encode : Bytes → Bytes) (w : Writer) : Writer := { buf := [], out := w.out ++ encode w.buf }

/-- snappy.go:28-41 `NewReader`: everything is decoded at once -/
def snappyRead (decode : Bytes → Option (Bytes)) (b : Bytes) : Option (Bytes) := decode b

end Verif.Kafka.Gzip
