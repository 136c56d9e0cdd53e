import Verif.Base
/-
Model of components/kafka-protocol-go/pkg/protocol/types/bytes/chunkreader.go: windows on a bytes.Reader, possibly nested.
A (nested) chunk reader is the list of its windows, innermost first; the list is empty for the bytes.Reader itself. All
readers of a nest share the position of the bytes.Reader. ReadRune and UnreadRune are in Runes.lean.
-/
namespace Verif.Kafka
open Verif

/-- Go `bytes.Reader`: the slice and the current index -/
structure BR where
  data : Bytes
  pos : Nat

/-- chunkreader.go:58-64 `ChunkReader` (its parent is the rest of the list) -/
structure Win where
  base : Int
  size : Int

/-- `Size()`: bytes.Reader.Size, chunkreader.go:91 -/
def rSize (d : BR) : List Win → Int
  | [] => d.data.length
  | w :: _ => w.size

/-- `Len()`: bytes.Reader.Len (0 when the index is past the end), chunkreader.go:68-86 -/
def rLen (d : BR) : List Win → Int
  | [] => ((d.data.length - d.pos : Nat) : Int)
  | w :: ws => w.base + w.size - (rSize d ws - rLen d ws)

/-- chunkreader.go:30-54 `NewChunkReader`, `NewSubChunkReader` -/
def newChunk (d : BR) (ws : List Win) (n : Int) : List Win :=
  ⟨rSize d ws - rLen d ws, if rLen d ws < n then rLen d ws else n⟩ :: ws

/-- `Read(b)` with `len(b) = n`: bytes.Reader.Read, chunkreader.go:94-108 -/
def rRead (d : BR) : List Win → Nat → Res Bytes × BR
  | [], n =>
    if d.data.length ≤ d.pos then (.error .eof, d)
    else (.ok ((d.data.drop d.pos).take n), { d with pos := d.pos + min n (d.data.length - d.pos) })
  | w :: ws, n =>
    let rem := rLen d (w :: ws)
    if rem ≤ 0 then (.error .eof, d)
    else rRead d ws (if rem < n then rem.toNat else n)

/-- `ReadByte()`: chunkreader.go:132-142 -/
def rReadByte (d : BR) : List Win → Res Bytes × BR
  | [] => match d.data[d.pos]? with
    | none => (.error .eof, d)
    | some b => (.ok [b], { d with pos := d.pos + 1 })
  | w :: ws => if rLen d (w :: ws) ≤ 0 then (.error .eof, d) else rReadByte d ws

/-- `UnreadByte()`: chunkreader.go:145-169 -/
def rUnreadByte (d : BR) : List Win → Res Unit × BR
  | [] => if d.pos = 0 then (.error .other, d) else (.ok (), { d with pos := d.pos - 1 })
  | w :: ws => if rSize d ws - rLen d ws ≤ w.base then (.error .other, d) else rUnreadByte d ws

/-- `ReadAt(b, off)` with `len(b) = n`: chunkreader.go:111-129; bytes.Reader.ReadAt returns io.EOF for a short read -/
def rReadAt (d : BR) : List Win → Nat → Int → Res Bytes
  | [], n, off =>
    if off < 0 then .error .other
    else if (d.data.length : Int) ≤ off then .error .eof
    else if d.data.length - off.toNat < n then .error .eof
    else .ok ((d.data.drop off.toNat).take n)
  | w :: ws, n, off =>
    if off < 0 then .error .other
    else if w.size ≤ off then .error .eof
    else if w.size - off < n then .error .eof
    else rReadAt d ws n (w.base + off)

/-- `whence` of Go `io.Seeker` -/
inductive Whence where | start | current | end_
deriving DecidableEq

/-- `Seek`: chunkreader.go:227-264; bytes.Reader.Seek only refuses negative positions. (An unknown whence is an error.) -/
def rSeek (d : BR) : List Win → Int → Whence → Res Int × BR
  | [], off, wh =>
    let abs := match wh with
      | .start => off
      | .current => d.pos + off
      | .end_ => d.data.length + off
    if abs < 0 then (.error .other, d) else (.ok abs, { d with pos := abs.toNat })
  | w :: ws, off, wh =>
    let abs := match wh with
      | .start => off
      | .current => w.size - rLen d (w :: ws) + off
      | .end_ => w.size + off
    let rebased := match wh with
      | .start => w.base + off
      | .current => off
      | .end_ => w.base + w.size - rSize d ws + off
    if abs < 0 ∨ abs > w.size then (.error .other, d)
    else match rSeek d ws rebased wh with
      | (.error e, d') => (.error e, d')
      | (.ok _, d') => (.ok abs, d')

/-- `WriteTo(w)` into a writer that accepts everything: chunkreader.go:267-291; the bytes handed to the writer -/
def rWriteTo (d : BR) : List Win → Res Bytes × BR
  | [] => (.ok (d.data.drop d.pos), { d with pos := max d.pos d.data.length })
  | w :: ws =>
    if rLen d (w :: ws) ≤ 0 then (.ok [], d) else rRead d ws (rLen d (w :: ws)).toNat

end Verif.Kafka
