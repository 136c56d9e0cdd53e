import Verif.Kafka.Chunk
/-
Model of `ReadRune` and `UnreadRune` of components/kafka-protocol-go/pkg/protocol/types/bytes/chunkreader.go, with those of Go's bytes.Reader and `DecodeRune` of
unicode/utf8. The windows are those of Chunk.lean. Bit operations of the decoder are written as arithmetic.
-/
namespace Verif.Kafka
open Verif

/-- Go `bytes.Reader` with `prevRune`, the index of the rune read last (used in chunkreader.go:172-224) -/
structure RR where
  d : BR
  prev : Option Nat := none

/-- length of an encoding and the range of its second byte, by its first byte (unicode/utf8 `first`, `acceptRanges`, used through chunkreader.go:180) -/
def leadByte (b : Nat) : Option (Nat × Nat × Nat) :=
  if b < 0xC2 then none
  else if b ≤ 0xDF then some (2, 0x80, 0xBF)
  else if b = 0xE0 then some (3, 0xA0, 0xBF)
  else if b = 0xED then some (3, 0x80, 0x9F)
  else if b ≤ 0xEF then some (3, 0x80, 0xBF)
  else if b = 0xF0 then some (4, 0x90, 0xBF)
  else if b ≤ 0xF3 then some (4, 0x80, 0xBF)
  else if b = 0xF4 then some (4, 0x80, 0x8F)
  else none

/-- a following byte (unicode/utf8, used through chunkreader.go:180) -/
def isCont (b : Nat) : Bool := decide (0x80 ≤ b) && decide (b ≤ 0xBF)

/-- the rest of `DecodeRune` for a first byte `b` above 127 (unicode/utf8, used through chunkreader.go:180) -/
def decodeTail (b : Nat) : Option (Nat × Nat × Nat) → Bytes → Nat × Nat
  | some (2, lo, hi), x :: _ =>
    if lo ≤ x.toNat ∧ x.toNat ≤ hi then (b % 32 * 64 + x.toNat % 64, 2) else (0xFFFD, 1)
  | some (3, lo, hi), x :: y :: _ =>
    if lo ≤ x.toNat ∧ x.toNat ≤ hi ∧ isCont y.toNat then (b % 16 * 4096 + x.toNat % 64 * 64 + y.toNat % 64, 3) else (0xFFFD, 1)
  | some (4, lo, hi), x :: y :: z :: _ =>
    if lo ≤ x.toNat ∧ x.toNat ≤ hi ∧ isCont y.toNat ∧ isCont z.toNat then
      (b % 8 * 262144 + x.toNat % 64 * 4096 + y.toNat % 64 * 64 + z.toNat % 64, 4) else (0xFFFD, 1)
  | _, _ => (0xFFFD, 1)

/-- unicode/utf8 `DecodeRune` (used through chunkreader.go:180): the character and the number of its bytes; the replacement character and 1 for what is no character -/
def decodeRune : Bytes → Nat × Nat
  | [] => (0xFFFD, 0)
  | b :: r => if b.toNat < 0x80 then (b.toNat, 1) else decodeTail b.toNat (leadByte b.toNat) r

/-- `UnreadRune()`: bytes.Reader.UnreadRune, chunkreader.go:200-224; whether it succeeds -/
def rUnreadRune (r : RR) : List Win → Bool × RR
  | [] => if r.d.pos = 0 then (false, r) else match r.prev with
    | none => (false, r)
    | some p => (true, { d := { r.d with pos := p }, prev := none })
  | w :: ws => if rSize r.d ws - rLen r.d ws ≤ w.base then (false, r) else rUnreadRune r ws

/-- `ReadRune()`: bytes.Reader.ReadRune, chunkreader.go:172-197; nothing stands for io.EOF -/
def rReadRune (r : RR) : List Win → Option (Nat × Nat) × RR
  | [] => if r.d.data.length ≤ r.d.pos then (none, { r with prev := none })
    else
      let x := decodeRune (r.d.data.drop r.d.pos)
      (some x, { d := { r.d with pos := r.d.pos + x.2 }, prev := some r.d.pos })
  | w :: ws => if rLen r.d (w :: ws) ≤ 0 then (none, r)
    else match rReadRune r ws with
      | (none, r') => (none, r')
      | (some x, r') => if rLen r'.d (w :: ws) < 0 then (none, (rUnreadRune r' ws).2) else (some x, r')

end Verif.Kafka
