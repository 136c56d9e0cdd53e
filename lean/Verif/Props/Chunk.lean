import Verif.Kafka.Chunk
/-
Property theorems C22: chunk readers.

Specification: a window is a byte string `W` with its own position `p ≤ W.length` (`SpecOp`); calls on a chunk reader at any
nesting depth return exactly what the calls on its window return.
-/
namespace Verif.Props
open Verif Verif.Kafka

/-! ### specification: a reader over one byte string -/

/-- the calls -/
inductive ROp where
  | read (n : Nat) | readByte | unreadByte | readAt (n : Nat) (off : Int) | seek (off : Int) (wh : Whence) | writeTo | len

/-- what a call returns: bytes, a number, or an error -/
inductive ROut where
  | bytes (b : Bytes) | num (i : Int) | unit | err (e : Err)
deriving DecidableEq

/-- a call on a byte string `W` at position `p`: result and new position -/
def specOp (W : Bytes) (p : Nat) : ROp → ROut × Nat
  | .read n => if p = W.length then (.err .eof, p) else (.bytes ((W.drop p).take n), p + min n (W.length - p))
  | .readByte => if p = W.length then (.err .eof, p) else (.bytes ((W.drop p).take 1), p + 1)
  | .unreadByte => if p = 0 then (.err .other, p) else (.unit, p - 1)
  | .readAt n off =>
    if off < 0 then (.err .other, p)
    else if (W.length : Int) ≤ off then (.err .eof, p)
    else if (W.length : Int) - off < n then (.err .eof, p)
    else (.bytes ((W.drop off.toNat).take n), p)
  | .seek off wh =>
    let q : Int := (match wh with | .start => 0 | .current => (p : Int) | .end_ => (W.length : Int)) + off
    if q < 0 ∨ q > W.length then (.err .other, p) else (.num q, q.toNat)
  | .writeTo => (.bytes (W.drop p), W.length)
  | .len => (.num (W.length - p), p)

def specRun (W : Bytes) : Nat → List ROp → List ROut
  | _, [] => []
  | p, o :: os => (specOp W p o).1 :: specRun W (specOp W p o).2 os

/-! ### the same calls on a chunk reader -/

def outB : Res Bytes → ROut
  | .ok b => .bytes b
  | .error e => .err e
def outU : Res Unit → ROut
  | .ok _ => .unit
  | .error e => .err e
def outI : Res Int → ROut
  | .ok b => .num b
  | .error e => .err e

def chunkOp (d : BR) (ws : List Win) : ROp → ROut × BR
  | .read n => (outB (rRead d ws n).1, (rRead d ws n).2)
  | .readByte => (outB (rReadByte d ws).1, (rReadByte d ws).2)
  | .unreadByte => (outU (rUnreadByte d ws).1, (rUnreadByte d ws).2)
  | .readAt n off => (outB (rReadAt d ws n off), d)
  | .seek off wh => (outI (rSeek d ws off wh).1, (rSeek d ws off wh).2)
  | .writeTo => (outB (rWriteTo d ws).1, (rWriteTo d ws).2)
  | .len => (.num (rLen d ws), d)

def chunkRun (ws : List Win) : BR → List ROp → List ROut
  | _, [] => []
  | d, o :: os => (chunkOp d ws o).1 :: chunkRun ws (chunkOp d ws o).2 os
def chunkEnd (ws : List Win) : BR → List ROp → BR
  | d, [] => d
  | d, o :: os => chunkEnd ws (chunkOp d ws o).2 os

/-! ### proofs -/

/-- windows inside each other -/
def Nest (d : BR) : List Win → Prop
  | [] => True
  | w :: ws => 0 ≤ w.base ∧ 0 ≤ w.size ∧ w.base + w.size ≤ rSize d ws ∧ Nest d ws

/-- absolute start of the innermost window -/
def absBase : List Win → Int
  | [] => 0
  | w :: ws => w.base + absBase ws

/-- the shared position is inside the innermost window -/
def Inside (d : BR) (ws : List Win) : Prop := absBase ws ≤ d.pos ∧ d.pos ≤ absBase ws + rSize d ws

/-- the bytes of the innermost window -/
def content (d : BR) (ws : List Win) : Bytes := (d.data.drop (absBase ws).toNat).take (rSize d ws).toNat

theorem rSize_cons (d : BR) (w : Win) (ws : List Win) : rSize d (w :: ws) = w.size := rfl

theorem absBase_nonneg {d : BR} : ∀ {ws : List Win}, Nest d ws → 0 ≤ absBase ws
  | [], _ => by simp [absBase]
  | w :: ws, ⟨h1, _, _, h4⟩ => by have := absBase_nonneg h4; simp only [absBase]; omega

theorem nest_bound {d : BR} : ∀ {ws : List Win}, Nest d ws → absBase ws + rSize d ws ≤ d.data.length ∧ 0 ≤ rSize d ws
  | [], _ => by simp [absBase, rSize]
  | w :: ws, ⟨h1, h2, h3, h4⟩ => by have := nest_bound h4; simp only [absBase, rSize]; omega

theorem Inside.parent {d : BR} {w : Win} {ws : List Win} (hn : Nest d (w :: ws)) (h : Inside d (w :: ws)) : Inside d ws := by
  obtain ⟨h1, h2, h3, h4⟩ := hn
  obtain ⟨a, b⟩ := h
  simp only [absBase, rSize] at a b
  exact ⟨by omega, by omega⟩

theorem rLen_eq {d : BR} : ∀ {ws : List Win}, Nest d ws → Inside d ws → rLen d ws = absBase ws + rSize d ws - d.pos
  | [], _, h => by
    have := h.2
    simp only [absBase, rSize] at this
    simp only [rLen, absBase, rSize]
    omega
  | w :: ws, hn, h => by
    have := rLen_eq hn.2.2.2 (h.parent hn)
    simp only [rLen, absBase, rSize, this]
    omega

theorem content_length {d : BR} {ws : List Win} (h : Nest d ws) : ((content d ws).length : Int) = rSize d ws := by
  have h1 := nest_bound h
  have h2 := absBase_nonneg h
  simp only [content, List.length_take, List.length_drop]
  omega

theorem content_drop {d : BR} {ws : List Win} (h : Nest d ws) (i : Inside d ws) :
    (content d ws).drop (d.pos - (absBase ws).toNat) = (d.data.drop d.pos).take (rLen d ws).toNat := by
  have h2 := absBase_nonneg h
  rw [rLen_eq h i]
  obtain ⟨a, b⟩ := i
  simp only [content, List.drop_take, List.drop_drop]
  congr 2 <;> omega

/-- reading within the window -/
theorem rRead_eq {d : BR} : ∀ {ws : List Win} {n : Nat}, Nest d ws → Inside d ws → 0 < rLen d ws → (n : Int) ≤ rLen d ws →
    rRead d ws n = (.ok ((d.data.drop d.pos).take n), { d with pos := d.pos + n })
  | [], n, _, _, hl, hn => by
    simp only [rLen] at hl hn
    unfold rRead
    rw [if_neg (by omega)]
    have : min n (d.data.length - d.pos) = n := by omega
    rw [this]
  | w :: ws, n, hN, hi, hl, hn => by
    unfold rRead
    simp only []
    have hp := rLen_eq hN.2.2.2 (hi.parent hN)
    have hc := rLen_eq hN hi
    obtain ⟨h1, h2, h3, h4⟩ := hN
    simp only [absBase, rSize] at hc
    rw [if_neg (by omega), if_neg (by omega)]
    exact rRead_eq h4 (hi.parent ⟨h1, h2, h3, h4⟩) (by omega) (by omega)

theorem rReadByte_eq {d : BR} : ∀ {ws : List Win}, Nest d ws → Inside d ws → 0 < rLen d ws →
    rReadByte d ws = (.ok ((d.data.drop d.pos).take 1), { d with pos := d.pos + 1 })
  | [], _, _, hl => by
    simp only [rLen] at hl
    have hlt : d.pos < d.data.length := by omega
    simp only [rReadByte, List.getElem?_eq_getElem hlt]
    rw [List.drop_eq_getElem_cons hlt]
    rfl
  | w :: ws, hN, hi, hl => by
    unfold rReadByte
    have hp := rLen_eq hN.2.2.2 (hi.parent hN)
    have hc := rLen_eq hN hi
    obtain ⟨h1, h2, h3, h4⟩ := hN
    simp only [absBase, rSize] at hc
    rw [if_neg (by omega)]
    exact rReadByte_eq h4 (hi.parent ⟨h1, h2, h3, h4⟩) (by omega)

theorem rUnreadByte_eq {d : BR} : ∀ {ws : List Win}, Nest d ws → Inside d ws → absBase ws < d.pos →
    rUnreadByte d ws = (.ok (), { d with pos := d.pos - 1 })
  | [], _, _, hl => by
    simp only [absBase] at hl
    unfold rUnreadByte
    rw [if_neg (by omega)]
  | w :: ws, hN, hi, hl => by
    unfold rUnreadByte
    have hp := rLen_eq hN.2.2.2 (hi.parent hN)
    obtain ⟨h1, h2, h3, h4⟩ := hN
    simp only [absBase] at hl
    rw [if_neg (by omega)]
    exact rUnreadByte_eq h4 (hi.parent ⟨h1, h2, h3, h4⟩) (by omega)

theorem rReadAt_eq {d : BR} : ∀ {ws : List Win} {n : Nat} {off : Int}, Nest d ws → 0 ≤ off → off < rSize d ws →
    (n : Int) ≤ rSize d ws - off → rReadAt d ws n off = .ok ((d.data.drop (absBase ws + off).toNat).take n)
  | [], n, off, _, h0, h1, h2 => by
    simp only [rSize] at h1 h2
    unfold rReadAt
    rw [if_neg (by omega), if_neg (by omega), if_neg (by omega)]
    simp [absBase]
  | w :: ws, n, off, hN, h0, h1, h2 => by
    obtain ⟨g1, g2, g3, g4⟩ := hN
    simp only [rSize] at h1 h2
    unfold rReadAt
    rw [if_neg (by omega), if_neg (by omega), if_neg (by omega), rReadAt_eq g4 (by omega) (by omega) (by omega)]
    simp only [absBase]
    congr 4
    omega

/-- position a seek asks for, relative to the window -/
def seekTarget (d : BR) (ws : List Win) (off : Int) : Whence → Int
  | .start => off
  | .current => d.pos - absBase ws + off
  | .end_ => rSize d ws + off

theorem rSeek_eq {d : BR} : ∀ {ws : List Win} {off : Int} {wh : Whence}, Nest d ws → Inside d ws →
    0 ≤ seekTarget d ws off wh → seekTarget d ws off wh ≤ rSize d ws →
    rSeek d ws off wh = (.ok (seekTarget d ws off wh), { d with pos := (absBase ws + seekTarget d ws off wh).toNat })
  | [], off, wh, _, _, h0, h1 => by
    unfold rSeek
    cases wh <;> simp only [seekTarget, absBase, rSize] at h0 h1 ⊢ <;>
      rw [if_neg (by omega)] <;> congr 3 <;> omega
  | w :: ws, off, wh, hN, hi, h0, h1 => by
    have hp := hi.parent hN
    have hc := rLen_eq hN hi
    obtain ⟨g1, g2, g3, g4⟩ := hN
    unfold rSeek
    simp only [absBase, rSize_cons] at hc
    cases wh <;> simp only [seekTarget, absBase, rSize_cons] at h0 h1 ⊢
    · rw [if_neg (by omega), rSeek_eq (wh := .start) g4 hp (by simp only [seekTarget]; omega) (by simp only [seekTarget]; omega)]
      simp only [seekTarget]
      congr 3
      omega
    · rw [if_neg (by omega), rSeek_eq (wh := .current) g4 hp (by simp only [seekTarget]; omega) (by simp only [seekTarget]; omega)]
      simp only [seekTarget]
      congr 3
      · omega
      · omega
    · rw [if_neg (by omega), rSeek_eq (wh := .end_) g4 hp (by simp only [seekTarget]; omega) (by simp only [seekTarget]; omega)]
      simp only [seekTarget]
      congr 3
      omega

theorem out_eq {d : BR} {l : Bytes} {n m q q' : Nat} (h1 : n = m) (h2 : q = q') :
    (ROut.bytes (l.take n), ({ d with pos := q } : BR)) = (ROut.bytes (l.take m), { d with pos := q' }) := by
  rw [h1, h2]

/-- an operation on a chunk reader does what it does on the window's bytes -/
theorem op_refines {d : BR} {ws : List Win} (hN : Nest d ws) (hi : Inside d ws) (hw : ws ≠ []) (o : ROp) :
    let p := d.pos - (absBase ws).toNat
    let r := specOp (content d ws) p o
    chunkOp d ws o = (r.1, { d with pos := (absBase ws).toNat + r.2 }) ∧ r.2 ≤ (content d ws).length := by
  intro p r
  have hb := absBase_nonneg hN
  have hlen := rLen_eq hN hi
  have hcl := content_length hN
  have hcd := content_drop hN hi
  obtain ⟨a, b⟩ := hi
  have hi : Inside d ws := ⟨a, b⟩
  have hpe : (absBase ws).toNat + p = d.pos := by omega
  have hd : ∀ q, q = d.pos → ({ d with pos := q } : BR) = d := by rintro q rfl; rfl
  obtain ⟨w, ws', rfl⟩ : ∃ w ws', ws = w :: ws' := by
    cases ws with
    | nil => exact absurd rfl hw
    | cons w ws => exact ⟨w, ws, rfl⟩
  have hpl : (p : Int) = d.pos - absBase (w :: ws') := by omega
  cases o with
  | read n =>
    simp only [chunkOp, r, specOp]
    by_cases he : p = (content d (w :: ws')).length
    · have h0 : rLen d (w :: ws') ≤ 0 := by omega
      simp only [rRead, h0, if_pos he, ↓reduceIte, outB]
      exact ⟨by rw [hd _ hpe], by omega⟩
    · rw [if_neg he]
      by_cases hn : (n : Int) ≤ rLen d (w :: ws')
      · rw [rRead_eq hN hi (by omega) hn]
        simp only [outB]
        refine ⟨?_, by omega⟩
        rw [hcd, List.take_take]
        exact out_eq (by omega) (by omega)
      · have hrec : rRead d (w :: ws') n = rRead d (w :: ws') (rLen d (w :: ws')).toNat := by
          unfold rRead
          simp only []
          rw [if_neg (by omega), if_pos (by omega), if_neg (by omega), if_neg (by omega)]
        rw [hrec, rRead_eq hN hi (by omega) (by omega)]
        simp only [outB]
        refine ⟨?_, by omega⟩
        rw [hcd, List.take_take]
        exact out_eq (by omega) (by omega)
  | readByte =>
    simp only [chunkOp, r, specOp]
    by_cases he : p = (content d (w :: ws')).length
    · have h0 : rLen d (w :: ws') ≤ 0 := by omega
      simp only [rReadByte, h0, if_pos he, ↓reduceIte, outB]
      exact ⟨by rw [hd _ hpe], by omega⟩
    · rw [if_neg he, rReadByte_eq hN hi (by omega)]
      simp only [outB]
      refine ⟨?_, by omega⟩
      rw [hcd, List.take_take]
      exact out_eq (by omega) (by omega)
  | unreadByte =>
    simp only [chunkOp, r, specOp]
    by_cases he : p = 0
    · have h0 : rSize d ws' - rLen d ws' ≤ w.base := by
        simp only [rLen, absBase, rSize_cons] at hlen hpl
        omega
      simp only [rUnreadByte, h0, he, ↓reduceIte, outU]
      exact ⟨by rw [hd _ (by omega)], by omega⟩
    · rw [if_neg he, rUnreadByte_eq hN hi (by omega)]
      simp only [outU]
      exact ⟨by congr 2; omega, by omega⟩
  | readAt n off =>
    simp only [chunkOp, r, specOp]
    by_cases h0 : off < 0
    · simp only [rReadAt, h0, ↓reduceIte, outB]
      exact ⟨by rw [hd _ hpe], by omega⟩
    · rw [if_neg h0]
      by_cases h1 : ((content d (w :: ws')).length : Int) ≤ off
      · have h1' : w.size ≤ off := by rw [rSize_cons] at hcl; omega
        simp only [rReadAt, h0, h1, h1', ↓reduceIte, outB]
        exact ⟨by rw [hd _ hpe], by omega⟩
      · rw [if_neg h1]
        by_cases h2 : ((content d (w :: ws')).length : Int) - off < n
        · have h1' : ¬ w.size ≤ off := by rw [rSize_cons] at hcl; omega
          have h2' : w.size - off < n := by rw [rSize_cons] at hcl; omega
          simp only [rReadAt, h0, h1', h2, h2', ↓reduceIte, outB]
          exact ⟨by rw [hd _ hpe], by omega⟩
        · rw [if_neg h2, rReadAt_eq hN (by omega) (by omega) (by omega)]
          simp only [outB]
          refine ⟨?_, by omega⟩
          rw [hd _ hpe]
          congr 2
          simp only [content, List.drop_take, List.drop_drop, List.take_take]
          congr 2 <;> omega
  | seek off wh =>
    simp only [chunkOp, r, specOp]
    have ht : seekTarget d (w :: ws') off wh =
        (match wh with | .start => 0 | .current => (p : Int) | .end_ => ((content d (w :: ws')).length : Int)) + off := by
      cases wh <;> simp only [seekTarget] <;> omega
    rw [← ht]
    by_cases hb' : seekTarget d (w :: ws') off wh < 0 ∨ seekTarget d (w :: ws') off wh > (content d (w :: ws')).length
    · rw [if_pos hb']
      have hse : rSeek d (w :: ws') off wh = (.error .other, d) := by
        unfold rSeek
        cases wh <;> simp only [] <;> simp only [seekTarget, rSize_cons] at hb' <;> rw [if_pos ?_] <;>
          rw [rSize_cons] at hcl <;> rw [rSize_cons] at hlen <;> omega
      rw [hse]
      simp only [outI]
      exact ⟨by rw [hd _ hpe], by omega⟩
    · rw [if_neg hb', rSeek_eq hN hi (by omega) (by omega)]
      simp only [outI]
      exact ⟨by congr 2; omega, by omega⟩
  | writeTo =>
    simp only [chunkOp, r, specOp]
    by_cases he : rLen d (w :: ws') ≤ 0
    · simp only [rWriteTo, he, ↓reduceIte, outB]
      refine ⟨?_, Nat.le_refl _⟩
      rw [hd _ (by omega), List.drop_eq_nil_of_le (by omega)]
    · have hrec : rWriteTo d (w :: ws') = rRead d (w :: ws') (rLen d (w :: ws')).toNat := by
        rw [show rRead d (w :: ws') (rLen d (w :: ws')).toNat = if rLen d (w :: ws') ≤ 0 then (.error .eof, d)
          else rRead d ws' (if rLen d (w :: ws') < ((rLen d (w :: ws')).toNat : Nat) then (rLen d (w :: ws')).toNat
            else (rLen d (w :: ws')).toNat) from rfl, if_neg he, if_neg (by omega)]
        exact if_neg he
      rw [hrec, rRead_eq hN hi (by omega) (by omega)]
      simp only [outB]
      refine ⟨?_, Nat.le_refl _⟩
      rw [hcd]
      congr 2
      omega
  | len =>
    simp only [chunkOp, r, specOp]
    refine ⟨?_, by omega⟩
    rw [hd _ hpe]
    congr 2
    omega

theorem rSize_pos (d : BR) (q : Nat) (ws : List Win) : rSize { d with pos := q } ws = rSize d ws := by
  cases ws <;> rfl
theorem Nest_pos {d : BR} {q : Nat} : ∀ {ws : List Win}, Nest d ws → Nest { d with pos := q } ws
  | [], _ => trivial
  | w :: ws, ⟨h1, h2, h3, h4⟩ => ⟨h1, h2, by rw [rSize_pos]; exact h3, Nest_pos h4⟩
theorem content_pos (d : BR) (q : Nat) (ws : List Win) : content { d with pos := q } ws = content d ws := by
  simp only [content, rSize_pos]

theorem run_refines {ws : List Win} (hw : ws ≠ []) (os : List ROp) : ∀ {d : BR}, Nest d ws → Inside d ws →
    chunkRun ws d os = specRun (content d ws) (d.pos - (absBase ws).toNat) os ∧
    (chunkEnd ws d os).data = d.data ∧ Nest (chunkEnd ws d os) ws ∧ Inside (chunkEnd ws d os) ws := by
  induction os with
  | nil => intro d h1 h2; exact ⟨rfl, rfl, h1, h2⟩
  | cons o os ih =>
    intro d h1 h2
    obtain ⟨e1, e2⟩ := op_refines h1 h2 hw o
    simp only [chunkRun, specRun, chunkEnd]
    have hb := absBase_nonneg h1
    have hcl := content_length h1
    generalize hr : specOp (content d ws) (d.pos - (absBase ws).toNat) o = r at e1 e2
    have hI : Inside ({ d with pos := (absBase ws).toNat + r.2 } : BR) ws := by
      refine ⟨?_, ?_⟩
      · simp only []; omega
      · rw [rSize_pos]; simp only []; omega
    have := ih (Nest_pos h1) hI
    rw [e1]
    simp only []
    rw [content_pos] at this
    obtain ⟨t1, t2, t3⟩ := this
    refine ⟨?_, t2, t3⟩
    rw [t1]
    congr 2
    simp

/-- readers built from one bytes.Reader by NewChunkReader/NewSubChunkReader, using each one only while it is the innermost:
`Built d ws` is a chunk reader nest over `d` reachable by creating chunks and calling their operations. -/
inductive Built : BR → List Win → Prop
  | reader (data : Bytes) (pos : Nat) (h : pos ≤ data.length) : Built ⟨data, pos⟩ []
  | chunk {d : BR} {ws : List Win} (n : Nat) : Built d ws → Built d (newChunk d ws n)
  | ops {d : BR} {w : Win} {ws : List Win} (os : List ROp) : Built d (w :: ws) → Built (chunkEnd (w :: ws) d os) (w :: ws)
  | drop {d : BR} {w : Win} {ws : List Win} : Built d (w :: ws) → Built d ws

theorem newChunk_inside {d : BR} {ws : List Win} (h1 : Nest d ws) (h2 : Inside d ws) (n : Nat) :
    Nest d (newChunk d ws n) ∧ Inside d (newChunk d ws n) ∧ absBase (newChunk d ws n) = d.pos ∧
      content d (newChunk d ws n) = ((d.data.drop d.pos).take (rLen d ws).toNat).take n := by
  have hl := rLen_eq h1 h2
  have hb := nest_bound h1
  obtain ⟨a, b⟩ := h2
  have hA : absBase (newChunk d ws n) = d.pos := by simp only [newChunk, absBase]; omega
  have hsz : rSize d (newChunk d ws n) = if rLen d ws < n then rLen d ws else n := rfl
  have hN : Nest d (newChunk d ws n) := by
    refine ⟨?_, ?_, ?_, h1⟩ <;> simp only []
    · omega
    · split <;> omega
    · split <;> omega
  refine ⟨hN, ⟨by rw [hA]; omega, ?_⟩, hA, ?_⟩
  · rw [hA, hsz]; split <;> omega
  · simp only [content, hA, hsz, List.take_take]
    congr 1
    split <;> omega

theorem Built.ok {d : BR} {ws : List Win} (h : Built d ws) : Nest d ws ∧ Inside d ws := by
  induction h with
  | reader data pos h =>
    refine ⟨trivial, ?_, ?_⟩ <;> simp [absBase, rSize]
    exact h
  | chunk n _ ih => exact ⟨(newChunk_inside ih.1 ih.2 n).1, (newChunk_inside ih.1 ih.2 n).2.1⟩
  | ops os _ ih =>
    have := run_refines (by simp) os ih.1 ih.2
    exact ⟨this.2.2.1, this.2.2.2⟩
  | drop _ ih => exact ⟨ih.1.2.2.2, ih.2.parent ih.1⟩

/-- C22: a chunk of `n` bytes created on any reader of a nest consists of the next `n` unread bytes of that reader (or of
all of them when there are fewer); any sequence of Read, ReadByte, UnreadByte, ReadAt, Seek, WriteTo and Len calls on it
returns exactly what the calls return on those bytes alone. -/
theorem C22_chunk_is_window {d : BR} {ws : List Win} (hb : Built d ws) (n : Nat) (os : List ROp) :
    chunkRun (newChunk d ws n) d os = specRun (((d.data.drop d.pos).take (rLen d ws).toNat).take n) 0 os := by
  obtain ⟨h1, h2⟩ := hb.ok
  obtain ⟨g1, g2, g3, g4⟩ := newChunk_inside h1 h2 n
  have := (run_refines (ws := newChunk d ws n) (by simp [newChunk]) os g1 g2).1
  rw [g4, g3] at this
  simpa using this

/-- C22: at any later time too, a chunk reader behaves as a reader positioned in its window. -/
theorem C22_later_calls {d : BR} {w : Win} {ws : List Win} (hb : Built d (w :: ws)) (os : List ROp) :
    chunkRun (w :: ws) d os = specRun (content d (w :: ws)) (d.pos - (absBase (w :: ws)).toNat) os ∧
    (chunkEnd (w :: ws) d os).data = d.data :=
  have h := hb.ok
  ⟨(run_refines (by simp) os h.1 h.2).1, (run_refines (by simp) os h.1 h.2).2.1⟩

/-- C22: Len is the number of bytes left; when a chunk was used up its parent continues right behind it. -/
theorem C22_parent_continues {d : BR} {ws : List Win} (hb : Built d ws) (n : Nat) (hn : (n : Int) ≤ rLen d ws) (os : List ROp)
    (hlen : rLen (chunkEnd (newChunk d ws n) d os) (newChunk d ws n) = 0) :
    (chunkEnd (newChunk d ws n) d os).pos = d.pos + n ∧ rLen (chunkEnd (newChunk d ws n) d os) ws = rLen d ws - n := by
  obtain ⟨h1, h2⟩ := hb.ok
  obtain ⟨g1, g2, g3, g4⟩ := newChunk_inside h1 h2 n
  have hr := run_refines (ws := newChunk d ws n) (by simp [newChunk]) os g1 g2
  have hl := rLen_eq hr.2.2.1 hr.2.2.2
  have hsz : rSize (chunkEnd (newChunk d ws n) d os) (newChunk d ws n) = n := by
    show (if rLen d ws < n then rLen d ws else n) = n
    rw [if_neg (by omega)]
  rw [hlen, hsz, g3] at hl
  refine ⟨by omega, ?_⟩
  have hp := rLen_eq hr.2.2.1.2.2.2 (hr.2.2.2.parent hr.2.2.1)
  have hd := rLen_eq h1 h2
  rw [hp, hd]
  have : rSize (chunkEnd (newChunk d ws n) d os) ws = rSize d ws := by
    cases ws with
    | nil => simp only [rSize, hr.2.1]
    | cons w ws => rfl
  rw [this]
  omega

/-! non-vacuity: a chunk of 3 bytes inside a chunk of 5 bytes -/
example : Built ⟨[1, 2, 3, 4, 5, 6, 7], 1⟩ (newChunk ⟨[1, 2, 3, 4, 5, 6, 7], 1⟩ (newChunk ⟨[1, 2, 3, 4, 5, 6, 7], 1⟩ [] 5) 3) :=
  .chunk 3 (.chunk 5 (.reader _ 1 (by decide)))
example : chunkRun (newChunk ⟨[1, 2, 3, 4, 5, 6, 7], 1⟩ (newChunk ⟨[1, 2, 3, 4, 5, 6, 7], 1⟩ [] 5) 3) ⟨[1, 2, 3, 4, 5, 6, 7], 1⟩
    [.read 2, .len, .seek (-1) .end_, .read 9, .readByte, .unreadByte, .readAt 1 3, .seek 4 .start] =
    [.bytes [2, 3], .num 1, .num 2, .bytes [4], .err .eof, .unit, .err .eof, .err .other] := by decide

end Verif.Props
