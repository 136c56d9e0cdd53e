import Verif.Kafka.SliceWriter
/-
Property theorems C23: slice writers.
-/
namespace Verif.Props
open Verif Verif.Kafka

/-- calls that change a writer -/
inductive WOp where
  | write (p : Bytes) | writeAt (p : Bytes) (off : Int) | insertAt (p : Bytes) (off : Int) | seek (off : Int) (wh : SWhence)

inductive WOut where
  | ok (i : Int) | err (e : Err)
deriving DecidableEq

def outN : Res Nat → WOut
  | .ok n => .ok n
  | .error e => .err e
def outZ : Res Int → WOut
  | .ok n => .ok n
  | .error e => .err e

def wOp (w : SW) : WOp → WOut × SW
  | .write p => (outN (w.write p).1, (w.write p).2)
  | .writeAt p off => (outN (w.writeAt p off).1, (w.writeAt p off).2)
  | .insertAt p off => (outN (w.insertAt p off).1, (w.insertAt p off).2)
  | .seek off wh => (outZ (w.seek off wh).1, (w.seek off wh).2)

def wRun : SW → List WOp → SW
  | w, [] => w
  | w, o :: os => wRun (wOp w o).2 os

/-- the content fits the capacity -/
def SW.Fits (w : SW) : Prop := w.len ≤ w.cap

theorem length_overwrite {arr p : Bytes} {off : Nat} (h : off + p.length ≤ arr.length) :
    (overwrite arr off p).length = arr.length := by
  simp only [overwrite, List.length_append, List.length_take, List.length_drop]
  omega

theorem take_overwrite {arr p : Bytes} {off : Nat} (h : off + p.length ≤ arr.length) :
    (overwrite arr off p).take (off + p.length) = arr.take off ++ p := by
  unfold overwrite
  apply List.take_left'
  simp only [List.length_append, List.length_take]
  omega

theorem drop_overwrite {arr p : Bytes} {off : Nat} (h : off + p.length ≤ arr.length) :
    (overwrite arr off p).drop (off + p.length) = arr.drop (off + p.length) := by
  unfold overwrite
  apply List.drop_left'
  simp only [List.length_append, List.length_take]
  omega

theorem take_overwrite_of_le {arr p : Bytes} {off k : Nat} (h : off + p.length ≤ arr.length) (hk : k ≤ off) :
    (overwrite arr off p).take k = arr.take k := by
  unfold overwrite
  rw [List.append_assoc, List.take_append_of_le_length (by simp; omega), List.take_take]
  congr 1; omega

/-- C23: Write succeeds exactly when the bytes fit; then they are appended to the content, otherwise nothing changes. -/
theorem C23_write (w : SW) (hw : SW.Fits w) (p : Bytes) :
    (w.bytes.length + p.length ≤ w.cap → (w.write p).1 = .ok p.length ∧ (w.write p).2.bytes = w.bytes ++ p ∧
      (w.write p).2.cap = w.cap) ∧
    (w.cap < w.bytes.length + p.length → (∃ e, (w.write p).1 = .error e) ∧ (w.write p).2 = w) := by
  have hl : w.bytes.length = w.len := by simp [SW.bytes, SW.cap, SW.Fits] at *; omega
  rw [hl]
  unfold SW.Fits SW.cap at hw
  constructor
  · intro h
    unfold SW.write SW.cap at *
    rw [if_neg (by omega)]
    refine ⟨rfl, ?_, ?_⟩
    · simp only [SW.bytes]
      exact take_overwrite h
    · exact length_overwrite h
  · intro h
    unfold SW.write SW.cap at *
    rw [if_pos (by omega)]
    exact ⟨⟨_, rfl⟩, rfl⟩

/-- C23: inserting nothing changes nothing, anywhere. -/
theorem C23_insertAt_nothing (w : SW) (off : Int) : w.insertAt [] off = (.ok 0, w) := by
  simp [SW.insertAt]

/-- C23: InsertAt at a position inside the content shifts the tail and keeps all other bytes, exactly when it fits. -/
theorem C23_insertAt (w : SW) (hw : SW.Fits w) (p : Bytes) (hp : p ≠ []) (off : Nat) (ho : off ≤ w.bytes.length) :
    (w.bytes.length + p.length ≤ w.cap → (w.insertAt p off).1 = .ok p.length ∧
      (w.insertAt p off).2.bytes = w.bytes.take off ++ p ++ w.bytes.drop off ∧ (w.insertAt p off).2.cap = w.cap) ∧
    (w.cap < w.bytes.length + p.length → (∃ e, (w.insertAt p off).1 = .error e) ∧ (w.insertAt p off).2 = w) := by
  have hl : w.bytes.length = w.len := by simp [SW.bytes, SW.cap, SW.Fits] at *; omega
  rw [hl] at ho ⊢
  have hp0 : p.length ≠ 0 := by simpa using hp
  unfold SW.Fits SW.cap at hw
  constructor
  · intro h
    unfold SW.insertAt SW.cap at *
    rw [if_neg hp0, if_neg (by omega)]
    simp only [Int.toNat_natCast]
    rw [if_neg (by omega)]
    have hmin : min p.length (w.len + p.length - off) = p.length := by omega
    simp only [hmin, List.take_length]
    have h0 : w.len + (List.replicate p.length (0 : UInt8)).length ≤ w.arr.length := by simpa using h
    generalize harr1 : overwrite w.arr w.len (List.replicate p.length 0) = arr1
    have hl1 : arr1.length = w.arr.length := by rw [← harr1]; exact length_overwrite h0
    have ht1 : arr1.take w.len = w.arr.take w.len := by rw [← harr1]; exact take_overwrite_of_le h0 (Nat.le_refl _)
    -- the moved bytes are the tail of the old content
    have hm : ((arr1.take (w.len + p.length)).drop off).take (w.len + p.length - (off + p.length)) = w.bytes.drop off := by
      rw [List.drop_take, List.take_take]
      simp only [SW.bytes]
      rw [← ht1, List.drop_take]
      congr 1
      omega
    rw [hm]
    have hml : (w.bytes.drop off).length = w.len - off := by rw [List.length_drop, hl]
    have h2 : off + p.length + (w.bytes.drop off).length ≤ arr1.length := by omega
    generalize harr2 : overwrite arr1 (off + p.length) (w.bytes.drop off) = arr2
    have hl2 : arr2.length = w.arr.length := by rw [← harr2, length_overwrite h2, hl1]
    have h3 : off + p.length ≤ arr2.length := by omega
    refine ⟨trivial, ?_, ?_⟩
    · simp only [SW.bytes]
      have hsplit : (overwrite arr2 off p).take (w.len + p.length) =
          (overwrite arr2 off p).take (off + p.length) ++
            ((overwrite arr2 off p).drop (off + p.length)).take (w.len - off) := by
        rw [← List.take_add]; congr 1; omega
      rw [hsplit, take_overwrite h3, drop_overwrite h3]
      have ht2 : arr2.take off = (w.arr.take w.len).take off := by
        rw [← harr2, take_overwrite_of_le h2 (by omega), List.take_take, show min off w.len = off by omega,
          ← Nat.min_eq_left ho, ← List.take_take, ht1, List.take_take, Nat.min_eq_left ho]
      have hd2 : (arr2.drop (off + p.length)).take (w.len - off) = (w.arr.take w.len).drop off := by
        rw [← harr2]
        unfold overwrite
        rw [List.append_assoc, List.drop_left' (by simp; omega), List.take_left' hml]
        rfl
      rw [ht2, hd2]
    · show (overwrite arr2 off p).length = w.arr.length
      rw [length_overwrite h3, hl2]
  · intro h
    unfold SW.insertAt SW.cap at *
    rw [if_neg hp0, if_pos (by omega)]
    exact ⟨⟨_, rfl⟩, rfl⟩

/-- C23: WriteAt at a position inside the content overwrites as much of it as there is, and never changes its length. -/
theorem C23_writeAt (w : SW) (hw : SW.Fits w) (p : Bytes) (hp : p ≠ []) (off : Nat) (ho : off ≤ w.bytes.length) :
    (off + p.length ≤ w.cap → (w.writeAt p off).1 = .ok (min p.length (w.bytes.length - off)) ∧
      (w.writeAt p off).2.bytes =
        w.bytes.take off ++ p.take (w.bytes.length - off) ++ w.bytes.drop (off + p.length) ∧
      (w.writeAt p off).2.cap = w.cap) ∧
    (w.cap < off + p.length → (∃ e, (w.writeAt p off).1 = .error e) ∧ (w.writeAt p off).2 = w) := by
  have hl : w.bytes.length = w.len := by simp [SW.bytes, SW.cap, SW.Fits] at *; omega
  rw [hl] at ho ⊢
  have hp0 : p.length ≠ 0 := by simpa using hp
  unfold SW.Fits SW.cap at hw
  constructor
  · intro h
    unfold SW.writeAt SW.cap at *
    rw [if_neg hp0, if_neg (by omega), if_neg (by omega)]
    simp only [Int.toNat_natCast]
    have hpl : (p.take (min p.length (w.len - off))).length = min p.length (w.len - off) := by
      rw [List.length_take]; omega
    have h3 : off + (p.take (min p.length (w.len - off))).length ≤ w.arr.length := by omega
    have hpt : p.take (min p.length (w.len - off)) = p.take (w.len - off) := by
      rw [List.take_eq_take_iff]; omega
    refine ⟨trivial, ?_, ?_⟩
    · simp only [SW.bytes]
      have hsplit : (overwrite w.arr off (p.take (min p.length (w.len - off)))).take w.len =
          (overwrite w.arr off (p.take (min p.length (w.len - off)))).take (off + (p.take (min p.length (w.len - off))).length) ++
            ((overwrite w.arr off (p.take (min p.length (w.len - off)))).drop
              (off + (p.take (min p.length (w.len - off))).length)).take (w.len - off - min p.length (w.len - off)) := by
        rw [← List.take_add]; congr 1; omega
      rw [hsplit, take_overwrite h3, drop_overwrite h3, hpl, hpt, List.take_take, show min off w.len = off by omega]
      congr 1
      rw [List.drop_take]
      by_cases hc : p.length ≤ w.len - off
      · rw [show min p.length (w.len - off) = p.length by omega]
        congr 1
        omega
      · rw [show w.len - off - min p.length (w.len - off) = 0 by omega, show w.len - (off + p.length) = 0 by omega]
        simp
    · exact length_overwrite h3
  · intro h
    unfold SW.writeAt SW.cap at *
    rw [if_neg hp0, if_pos (by omega)]
    exact ⟨⟨_, rfl⟩, rfl⟩

/-- C23: Seek to a position inside the content truncates it there; a later Write continues from that position. -/
theorem C23_seek_back (w : SW) (hw : SW.Fits w) (q : Nat) (hq : q ≤ w.bytes.length) :
    (w.seek q .start).1 = .ok q ∧ (w.seek q .start).2.bytes = w.bytes.take q ∧ (w.seek q .start).2.cap = w.cap := by
  have hl : w.bytes.length = w.len := by simp [SW.bytes, SW.cap, SW.Fits] at *; omega
  rw [hl] at hq
  unfold SW.Fits SW.cap at hw
  unfold SW.seek SW.cap
  simp only [reduceCtorEq, ↓reduceIte]
  rw [if_neg (by omega)]
  refine ⟨rfl, ?_, rfl⟩
  simp only [SW.bytes, Int.toNat_natCast, List.take_take]
  congr 1; omega

/-- same capacity, content within it -/
def Good (n : Nat) (w : SW) : Prop := w.arr.length = n ∧ w.len ≤ n

theorem wOp_fits (w : SW) (hw : SW.Fits w) (o : WOp) : (wOp w o).2.cap = w.cap ∧ SW.Fits (wOp w o).2 := by
  unfold SW.Fits at *
  suffices h : Good w.arr.length (wOp w o).2 by
    refine ⟨h.1, ?_⟩
    have h1 := h.1
    have h2 := h.2
    unfold SW.cap
    omega
  have hG : Good w.arr.length w := ⟨rfl, hw⟩
  unfold SW.cap at hw
  cases o with
  | write p =>
    simp only [wOp, SW.write]
    by_cases hc : p.length > w.cap - w.len
    · rw [if_pos hc]; exact hG
    · rw [if_neg hc]
      have h : w.len + p.length ≤ w.arr.length := by unfold SW.cap at hc; omega
      exact ⟨length_overwrite h, h⟩
  | writeAt p off =>
    simp only [wOp, SW.writeAt, SW.cap]
    split
    · exact hG
    · split
      · exact hG
      · split
        · exact hG
        · have h : off.toNat + (p.take (min p.length (w.len - off.toNat))).length ≤ w.arr.length := by
            rw [List.length_take]; omega
          exact ⟨length_overwrite h, hw⟩
  | insertAt p off =>
    simp only [wOp, SW.insertAt, SW.cap]
    split
    · exact hG
    · split
      · exact hG
      · have h0 : w.len + (List.replicate p.length (0 : UInt8)).length ≤ w.arr.length := by simp; omega
        have h0' : w.len + p.length ≤ w.arr.length := by simpa using h0
        split
        · exact ⟨length_overwrite h0, h0'⟩
        · rename_i hb
          generalize harr1 : overwrite w.arr w.len (List.replicate p.length 0) = arr1
          have hl1 : arr1.length = w.arr.length := by rw [← harr1]; exact length_overwrite h0
          have h2 : off.toNat + p.length +
              (((arr1.take (w.len + p.length)).drop off.toNat).take (w.len + p.length - (off.toNat + p.length))).length ≤ arr1.length := by
            simp only [List.length_take, List.length_drop]; omega
          have h3 := length_overwrite h2
          have h4 : off.toNat + (p.take (min p.length (w.len + p.length - off.toNat))).length ≤ (overwrite arr1 (off.toNat + p.length)
              (((arr1.take (w.len + p.length)).drop off.toNat).take (w.len + p.length - (off.toNat + p.length)))).length := by
            rw [h3, List.length_take]; omega
          exact ⟨by rw [length_overwrite h4, h3, hl1], h0'⟩
  | seek off wh =>
    cases wh <;> simp only [wOp, SW.seek, SW.cap]
    · simp only [reduceCtorEq, ↓reduceIte]
      by_cases hc : off < 0 ∨ off > w.arr.length
      · rw [if_pos hc]; exact hG
      · rw [if_neg hc]; exact ⟨rfl, by simp only []; omega⟩
    · simp only [↓reduceIte]
      by_cases hc : off + w.len < 0 ∨ off + w.len > w.arr.length
      · rw [if_pos hc]; exact hG
      · rw [if_neg hc]; exact ⟨rfl, by simp only []; omega⟩
    · exact hG

/-- C23: after any sequence of calls on a new writer, whatever the buffer held before, the capacity is unchanged and the
content fits it. -/
theorem C23_never_exceeds (arr : Bytes) (os : List WOp) :
    (wRun (SW.new arr) os).cap = arr.length ∧ (wRun (SW.new arr) os).bytes.length ≤ arr.length := by
  have : ∀ (os : List WOp) (w : SW), SW.Fits w → (wRun w os).cap = w.cap ∧ SW.Fits (wRun w os) := by
    intro os
    induction os with
    | nil => intro w hw; exact ⟨rfl, hw⟩
    | cons o os ih =>
      intro w hw
      obtain ⟨h1, h2⟩ := wOp_fits w hw o
      have := ih _ h2
      exact ⟨by rw [wRun, this.1, h1], this.2⟩
  have h := this os (SW.new arr) (Nat.zero_le _)
  refine ⟨h.1, ?_⟩
  simp only [SW.bytes, List.length_take]
  have h1 := h.1
  simp only [SW.cap, SW.new] at h1
  simp only [SW.new]
  omega

/-- C23: a call that returns an error (and does not panic) changes nothing. -/
theorem C23_error_changes_nothing (w : SW) (o : WOp) (e : Err) (he : e ≠ .panic) (h : (wOp w o).1 = .err e) :
    (wOp w o).2 = w := by
  cases o with
  | write p =>
    simp only [wOp, SW.write] at h ⊢
    split <;> rename_i hc <;> simp only [hc, ↓reduceIte, outN] at h <;> first | rfl | simp at h
  | writeAt p off =>
    simp only [wOp, SW.writeAt] at h ⊢
    split
    · rfl
    · rename_i h1
      split
      · rfl
      · rename_i h2
        split
        · rfl
        · rename_i h3
          simp only [h1, h2, h3, ↓reduceIte, outN] at h
          simp at h
  | insertAt p off =>
    simp only [wOp, SW.insertAt] at h ⊢
    split
    · rfl
    · rename_i h1
      split
      · rfl
      · rename_i h2
        split
        · rename_i h3
          simp only [h1, h2, h3, ↓reduceIte, outN] at h
          injection h with h
          exact absurd h.symm he
        · rename_i h3
          simp only [h1, h2, h3, ↓reduceIte, outN] at h
          simp at h
  | seek off wh =>
    cases wh <;> simp only [wOp, SW.seek, reduceCtorEq, ↓reduceIte] at h ⊢
    · by_cases hc : off < 0 ∨ off > w.cap
      · rw [if_pos hc]
      · rw [if_neg hc] at h
        simp [outZ] at h
    · by_cases hc : off + w.len < 0 ∨ off + w.len > w.cap
      · rw [if_pos hc]
      · rw [if_neg hc] at h
        simp [outZ] at h

/-- C23: writes alone produce their concatenation, as long as it fits. -/
theorem C23_writes_concat (arr : Bytes) (ps : List Bytes) (h : ps.flatten.length ≤ arr.length) :
    (wRun (SW.new arr) (ps.map .write)).bytes = ps.flatten := by
  have : ∀ (ps : List Bytes) (w : SW), SW.Fits w → w.bytes.length + ps.flatten.length ≤ w.cap →
      (wRun w (ps.map .write)).bytes = w.bytes ++ ps.flatten := by
    intro ps
    induction ps with
    | nil => intro w _ _; simp [wRun]
    | cons p ps ih =>
      intro w hw hl
      simp only [List.flatten_cons, List.length_append] at hl
      have h1 := (C23_write w hw p).1 (by omega)
      have h2 := wOp_fits w hw (.write p)
      simp only [List.map_cons, wRun]
      rw [ih _ h2.2 ?_]
      · simp only [wOp, h1.2.1]
        simp
      · simp only [wOp, h1.2.1, h1.2.2, List.length_append]
        omega
  rw [this ps (SW.new arr) (Nat.zero_le _)]
  · simp [SW.new, SW.bytes]
  · simp [SW.new, SW.bytes, SW.cap]
    simpa using h

/-- C175 (partial): WriteAt of bytes that lie inside the content writes all of them and changes nothing else. -/
theorem C175_writeAt_partial (w : SW) (hw : SW.Fits w) (p : Bytes) (hp : p ≠ []) (off : Nat)
    (ho : off + p.length ≤ w.bytes.length) :
    (w.writeAt p off).1 = .ok p.length ∧
      (w.writeAt p off).2.bytes = w.bytes.take off ++ p ++ w.bytes.drop (off + p.length) ∧ (w.writeAt p off).2.cap = w.cap := by
  have hc : w.bytes.length ≤ w.cap := by have h := hw; unfold SW.Fits at h; simp [SW.bytes, SW.cap] at *; omega
  obtain ⟨a, b, c⟩ := (C23_writeAt w hw p hp off (by omega)).1 (by omega)
  refine ⟨?_, ?_, c⟩
  · rw [a, Nat.min_eq_left (by omega)]
  · rw [b, List.take_of_length_le (l := p) (by omega)]

example : (SW.writeAt ⟨[1, 2, 3, 0, 0], 3⟩ [8, 9] 1).2.bytes = [1, 8, 9] := by decide

/-- C175 is false for WriteAt near the end of the content: it writes fewer bytes than asked without an error. -/
theorem C175_writeAt_short_false :
    (SW.writeAt ⟨[1, 2, 0, 0, 0], 2⟩ [8, 9] 1).1 = .ok 1 ∧ (SW.writeAt ⟨[1, 2, 0, 0, 0], 2⟩ [8, 9] 1).2.bytes = [1, 8] := by
  decide

/-- C175 is false for positions after the end: Seek exposes bytes that were never written, InsertAt and WriteAt panic. -/
theorem C175_seek_forward_false :
    (SW.seek (SW.new [7, 7, 7]) 2 .start).2.bytes = [7, 7] ∧
    (SW.insertAt (SW.new [7, 7, 7]) [1] 1).1 = .error .panic ∧ (SW.writeAt (SW.new [7, 7, 7]) [1] 1).1 = .error .panic := by
  decide

example : (wRun (SW.new [9, 9, 9, 9, 9]) [.write [1, 2], .insertAt [3, 4] 1, .writeAt [5] 0, .write [6, 7], .seek (-1) .current]).bytes
    = [5, 3, 4] := by decide
example : SW.Fits ⟨[1, 2, 0, 0, 0], 2⟩ := by simp [SW.Fits, SW.cap]

/-- C23: Slice returns exactly the bytes between the bounds: of the content when the bounds lie inside it, of the
capacity beyond it; bounds outside the capacity are refused. -/
theorem C23_slice (w : SW) (hw : SW.Fits w) (lower upper : Nat) (hl : lower ≤ upper) :
    (upper ≤ w.bytes.length → w.slice lower upper = .ok ((w.bytes.take upper).drop lower)) ∧
    (upper ≤ w.cap → ∃ b, w.slice lower upper = .ok b ∧ b.length = upper - lower) ∧
    (w.cap < upper → w.slice lower upper = .error .other) ∧
    (∀ i j : Int, i < 0 → w.slice i j = .error .other) := by
  unfold SW.Fits SW.cap at hw
  have hlen : w.bytes.length = w.len := by simp [SW.bytes]; omega
  rw [hlen]
  refine ⟨fun h => ?_, fun h => ?_, fun h => ?_, fun i j h => ?_⟩
  · unfold SW.slice SW.cap
    rw [if_neg (by omega), if_neg (by omega), if_neg (by omega)]
    simp only [SW.bytes, List.take_take, Int.toNat_natCast]
    rw [Nat.min_eq_left h]
  · refine ⟨(w.arr.take upper).drop lower, ?_, ?_⟩
    · unfold SW.slice SW.cap at *
      rw [if_neg (by omega), if_neg (by omega), if_neg (by omega)]
      simp
    · unfold SW.cap at h
      simp; omega
  · unfold SW.slice
    rw [if_neg (by omega), if_pos (by omega)]
  · unfold SW.slice
    rw [if_pos h]

/-- a writer holding [1,2,3] of capacity 4 -/
example : (SW.slice ⟨[1,2,3,9], 3⟩ 1 3) = .ok [2,3] := by
  have := (C23_slice ⟨[1,2,3,9], 3⟩ (by simp [SW.Fits, SW.cap]) 1 3 (by omega)).1 (by simp [SW.bytes])
  simpa [SW.bytes] using this

end Verif.Props
