import Verif.Wasm.FlatNode
/-
Property theorem C120: the metadata of the peer are read as they were encoded, for every layout the FlatBuffers format allows.
-/
namespace Verif.Props.FlatNode
open Verif.Wasm.FlatNode

/-! ### specification: the FlatBuffers format -/

def le16 (n : Nat) : Bs := [UInt8.ofNat (n % 256), UInt8.ofNat (n / 256)]
def le32 (n : Nat) : Bs := le16 (n % 65536) ++ le16 (n / 65536)

/-- the bytes `x` are at position `o` -/
def At (b : Bs) (o : Nat) (x : Bs) : Prop := ∃ pre post, b = pre ++ x ++ post ∧ pre.length = o

/-- a table begins with the (signed) distance of its vtable, the vtable with its size; entry `v` of it is the distance of the field from
the table, zero or beyond the end if the field is absent -/
def Field (b : Bs) (pos v : Nat) (f : Option Nat) : Prop :=
  ∃ vt sz, vt < b.length ∧ At b pos (le32 ((pos + 4294967296 - vt) % 4294967296)) ∧ sz < 65536 ∧ At b vt (le16 sz) ∧
    ((sz ≤ v ∧ f = none) ∨ (v < sz ∧ At b (vt + v) (le16 0) ∧ f = none) ∨
      ∃ o, v < sz ∧ 0 < o ∧ o < 65536 ∧ At b (vt + v) (le16 o) ∧ f = some (pos + o))

/-- a reference from `p` to `q` -/
def Ref (b : Bs) (p q : Nat) : Prop := ∃ d, d < 4294967296 ∧ At b p (le32 d) ∧ q = p + d

/-- a text field -/
def Text (b : Bs) (pos v : Nat) (t : Bs) : Prop :=
  (Field b pos v none ∧ t = []) ∨ ∃ p q, Field b pos v (some p) ∧ Ref b p q ∧ t.length < 4294967296 ∧ At b q (le32 t.length ++ t)

/-- the labels: a vector of references to tables with a key and a value -/
def Labels (b : Bs) (pos : Nat) (l : List (Bs × Bs)) : Prop :=
  (Field b pos 8 none ∧ l = []) ∨ ∃ p q, Field b pos 8 (some p) ∧ Ref b p q ∧ l.length < 4294967296 ∧ At b q (le32 l.length) ∧
    ∀ i (h : i < l.length), ∃ r, Ref b (q + 4 + i * 4) r ∧ Text b r 4 (l[i]'h).1 ∧ Text b r 6 (l[i]'h).2

/-- a buffer holds a node with these labels in this namespace -/
def Node (b : Bs) (l : List (Bs × Bs)) (ns : Bs) : Prop :=
  b.length < 2147483648 ∧ ∃ pos, pos < 4294967296 ∧ At b 0 (le32 pos) ∧ Labels b pos l ∧ Text b pos 6 ns

/-! ### lemmas -/

theorem at_get {b x : Bs} {o : Nat} (h : At b o x) (i : Nat) (hi : i < x.length) : b[o + i]? = some x[i] := by
  obtain ⟨pre, post, rfl, rfl⟩ := h
  rw [List.append_assoc, List.getElem?_append_right (by omega), Nat.add_sub_cancel_left, List.getElem?_append_left hi]
  exact List.getElem?_eq_getElem hi

theorem at_len {b x : Bs} {o : Nat} (h : At b o x) : o + x.length ≤ b.length := by
  obtain ⟨pre, post, rfl, rfl⟩ := h
  simp only [List.length_append]; omega

theorem at_left {b x y : Bs} {o : Nat} (h : At b o (x ++ y)) : At b o x := by
  obtain ⟨pre, post, rfl, rfl⟩ := h
  exact ⟨pre, y ++ post, by simp, rfl⟩

theorem at_right {b x y : Bs} {o : Nat} (h : At b o (x ++ y)) : At b (o + x.length) y := by
  obtain ⟨pre, post, rfl, rfl⟩ := h
  exact ⟨pre ++ x, post, by simp, by simp⟩

theorem read16 {b : Bs} {o n : Nat} (h : At b o (le16 n)) (hn : n < 65536) : u16 b o = some n := by
  have h0 := at_get h 0 (by simp [le16])
  have h1 := at_get h 1 (by simp [le16])
  unfold u16
  rw [Nat.add_zero] at h0
  rw [h0, h1]
  simp only [le16, List.getElem_cons_zero, List.getElem_cons_succ, Option.some.injEq]
  rw [UInt8.toNat_ofNat_of_lt' (by show n % 256 < 256; omega), UInt8.toNat_ofNat_of_lt' (by show n / 256 < 256; omega)]
  omega

theorem read32 {b : Bs} {o n : Nat} (h : At b o (le32 n)) (hn : n < 4294967296) : u32 b o = some n := by
  have h0 := read16 (at_left h) (by omega)
  have h1 := read16 (at_right h) (by omega)
  unfold u32
  have : (le16 (n % 65536)).length = 2 := rfl
  rw [this] at h1
  rw [h0, h1]
  simp only [Option.some.injEq]
  omega

theorem le32_len (n : Nat) : (le32 n).length = 4 := rfl
theorem le16_len (n : Nat) : (le16 n).length = 2 := rfl

section
variable {b : Bs} (hb : b.length < 2147483648)
include hb

theorem ref_read {p q : Nat} (h : Ref b p q) (hq : q ≤ b.length) : indirect b p = some q := by
  obtain ⟨d, hd, h1, rfl⟩ := h
  unfold indirect
  rw [read32 h1 hd]
  simp only [Option.map_some, Option.some.injEq]
  exact Nat.mod_eq_of_lt (by unfold M; omega)

theorem field_read {pos v : Nat} {f : Option Nat} (h : Field b pos v f) :
    (f = none ∧ offset b pos v = some 0) ∨ ∃ o, 0 < o ∧ o < 65536 ∧ f = some (pos + o) ∧ offset b pos v = some o := by
  obtain ⟨vt, sz, h0, h1, h2, h3, h4⟩ := h
  have hp := at_len h1
  rw [le32_len] at hp
  have hoff : offset b pos v = if v < sz then u16 b ((vt + v) % M) else some 0 := by
    unfold offset
    rw [read32 h1 (by omega)]
    simp only
    have : (pos + M - (pos + 4294967296 - vt) % 4294967296) % M = vt := by
      unfold M
      by_cases hle : vt ≤ pos
      · have : (pos + 4294967296 - vt) % 4294967296 = pos - vt := by omega
        rw [this]; omega
      · have : (pos + 4294967296 - vt) % 4294967296 = pos + 4294967296 - vt := by omega
        rw [this]; omega
    rw [this, read16 h3 h2]
  rcases h4 with ⟨h5, rfl⟩ | ⟨h5, h6, rfl⟩ | ⟨o, h5, h6, h7, h8, rfl⟩
  · left; rw [hoff, if_neg (by omega)]; exact ⟨rfl, rfl⟩
  · left
    have := at_len h6
    rw [le16_len] at this
    rw [hoff, if_pos h5, Nat.mod_eq_of_lt (by unfold M; omega), read16 h6 (by omega)]; exact ⟨rfl, rfl⟩
  · right
    have := at_len h8
    rw [le16_len] at this
    refine ⟨o, h6, h7, rfl, ?_⟩
    rw [hoff, if_pos h5, Nat.mod_eq_of_lt (by unfold M; omega), read16 h8 h7]

theorem bytes_read {p q : Nat} {t : Bs} (hr : Ref b p q) (ht : t.length < 4294967296) (h : At b q (le32 t.length ++ t)) :
    byteVector b p = some t := by
  have hl := at_len h
  rw [List.length_append, le32_len] at hl
  unfold byteVector
  rw [ref_read hb hr (by omega)]
  simp only
  rw [read32 (at_left h) ht]
  simp only
  have e1 : (q + 4) % M = q + 4 := Nat.mod_eq_of_lt (by unfold M; omega)
  have e2 : (q + 4 + t.length) % M = q + 4 + t.length := Nat.mod_eq_of_lt (by unfold M; omega)
  rw [e1, e2, if_pos ⟨by omega, by omega⟩]
  obtain ⟨pre, post, h1, h2⟩ := at_right h
  rw [le32_len] at h2
  rw [h1, ← h2, List.append_assoc, List.drop_left, Nat.add_sub_cancel_left, List.take_left]

theorem text_read {pos v : Nat} {t : Bs} (h : Text b pos v t) : text b pos v = some t := by
  unfold text
  rcases h with ⟨hf, rfl⟩ | ⟨p, q, hf, hr, ht, hq⟩
  · rcases field_read hb hf with ⟨-, h⟩ | ⟨o, -, -, h, -⟩
    · rw [h]; rfl
    · cases h
  · rcases field_read hb hf with ⟨h, -⟩ | ⟨o, h1, h2, h3, h4⟩
    · cases h
    · injection h3 with h3
      subst h3
      obtain ⟨d, hd, hat, rfl⟩ := hr
      have := at_len hat
      rw [le32_len] at this
      rw [h4]
      cases o with
      | zero => omega
      | succ o =>
        simp only
        rw [Nat.mod_eq_of_lt (by unfold M; omega), Nat.add_comm]
        exact bytes_read hb ⟨d, hd, hat, rfl⟩ ht hq

/-- the labels from an index on -/
theorem labels_read {pos q o : Nat} {l : List (Bs × Bs)} (ho : offset b pos 8 = some (o + 1)) (hr : Ref b (pos + (o + 1)) q) (hq : q ≤ b.length)
    (hpos : pos + (o + 1) < b.length)
    (hl : ∀ i (h : i < l.length), ∃ r, Ref b (q + 4 + i * 4) r ∧ Text b r 4 (l[i]'h).1 ∧ Text b r 6 (l[i]'h).2)
    (n i : Nat) (hn : n + i = l.length) : labels b pos n i = some (l.drop i) := by
  induction n generalizing i with
  | zero => rw [labels, List.drop_eq_nil_of_le (by omega)]
  | succ n ih =>
    have hi : i < l.length := by omega
    obtain ⟨r, hr', h4, h6⟩ := hl i hi
    rw [labels]
    have hlab : label b pos i = some r := by
      unfold label
      rw [ho]
      simp only
      rw [Nat.mod_eq_of_lt (by unfold M; omega), Nat.add_comm (o + 1) pos, ref_read hb hr hq]
      simp only
      have hrl : r ≤ b.length := by
        rcases h4 with ⟨⟨_, _, _, h, _⟩, _⟩ | ⟨_, _, ⟨_, _, _, h, _⟩, _⟩ <;> (have := at_len h; rw [le32_len] at this; omega)
      obtain ⟨d, hd, hat, hrd⟩ := hr'
      have := at_len hat
      rw [le32_len] at this
      rw [Nat.mod_eq_of_lt (by unfold M; omega)]
      exact ref_read hb ⟨d, hd, hat, hrd⟩ hrl
    rw [hlab]
    simp only
    rw [text_read hb h4, text_read hb h6, ih (i + 1) (by omega)]
    simp only
    rw [List.drop_eq_getElem_cons hi]

end

/-- **C120** For every buffer that holds a node in any layout the format allows (fields and tables in any order, present or not), the
reader gets exactly the value of the label asked for (the last one, if it occurs more than once) and the namespace, and does not panic. -/
theorem C120_peer (b : Bs) (l : List (Bs × Bs)) (ns key : Bs) (h : Node b l ns) : peer b key = some (lookup l key, ns) := by
  obtain ⟨hb, pos, hp, h0, hl, hns⟩ := h
  unfold peer
  rw [read32 h0 hp]
  simp only
  rw [Nat.mod_eq_of_lt (by unfold M; omega), text_read hb hns]
  rcases hl with ⟨hf, rfl⟩ | ⟨p, q, hf, hr, hn, hq, hall⟩
  · have : labelsLength b pos = some 0 := by
      unfold labelsLength
      rcases field_read hb hf with ⟨-, h⟩ | ⟨o, -, -, h, -⟩
      · rw [h]; rfl
      · cases h
    rw [this]
    rfl
  · rcases field_read hb hf with ⟨h, -⟩ | ⟨o, h1, h2, h3, h4⟩
    · cases h
    · injection h3 with h3
      subst h3
      have hql := at_len hq
      rw [le32_len] at hql
      have hpl : pos + o + 4 ≤ b.length := by
        obtain ⟨d, hd, hat, rfl⟩ := hr
        have := at_len hat
        rw [le32_len] at this
        exact this
      cases o with
      | zero => omega
      | succ o =>
        have : labelsLength b pos = some l.length := by
          unfold labelsLength
          rw [h4]
          simp only
          rw [Nat.mod_eq_of_lt (by unfold M; omega), Nat.add_comm (o + 1) pos, ref_read hb hr (by omega)]
          exact read32 hq hn
        rw [this]
        simp only
        rw [labels_read hb h4 hr (by omega) (by omega) hall l.length 0 rfl, List.drop_zero]

/-- what `lookup` means, without reference to how it searches: the value of the last label with the key, nothing if there is none -/
theorem C120_lookup (l : List (Bs × Bs)) (k : Bs) :
    (∀ v l1 l2, l = l1 ++ (k, v) :: l2 → (∀ e ∈ l2, e.1 ≠ k) → lookup l k = v) ∧ ((∀ e ∈ l, e.1 ≠ k) → lookup l k = []) := by
  refine ⟨?_, ?_⟩
  · rintro v l1 l2 rfl h
    unfold lookup
    rw [List.reverse_append, List.reverse_cons, List.find?_append, List.find?_append]
    have : l2.reverse.find? (fun e => decide (e.1 = k)) = none := by
      rw [List.find?_eq_none]
      intro e he
      simpa using h e (List.mem_reverse.mp he)
    rw [this]
    simp
  · intro h
    unfold lookup
    rw [List.find?_eq_none.mpr]
    · rfl
    · intro e he
      simpa using h e (List.mem_reverse.mp he)

/-! ### a node with one label, the vtables after and before their tables -/

/-- root at 4: the table (vtable at 60), namespace "n", one label "k" = "v" -/
def sample : Bs :=
  le32 4 ++                                  -- 0: root
  le32 (4 + 4294967296 - 60) ++              -- 4: table, its vtable is at 60
  le32 8 ++ le32 12 ++                       -- 8: namespace → 16, 12: labels → 24
  (le32 1 ++ [110, 0, 0, 0]) ++              -- 16: "n"
  (le32 1 ++ le32 4) ++                      -- 24: one label → 32
  le32 (32 + 4294967296 - 70) ++             -- 32: its table, its vtable is at 70
  le32 8 ++ le32 12 ++                       -- 36: key → 44, 40: value → 52
  (le32 1 ++ [107, 0, 0, 0]) ++              -- 44: "k"
  (le32 1 ++ [118, 0, 0, 0]) ++              -- 52: "v"
  (le16 10 ++ le16 16 ++ le16 0 ++ le16 4 ++ le16 8) ++   -- 60
  (le16 8 ++ le16 12 ++ le16 4 ++ le16 8)    -- 70

theorem at_take (b x : Bs) (o : Nat) (h : (b.drop o).take x.length = x) (ho : o ≤ b.length) : At b o x :=
  ⟨b.take o, b.drop (o + x.length), by
    rw [List.append_assoc, ← List.drop_drop]
    have : x ++ (b.drop o).drop x.length = b.drop o := by
      have := List.take_append_drop x.length (b.drop o); rw [h] at this; exact this
    rw [this, List.take_append_drop], by simp [ho]⟩

example : Node sample [([107], [118])] [110] := by
  have A : ∀ (o : Nat) (x : Bs), ((sample.drop o).take x.length = x ∧ o ≤ sample.length) → At sample o x := fun o x h => at_take _ _ _ h.1 h.2
  have F1 : Field sample 4 6 (some 8) := ⟨60, 10, by decide +kernel, A _ _ (by decide +kernel), by omega, A _ _ (by decide +kernel),
    .inr (.inr ⟨4, by omega, by omega, by omega, A _ _ (by decide +kernel), rfl⟩)⟩
  have F2 : Field sample 4 8 (some 12) := ⟨60, 10, by decide +kernel, A _ _ (by decide +kernel), by omega, A _ _ (by decide +kernel),
    .inr (.inr ⟨8, by omega, by omega, by omega, A _ _ (by decide +kernel), rfl⟩)⟩
  have F3 : Field sample 32 4 (some 36) := ⟨70, 8, by decide +kernel, A _ _ (by decide +kernel), by omega, A _ _ (by decide +kernel),
    .inr (.inr ⟨4, by omega, by omega, by omega, A _ _ (by decide +kernel), rfl⟩)⟩
  have F4 : Field sample 32 6 (some 40) := ⟨70, 8, by decide +kernel, A _ _ (by decide +kernel), by omega, A _ _ (by decide +kernel),
    .inr (.inr ⟨8, by omega, by omega, by omega, A _ _ (by decide +kernel), rfl⟩)⟩
  refine ⟨by decide +kernel, 4, by omega, A _ _ (by decide +kernel), .inr ⟨12, 24, F2, ⟨12, by omega, A _ _ (by decide +kernel), rfl⟩, by decide,
    A _ _ (by decide +kernel), ?_⟩, .inr ⟨8, 16, F1, ⟨8, by omega, A _ _ (by decide +kernel), rfl⟩, by decide, A _ _ (by decide +kernel)⟩⟩
  intro i hi
  have : i = 0 := by simpa using hi
  subst this
  show ∃ r, Ref sample 28 r ∧ Text sample r 4 [107] ∧ Text sample r 6 [118]
  exact ⟨32, ⟨4, by omega, A _ _ (by decide +kernel), rfl⟩, .inr ⟨36, 44, F3, ⟨8, by omega, A _ _ (by decide +kernel), rfl⟩, by decide, A _ _ (by decide +kernel)⟩,
    .inr ⟨40, 52, F4, ⟨12, by omega, A _ _ (by decide +kernel), rfl⟩, by decide, A _ _ (by decide +kernel)⟩⟩

/-! ### C121: any other buffer -/

theorem text_contained {b t : Bs} {pos v : Nat} (h3 : text b pos v = some t) : t = [] ∨ ∃ o, At b o t := by
  unfold text at h3
  split at h3
  · cases h3
  · injection h3 with h3; exact .inl h3.symm
  · unfold byteVector at h3
    split at h3
    · cases h3
    · split at h3
      · cases h3
      · rename_i o _ _ x _
        simp only at h3
        by_cases hc : (o + 4) % M ≤ ((o + 4) % M + x) % M ∧ ((o + 4) % M + x) % M ≤ b.length
        · rw [if_pos hc] at h3
          injection h3 with h3
          refine .inr ⟨(o + 4) % M, ?_⟩
          refine at_take _ _ _ ?_ (by omega)
          rw [← h3]
          simp
        · rw [if_neg hc] at h3; cases h3

theorem labels_contained {b : Bs} {pos : Nat} (n i : Nat) {l : List (Bs × Bs)} (h : labels b pos n i = some l) :
    ∀ e ∈ l, e.2 = [] ∨ ∃ o, At b o e.2 := by
  induction n generalizing i l with
  | zero => rw [labels] at h; injection h with h; subst h; intro e he; cases he
  | succ n ih =>
    rw [labels] at h
    cases h0 : label b pos i with
    | none => rw [h0] at h; cases h
    | some p =>
      rw [h0] at h
      simp only at h
      cases h1 : text b p 4 with
      | none => rw [h1] at h; cases h
      | some k =>
        cases h2 : text b p 6 with
        | none => rw [h1, h2] at h; cases h
        | some v =>
          cases h3 : labels b pos n (i + 1) with
          | none => rw [h1, h2, h3] at h; cases h
          | some l' =>
            rw [h1, h2, h3] at h
            injection h with h
            subst h
            intro e he
            rcases List.mem_cons.mp he with rfl | he
            · exact text_contained h2
            · exact ih _ h3 e he

/-- **C121** Reading never runs beyond the buffer: either it fails (panics) or the name and the namespace it gives are bytes of
the buffer. -/
theorem C121_contained (b key : Bs) (n ns : Bs) (h : peer b key = some (n, ns)) :
    (n = [] ∨ ∃ o, At b o n) ∧ (ns = [] ∨ ∃ o, At b o ns) := by
  unfold peer at h
  cases h0 : u32 b 0 with
  | none => rw [h0] at h; cases h
  | some pos =>
    rw [h0] at h
    simp only at h
    cases h1 : labelsLength b (pos % M) with
    | none => rw [h1] at h; cases h
    | some k =>
      rw [h1] at h
      simp only at h
      cases h2 : labels b (pos % M) k 0 with
      | none => rw [h2] at h; cases h
      | some l =>
        cases h3 : text b (pos % M) 6 with
        | none => rw [h2, h3] at h; cases h
        | some t =>
          rw [h2, h3] at h
          simp only [Option.some.injEq, Prod.mk.injEq] at h
          obtain ⟨rfl, rfl⟩ := h
          refine ⟨?_, text_contained h3⟩
          unfold lookup
          cases hf : l.reverse.find? (fun e => decide (e.1 = key)) with
          | none => exact .inl rfl
          | some e => exact labels_contained _ _ h2 e (List.mem_reverse.mp (List.mem_of_find?_eq_some hf))

/-- **C227** fails: every buffer shorter than four bytes, the empty one included, crashes the program, and so do longer ones. -/
theorem C227_short_false (b key : Bs) (h : b.length < 4) : peer b key = none := by
  unfold peer
  have : u32 b 0 = none := by
    unfold u32 u16
    have : b[0 + 2 + 1]? = none := by rw [List.getElem?_eq_none]; omega
    rw [this]
    cases b[0]? <;> cases b[0 + 1]? <;> cases b[0 + 2]? <;> rfl
  rw [this]

theorem C227_garbage_false (key : Bs) : peer [200, 0, 0, 0, 1, 2, 3] key = none ∧ peer [4, 0, 0, 0, 100, 0, 0, 0] key = none := by
  refine ⟨?_, ?_⟩ <;> (cases key <;> rfl)

end Verif.Props.FlatNode
