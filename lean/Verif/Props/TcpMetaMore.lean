import Verif.Props.TcpMetaCode
/-
Property C269, further: parts of the metadata the reader does not know are skipped, whatever their type, and a value of any other kind is no text. And property C268: data that begin with the magic number.
-/
namespace Verif.TcpMeta
open Verif

/-- what a field can contain, by wire type (specification) -/
inductive Content where
  | varint (n : Nat)
  | eight (b : Bytes)
  | bytes (d : Bytes)
  | four (b : Bytes)

/-- its bytes (specification) -/
def Content.enc (k : Nat) : Content → Bytes
  | .varint n => encVar 9 (8 * k) ++ encVar 9 n
  | .eight b => encVar 9 (8 * k + 1) ++ b
  | .bytes d => encVar 9 (8 * k + 2) ++ (encVar 9 d.length ++ d)
  | .four b => encVar 9 (8 * k + 5) ++ b

/-- a content has the length its type says (specification) -/
def Content.Fits : Content → Prop
  | .varint n => n < 128 ^ 10
  | .eight b => b.length = 8
  | .bytes d => d.length < 128 ^ 10
  | .four b => b.length = 4

/-- what the reader makes of it (specification) -/
def Content.field (k : Nat) : Content → Nat × Nat × Pay
  | .varint n => (k, 0, .num n)
  | .eight b => (k, 1, .data b)
  | .bytes d => (k, 2, .data d)
  | .four b => (k, 5, .data b)

theorem decVar_len : ∀ (f : Nat) (bs : Bytes) {n : Nat} {r : Bytes}, decVar f bs = some (n, r) → r.length < bs.length
  | f, [], n, r, h => by cases f <;> cases h
  | 0, b :: l, n, r, h => by
    unfold decVar at h
    by_cases hb : b.toNat < 128
    · rw [if_pos hb] at h; cases h; simp
    · rw [if_neg hb] at h; cases h
  | f + 1, b :: l, n, r, h => by
    unfold decVar at h
    by_cases hb : b.toNat < 128
    · rw [if_pos hb] at h; cases h; simp
    · rw [if_neg hb] at h
      cases hd : decVar f l with
      | none => rw [hd] at h; cases h
      | some x =>
        obtain ⟨m, r'⟩ := x
        rw [hd] at h; cases h
        have := decVar_len f l hd
        simp only [List.length_cons]; omega

theorem payload_len {t : Nat} {bs : Bytes} {p : Pay} {r : Bytes} (h : payload t bs = some (p, r)) : r.length ≤ bs.length := by
  unfold payload at h
  by_cases h0 : t = 0
  · rw [if_pos h0] at h
    cases hd : decVar 9 bs with
    | none => rw [hd] at h; cases h
    | some x => obtain ⟨m, r'⟩ := x; rw [hd] at h; cases h; have := decVar_len _ _ hd; omega
  rw [if_neg h0] at h
  by_cases h1 : t = 1
  · rw [if_pos h1] at h
    by_cases hl : 8 ≤ bs.length
    · rw [if_pos hl] at h; cases h; simp
    · rw [if_neg hl] at h; cases h
  rw [if_neg h1] at h
  by_cases h2 : t = 2
  · rw [if_pos h2] at h
    cases hd : decVar 9 bs with
    | none => rw [hd] at h; cases h
    | some x =>
      obtain ⟨m, r'⟩ := x
      rw [hd] at h
      dsimp only at h
      have := decVar_len _ _ hd
      by_cases hl : m ≤ r'.length
      · rw [if_pos hl] at h; cases h; simp only [List.length_drop]; omega
      · rw [if_neg hl] at h; cases h
  rw [if_neg h2] at h
  by_cases h5 : t = 5
  · rw [if_pos h5] at h
    by_cases hl : 4 ≤ bs.length
    · rw [if_pos hl] at h; cases h; simp
    · rw [if_neg hl] at h; cases h
  rw [if_neg h5] at h
  cases h

theorem fieldsOf_nil (f : Nat) : fieldsOf f [] = some [] := by cases f <;> rfl

theorem fieldsOf_fuel : ∀ (f g : Nat) (bs : Bytes), bs.length ≤ f → bs.length ≤ g → fieldsOf f bs = fieldsOf g bs
  | f, g, [], _, _ => by rw [fieldsOf_nil, fieldsOf_nil]
  | 0, _, _ :: _, h, _ => by simp at h
  | _, 0, _ :: _, _, h => by simp at h
  | f + 1, g + 1, b :: l, hf, hg => by
    simp only [fieldsOf]
    cases hd : decVar 9 (b :: l) with
    | none => rfl
    | some x =>
      obtain ⟨tag, r⟩ := x
      dsimp only
      by_cases ht : tag / 8 = 0
      · rw [if_pos ht, if_pos ht]
      rw [if_neg ht, if_neg ht]
      cases hp : payload (tag % 8) r with
      | none => rfl
      | some y =>
        obtain ⟨p, r'⟩ := y
        dsimp only
        have h1 := decVar_len _ _ hd
        have h2 := payload_len hp
        rw [fieldsOf_fuel f g r' (by simp only [List.length_cons] at *; omega) (by simp only [List.length_cons] at *; omega)]

theorem payload_content {k : Nat} {c : Content} (h : c.Fits) (r : Bytes) :
    ∃ body t, c.enc k = encVar 9 (8 * k + t) ++ body ∧ t < 8 ∧ payload t (body ++ r) = some ((c.field k).2.2, r) ∧ (c.field k) = (k, t, (c.field k).2.2) := by
  cases c with
  | varint n =>
    refine ⟨encVar 9 n, 0, rfl, by decide, ?_, rfl⟩
    unfold payload
    rw [if_pos rfl, decVar_enc 9 n h]
    rfl
  | eight b =>
    have hb : b.length = 8 := h
    refine ⟨b, 1, rfl, by decide, ?_, rfl⟩
    unfold payload
    rw [if_neg (by decide), if_pos rfl, if_pos (by rw [List.length_append]; omega), ← hb, List.take_left, List.drop_left]
    rfl
  | bytes d => exact ⟨encVar 9 d.length ++ d, 2, rfl, by decide, payload_data h r, rfl⟩
  | four b =>
    have hb : b.length = 4 := h
    refine ⟨b, 5, rfl, by decide, ?_, rfl⟩
    unfold payload
    rw [if_neg (by decide), if_neg (by decide), if_neg (by decide), if_pos rfl, if_pos (by rw [List.length_append]; omega), ← hb, List.take_left,
      List.drop_left]
    rfl

/-- a field in front: its content is read by its type, and the rest is as before -/
theorem wire_content {k : Nat} {c : Content} (h1 : 0 < k) (h2 : k < 1000) (hc : c.Fits) (r : Bytes) :
    wire (c.enc k ++ r) = (wire r).map (c.field k :: ·) := by
  obtain ⟨body, t, he, ht, hp, hf⟩ := payload_content (k := k) hc r
  have hd := decVar_enc 9 (8 * k + t) (Nat.lt_trans (show 8 * k + t < 8008 by omega) (by decide)) (body ++ r)
  have hpos := encVar_pos 9 (8 * k + t)
  have hlen : r.length < (c.enc k ++ r).length := by
    rw [he]; simp only [List.length_append]; omega
  have ha : c.enc k ++ r = encVar 9 (8 * k + t) ++ (body ++ r) := by rw [he, List.append_assoc]
  have h3 : (8 * k + t) / 8 = k := by omega
  have h4 : (8 * k + t) % 8 = t := by omega
  unfold wire
  obtain ⟨n, hn⟩ : ∃ n, (c.enc k ++ r).length = n + 1 := ⟨(c.enc k ++ r).length - 1, by omega⟩
  have hne : c.enc k ++ r ≠ [] := by intro h0; rw [h0] at hlen; simp at hlen
  rw [hn, fieldsOf.eq_3 _ _ (by intro h0; exact hne h0), ha, hd]
  dsimp only
  rw [h3, h4, if_neg (by omega), hp]
  dsimp only
  rw [fieldsOf_fuel n r.length r (by omega) (Nat.le_refl _), ← hf]

theorem lastData_skip {j : Nat} {f : Nat × Nat × Pay} (h : f.1 ≠ j) (fs : List (Nat × Nat × Pay)) : lastData j (f :: fs) = lastData j fs := by
  obtain ⟨k, t, p⟩ := f
  have h : k ≠ j := h
  simp only [lastData]
  cases lastData j fs with
  | some d => rfl
  | none => cases p <;> simp [h]

theorem pickVal_skip (rec : Bytes → Option Fields) {k : Nat} (hk : 6 < k) (t : Nat) (p : Pay) (fs : List (Nat × Nat × Pay)) (v : Option Val) :
    pickVal rec ((k, t, p) :: fs) v = pickVal rec fs v := by
  have h1 : ¬ (k = 3 ∧ t = 2) := by omega
  have h2 : ¬ (k = 5 ∧ t = 2) := by omega
  have h3 : ¬ (k = 2 ∨ k = 6) := by omega
  have h4 : ¬ (k = 1 ∨ k = 4) := by omega
  cases p with
  | data d => simp only [pickVal, h1, h2, h3, if_false]
  | num n => simp only [pickVal, h4, if_false]

/-- **C269**. A field the reader does not know, of whatever type and content, in front of the metadata changes nothing (nor does the name of the type the
metadata are packed as, which is field 1). -/
theorem C269_unknown {k : Nat} {c : Content} (h1 : 0 < k) (h2 : k < 1000) (hk : k ≠ 2) (hc : c.Fits) (md : Bytes) :
    parseMeta (c.enc k ++ md) = parseMeta md := by
  unfold parseMeta
  rw [wire_content h1 h2 hc]
  cases wire md with
  | none => rfl
  | some fs =>
    show parseStruct 33 ((lastData 2 (c.field k :: fs)).getD []) = parseStruct 33 ((lastData 2 fs).getD [])
    rw [lastData_skip (by cases c <;> exact hk)]

/-- **C269**. … and in the value of an entry: a field whose number is no kind of value, before what says the kind. -/
theorem C269_unknown_value {k : Nat} {c : Content} (h2 : k < 1000) (hk : 6 < k) (hc : c.Fits) (rec : Bytes → Option Fields) (v : Bytes) :
    parseVal rec (c.enc k ++ v) = parseVal rec v := by
  unfold parseVal
  rw [wire_content (by omega) h2 hc]
  cases wire v with
  | none => rfl
  | some fs =>
    show pickVal rec (c.field k :: fs) (some .other) = pickVal rec fs (some .other)
    cases c <;> exact pickVal_skip rec hk _ _ fs _

/-- **C269**. A value that is null, a number, true or false, or a list - also when it was a text before - is no text: it reads as empty, and as a struct without
entries. -/
theorem C269_other_kinds (rec : Bytes → Option Fields) {s : Bytes} (hs : s.length < 128 ^ 10) {k : Nat} {c : Content} (hc : c.Fits)
    (hk : (k = 1 ∧ ∃ n, c = .varint n) ∨ (k = 2 ∧ ∃ b, c = .eight b) ∨ (k = 4 ∧ ∃ n, c = .varint n) ∨ (k = 6 ∧ ∃ d, c = .bytes d)) :
    ∃ v, parseVal rec (valStr s ++ c.enc k) = some v ∧ parseVal rec (c.enc k) = some v ∧ v.text = [] ∧ v.fields = [] := by
  have hkb : 0 < k ∧ k < 1000 := by omega
  have w1 : wire (c.enc k) = some [c.field k] := by
    have := wire_content hkb.1 hkb.2 hc []
    rw [List.append_nil] at this
    rw [this]; rfl
  have w2 : wire (valStr s ++ c.enc k) = some [(3, 2, .data s), c.field k] := by
    have : valStr s = Content.enc 3 (.bytes s) := by unfold valStr encData; simp [Content.enc]
    rw [this, wire_content (by decide) (by decide) (show (Content.bytes s).Fits from hs), w1]
    rfl
  refine ⟨.other, ?_, ?_, rfl, rfl⟩
  · unfold parseVal
    rw [w2]
    rcases hk with ⟨rfl, n, rfl⟩ | ⟨rfl, b, rfl⟩ | ⟨rfl, n, rfl⟩ | ⟨rfl, d, rfl⟩ <;> rfl
  · unfold parseVal
    rw [w1]
    rcases hk with ⟨rfl, n, rfl⟩ | ⟨rfl, b, rfl⟩ | ⟨rfl, n, rfl⟩ | ⟨rfl, d, rfl⟩ <;> rfl

/-- a list after a text; an unknown field of four bytes before the metadata -/
example : ((Content.bytes [1, 2]).Fits ∧ (Content.four [1, 2, 3, 4]).Fits) ∧
    (parseVal (fun _ => none) (valStr [97] ++ (Content.bytes [1, 2]).enc 6)).map Val.text = some [] ∧
    (parseVal (fun _ => none) (valStr [97])).map Val.text = some [97] := by
  refine ⟨⟨by show 2 < 128 ^ 10; decide, rfl⟩, by decide, by decide⟩

/-! ### data that begin with the magic number -/

theorem part_zero_append {a : Bytes} (h : a.length = 4) (r : Bytes) : part (a ++ r) 0 4 = a := by
  unfold part
  rw [List.drop_zero, ← h, List.take_left]

theorem part_four_append {a : Bytes} (h : a.length = 4) (r : Bytes) (n : Nat) : part (a ++ r) 4 n = r.take n := by
  unfold part
  rw [← h, List.drop_left]

theorem readBe32_short : ∀ {b : Bytes}, b.length < 4 → readBe32 b = none
  | [], _ => rfl
  | [_], _ => rfl
  | [_, _], _ => rfl
  | [_, _, _], _ => rfl
  | _ :: _ :: _ :: _ :: l, h => by simp only [List.length_cons] at h; omega

theorem down_panic {f : Filt} {n : Nat} {buf u : Bytes} (h1 : f.disabled = false) (h2 : f.exchanged = false) {e : Env} (hd : (f.look e).dir = 1)
    (hp4 : ¬ (part buf 0 4).length < 4) (hpm : part buf 0 4 = magic) (hr : readMeta buf n = none) : onDown e n f buf u = none := by
  unfold onDown
  rw [h1, h2]
  rw [if_neg Bool.false_ne_true, if_neg Bool.false_ne_true]
  dsimp only
  rw [if_neg (by rw [hd]; decide), if_pos hd, if_neg hp4, if_pos hpm, hr]

theorem read_panic {f : Filt} {s : String} {c : Bytes} (h : onDown (inc s) c.length f c [] = none) : Side.read ⟨f, [], []⟩ (inc s) c = none := by
  unfold Side.read
  rw [if_neg (inc_ne s)]
  simp only [List.nil_append, h]

theorem look_inc (md : Bytes) (s : String) : ((Filt.new md).look (inc s)).dir = 1 := by
  have hlook : ∃ a, (Filt.new md).look (inc s) = { Filt.new md with dir := 1, alpn := a } := by
    simp only [Filt.look, Filt.new, if_true]
    exact ⟨_, rfl⟩
  obtain ⟨a, h⟩ := hlook
  rw [h]

theorem read_magic (md : Bytes) (alpn : String) (buf : Bytes) (hp : part buf 0 4 = magic) (h : readMeta buf buf.length = none) :
    Side.read (Side.new md) (inc alpn) buf = none := by
  have h4 : ¬ (part buf 0 4).length < 4 := by rw [hp, magic_length]; decide
  exact read_panic (down_panic (f := Filt.new md) (u := []) rfl rfl (look_inc md alpn) h4 hp h)

theorem readMeta_panic {buf : Bytes} {size : Nat} (h : readBe32 (part buf 4 4) = none) : readMeta buf size = none := by
  rw [readMeta, h]

theorem readMeta_bad {buf : Bytes} {n size : Nat} (h : readBe32 (part buf 4 4) = some n) (hp : parseMeta (part buf 8 n) = none) :
    readMeta buf size = none := by
  rw [readMeta, h]
  dsimp only
  rw [hp]

/-- **C268** is false for data that look like metadata: an accepted connection - whatever protocol was negotiated - whose client sends the magic number and
less than a length panics … -/
theorem C268_magic_false (md : Bytes) (alpn : String) {r : Bytes} (h : r.length < 4) : Side.read (Side.new md) (inc alpn) (magic ++ r) = none :=
  read_magic md alpn _ (part_zero_append magic_length r)
    (readMeta_panic (by rw [part_four_append magic_length, readBe32_short (by rw [List.length_take]; omega)]))

/-- … and so does one whose client sends the magic number, a length and bytes that are no metadata. -/
theorem C268_no_metadata_false (md : Bytes) (alpn : String) {n : Nat} (hn : n < 4294967296) {r : Bytes} (h : parseMeta (r.take n) = none) :
    Side.read (Side.new md) (inc alpn) (magic ++ (be32 n ++ r)) = none := by
  have h1 : part (magic ++ (be32 n ++ r)) 4 4 = be32 n := by
    rw [part_four_append magic_length]
    exact List.take_left' (be32_length n)
  have h2 : readBe32 (part (magic ++ (be32 n ++ r)) 4 4) = some n := by rw [h1, be32_read hn]
  have h3 : part (magic ++ (be32 n ++ r)) 8 n = r.take n := by
    unfold part
    rw [show (8 : Nat) = 4 + 4 from rfl, ← List.drop_drop, List.drop_left' magic_length, List.drop_left' (be32_length n)]
  exact read_magic md alpn _ (part_zero_append magic_length _) (readMeta_bad h2 (by rw [h3]; exact h))

/-- a field that is cut is no metadata -/
example : parseMeta ([18, 5, 1].take 3) = none := by decide

end Verif.TcpMeta
