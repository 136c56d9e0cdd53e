import Verif.Kafka.Runes
import Verif.Props.Chunk
/-
Property C260: characters read from a part of the data are those of the part.
-/
namespace Verif.Props
open Verif Verif.Kafka

/-! ### the decoder -/

theorem decodeTail_size (b : Nat) (k : Option (Nat × Nat × Nat)) (r : Bytes) : 1 ≤ (decodeTail b k r).2 ∧ (decodeTail b k r).2 ≤ r.length + 1 := by
  unfold decodeTail
  split
  · split <;> simp
  · split <;> simp
  · split <;> simp
  · simp

theorem decodeRune_size {s : Bytes} (h : s ≠ []) : 1 ≤ (decodeRune s).2 ∧ (decodeRune s).2 ≤ s.length := by
  match s with
  | [] => exact absurd rfl h
  | b :: r =>
    simp only [decodeRune]
    by_cases h1 : b.toNat < 0x80
    · simp [h1]
    · simp only [h1, if_false]
      exact decodeTail_size _ _ r

/-- what the rest of the decoder says about a beginning of the data -/
theorem decodeTail_prefix (b : Nat) (k : Option (Nat × Nat × Nat)) (r s : Bytes) :
    ((decodeTail b k (r ++ s)).2 ≤ r.length + 1 → decodeTail b k r = decodeTail b k (r ++ s)) ∧
    (r.length + 1 < (decodeTail b k (r ++ s)).2 → decodeTail b k r = (0xFFFD, 1)) := by
  match k with
  | none => refine ⟨fun _ => ?_, fun _ => ?_⟩ <;> rfl
  | some (n, lo, hi) =>
    match n, r, s with
    | 2, [], [] => exact ⟨fun _ => rfl, fun _ => rfl⟩
    | 2, [], x :: s =>
      refine ⟨fun hs => ?_, fun _ => rfl⟩
      simp only [List.nil_append, decodeTail] at hs ⊢; split at hs <;> simp at hs; rw [if_neg (by assumption)]
    | 2, x :: r, _ =>
      refine ⟨fun _ => rfl, fun hs => ?_⟩
      simp only [List.cons_append, decodeTail] at hs; split at hs <;> (simp at hs; try omega)
    | 3, [], [] => exact ⟨fun _ => rfl, fun _ => rfl⟩
    | 3, [], [x] => exact ⟨fun _ => rfl, fun _ => rfl⟩
    | 3, [], x :: y :: s =>
      refine ⟨fun hs => ?_, fun _ => rfl⟩
      simp only [List.nil_append, decodeTail] at hs ⊢; split at hs <;> simp at hs; rw [if_neg (by assumption)]
    | 3, [x], [] => exact ⟨fun _ => rfl, fun _ => rfl⟩
    | 3, [x], y :: s =>
      refine ⟨fun hs => ?_, fun _ => rfl⟩
      simp only [List.cons_append, List.nil_append, decodeTail] at hs ⊢; split at hs <;> simp at hs; rw [if_neg (by assumption)]
    | 3, x :: y :: r, _ =>
      refine ⟨fun _ => rfl, fun hs => ?_⟩
      simp only [List.cons_append, decodeTail] at hs; split at hs <;> (simp at hs; try omega)
    | 4, [], [] => exact ⟨fun _ => rfl, fun _ => rfl⟩
    | 4, [], [x] => exact ⟨fun _ => rfl, fun _ => rfl⟩
    | 4, [], [x, y] => exact ⟨fun _ => rfl, fun _ => rfl⟩
    | 4, [], x :: y :: z :: s =>
      refine ⟨fun hs => ?_, fun _ => rfl⟩
      simp only [List.nil_append, decodeTail] at hs ⊢; split at hs <;> simp at hs; rw [if_neg (by assumption)]
    | 4, [x], [] => exact ⟨fun _ => rfl, fun _ => rfl⟩
    | 4, [x], [y] => exact ⟨fun _ => rfl, fun _ => rfl⟩
    | 4, [x], y :: z :: s =>
      refine ⟨fun hs => ?_, fun _ => rfl⟩
      simp only [List.cons_append, List.nil_append, decodeTail] at hs ⊢; split at hs <;> simp at hs; rw [if_neg (by assumption)]
    | 4, [x, y], [] => exact ⟨fun _ => rfl, fun _ => rfl⟩
    | 4, [x, y], z :: s =>
      refine ⟨fun hs => ?_, fun _ => rfl⟩
      simp only [List.cons_append, List.nil_append, decodeTail] at hs ⊢; split at hs <;> simp at hs; rw [if_neg (by assumption)]
    | 4, x :: y :: z :: r, _ =>
      refine ⟨fun _ => rfl, fun hs => ?_⟩
      simp only [List.cons_append, decodeTail] at hs; split at hs <;> (simp at hs; try omega)
    | 0, _, _ => exact ⟨fun _ => rfl, fun _ => rfl⟩
    | 1, _, _ => exact ⟨fun _ => rfl, fun _ => rfl⟩
    | n + 5, _, _ => exact ⟨fun _ => rfl, fun _ => rfl⟩

theorem decodeRune_prefix {a : Bytes} (s : Bytes) (ha : a ≠ []) :
    ((decodeRune (a ++ s)).2 ≤ a.length → decodeRune a = decodeRune (a ++ s)) ∧
    (a.length < (decodeRune (a ++ s)).2 → decodeRune a = (0xFFFD, 1)) := by
  match a with
  | [] => exact absurd rfl ha
  | b :: r =>
    simp only [List.cons_append, decodeRune, List.length_cons]
    by_cases h1 : b.toNat < 0x80
    · simp [h1]
    · simp only [h1, if_false]
      exact decodeTail_prefix _ _ r s

/-- the decoder undoes UTF-8 (the encoding of Lean's library) -/
theorem decodeRune_encode (c : Char) (s : Bytes) : decodeRune (String.utf8EncodeChar c ++ s) = (c.toNat, (String.utf8EncodeChar c).length) := by
  have hv : c.val.toNat < 0xD800 ∨ (0xDFFF < c.val.toNat ∧ c.val.toNat < 0x110000) := c.valid
  have ht : c.toNat = c.val.toNat := rfl
  unfold String.utf8EncodeChar
  rw [ht]
  generalize c.val.toNat = v at hv ⊢
  have o : ∀ n, n < 256 → (UInt8.ofNat n).toNat = n := fun n hn => by rw [UInt8.toNat_ofNat']; omega
  simp only []
  by_cases h1 : v ≤ 127
  · simp only [h1, if_true, List.cons_append, List.nil_append, decodeRune, o v (by omega), List.length_singleton]
    rw [if_pos (by omega)]
  · rw [if_neg h1]
    by_cases h2 : v ≤ 2047
    · simp only [h2, if_true, List.cons_append, List.nil_append, decodeRune, o (v / 64 % 32 + 192) (by omega), List.length_cons, List.length_nil]
      rw [if_neg (by omega)]
      have hk : leadByte (v / 64 % 32 + 192) = some (2, 0x80, 0xBF) := by unfold leadByte; rw [if_neg (by omega), if_pos (by omega)]
      simp only [hk, decodeTail, o (v % 64 + 128) (by omega)]
      rw [if_pos (by omega)]
      exact Prod.ext (by show _ = v; simp only []; omega) rfl
    · rw [if_neg h2]
      by_cases h3 : v ≤ 65535
      · simp only [h3, if_true, List.cons_append, List.nil_append, decodeRune, o (v / 4096 % 16 + 224) (by omega), List.length_cons, List.length_nil]
        rw [if_neg (by omega)]
        have hk : ∃ lo hi, leadByte (v / 4096 % 16 + 224) = some (3, lo, hi) ∧ lo ≤ v / 64 % 64 + 128 ∧ v / 64 % 64 + 128 ≤ hi := by
          unfold leadByte
          rw [if_neg (by omega), if_neg (by omega)]
          by_cases e0 : v / 4096 % 16 + 224 = 0xE0
          · exact ⟨_, _, by rw [if_pos e0], by omega, by omega⟩
          · rw [if_neg e0]
            by_cases ed : v / 4096 % 16 + 224 = 0xED
            · exact ⟨_, _, by rw [if_pos ed], by omega, by omega⟩
            · exact ⟨_, _, by rw [if_neg ed, if_pos (by omega)], by omega, by omega⟩
        obtain ⟨lo, hi, hk, hlo, hhi⟩ := hk
        simp only [hk, decodeTail, o (v % 64 + 128) (by omega), o (v / 64 % 64 + 128) (by omega)]
        have hc : isCont (v % 64 + 128) = true := by simp only [isCont, Bool.and_eq_true, decide_eq_true_eq]; omega
        rw [if_pos ⟨hlo, hhi, hc⟩]
        exact Prod.ext (by show _ = v; simp only []; omega) rfl
      · rw [if_neg h3]
        simp only [List.cons_append, List.nil_append, decodeRune, o (v / 262144 % 8 + 240) (by omega), List.length_cons, List.length_nil]
        rw [if_neg (by omega)]
        have hk : ∃ lo hi, leadByte (v / 262144 % 8 + 240) = some (4, lo, hi) ∧ lo ≤ v / 4096 % 64 + 128 ∧ v / 4096 % 64 + 128 ≤ hi := by
          unfold leadByte
          rw [if_neg (by omega), if_neg (by omega), if_neg (by omega), if_neg (by omega), if_neg (by omega)]
          by_cases e0 : v / 262144 % 8 + 240 = 0xF0
          · exact ⟨_, _, by rw [if_pos e0], by omega, by omega⟩
          · rw [if_neg e0]
            by_cases e3 : v / 262144 % 8 + 240 ≤ 0xF3
            · exact ⟨_, _, by rw [if_pos e3], by omega, by omega⟩
            · exact ⟨_, _, by rw [if_neg e3, if_pos (by omega)], by omega, by omega⟩
        obtain ⟨lo, hi, hk, hlo, hhi⟩ := hk
        simp only [hk, decodeTail, o (v % 64 + 128) (by omega), o (v / 64 % 64 + 128) (by omega), o (v / 4096 % 64 + 128) (by omega)]
        have hc : isCont (v % 64 + 128) = true := by simp only [isCont, Bool.and_eq_true, decide_eq_true_eq]; omega
        have hc' : isCont (v / 64 % 64 + 128) = true := by simp only [isCont, Bool.and_eq_true, decide_eq_true_eq]; omega
        rw [if_pos ⟨hlo, hhi, hc', hc⟩]
        exact Prod.ext (by show _ = v; simp only []; omega) rfl

/-- the character with a given number (specification aid) -/
theorem char_of (v : Nat) (h : v < 0xD800 ∨ (0xDFFF < v ∧ v < 0x110000)) : ∃ c : Char, c.toNat = v := by
  refine ⟨⟨UInt32.ofNat v, ?_⟩, ?_⟩
  · show (UInt32.ofNat v).toNat < _ ∨ _ < (UInt32.ofNat v).toNat ∧ (UInt32.ofNat v).toNat < _
    rw [UInt32.toNat_ofNat']
    omega
  · show (UInt32.ofNat v).toNat = v
    rw [UInt32.toNat_ofNat']
    omega

/-- what the decoder takes for a character is one: its bytes are those of the character's encoding -/
theorem decodeRune_sound (s : Bytes) (hs : s ≠ []) :
    decodeRune s = (0xFFFD, 1) ∨ ∃ c : Char, String.utf8EncodeChar c <+: s ∧ decodeRune s = (c.toNat, (String.utf8EncodeChar c).length) := by
  cases s with
  | nil => exact absurd rfl hs
  | cons b r =>
    have o : ∀ (x : UInt8) (n : Nat), n = x.toNat → UInt8.ofNat n = x := fun x n h => by rw [h]; exact UInt8.ofNat_toNat
    have enc : ∀ (v : Nat), (v < 0xD800 ∨ (0xDFFF < v ∧ v < 0x110000)) → ∀ e : Bytes, (∀ c : Char, c.toNat = v → String.utf8EncodeChar c = e) → e <+: b :: r →
        decodeRune (b :: r) = (v, e.length) → ∃ c : Char, String.utf8EncodeChar c <+: b :: r ∧ decodeRune (b :: r) = (c.toNat, (String.utf8EncodeChar c).length) := by
      intro v hv e he hp hd
      obtain ⟨c, hc⟩ := char_of v hv
      exact ⟨c, by rw [he c hc]; exact hp, by rw [he c hc, hc]; exact hd⟩
    have hb := b.toNat_lt
    by_cases h1 : b.toNat < 0x80
    · right
      refine enc b.toNat (by omega) [b] ?_ ⟨r, rfl⟩ (by simp [decodeRune, h1])
      intro c hc
      have hc' : c.val.toNat = b.toNat := hc
      unfold String.utf8EncodeChar
      simp only [hc']
      rw [if_pos (by omega), o b _ rfl]
    · have hd : decodeRune (b :: r) = decodeTail b.toNat (leadByte b.toNat) r := by simp only [decodeRune, h1, if_false]
      rcases Classical.em (decodeRune (b :: r) = (0xFFFD, 1)) with hbad | hok
      · exact Or.inl hbad
      · right
        rw [hd] at hok
        match hk : leadByte b.toNat, r, hok, hd with
        | none, r, hok, hd => exact absurd (by simp [decodeTail]) hok
        | some (n, lo, hi), r, hok, hd =>
          have hlead : (n = 2 ∧ lo = 0x80 ∧ hi = 0xBF ∧ 0xC2 ≤ b.toNat ∧ b.toNat ≤ 0xDF) ∨
              (n = 3 ∧ 0xE0 ≤ b.toNat ∧ b.toNat ≤ 0xEF ∧ hi ≤ 0xBF ∧ 0x80 ≤ lo ∧ (b.toNat = 0xE0 → lo = 0xA0) ∧ (b.toNat = 0xED → hi = 0x9F)) ∨
              (n = 4 ∧ 0xF0 ≤ b.toNat ∧ b.toNat ≤ 0xF4 ∧ hi ≤ 0xBF ∧ 0x80 ≤ lo ∧ (b.toNat = 0xF0 → lo = 0x90) ∧ (b.toNat = 0xF4 → hi = 0x8F)) := by
            unfold leadByte at hk
            repeat' split at hk
            all_goals (cases hk <;> omega)
          rcases hlead with ⟨rfl, rfl, rfl, hl, hu⟩ | ⟨rfl, hl, hu, hhi, hlo, he0, hed⟩ | ⟨rfl, hl, hu, hhi, hlo, he0, hed⟩
          · match r, hok, hd with
            | [], hok, _ => exact absurd (by simp [decodeTail]) hok
            | x :: r, hok, hd =>
              simp only [decodeTail] at hok hd
              by_cases hx : 0x80 ≤ x.toNat ∧ x.toNat ≤ 0xBF
              · rw [if_pos hx] at hd
                refine enc _ (by omega) [b, x] ?_ ⟨r, rfl⟩ hd
                intro c hc
                have hc' : c.val.toNat = b.toNat % 32 * 64 + x.toNat % 64 := hc
                unfold String.utf8EncodeChar
                simp only [hc']
                rw [if_neg (by omega), if_pos (by omega), o b _ (by omega), o x _ (by omega)]
              · rw [if_neg hx] at hok; exact absurd rfl hok
          · match r, hok, hd with
            | [], hok, _ => exact absurd (by simp [decodeTail]) hok
            | [x], hok, _ => exact absurd (by simp [decodeTail]) hok
            | x :: y :: r, hok, hd =>
              simp only [decodeTail] at hok hd
              by_cases hx : lo ≤ x.toNat ∧ x.toNat ≤ hi ∧ isCont y.toNat
              · rw [if_pos hx] at hd
                simp only [isCont, Bool.and_eq_true, decide_eq_true_eq] at hx
                refine enc _ (by omega) [b, x, y] ?_ ⟨r, rfl⟩ hd
                intro c hc
                have hc' : c.val.toNat = b.toNat % 16 * 4096 + x.toNat % 64 * 64 + y.toNat % 64 := hc
                unfold String.utf8EncodeChar
                simp only [hc']
                rw [if_neg (by omega), if_neg (by omega), if_pos (by omega), o b _ (by omega), o x _ (by omega), o y _ (by omega)]
              · rw [if_neg hx] at hok; exact absurd rfl hok
          · match r, hok, hd with
            | [], hok, _ => exact absurd (by simp [decodeTail]) hok
            | [x], hok, _ => exact absurd (by simp [decodeTail]) hok
            | [x, y], hok, _ => exact absurd (by simp [decodeTail]) hok
            | x :: y :: z :: r, hok, hd =>
              simp only [decodeTail] at hok hd
              by_cases hx : lo ≤ x.toNat ∧ x.toNat ≤ hi ∧ isCont y.toNat ∧ isCont z.toNat
              · rw [if_pos hx] at hd
                simp only [isCont, Bool.and_eq_true, decide_eq_true_eq] at hx
                refine enc _ (by omega) [b, x, y, z] ?_ ⟨r, rfl⟩ hd
                intro c hc
                have hc' : c.val.toNat = b.toNat % 8 * 262144 + x.toNat % 64 * 4096 + y.toNat % 64 * 64 + z.toNat % 64 := hc
                unfold String.utf8EncodeChar
                simp only [hc']
                rw [if_neg (by omega), if_neg (by omega), if_neg (by omega), o b _ (by omega), o x _ (by omega), o y _ (by omega), o z _ (by omega)]
              · rw [if_neg hx] at hok; exact absurd rfl hok

theorem rLen_parent {d : BR} {w : Win} {ws : List Win} (hn : Nest d (w :: ws)) (hi : Inside d ws) : rLen d (w :: ws) = absBase (w :: ws) + w.size - d.pos := by
  have := rLen_eq hn.2.2.2 hi
  simp only [rLen, absBase, this]
  omega

theorem rUnreadRune_eq {d : BR} {p : Nat} : ∀ {ws : List Win}, Nest d ws → Inside d ws → absBase ws < d.pos →
    rUnreadRune ⟨d, some p⟩ ws = (true, ⟨{ d with pos := p }, none⟩)
  | [], _, _, h => by
    simp only [absBase] at h
    simp only [rUnreadRune]
    rw [if_neg (by omega)]
  | w :: ws, hn, hi, h => by
    have hp := hi.parent hn
    have hl := rLen_eq hn.2.2.2 hp
    simp only [absBase] at h
    rw [rUnreadRune, if_neg (by simp only []; omega)]
    exact rUnreadRune_eq hn.2.2.2 hp (by have := hn.1; omega)

/-- one read, at any place inside the window -/
theorem rReadRune_eq {d : BR} {q : Option Nat} : ∀ {ws : List Win}, Nest d ws → Inside d ws → 0 < rLen d ws →
    rReadRune ⟨d, q⟩ ws = if ((decodeRune (d.data.drop d.pos)).2 : Int) ≤ rLen d ws then
      (some (decodeRune (d.data.drop d.pos)), ⟨{ d with pos := d.pos + (decodeRune (d.data.drop d.pos)).2 }, some d.pos⟩) else (none, ⟨d, none⟩)
  | [], _, _, hl => by
    simp only [rLen] at hl
    have hs := decodeRune_size (s := d.data.drop d.pos) (by intro h; have := congrArg List.length h; simp only [List.length_drop, List.length_nil] at this; omega)
    simp only [List.length_drop] at hs
    have hc : ((decodeRune (d.data.drop d.pos)).2 : Int) ≤ rLen d [] := by simp only [rLen]; omega
    rw [if_pos hc]
    simp only [rReadRune]
    rw [if_neg (by omega)]
  | w :: ws, hn, hi, hl => by
    have hp := hi.parent hn
    have h1 := rLen_eq hn.2.2.2 hp
    have h2 := rLen_eq hn hi
    have hw := hn.2.2.1
    simp only [absBase, rSize] at h2
    have hs := decodeRune_size (s := d.data.drop d.pos) (by
      intro h
      have := congrArg List.length h
      have := nest_bound hn
      simp only [List.length_drop, List.length_nil, absBase, rSize] at *; omega)
    rw [rReadRune, if_neg (by simp only []; omega), rReadRune_eq hn.2.2.2 hp (by omega)]
    generalize decodeRune (d.data.drop d.pos) = x at hs
    by_cases hc : (x.2 : Int) ≤ rLen d ws
    · rw [if_pos hc]
      simp only []
      have hp' : Inside { d with pos := d.pos + x.2 } ws := by
        have h3 := hp.1; have h4 := hp.2
        refine ⟨?_, ?_⟩
        · show absBase ws ≤ ((d.pos + x.2 : Nat) : Int); omega
        · show ((d.pos + x.2 : Nat) : Int) ≤ absBase ws + rSize { d with pos := d.pos + x.2 } ws
          rw [rSize_pos]; omega
      have h5 := rLen_parent (d := { d with pos := d.pos + x.2 }) (Nest_pos hn) hp'
      simp only [absBase] at h5
      by_cases hc' : (x.2 : Int) ≤ rLen d (w :: ws)
      · rw [if_pos hc', if_neg (by rw [h5]; omega)]
      · rw [if_neg hc', if_pos (by rw [h5]; omega)]
        rw [rUnreadRune_eq (d := { d with pos := d.pos + x.2 }) (Nest_pos hn.2.2.2) hp' (by show absBase ws < ((d.pos + x.2 : Nat) : Int); have := hp.1; omega)]
    · rw [if_neg hc, if_neg (by omega)]

/-- the unread bytes of a (nested) chunk reader (specification) -/
def unread (d : BR) (ws : List Win) : Bytes := (d.data.drop d.pos).take (rLen d ws).toNat

theorem unread_length {d : BR} {ws : List Win} (hn : Nest d ws) (hi : Inside d ws) : ((unread d ws).length : Int) = rLen d ws := by
  have := rLen_eq hn hi
  have := nest_bound hn
  have h1 := hi.1; have h2 := hi.2
  simp only [unread, List.length_take, List.length_drop]
  omega

theorem unread_append (d : BR) (ws : List Win) : unread d ws ++ (d.data.drop d.pos).drop (rLen d ws).toNat = d.data.drop d.pos := List.take_append_drop _ _

/-- **C260**, unless the part ends inside a character: reading a character from a part of the data gives the first character of its unread bytes, as if they were all
there is, and takes exactly its bytes; at the end of the part nothing is read and nothing changes -/
theorem C260_read_partial {d : BR} {ws : List Win} (hb : Built d ws) (hw : ws ≠ []) (q : Option Nat) :
    (unread d ws = [] → rReadRune ⟨d, q⟩ ws = (none, ⟨d, q⟩)) ∧
    (unread d ws ≠ [] → (decodeRune (d.data.drop d.pos)).2 ≤ (unread d ws).length →
      rReadRune ⟨d, q⟩ ws = (some (decodeRune (unread d ws)), ⟨{ d with pos := d.pos + (decodeRune (unread d ws)).2 }, some d.pos⟩)) := by
  obtain ⟨hn, hi⟩ := hb.ok
  have hl := unread_length hn hi
  refine ⟨?_, ?_⟩
  · intro he
    rw [he] at hl
    cases ws with
    | nil => exact absurd rfl hw
    | cons w ws => rw [rReadRune, if_pos (by simp only [List.length_nil] at hl; simp only []; omega)]
  · intro hne hs
    have hpos := List.length_pos_iff.2 hne
    have hpre := (decodeRune_prefix ((d.data.drop d.pos).drop (rLen d ws).toNat) hne).1
    rw [unread_append] at hpre
    have he := hpre hs
    rw [rReadRune_eq hn hi (by omega), if_pos (by omega), he]

/-- reads `n` characters (specification) -/
def readRunes (ws : List Win) : Nat → RR → List (Option (Nat × Nat)) × RR
  | 0, r => ([], r)
  | n + 1, r => ((rReadRune r ws).1 :: (readRunes ws n (rReadRune r ws).2).1, (readRunes ws n (rReadRune r ws).2).2)

/-- **C260**: a text in a part of the data is read character by character, whatever stands before and behind the part, and then the end is reached -/
theorem C260_text {d : BR} {ws : List Win} (hb : Built d ws) (hw : ws ≠ []) (cs : List Char) (q : Option Nat) (h : unread d ws = cs.flatMap String.utf8EncodeChar) :
    (readRunes ws (cs.length + 1) ⟨d, q⟩).1 = cs.map (fun c => some (c.toNat, (String.utf8EncodeChar c).length)) ++ [none] := by
  obtain ⟨hn, hi⟩ := hb.ok
  clear hb
  induction cs generalizing d q with
  | nil =>
    have hl := unread_length hn hi
    rw [h] at hl
    simp only [List.flatMap_nil, List.length_nil] at hl
    cases ws with
    | nil => exact absurd rfl hw
    | cons w ws =>
      simp only [readRunes, List.map_nil, List.nil_append, List.length_nil]
      rw [rReadRune, if_pos (by simp only []; omega)]
  | cons c cs ih =>
    have hl := unread_length hn hi
    have happ := unread_append d ws
    rw [h, List.flatMap_cons, List.append_assoc] at happ
    have hdec := decodeRune_encode c (cs.flatMap String.utf8EncodeChar ++ (d.data.drop d.pos).drop (rLen d ws).toNat)
    rw [happ] at hdec
    rw [h, List.flatMap_cons, List.length_append] at hl
    have hc : 0 < (String.utf8EncodeChar c).length := by
      have := decodeRune_size (s := String.utf8EncodeChar c) (by unfold String.utf8EncodeChar; simp only []; split <;> (try split) <;> (try split) <;> simp)
      omega
    have hr := rReadRune_eq (q := q) hn hi (by omega)
    rw [hdec] at hr
    rw [if_pos (by simp only []; omega)] at hr
    simp only [List.length_cons, List.map_cons, List.cons_append]
    rw [readRunes, hr]
    simp only [List.cons.injEq, true_and]
    have hle := rLen_eq hn hi
    have hi' : Inside { d with pos := d.pos + (String.utf8EncodeChar c).length } ws := by
      have h1 := hi.1; have h2 := hi.2
      refine ⟨?_, ?_⟩
      · show absBase ws ≤ ((d.pos + (String.utf8EncodeChar c).length : Nat) : Int); omega
      · show ((d.pos + (String.utf8EncodeChar c).length : Nat) : Int) ≤ absBase ws + rSize { d with pos := d.pos + (String.utf8EncodeChar c).length } ws
        rw [rSize_pos]; omega
    refine ih (d := { d with pos := d.pos + (String.utf8EncodeChar c).length }) (some d.pos) ?_ (Nest_pos hn) hi'
    have hle' := rLen_eq (Nest_pos (q := d.pos + (String.utf8EncodeChar c).length) hn) hi'
    rw [rSize_pos] at hle'
    simp only [unread, hle']
    have hu := congrArg (List.drop (String.utf8EncodeChar c).length) h
    rw [List.flatMap_cons, List.drop_left'  rfl] at hu
    rw [← hu, unread, List.drop_take, List.drop_drop]
    congr 1
    omega

/-- **C260**: taking back the character read last goes back to where it began; nothing can be taken back from before the part, and nothing twice -/
theorem C260_unread {d : BR} {w : Win} {ws : List Win} (hb : Built d (w :: ws)) (q : Option Nat) :
    (∀ x r, rReadRune ⟨d, q⟩ (w :: ws) = (some x, r) → rUnreadRune r (w :: ws) = (true, ⟨d, none⟩)) ∧
    (d.pos = (absBase (w :: ws)).toNat → rUnreadRune ⟨d, q⟩ (w :: ws) = (false, ⟨d, q⟩)) ∧
    (rUnreadRune ⟨d, none⟩ (w :: ws) = (false, ⟨d, none⟩)) := by
  obtain ⟨hn, hi⟩ := hb.ok
  refine ⟨?_, ?_, ?_⟩
  · intro x r h
    by_cases hl : rLen d (w :: ws) ≤ 0
    · rw [rReadRune, if_pos (by simpa using hl)] at h; cases h
    · have hr := rReadRune_eq (q := q) hn hi (by omega)
      rw [hr] at h
      by_cases hc : ((decodeRune (d.data.drop d.pos)).2 : Int) ≤ rLen d (w :: ws)
      · rw [if_pos hc] at h
        cases h
        have hle := rLen_eq hn hi
        have hs := decodeRune_size (s := d.data.drop d.pos) (by
          intro h
          have := congrArg List.length h
          have := nest_bound hn
          simp only [List.length_drop, List.length_nil, absBase, rSize] at *; omega)
        have h1 := hi.1; have h2 := hi.2
        rw [rUnreadRune_eq (Nest_pos hn) ⟨by show absBase (w :: ws) ≤ ((d.pos + (decodeRune (d.data.drop d.pos)).2 : Nat) : Int); omega, by
          show ((d.pos + (decodeRune (d.data.drop d.pos)).2 : Nat) : Int) ≤ absBase (w :: ws) + rSize _ (w :: ws)
          rw [rSize_pos]; omega⟩ (by show absBase (w :: ws) < ((d.pos + (decodeRune (d.data.drop d.pos)).2 : Nat) : Int); omega)]
      · rw [if_neg hc] at h; cases h
  · intro hp
    have hle := rLen_eq hn.2.2.2 (hi.parent hn)
    have h1 := hi.1
    simp only [absBase] at hp h1
    have := absBase_nonneg hn
    simp only [absBase] at this
    rw [rUnreadRune, if_pos (by simp only []; omega)]
  · have main : ∀ vs : List Win, rUnreadRune ⟨d, none⟩ vs = (false, ⟨d, none⟩) := by
      intro vs
      induction vs with
      | nil => simp [rUnreadRune]
      | cons v vs ih => rw [rUnreadRune]; split <;> first | rfl | exact ih
    exact main _

/-- **C260**: bytes that do not begin with a character's encoding are read one at a time, as the replacement character -/
theorem C260_invalid {d : BR} {ws : List Win} (hb : Built d ws) (hw : ws ≠ []) (q : Option Nat) (hu : unread d ws ≠ [])
    (hc : ∀ c : Char, ¬ String.utf8EncodeChar c <+: d.data.drop d.pos) :
    rReadRune ⟨d, q⟩ ws = (some (0xFFFD, 1), ⟨{ d with pos := d.pos + 1 }, some d.pos⟩) := by
  have hne : d.data.drop d.pos ≠ [] := by
    intro he
    have := unread_append d ws
    rw [he] at this
    exact hu (List.append_eq_nil_iff.1 this).1
  have h1 : decodeRune (d.data.drop d.pos) = (0xFFFD, 1) := by
    rcases decodeRune_sound _ hne with h | ⟨c, hp, _⟩
    · exact h
    · exact absurd hp (hc c)
  have h2 : decodeRune (unread d ws) = (0xFFFD, 1) := by
    rcases decodeRune_sound _ hu with h | ⟨c, hp, _⟩
    · exact h
    · exact absurd (hp.trans ⟨_, unread_append d ws⟩) (hc c)
  have hlen := List.length_pos_iff.2 hu
  have := (C260_read_partial hb hw q).2 hu (by rw [h1]; omega)
  rw [h2] at this
  exact this

/-- two bytes that are no character, the second byte above the range (non-vacuity) -/
example : let d : BR := ⟨[0xC3, 0xC0], 0⟩
    (readRunes (newChunk d [] 2) 3 ⟨d, none⟩).1 = [some (0xFFFD, 1), some (0xFFFD, 1), none] := by decide +kernel

/-- **C260** is false of the code: if a part ends inside a character whose other bytes stand behind it, its last bytes are never read: the end is reported although there
are unread bytes (on those bytes alone one would read the replacement character) -/
theorem C260_cut_false {d : BR} {ws : List Win} (hb : Built d ws) (q : Option Nat) (c : Char) (p t s : Bytes) (he : p ++ t = String.utf8EncodeChar c) (hp : p ≠ []) (ht : t ≠ [])
    (hu : unread d ws = p) (hd : d.data.drop d.pos = p ++ t ++ s) :
    rReadRune ⟨d, q⟩ ws = (none, ⟨d, none⟩) ∧ 0 < rLen d ws ∧ decodeRune (unread d ws) = (0xFFFD, 1) := by
  obtain ⟨hn, hi⟩ := hb.ok
  have hl := unread_length hn hi
  rw [hu] at hl
  have hp' := List.length_pos_iff.2 hp
  have ht' := List.length_pos_iff.2 ht
  have hlen := congrArg List.length he
  rw [List.length_append] at hlen
  have hdec := decodeRune_encode c s
  rw [← he] at hdec
  rw [List.length_append] at hdec
  refine ⟨?_, by omega, ?_⟩
  · rw [rReadRune_eq hn hi (by omega), hd, hdec, if_neg (by simp only []; omega)]
  · rw [hu]
    refine (decodeRune_prefix (t ++ s) hp).2 ?_
    rw [← List.append_assoc, hdec]
    simp only []; omega

/-- two chunks of `aé€x` (non-vacuity): one that ends between characters, and one that ends inside the third -/
example : let d : BR := ⟨[97, 0xC3, 0xA9, 0xE2, 0x82, 0xAC, 120], 0⟩
    (readRunes (newChunk d [] 6) 4 ⟨d, none⟩).1 = [some (97, 1), some (0xE9, 2), some (0x20AC, 3), none] ∧
    (readRunes (newChunk d [] 5) 3 ⟨d, none⟩).1 = [some (97, 1), some (0xE9, 2), none] ∧
    Built d (newChunk d [] 6) ∧ unread d (newChunk d [] 6) = "aé€".toList.flatMap String.utf8EncodeChar := by
  refine ⟨by decide +kernel, by decide +kernel, .chunk 6 (.reader _ 0 (by simp)), by decide +kernel⟩

end Verif.Props
