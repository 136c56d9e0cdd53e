import Verif.Kafka.Varint
/- Helper lemmas about the varint model. -/
namespace Verif.Kafka
open Verif

theorem toNat_or_80 (n : Nat) : (UInt8.ofNat n ||| 0x80).toNat = n % 128 + 128 := by
  rw [UInt8.toNat_or]
  have h : ∀ m < 256, m ||| 128 = m % 128 + 128 := by decide +kernel
  have h2 : (UInt8.ofNat n).toNat = n % 256 := by simp
  rw [h2]
  have := h (n % 256) (Nat.mod_lt _ (by decide))
  show (n % 256) ||| 128 = _
  rw [this]; omega

theorem or_80_ge (n : Nat) : ¬ (UInt8.ofNat n ||| 0x80 < 0x80) := by
  rw [UInt8.lt_iff_toNat_lt, toNat_or_80]
  simp

theorem and_7f_toNat (b : UInt8) : (b &&& 0x7f).toNat = b.toNat % 128 := by
  rw [UInt8.toNat_and]
  have h : ∀ m < 256, m &&& 127 = m % 128 := by decide +kernel
  exact h b.toNat b.toNat_lt

theorem or_shift (x b s : Nat) (h : x < 2^s) : x ||| (b <<< s) = x + b * 2^s := by
  rw [Nat.or_comm, ← Nat.shiftLeft_add_eq_or_of_lt h, Nat.shiftLeft_eq]; omega

theorem pow_shift7 (s : Nat) : 2^(s+7) = 128 * 2^s := by
  rw [Nat.pow_add]; omega

theorem readUvarintAux_put (fuel : Nat) : ∀ (s x n : Nat) (rest : Bytes), x < 2^s →
    s + 7 * fuel = 70 → n * 2^s < 2^64 →
    0 < fuel →
    readUvarintAux fuel s x (putUvarint n ++ rest) = .ok (x + n * 2^s, rest) := by
  induction fuel with
  | zero => intro _ _ _ _ _ _ _ h; omega
  | succ k ih =>
    intro s x n rest hx hs hn _
    unfold putUvarint
    split
    · rename_i hlt
      simp only [List.cons_append, List.nil_append, readUvarintAux]
      have h1 : (UInt8.ofNat n).toNat = n := by
        simp; omega
      have h2 : UInt8.ofNat n < 0x80 := by
        rw [UInt8.lt_iff_toNat_lt, h1]; exact hlt
      rw [if_pos h2]
      have h3 : ¬ (k = 0 ∧ UInt8.ofNat n > 1) := by
        rintro ⟨rfl, hgt⟩
        have h4 : 1 < n := by
          have : (1:UInt8).toNat < (UInt8.ofNat n).toNat := UInt8.lt_iff_toNat_lt.mp hgt
          rw [h1] at this; exact this
        have hs' : s = 63 := by omega
        subst hs'
        omega
      rw [if_neg h3, h1, or_shift x n s hx]
    · rename_i hge
      simp only [List.cons_append, readUvarintAux]
      rw [if_neg (or_80_ge n)]
      have hk : 0 < k := by
        rcases Nat.eq_zero_or_pos k with h0 | h0
        · subst h0
          have hs' : s = 63 := by omega
          subst hs'
          omega
        · exact h0
      have hd : (n >>> 7) = n / 128 := by simp [Nat.shiftRight_eq_div_pow]
      have hb : ((UInt8.ofNat n ||| 0x80) &&& 0x7f).toNat = n % 128 := by
        rw [and_7f_toNat, toNat_or_80]; omega
      rw [hb, or_shift x _ s hx, hd]
      have hpos : 0 < 2^s := Nat.two_pow_pos s
      have hsplit : n * 2^s = (n / 128) * (128 * 2^s) + (n % 128) * 2^s := by
        rw [← Nat.mul_assoc, ← Nat.add_mul]
        congr 1
        omega
      rw [ih (s+7) _ (n/128) rest ?_ (by omega) ?_ hk]
      · rw [pow_shift7, hsplit]
        congr 2
        omega
      · rw [pow_shift7]
        have : n % 128 ≤ 127 := by omega
        have := Nat.mul_le_mul_right (2^s) this
        omega
      · rw [pow_shift7]
        have : n / 128 * (128 * 2^s) ≤ n * 2^s := by rw [hsplit]; omega
        omega

theorem readUvarint_put (n : Nat) (rest : Bytes) (h : n < 2^64) :
    readUvarint (putUvarint n ++ rest) = .ok (n, rest) := by
  unfold readUvarint
  rw [readUvarintAux_put 10 0 0 n rest (by simp) (by rfl) (by simpa using h) (by decide)]
  simp

theorem uint32Size_le (n : Nat) : uint32Size n ≤ 5 := by
  unfold uint32Size; repeat' split
  all_goals omega

theorem putUvarint_ne_nil (n : Nat) : putUvarint n ≠ [] := by
  unfold putUvarint; split <;> simp

theorem length_putUvarint_step (n : Nat) (h : ¬ n < 128) :
    (putUvarint n).length = (putUvarint (n / 128)).length + 1 := by
  rw [putUvarint, if_neg h]
  simp [Nat.shiftRight_eq_div_pow]

theorem length_putUvarint_lt (n : Nat) (h : n < 128) : (putUvarint n).length = 1 := by
  rw [putUvarint, if_pos h]; simp

theorem uint32Size_eq (n : Nat) (h : n < 2^32) : (putUvarint n).length = uint32Size n := by
  unfold uint32Size
  repeat' split
  all_goals
    repeat (first
      | rw [length_putUvarint_lt _ (by omega)]
      | rw [length_putUvarint_step _ (by omega)])

/-- number of bytes of a 64-bit uvarint: bands of seven bits -/
theorem length_putUvarint64 (n : Nat) (h : n < 2^64) :
    (putUvarint n).length =
      if n < 2^7 then 1 else if n < 2^14 then 2 else if n < 2^21 then 3 else if n < 2^28 then 4
      else if n < 2^35 then 5 else if n < 2^42 then 6 else if n < 2^49 then 7 else if n < 2^56 then 8
      else if n < 2^63 then 9 else 10 := by
  repeat' split
  all_goals
    repeat (first
      | rw [length_putUvarint_lt _ (by omega)]
      | rw [length_putUvarint_step _ (by omega)])

/-! ### zig-zag -/

/-- the mathematical zig-zag map; (proof helper; models no code.) -/
def zz (x : Int) : Nat := if x < 0 then (-2 * x - 1).toNat else (2 * x).toNat

theorem zigzag64_eq (x : Int) (h1 : -2^63 ≤ x) (h2 : x < 2^63) : zigzag64 x = zz x := by
  unfold zigzag64 zz
  simp only
  split
  · rw [BitVec.toNat_not, BitVec.toNat_shiftLeft, BitVec.toNat_ofInt, Nat.shiftLeft_eq]
    omega
  · rw [BitVec.toNat_shiftLeft, BitVec.toNat_ofInt, Nat.shiftLeft_eq]
    omega

theorem zz_lt64 (x : Int) (h1 : -2^63 ≤ x) (h2 : x < 2^63) : zz x < 2^64 := by
  unfold zz; split <;> omega

theorem zz_lt32 (x : Int) (h1 : -2^31 ≤ x) (h2 : x < 2^31) : zz x < 2^32 := by
  unfold zz; split <;> omega

theorem bv_and_one_ne_zero (u : BitVec 64) : (u &&& 1 ≠ 0) ↔ u.toNat % 2 = 1 := by
  rw [ne_eq, ← BitVec.toNat_inj, BitVec.toNat_and]
  show ¬ (u.toNat &&& 1 = 0) ↔ _
  rw [Nat.and_one_is_mod]; omega

theorem unzigzag64_zz (x : Int) (h1 : -2^63 ≤ x) (h2 : x < 2^63) : unzigzag64 (zz x) = x := by
  unfold unzigzag64
  simp only
  have hz := zz_lt64 x h1 h2
  have hn : (BitVec.ofNat 64 (zz x)).toNat = zz x := by
    rw [BitVec.toNat_ofNat]; omega
  split
  · rename_i h
    rw [bv_and_one_ne_zero, hn] at h
    rw [BitVec.toInt_eq_toNat_cond, BitVec.toNat_not, BitVec.toNat_ushiftRight, hn,
      Nat.shiftRight_eq_div_pow]
    unfold zz at h ⊢
    split at h <;> split <;> split <;> omega
  · rename_i h
    rw [bv_and_one_ne_zero, hn] at h
    rw [BitVec.toInt_eq_toNat_cond, BitVec.toNat_ushiftRight, hn, Nat.shiftRight_eq_div_pow]
    unfold zz at h ⊢
    split at h <;> split <;> split <;> omega

theorem readVarint64_put (x : Int) (rest : Bytes) (h1 : -2^63 ≤ x) (h2 : x < 2^63) :
    readVarint64 (putVarint x ++ rest) = .ok (x, rest) := by
  unfold readVarint64 putVarint
  rw [zigzag64_eq x h1 h2, readUvarint_put _ _ (zz_lt64 x h1 h2)]
  simp only [unzigzag64_zz x h1 h2]

theorem readUvarint32_put (n : Nat) (rest : Bytes) (h : n < 2^32) :
    readUvarint32 (putUvarint n ++ rest) = .ok (n, rest) := by
  unfold readUvarint32
  rw [readUvarint_put _ _ (by omega)]
  simp only
  rw [if_neg (by omega)]

theorem readVarint32_put (x : Int) (rest : Bytes) (h1 : -2^31 ≤ x) (h2 : x < 2^31) :
    readVarint32 (putVarint x ++ rest) = .ok (x, rest) := by
  unfold readVarint32 putVarint
  have hz := zz_lt32 x h1 h2
  rw [zigzag64_eq x (by omega) (by omega), readUvarint32_put _ _ hz]
  simp only
  congr 2
  have hn : (BitVec.ofNat 64 (zz x)).toNat = zz x := by
    rw [BitVec.toNat_ofNat]; omega
  split
  · rename_i h
    rw [bv_and_one_ne_zero, hn] at h
    rw [BitVec.toInt_eq_toNat_cond, BitVec.truncate_eq_setWidth, BitVec.toNat_setWidth, BitVec.toNat_not,
      BitVec.toNat_ushiftRight, hn, Nat.shiftRight_eq_div_pow]
    unfold zz at h ⊢
    split at h <;> split <;> split <;> omega
  · rename_i h
    rw [bv_and_one_ne_zero, hn] at h
    rw [BitVec.toInt_eq_toNat_cond, BitVec.truncate_eq_setWidth, BitVec.toNat_setWidth,
      BitVec.toNat_ushiftRight, hn, Nat.shiftRight_eq_div_pow]
    unfold zz at h ⊢
    split at h <;> split <;> split <;> omega

/-! ### safety on arbitrary input -/

theorem readUvarintAux_safe (fuel : Nat) : ∀ (s x : Nat) (bs : Bytes) (v : Nat) (rest : Bytes),
    x < 2^s → s + 7 * fuel = 70 →
    readUvarintAux fuel s x bs = .ok (v, rest) →
    ∃ pre, bs = pre ++ rest ∧ 0 < pre.length ∧ pre.length ≤ fuel ∧ v < 2^64 := by
  induction fuel with
  | zero => intro s x bs v rest _ _ h; simp [readUvarintAux] at h
  | succ k ih =>
    intro s x bs v rest hx hs h
    cases bs with
    | nil => simp [readUvarintAux] at h
    | cons b bs =>
      simp only [readUvarintAux] at h
      have hpos : 0 < 2^s := Nat.two_pow_pos s
      split at h
      · rename_i hb
        split at h
        · simp at h
        · rename_i hk
          injection h with h
          simp only [Prod.mk.injEq] at h
          obtain ⟨rfl, rfl⟩ := h
          refine ⟨[b], by simp, by simp, by simp, ?_⟩
          rw [or_shift x _ s hx]
          have hb' : b.toNat < 128 := UInt8.lt_iff_toNat_lt.mp hb
          rcases Nat.eq_zero_or_pos k with h0 | h0
          · subst h0
            have hs' : s = 63 := by omega
            subst hs'
            have : ¬ (1 < b.toNat) := fun hc => hk ⟨rfl, UInt8.lt_iff_toNat_lt.mpr hc⟩
            omega
          · have hs' : s ≤ 56 := by omega
            have h1 : 2^s ≤ 2^56 := Nat.pow_le_pow_right (by decide) hs'
            have h2 : b.toNat * 2^s ≤ 127 * 2^s := Nat.mul_le_mul_right _ (by omega)
            omega
      · have hx' : (x ||| ((b &&& 0x7f).toNat <<< s)) < 2^(s+7) := by
          rw [or_shift x _ s hx, pow_shift7, and_7f_toNat]
          have : b.toNat % 128 ≤ 127 := by omega
          have := Nat.mul_le_mul_right (2^s) this
          omega
        obtain ⟨pre, h1, h2, h3, h4⟩ := ih _ _ _ _ _ hx' (by omega) h
        exact ⟨b :: pre, by simp [h1], by simp, by simp; omega, h4⟩

theorem readUvarint_safe {bs : Bytes} {v : Nat} {rest : Bytes} (h : readUvarint bs = .ok (v, rest)) :
    ∃ pre, bs = pre ++ rest ∧ 0 < pre.length ∧ pre.length ≤ 10 ∧ v < 2^64 :=
  readUvarintAux_safe 10 0 0 bs v rest (by simp) rfl h

/-- every proper prefix of an encoding is rejected -/
theorem readUvarintAux_trunc (pre : Bytes) : ∀ (fuel s x n : Nat) (suf : Bytes),
    putUvarint n = pre ++ suf → suf ≠ [] → ∃ e, readUvarintAux fuel s x pre = .error e := by
  induction pre with
  | nil => intro fuel s x n suf _ _; cases fuel <;> exact ⟨_, rfl⟩
  | cons b pre ih =>
    intro fuel s x n suf h hs
    cases fuel with
    | zero => exact ⟨_, rfl⟩
    | succ k =>
      unfold putUvarint at h
      split at h
      · simp at h
        exact absurd h.2.2 hs
      · simp only [List.cons_append, List.cons.injEq] at h
        obtain ⟨rfl, h⟩ := h
        simp only [readUvarintAux, if_neg (or_80_ge n)]
        exact ih _ _ _ _ _ h hs

end Verif.Kafka
