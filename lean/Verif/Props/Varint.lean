import Verif.Kafka.VarintLemmas
/-
Property theorems C01–C03 (Kafka varints).
Value domains: a Go `uint32` is a `Nat` below 2^32, an `int32`/`int64` an `Int` in the two's-complement range.
-/
namespace Verif.Props
open Verif Verif.Kafka

/-- the values of Go's `int32` / `int64` -/
def IsInt32 (x : Int) : Prop := -2^31 ≤ x ∧ x < 2^31
def IsInt64 (x : Int) : Prop := -2^63 ≤ x ∧ x < 2^63
instance (x : Int) : Decidable (IsInt32 x) := by unfold IsInt32; infer_instance
instance (x : Int) : Decidable (IsInt64 x) := by unfold IsInt64; infer_instance

/-! #### C01: round trip -/

/-- C01 for uint32: the writer never fails and the reader returns the value and exactly the rest. -/
theorem C01_uvarint32_roundtrip (v : Nat) (hv : v < 2^32) (rest : Bytes) :
    ∃ enc, writeUvarint32 v = .ok enc ∧ readUvarint32 (enc ++ rest) = .ok (v, rest) := by
  refine ⟨putUvarint v, ?_, readUvarint32_put v rest hv⟩
  unfold writeUvarint32
  rw [if_neg (by have := uint32Size_le v; omega)]

/-- C01 for int32 (zig-zag). -/
theorem C01_varint32_roundtrip (v : Int) (hv : IsInt32 v) (rest : Bytes) :
    ∃ enc, writeVarint32 v = .ok enc ∧ readVarint32 (enc ++ rest) = .ok (v, rest) := by
  refine ⟨putVarint v, ?_, readVarint32_put v rest hv.1 hv.2⟩
  unfold writeVarint32
  rw [if_neg (by have := uint32Size_le ((BitVec.ofInt 32 v <<< 1) ^^^ (BitVec.ofInt 32 v).sshiftRight 31).toNat
                 unfold int32Size; simp only; omega)]

/-- C01 for int64 (zig-zag). -/
theorem C01_varint64_roundtrip (v : Int) (hv : IsInt64 v) (rest : Bytes) :
    ∃ enc, writeVarint64 v = .ok enc ∧ readVarint64 (enc ++ rest) = .ok (v, rest) :=
  ⟨putVarint v, rfl, readVarint64_put v rest hv.1 hv.2⟩

example : IsInt32 (-2147483648) ∧ IsInt64 (-9223372036854775808) ∧ (4294967295 : Nat) < 2^32 := by decide
example : readVarint32 (putVarint (-3) ++ [7]) = .ok (-3, [7]) := readVarint32_put _ _ (by decide) (by decide)

/-! #### C02: size functions -/

/-- C02 for uint32. -/
theorem C02_uint32Size (v : Nat) (hv : v < 2^32) :
    writeUvarint32 v = .ok (putUvarint v) ∧ (putUvarint v).length = uint32Size v := by
  refine ⟨?_, uint32Size_eq v hv⟩
  unfold writeUvarint32
  rw [if_neg (by have := uint32Size_le v; omega)]

/-- the size functions' shift/xor zig-zag equals the writer's zig-zag (32 bit) -/
theorem zz32_bits (v : Int) (hv : IsInt32 v) :
    ((BitVec.ofInt 32 v <<< 1) ^^^ (BitVec.ofInt 32 v).sshiftRight 31).toNat = zz v := by
  obtain ⟨h1, h2⟩ := hv
  by_cases hneg : v < 0
  · have hs : (BitVec.ofInt 32 v).sshiftRight 31 = BitVec.allOnes 32 := by
      apply BitVec.eq_of_toInt_eq
      rw [BitVec.toInt_sshiftRight, BitVec.toInt_ofInt, Int.bmod_eq_of_le (by omega) (by omega),
        Int.shiftRight_eq_div_pow]
      rw [BitVec.toInt_allOnes]
      omega
    rw [hs, BitVec.xor_allOnes, BitVec.toNat_not, BitVec.toNat_shiftLeft, BitVec.toNat_ofInt,
      Nat.shiftLeft_eq]
    unfold zz; rw [if_pos hneg]; omega
  · have hs : (BitVec.ofInt 32 v).sshiftRight 31 = 0#32 := by
      apply BitVec.eq_of_toInt_eq
      rw [BitVec.toInt_sshiftRight, BitVec.toInt_ofInt, Int.bmod_eq_of_le (by omega) (by omega),
        Int.shiftRight_eq_div_pow]
      simp
      omega
    rw [hs, BitVec.xor_zero, BitVec.toNat_shiftLeft, BitVec.toNat_ofInt, Nat.shiftLeft_eq]
    unfold zz; rw [if_neg hneg]; omega

/-- the same for 64 bit -/
theorem zz64_bits (v : Int) (hv : IsInt64 v) :
    ((BitVec.ofInt 64 v <<< 1) ^^^ (BitVec.ofInt 64 v).sshiftRight 63).toNat = zz v := by
  obtain ⟨h1, h2⟩ := hv
  by_cases hneg : v < 0
  · have hs : (BitVec.ofInt 64 v).sshiftRight 63 = BitVec.allOnes 64 := by
      apply BitVec.eq_of_toInt_eq
      rw [BitVec.toInt_sshiftRight, BitVec.toInt_ofInt, Int.bmod_eq_of_le (by omega) (by omega),
        Int.shiftRight_eq_div_pow]
      rw [BitVec.toInt_allOnes]
      omega
    rw [hs, BitVec.xor_allOnes, BitVec.toNat_not, BitVec.toNat_shiftLeft, BitVec.toNat_ofInt,
      Nat.shiftLeft_eq]
    unfold zz; rw [if_pos hneg]; omega
  · have hs : (BitVec.ofInt 64 v).sshiftRight 63 = 0#64 := by
      apply BitVec.eq_of_toInt_eq
      rw [BitVec.toInt_sshiftRight, BitVec.toInt_ofInt, Int.bmod_eq_of_le (by omega) (by omega),
        Int.shiftRight_eq_div_pow]
      simp
      omega
    rw [hs, BitVec.xor_zero, BitVec.toNat_shiftLeft, BitVec.toNat_ofInt, Nat.shiftLeft_eq]
    unfold zz; rw [if_neg hneg]; omega

/-- C02 for int32. -/
theorem C02_int32Size (v : Int) (hv : IsInt32 v) :
    ∃ enc, writeVarint32 v = .ok enc ∧ enc.length = int32Size v := by
  obtain ⟨enc, he, _⟩ := C01_varint32_roundtrip v hv []
  refine ⟨enc, he, ?_⟩
  unfold writeVarint32 at he
  split at he
  · simp at he
  · injection he with he
    subst he
    unfold putVarint int32Size
    simp only
    rw [zz32_bits v hv, zigzag64_eq v (by have := hv.1; omega) (by have := hv.2; omega)]
    exact uint32Size_eq _ (zz_lt32 v hv.1 hv.2)

/-- C163 (full statement for 64-bit values): `Uint64Size` equals the bytes written. -/
def C163_uint64Size_full : Prop := ∀ v : Nat, v < 2^64 → (putUvarint v).length = uint64Size v
def C163_int64Size_full : Prop := ∀ v : Int, IsInt64 v → (putVarint v).length = int64Size v

/-- The full 64-bit statement is false of the code: `Uint64Size(2^49)` is 9, but 8 bytes are written. -/
theorem C163_uint64Size_false : ¬ C163_uint64Size_full := by
  intro h
  have h1 := h (2^49) (by decide)
  rw [length_putUvarint64 _ (by decide)] at h1
  revert h1
  decide

theorem C163_int64Size_false : ¬ C163_int64Size_full := by
  intro h
  have h1 := h (2^48) (by decide)
  unfold putVarint int64Size at h1
  simp only at h1
  rw [zz64_bits _ (by decide), zigzag64_eq _ (by decide) (by decide),
    length_putUvarint64 _ (zz_lt64 _ (by decide) (by decide))] at h1
  revert h1
  decide

/-- C163 partial: `Uint64Size` is exact everywhere outside [2^49, 2^56) and exactly one too large inside.
Missing: the statement inside that band (it is false there). -/
theorem C163_uint64Size_partial (v : Nat) (hv : v < 2^64) :
    uint64Size v = (putUvarint v).length + (if 2^49 ≤ v ∧ v < 2^56 then 1 else 0) := by
  rw [length_putUvarint64 v hv]
  unfold uint64Size
  repeat' split
  all_goals omega

/-- C163 partial for int64: exact unless the zig-zag value lies in [2^49, 2^56), i.e. unless
2^48 ≤ v < 2^55 or -2^55 ≤ v < -2^48. -/
theorem C163_int64Size_partial (v : Int) (hv : IsInt64 v) :
    int64Size v = (putVarint v).length +
      (if (2^48 ≤ v ∧ v < 2^55) ∨ (-2^55 ≤ v ∧ v < -2^48) then 1 else 0) := by
  unfold putVarint int64Size
  simp only
  rw [zz64_bits v hv, zigzag64_eq v hv.1 hv.2, C163_uint64Size_partial _ (zz_lt64 v hv.1 hv.2)]
  congr 1
  unfold zz
  repeat' split
  all_goals omega

/-! #### C03: safety on arbitrary input -/

/-- C03: whatever the input, a successful read consumed a non-empty prefix of at most ten bytes and the
value fits the type. -/
theorem C03_uvarint32_safe (bs : Bytes) (v : Nat) (rest : Bytes) (h : readUvarint32 bs = .ok (v, rest)) :
    v < 2^32 ∧ ∃ pre, bs = pre ++ rest ∧ 0 < pre.length ∧ pre.length ≤ 10 := by
  unfold readUvarint32 at h
  split at h
  · simp at h
  · rename_i v' rest' heq
    split at h
    · simp at h
    · injection h with h
      simp only [Prod.mk.injEq] at h
      obtain ⟨rfl, rfl⟩ := h
      obtain ⟨pre, h1, h2, h3, _⟩ := readUvarint_safe heq
      exact ⟨by omega, pre, h1, h2, h3⟩

theorem C03_varint32_safe (bs : Bytes) (v : Int) (rest : Bytes) (h : readVarint32 bs = .ok (v, rest)) :
    IsInt32 v ∧ ∃ pre, bs = pre ++ rest ∧ 0 < pre.length ∧ pre.length ≤ 10 := by
  unfold readVarint32 at h
  split at h
  · simp at h
  · rename_i u rest' heq
    injection h with h
    simp only [Prod.mk.injEq] at h
    obtain ⟨rfl, rfl⟩ := h
    refine ⟨?_, (C03_uvarint32_safe bs u rest' heq).2⟩
    constructor
    · exact BitVec.le_toInt (w := 32) _
    · exact BitVec.toInt_lt (w := 32)

theorem C03_varint64_safe (bs : Bytes) (v : Int) (rest : Bytes) (h : readVarint64 bs = .ok (v, rest)) :
    IsInt64 v ∧ ∃ pre, bs = pre ++ rest ∧ 0 < pre.length ∧ pre.length ≤ 10 := by
  unfold readVarint64 at h
  split at h
  · simp at h
  · rename_i u rest' heq
    injection h with h
    simp only [Prod.mk.injEq] at h
    obtain ⟨rfl, rfl⟩ := h
    obtain ⟨pre, h1, h2, h3, _⟩ := readUvarint_safe heq
    refine ⟨?_, pre, h1, h2, h3⟩
    unfold unzigzag64
    constructor
    · exact BitVec.le_toInt (w := 64) _
    · exact BitVec.toInt_lt (w := 64)

/-- C03: cutting an encoding anywhere makes all three reads fail. -/
theorem C03_truncated_rejected (v : Nat) (pre suf : Bytes) (h : putUvarint v = pre ++ suf) (hs : suf ≠ []) :
    (∃ e, readUvarint32 pre = .error e) ∧ (∃ e, readVarint32 pre = .error e) ∧
    (∃ e, readVarint64 pre = .error e) := by
  obtain ⟨e, he⟩ := readUvarintAux_trunc pre 10 0 0 v suf h hs
  have he' : readUvarint pre = .error e := he
  refine ⟨⟨e, ?_⟩, ⟨e, ?_⟩, ⟨e, ?_⟩⟩
  · unfold readUvarint32; rw [he']
  · unfold readVarint32 readUvarint32; rw [he']
  · unfold readVarint64; rw [he']

example : ∃ pre suf : Bytes, putUvarint 300 = pre ++ suf ∧ suf ≠ [] :=
  ⟨[], putUvarint 300, rfl, putUvarint_ne_nil _⟩
/-- a byte string that exercises the success branch: 300 followed by one more byte -/
example : readUvarint32 [0xac, 0x02, 0x09] = .ok (300, [0x09]) := by decide
/-- an over-long encoding (eleven bytes) is rejected -/
example : readUvarint32 (List.replicate 11 0xff) = .error .overflow := by decide

end Verif.Props
