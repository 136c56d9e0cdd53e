import Verif.Kafka.Record
namespace Verif.Kafka
open Verif

theorem wrapS4_of_lt {n : Nat} (h : n < 2^31) : wrapS 4 n = n := by
  unfold wrapS
  apply Int.bmod_eq_of_le <;> simp <;> omega

theorem readSome_rt (b : Bytes) (h : b ≠ []) : RT b (readSome b.length) b := by
  intro rest
  unfold readSome
  rw [if_neg (by simp [h])]
  simp

theorem readSliceOrShort_rt (b : Bytes) (h : b ≠ []) : RT b (readSliceOrShort b.length) (some b) := by
  apply RT.map (readSome_rt b h)
  intro rest; simp [Dec.ret]

/-- what a reader makes of a nullable slice of normal size -/
theorem readNullableSlice_rt (o : Option Bytes) (h : (slice o).length < 2^31) :
    RT (slice o) (readNullableSlice (nullableLen o)) (some o) := by
  unfold readNullableSlice nullableLen
  cases o with
  | none => intro rest; rfl
  | some b =>
    simp only [slice, Option.getD_some] at *
    have : len32 b = b.length := wrapS4_of_lt h
    simp only [this]
    rw [if_neg (by omega)]
    by_cases hb : b = []
    · subst hb; intro rest; rfl
    · have := List.length_pos_iff.mpr hb
      rw [if_neg (by omega)]
      simp only [Int.toNat_natCast]
      exact RT.map (readSliceOrShort_rt b hb) (fun rest => rfl)

/-- header key normalisation done by the reader: an empty key becomes nil; (proof helper; models no code.) -/
def normKey (o : Option Bytes) : Option Bytes := if slice o = [] then none else o

/-- Proof helper; models no code. -/
def RecordHeader.norm (h : RecordHeader) : RecordHeader := { h with key := normKey h.key }

theorem readHeaderKey_rt (o : Option Bytes) (h : (slice o).length < 2^31) :
    RT (slice o) (readHeaderKey (len32 (slice o))) (some (normKey o)) := by
  unfold readHeaderKey
  have hl : len32 (slice o) = (slice o).length := wrapS4_of_lt h
  rw [hl]
  unfold normKey
  by_cases hb : slice o = []
  · rw [hb, if_neg (by simp), if_pos rfl]
    exact fun rest => rfl
  · have := List.length_pos_iff.mpr hb
    rw [if_pos (by omega), if_neg hb]
    simp only [Int.toNat_natCast]
    have ho : o = some (slice o) := by
      cases o with
      | none => simp [slice] at hb
      | some b => rfl
    apply RT.map (readSliceOrShort_rt _ hb)
    intro rest
    rw [Option.map_some, ← ho]; rfl

theorem nullableLen_range (o : Option Bytes) (h : (slice o).length < 2^31) :
    -2^31 ≤ nullableLen o ∧ nullableLen o < 2^31 := by
  cases o with
  | none => simp [nullableLen]
  | some b =>
    simp only [slice, Option.getD_some] at h
    have : len32 b = b.length := wrapS4_of_lt h
    simp only [nullableLen, this]
    omega

theorem len32_range (b : Bytes) (h : b.length < 2^31) : -2^31 ≤ len32 b ∧ len32 b < 2^31 := by
  have : len32 b = b.length := wrapS4_of_lt h
  omega

/-- sizes representable as int32; (proof helper; models no code.) -/
def RecordHeader.Ok (h : RecordHeader) : Prop := (slice h.key).length < 2^31 ∧ (slice h.value).length < 2^31

/-- the bytes of a header; (proof helper; models no code.) -/
def RecordHeader.enc (h : RecordHeader) : Bytes :=
  putVarint (len32 (slice h.key)) ++ (slice h.key ++ (putVarint (nullableLen h.value) ++ slice h.value))

theorem RecordHeader.write_eq (h : RecordHeader) : h.write = .ok h.enc := by
  simp [RecordHeader.write, writeVarint32_ok, RecordHeader.enc]

theorem RecordHeader.rt (h : RecordHeader) (hk : h.Ok) : RT h.enc RecordHeader.read h.norm := by
  have h1 := len32_range _ hk.1
  have h2 := nullableLen_range _ hk.2
  unfold RecordHeader.enc RecordHeader.read
  apply RT.bind (RT.varint32 _ h1.1 h1.2)
  apply RT.bind (readHeaderKey_rt _ hk.1)
  apply RT.bind (RT.varint32 _ h2.1 h2.2)
  apply RT.map (readNullableSlice_rt _ hk.2)
  intro rest; rfl

/-- Proof helper; models no code. -/
def encHeaders (hs : List RecordHeader) : Bytes := (hs.map RecordHeader.enc).flatten

theorem writeHeaders_eq (hs : List RecordHeader) : writeHeaders hs = .ok (encHeaders hs) := by
  induction hs with
  | nil => rfl
  | cons h hs ih => simp [writeHeaders, ih, RecordHeader.write_eq, encHeaders]

theorem readHeaders_rt (hs : List RecordHeader) (hk : ∀ h ∈ hs, h.Ok) :
    RT (encHeaders hs) (readHeaders hs.length) (hs.map RecordHeader.norm) := by
  induction hs with
  | nil => exact fun rest => rfl
  | cons h hs ih =>
    have : encHeaders (h :: hs) = h.enc ++ encHeaders hs := by simp [encHeaders]
    rw [this]
    simp only [List.length_cons, readHeaders]
    apply RT.bind (h.rt (hk h (by simp)))
    apply RT.map (ih (fun g hg => hk g (by simp [hg])))
    intro rest; rfl

theorem int32Size_eq (v : Int) (h1 : -2^31 ≤ v) (h2 : v < 2^31) : (putVarint v).length = int32Size v := by
  have hz := zz_lt32 v h1 h2
  have hbits : ((BitVec.ofInt 32 v <<< 1) ^^^ (BitVec.ofInt 32 v).sshiftRight 31).toNat = zz v := by
    by_cases hneg : v < 0
    · have hs : (BitVec.ofInt 32 v).sshiftRight 31 = BitVec.allOnes 32 := by
        apply BitVec.eq_of_toInt_eq
        rw [BitVec.toInt_sshiftRight, BitVec.toInt_ofInt, Int.bmod_eq_of_le (by omega) (by omega),
          Int.shiftRight_eq_div_pow]
        rw [BitVec.toInt_allOnes]
        omega
      rw [hs, BitVec.xor_allOnes, BitVec.toNat_not, BitVec.toNat_shiftLeft, BitVec.toNat_ofInt,
        Nat.shiftLeft_eq]
      unfold zz; rw [if_pos hneg]; omega
    · have hs : (BitVec.ofInt 32 v).sshiftRight 31 = 0#32 := by
        apply BitVec.eq_of_toInt_eq
        rw [BitVec.toInt_sshiftRight, BitVec.toInt_ofInt, Int.bmod_eq_of_le (by omega) (by omega),
          Int.shiftRight_eq_div_pow]
        simp
        omega
      rw [hs, BitVec.xor_zero, BitVec.toNat_shiftLeft, BitVec.toNat_ofInt, Nat.shiftLeft_eq]
      unfold zz; rw [if_neg hneg]; omega
  unfold putVarint int32Size
  simp only [hbits]
  rw [zigzag64_eq v (by omega) (by omega), uint32Size_eq _ hz]

theorem RecordHeader.size_eq (h : RecordHeader) (hk : h.Ok) : h.enc.length = h.size := by
  have h1 := len32_range _ hk.1
  have h2 := nullableLen_range _ hk.2
  simp only [RecordHeader.enc, RecordHeader.size, List.length_append, int32Size_eq _ h1.1 h1.2,
    int32Size_eq _ h2.1 h2.2]
  omega

theorem slice_normKey (o : Option Bytes) : slice (normKey o) = slice o := by
  unfold normKey
  split
  · rename_i h; rw [h]; rfl
  · rfl

theorem RecordHeader.norm_size (h : RecordHeader) : h.norm.size = h.size := by
  simp only [RecordHeader.size, RecordHeader.norm, slice_normKey]

/-- the record is in the ranges of its Go types, has headers set and its sizes fit int32; (proof helper; models no code.) -/
structure BatchRecord.Ok (r : BatchRecord) : Prop where
  attr : InS 1 r.attributes
  ts : -2^63 ≤ r.timestampDelta ∧ r.timestampDelta < 2^63
  off : -2^31 ≤ r.offsetDelta ∧ r.offsetDelta < 2^31
  hdr : r.headers ≠ none
  len : r.recordLength < 2^31

/-- Proof helper; models no code. -/
def BatchRecord.norm (r : BatchRecord) : BatchRecord :=
  { r with headers := r.headers.map (·.map RecordHeader.norm) }

theorem BatchRecord.norm_recordLength (r : BatchRecord) : r.norm.recordLength = r.recordLength := by
  have h1 : r.norm.headerList = r.headerList.map RecordHeader.norm := by
    unfold BatchRecord.headerList BatchRecord.norm
    cases r.headers <;> rfl
  have h2 : RecordHeader.size ∘ RecordHeader.norm = RecordHeader.size := by
    funext h; exact h.norm_size
  unfold BatchRecord.recordLength
  rw [h1]
  simp only [List.length_map, List.map_map, h2, BatchRecord.norm]

theorem BatchRecord.Ok.klen {r : BatchRecord} (h : r.Ok) : (slice r.key).length < 2^31 := by
  have := h.len; unfold BatchRecord.recordLength at this; omega

theorem BatchRecord.Ok.vlen {r : BatchRecord} (h : r.Ok) : (slice r.value).length < 2^31 := by
  have := h.len; unfold BatchRecord.recordLength at this; omega

theorem le_sum_of_mem {l : List Nat} {x : Nat} (h : x ∈ l) : x ≤ l.sum := by
  induction l with
  | nil => simp at h
  | cons y l ih =>
    simp only [List.mem_cons] at h
    simp only [List.sum_cons]
    rcases h with rfl | h
    · omega
    · have := ih h; omega

theorem uint32Size_pos (n : Nat) : 0 < uint32Size n := by
  unfold uint32Size; repeat' split
  all_goals omega

theorem int32Size_pos (n : Int) : 0 < int32Size n := uint32Size_pos _

theorem BatchRecord.Ok.hlen {r : BatchRecord} (h : r.Ok) : ∀ g ∈ r.headerList, g.Ok := by
  intro g hg
  have h1 := h.len
  unfold BatchRecord.recordLength at h1
  have h2 := le_sum_of_mem (List.mem_map_of_mem (f := RecordHeader.size) hg)
  have h3 : g.size = int32Size (len32 (slice g.key)) + (slice g.key).length + int32Size (nullableLen g.value) +
      (slice g.value).length := rfl
  unfold RecordHeader.Ok
  omega

theorem length_le_sum_size (hs : List RecordHeader) : hs.length ≤ (hs.map RecordHeader.size).sum := by
  induction hs with
  | nil => simp
  | cons h hs ih =>
    have : 0 < h.size := by
      unfold RecordHeader.size
      have := int32Size_pos (len32 (slice h.key)); omega
    simp only [List.length_cons, List.map_cons, List.sum_cons]
    omega

theorem BatchRecord.Ok.hcount {r : BatchRecord} (h : r.Ok) : r.headerList.length < 2^31 := by
  have h1 := h.len
  unfold BatchRecord.recordLength at h1
  have := length_le_sum_size r.headerList
  omega

/-- bytes after the length prefix; (proof helper; models no code.) -/
def BatchRecord.body (r : BatchRecord) : Bytes :=
  putInt 1 r.attributes ++ (putVarint r.timestampDelta ++ (putVarint r.offsetDelta ++
  (putVarint (nullableLen r.key) ++ (slice r.key ++ (putVarint (nullableLen r.value) ++ (slice r.value ++
  (putVarint (wrapS 4 r.headerList.length) ++ encHeaders r.headerList)))))))

/-- Proof helper; models no code. -/
def BatchRecord.enc (r : BatchRecord) : Bytes := putVarint (wrapS 4 r.recordLength) ++ r.body

theorem BatchRecord.write_eq (r : BatchRecord) (h : r.headers ≠ none) : r.write = .ok r.enc := by
  cases hh : r.headers with
  | none => exact absurd hh h
  | some hs =>
    simp [BatchRecord.write, hh, writeVarint32_ok, writeHeaders_eq, writeVarint64, BatchRecord.enc,
      BatchRecord.body, BatchRecord.headerList]

theorem makeCount_rt (n : Nat) : RT [] (makeCount n) n := by
  intro rest
  unfold makeCount
  rw [if_neg (by omega)]; rfl

theorem BatchRecord.rt (r : BatchRecord) (h : r.Ok) : RT r.enc BatchRecord.read r.norm := by
  have hl := wrapS4_of_lt h.len
  have hk := nullableLen_range _ h.klen
  have hv := nullableLen_range _ h.vlen
  have hc := wrapS4_of_lt h.hcount
  have hcr := h.hcount
  have hlr := h.len
  have hh : r.headers = some r.headerList := by
    cases hh : r.headers with
    | none => exact absurd hh h.hdr
    | some hs => simp [BatchRecord.headerList, hh]
  unfold BatchRecord.enc BatchRecord.body BatchRecord.read
  apply RT.bind (RT.varint32 _ (by rw [hl]; omega) (by rw [hl]; omega))
  apply RT.bind (RT.int 1 (by decide) _ h.attr)
  apply RT.bind (RT.varint64 _ h.ts.1 h.ts.2)
  apply RT.bind (RT.varint32 _ h.off.1 h.off.2)
  apply RT.bind (RT.varint32 _ hk.1 hk.2)
  apply RT.bind (readNullableSlice_rt _ h.klen)
  apply RT.bind (RT.varint32 _ hv.1 hv.2)
  apply RT.bind (readNullableSlice_rt _ h.vlen)
  apply RT.bind (RT.varint32 _ (by rw [hc]; omega) (by rw [hc]; omega))
  rw [hc]
  refine RT.bind (e1 := []) (makeCount_rt _) ?_
  apply RT.map (readHeaders_rt _ h.hlen)
  intro rest
  simp only [List.nil_append]
  have hn := r.norm_recordLength
  have he : r.norm = BatchRecord.mk r.attributes r.timestampDelta r.offsetDelta r.key r.value
      (some (r.headerList.map RecordHeader.norm)) := by
    unfold BatchRecord.norm; rw [hh]; rfl
  rw [← he, hn, hl, if_neg (by simp)]
  rfl

/-- timestamp deltas for which `Int64Size` is exact (all but the band found in C02) (proof helper; models no code.) -/
def TsExact (t : Int) : Prop := zz t < 2^49 ∨ 2^56 ≤ zz t

theorem zz64_bits' (v : Int) (h1 : -2^63 ≤ v) (h2 : v < 2^63) :
    ((BitVec.ofInt 64 v <<< 1) ^^^ (BitVec.ofInt 64 v).sshiftRight 63).toNat = zz v := by
  by_cases hneg : v < 0
  · have hs : (BitVec.ofInt 64 v).sshiftRight 63 = BitVec.allOnes 64 := by
      apply BitVec.eq_of_toInt_eq
      rw [BitVec.toInt_sshiftRight, BitVec.toInt_ofInt, Int.bmod_eq_of_le (by omega) (by omega),
        Int.shiftRight_eq_div_pow]
      rw [BitVec.toInt_allOnes]
      omega
    rw [hs, BitVec.xor_allOnes, BitVec.toNat_not, BitVec.toNat_shiftLeft, BitVec.toNat_ofInt,
      Nat.shiftLeft_eq]
    unfold zz; rw [if_pos hneg]; omega
  · have hs : (BitVec.ofInt 64 v).sshiftRight 63 = 0#64 := by
      apply BitVec.eq_of_toInt_eq
      rw [BitVec.toInt_sshiftRight, BitVec.toInt_ofInt, Int.bmod_eq_of_le (by omega) (by omega),
        Int.shiftRight_eq_div_pow]
      simp
      omega
    rw [hs, BitVec.xor_zero, BitVec.toNat_shiftLeft, BitVec.toNat_ofInt, Nat.shiftLeft_eq]
    unfold zz; rw [if_neg hneg]; omega

/-- `Int64Size` is exact, or one too large -/
theorem int64Size_cases (v : Int) (h1 : -2^63 ≤ v) (h2 : v < 2^63) :
    int64Size v = (putVarint v).length + (if zz v < 2^49 ∨ 2^56 ≤ zz v then 0 else 1) := by
  unfold putVarint int64Size
  simp only [zz64_bits' v h1 h2]
  rw [zigzag64_eq v h1 h2, length_putUvarint64 _ (zz_lt64 v h1 h2)]
  unfold uint64Size
  repeat' split
  all_goals omega

theorem length_encHeaders (hs : List RecordHeader) (hk : ∀ h ∈ hs, h.Ok) :
    (encHeaders hs).length = (hs.map RecordHeader.size).sum := by
  induction hs with
  | nil => rfl
  | cons h hs ih =>
    have : encHeaders (h :: hs) = h.enc ++ encHeaders hs := by simp [encHeaders]
    rw [this]
    simp only [List.length_append, List.map_cons, List.sum_cons, h.size_eq (hk h (by simp)),
      ih (fun g hg => hk g (by simp [hg]))]

theorem BatchRecord.body_length (r : BatchRecord) (h : r.Ok) :
    r.recordLength = r.body.length + (if zz r.timestampDelta < 2^49 ∨ 2^56 ≤ zz r.timestampDelta then 0 else 1) := by
  have hk := nullableLen_range _ h.klen
  have hv := nullableLen_range _ h.vlen
  have hc := wrapS4_of_lt h.hcount
  have hcr := h.hcount
  unfold BatchRecord.recordLength BatchRecord.body
  simp only [List.length_append, length_encHeaders _ h.hlen, int32Size_eq _ hk.1 hk.2,
    int32Size_eq _ hv.1 hv.2, int32Size_eq _ h.off.1 h.off.2, int64Size_cases _ h.ts.1 h.ts.2,
    length_putInt, hc, int32Size_eq (r.headerList.length : Int) (by omega) (by omega)]
  omega

theorem BatchRecord.size_eq (r : BatchRecord) (h : r.Ok) :
    r.size = r.enc.length + (if zz r.timestampDelta < 2^49 ∨ 2^56 ≤ zz r.timestampDelta then 0 else 1) := by
  have hl := wrapS4_of_lt h.len
  have hlr := h.len
  unfold BatchRecord.size BatchRecord.enc
  rw [List.length_append, hl, int32Size_eq _ (by omega) (by omega)]
  have := r.body_length h
  omega

end Verif.Kafka
