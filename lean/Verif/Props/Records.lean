import Verif.Kafka.BatchLemmas
import Verif.Kafka.RecordCut
import Verif.Kafka.GzipSource
import Verif.Props.Varint
/-
Property theorems C13–C18: batch records, record batches, record sections.
-/
namespace Verif.Props
open Verif Verif.Kafka

/-! #### Specification vocabulary -/

/-- A record a Go program can build with the setters and whose wire size fits the int32 length field:
integers in their Go ranges, headers set (Write refuses nil headers), computed length below 2^31. -/
structure ValidRecord (r : BatchRecord) : Prop where
  attributes : -128 ≤ r.attributes ∧ r.attributes < 128
  timestampDelta : IsInt64 r.timestampDelta
  offsetDelta : IsInt32 r.offsetDelta
  headers : r.headers ≠ none
  length : r.recordLength < 2^31

/-- What a user sees of a header: key bytes (nil and empty keys are both "no key bytes") and value. -/
def headerView (h : RecordHeader) : Bytes × Option Bytes := (h.key.getD [], h.value)

/-- Same record as far as a user can see, nil and empty keys/values of the record distinguished. -/
def SameRecord (r s : BatchRecord) : Prop :=
  r.attributes = s.attributes ∧ r.timestampDelta = s.timestampDelta ∧ r.offsetDelta = s.offsetDelta ∧
  r.key = s.key ∧ r.value = s.value ∧
  r.headers.map (·.map headerView) = s.headers.map (·.map headerView)

theorem ValidRecord.ok {r : BatchRecord} (h : ValidRecord r) : r.Ok where
  attr := by unfold InS; have := h.attributes; constructor <;> simp <;> omega
  ts := h.timestampDelta
  off := h.offsetDelta
  hdr := h.headers
  len := h.length

theorem headerView_norm (h : RecordHeader) : headerView h.norm = headerView h := by
  have : (normKey h.key).getD [] = h.key.getD [] := slice_normKey h.key
  simp [headerView, RecordHeader.norm, this]

theorem sameRecord_norm (r : BatchRecord) : SameRecord r r.norm := by
  refine ⟨rfl, rfl, rfl, rfl, rfl, ?_⟩
  unfold BatchRecord.norm
  cases r.headers with
  | none => rfl
  | some hs =>
    have : headerView ∘ RecordHeader.norm = headerView := funext headerView_norm
    simp [this]

/-- a concrete record used to show that hypotheses are met: null key, empty value, two headers -/
def exRecord : BatchRecord :=
  { attributes := -1, timestampDelta := -5, offsetDelta := 7, key := none, value := some [],
    headers := some [{ key := some [104], value := none }, { key := some [105, 106], value := some [1, 2, 3] }] }

theorem exRecord_valid : ValidRecord exRecord := by
  refine ⟨by decide, by decide, by decide, by decide, by decide⟩

/-! #### C13 -/

/-- C13: writing succeeds and reading the bytes (followed by anything) gives the same record and leaves the rest. -/
theorem C13_record_roundtrip (r : BatchRecord) (h : ValidRecord r) (rest : Bytes) :
    ∃ enc r', r.write = .ok enc ∧ BatchRecord.read (enc ++ rest) = .ok (r', rest) ∧ SameRecord r r' :=
  ⟨r.enc, r.norm, r.write_eq h.headers, r.rt h.ok rest, sameRecord_norm r⟩

/-- C13: if no header has a non-nil empty key the record read is identical. -/
theorem C13_record_roundtrip_exact (r : BatchRecord) (h : ValidRecord r)
    (hk : ∀ hs, r.headers = some hs → ∀ g ∈ hs, g.key ≠ some []) (rest : Bytes) :
    ∃ enc, r.write = .ok enc ∧ BatchRecord.read (enc ++ rest) = .ok (r, rest) := by
  refine ⟨r.enc, r.write_eq h.headers, ?_⟩
  rw [r.rt h.ok rest]
  congr 2
  unfold BatchRecord.norm
  cases hh : r.headers with
  | none => exact absurd hh h.headers
  | some hs =>
    have h1 : ∀ g ∈ hs, g.norm = g := by
      intro g hg
      have hne := hk hs hh g hg
      unfold RecordHeader.norm normKey
      cases hgk : g.key with
      | none => cases g; simp_all [slice]
      | some k =>
        have : slice (some k) ≠ [] := by
          intro hc; apply hne; rw [hgk]; congr 1
        rw [if_neg this]; cases g; simp_all
    have h2 : hs.map RecordHeader.norm = hs := by
      conv => rhs; rw [← List.map_id hs]
      exact List.map_congr_left h1
    cases r; simp_all

/-- C13: a header alone round-trips. -/
theorem C13_header_roundtrip (g : RecordHeader) (hk : (g.key.getD []).length < 2^31)
    (hv : (g.value.getD []).length < 2^31) (rest : Bytes) :
    ∃ enc g', g.write = .ok enc ∧ RecordHeader.read (enc ++ rest) = .ok (g', rest) ∧ headerView g' = headerView g :=
  ⟨g.enc, g.norm, g.write_eq, g.rt ⟨hk, hv⟩ rest, headerView_norm g⟩

/-- C161, length prefix: outside the band where `Int64Size` is wrong (see C02) the record is a varint of the number of
bytes that follow it, and SizeInBytes is the number of bytes written. `zz` is zig-zag: `zz t` is `2t` for
`t ≥ 0` and `-2t-1` otherwise. -/
theorem C161_length_prefix_partial (r : BatchRecord) (h : ValidRecord r)
    (hts : zz r.timestampDelta < 2^49 ∨ 2^56 ≤ zz r.timestampDelta) :
    ∃ body, r.write = .ok (putVarint body.length ++ body) ∧
      r.size = (putVarint body.length ++ body).length := by
  have hb := r.body_length h.ok
  have hs := r.size_eq h.ok
  rw [if_pos hts, Nat.add_zero] at hb hs
  have he : putVarint (r.body.length : Int) ++ r.body = r.enc := by
    unfold BatchRecord.enc
    rw [wrapS4_of_lt h.length, ← hb]
  exact ⟨r.body, by rw [he]; exact r.write_eq h.headers, by rw [he]; exact hs⟩

/-- the full length-prefix claim is false: a valid record whose length prefix and size are one too large -/
def badTsRecord : BatchRecord := { timestampDelta := 2^48, headers := some [] }

theorem C161_length_prefix_false :
    ∃ r, ValidRecord r ∧ ∃ body, r.write = .ok (putVarint (body.length + 1) ++ body) ∧
      r.size = (putVarint (body.length + 1) ++ body).length + 1 := by
  have hv : ValidRecord badTsRecord := ⟨by decide, by decide, by decide, by decide, by decide⟩
  refine ⟨badTsRecord, hv, badTsRecord.body, ?_, ?_⟩
  · rw [badTsRecord.write_eq hv.headers]
    unfold BatchRecord.enc
    rw [wrapS4_of_lt hv.length, badTsRecord.body_length hv.ok, if_neg (by decide)]
    rfl
  · have h1 := badTsRecord.size_eq hv.ok
    rw [if_neg (by decide)] at h1
    rw [h1]
    unfold BatchRecord.enc
    rw [wrapS4_of_lt hv.length, badTsRecord.body_length hv.ok, if_neg (by decide)]
    rfl

example : ∃ enc, exRecord.write = .ok enc ∧ BatchRecord.read (enc ++ [9]) = .ok (exRecord, [9]) :=
  C13_record_roundtrip_exact exRecord exRecord_valid (by
    intro hs h; cases h; decide) [9]
example : ∃ body, exRecord.write = .ok (putVarint body.length ++ body) ∧
    exRecord.size = (putVarint body.length ++ body).length :=
  C161_length_prefix_partial exRecord exRecord_valid (by decide)

/-! #### C14 -/

/-- the full claim C190: every proper prefix of a written record is rejected. It is false: cut inside the key or the
value the reader reports success and returns an empty record. -/
theorem C190_truncated_false :
    ∃ r enc p s, ValidRecord r ∧ r.write = .ok enc ∧ enc = p ++ s ∧ s ≠ [] ∧
      BatchRecord.read p = .ok (({} : BatchRecord), []) := by
  refine ⟨{ value := some [1, 2], headers := some [] }, _, [16, 0, 0, 0, 1, 4, 1], [2, 0],
    ⟨by decide, by decide, by decide, by decide, by decide⟩, ?_, rfl, by simp, by decide⟩
  decide +kernel

/-- C14: a proper prefix of a written record never yields a record with some of the data; it is rejected,
or (only if the record has key or value bytes) an all-empty record is returned and the input is exhausted. -/
theorem C14_truncated (r : BatchRecord) (h : ValidRecord r) (enc p s : Bytes)
    (hw : r.write = .ok enc) (hps : enc = p ++ s) (hs : s ≠ []) :
    (∃ e, BatchRecord.read p = .error e) ∨
    (BatchRecord.read p = .ok (({} : BatchRecord), []) ∧ (r.key.getD [] ≠ [] ∨ r.value.getD [] ≠ [])) := by
  rw [r.write_eq h.headers] at hw
  injection hw with hw
  subst hw
  rcases r.cut h.ok p s hps hs with he | ⟨a, ha, rfl, hne⟩
  · exact Or.inl he
  · exact Or.inr ⟨ha, hne⟩

/-- C190 holds for records without key and value bytes (for instance tombstones with headers). -/
theorem C190_truncated_headers_partial (r : BatchRecord) (h : ValidRecord r) (hk : r.key.getD [] = [])
    (hv : r.value.getD [] = []) (enc p s : Bytes) (hw : r.write = .ok enc) (hps : enc = p ++ s) (hs : s ≠ []) :
    ∃ e, BatchRecord.read p = .error e := by
  rcases C14_truncated r h enc p s hw hps hs with he | ⟨_, h1 | h1⟩
  · exact he
  · exact absurd hk h1
  · exact absurd hv h1

example : ∃ e, BatchRecord.read (exRecord.enc.take 12) = .error e :=
  C190_truncated_headers_partial exRecord exRecord_valid rfl rfl exRecord.enc _ (exRecord.enc.drop 12)
    (exRecord.write_eq exRecord_valid.headers) (List.take_append_drop _ _).symm (by
      intro hc
      have h1 := exRecord.size_eq exRecord_valid.ok
      rw [if_pos (by decide)] at h1
      have h2 := congrArg List.length hc
      have h3 : 12 < exRecord.size := by decide
      simp only [List.length_drop, List.length_nil] at h2
      omega)

/-! #### C15: layout of a v2 batch -/

/-- `k` bytes of `l` from offset `off` -/
def seg (off k : Nat) (l : Bytes) : Bytes := (l.drop off).take k

theorem seg_skip (a b : Bytes) (n off k : Nat) (h : a.length = n) : seg (off + n) k (a ++ b) = seg off k b := by
  unfold seg
  rw [Nat.add_comm, List.drop_append, List.drop_of_length_le (by omega)]
  simp [← h]

theorem seg_here (a b : Bytes) (k : Nat) (h : a.length = k) : seg 0 k (a ++ b) = a := by
  unfold seg; simp [← h]

theorem beNat_putInt (k : Nat) (v : Int) : beNat (putInt k v) 0 = wrapU k v := by
  unfold putInt; rw [beNat_beBytes, Nat.zero_mul, Nat.zero_add, Nat.mod_eq_of_lt (wrapU_lt k v)]

theorem beNat_be4 (v : Nat) (h : v < 2^32) : beNat (beBytes 4 v) 0 = v := by
  rw [beNat_beBytes, Nat.zero_mul, Nat.zero_add]; exact Nat.mod_eq_of_lt h

theorem seg_skipI (k : Nat) (v : Int) (b : Bytes) (off n : Nat) :
    seg (off + k) n (putInt k v ++ b) = seg off n b := seg_skip _ _ _ _ _ (by simp)
theorem seg_skipB (k : Nat) (v : Nat) (b : Bytes) (off n : Nat) :
    seg (off + k) n (beBytes k v ++ b) = seg off n b := seg_skip _ _ _ _ _ (by simp)
theorem seg_hereI (k : Nat) (v : Int) (b : Bytes) : beNat (seg 0 k (putInt k v ++ b)) 0 = wrapU k v := by
  rw [seg_here _ _ _ (by simp), beNat_putInt]
theorem seg_hereB (v : Nat) (b : Bytes) (h : v < 2^32) : beNat (seg 0 4 (beBytes 4 v ++ b)) 0 = v := by
  rw [seg_here _ _ _ (by simp), beNat_be4 _ h]

/-- the big-endian number at an offset, as the protocol documentation describes fields -/
def field (off k : Nat) (l : Bytes) : Nat := beNat (seg off k l) 0

/-- A v2 batch: every field sits at its protocol offset, the length field counts the bytes after it and the CRC covers
exactly the bytes from offset 21 on. -/
def Layout (x : Ext) (b : RecordBatch) (enc : Bytes) : Prop :=
    61 ≤ enc.length ∧
    field 0 8 enc = wrapU 8 b.baseOffset ∧
    field 8 4 enc = enc.length - 12 ∧
    field 12 4 enc = wrapU 4 b.partitionLeaderEpoch ∧
    field 16 1 enc = 2 ∧
    field 17 4 enc = x.crc32c (enc.drop 21) ∧
    field 21 2 enc = wrapU 2 b.attributes ∧
    field 23 4 enc = wrapU 4 b.lastOffsetDelta ∧
    field 27 8 enc = wrapU 8 b.baseTimestamp ∧
    field 35 8 enc = wrapU 8 b.maxTimestamp ∧
    field 43 8 enc = wrapU 8 b.producerId ∧
    field 51 2 enc = wrapU 2 b.producerEpoch ∧
    field 53 4 enc = wrapU 4 b.baseSequence ∧
    field 57 4 enc = b.recordList.length % 2^32

/-- C15: whenever Write accepts a batch (any compression, any CRC function), it writes a v2 batch; behind a batch of
records compressed with snappy, and only there, it may leave the compressed empty string. -/
theorem C15_prefix (x : Ext) (b : RecordBatch) (enc : Bytes) (h : b.write x = .ok enc) :
    ∃ body t, enc = body ++ t ∧ Layout x b body ∧
      (t ≠ [] → compressionType b.attributes = 2 ∧ b.recordList ≠ [] ∧ x.compress 2 [] = .ok t) := by
  unfold RecordBatch.write at h
  split at h
  · simp at h
  · rename_i hm
    split at h
    · simp at h
    · rename_i payload hp
      simp only at h
      split at h
      · simp at h
      · rename_i hlen
        injection h with h0
        obtain ⟨body, h⟩ : ∃ body, putInt 8 b.baseOffset ++ (beBytes 4 (49 + payload.length) ++ (putInt 4 b.partitionLeaderEpoch ++
            (putInt 1 b.magic ++ (beBytes 4 (x.crc32c (b.afterCrc payload)) ++ b.afterCrc payload)))) = body := ⟨_, rfl⟩
        refine ⟨body, b.trailer x, by rw [← h0, ← h]; simp only [List.append_assoc], ?_, ?_⟩
        rotate_left
        · unfold RecordBatch.trailer
          split
          · rename_i hc
            intro ht
            exact ⟨hc.2, hc.1, (x.again_eq b).resolve_left ht⟩
          · intro ht; exact absurd rfl ht
        clear h0
        generalize body = enc at h ⊢
        have hm2 : b.magic = 2 := by omega
        have hl : enc.length = 61 + payload.length := by
          rw [← h]; simp [RecordBatch.afterCrc]; omega
        have hd : enc.drop 21 = b.afterCrc payload := by
          rw [← h]
          rw [List.drop_append, List.drop_of_length_le (by simp), List.nil_append, List.drop_append,
            List.drop_of_length_le (by simp), List.nil_append, List.drop_append,
            List.drop_of_length_le (by simp), List.nil_append, List.drop_append,
            List.drop_of_length_le (by simp), List.nil_append, List.drop_append,
            List.drop_of_length_le (by simp), List.nil_append]
          simp
        unfold Layout
        rw [hd, hl]
        rw [← h]
        unfold field
        refine ⟨by omega, ?_, ?_, ?_, ?_, ?_, ?_, ?_, ?_, ?_, ?_, ?_, ?_, ?_⟩
        · rw [seg_hereI]
        · rw [seg_skipI 8 _ _ 0, seg_hereB _ _ (by omega)]; omega
        · rw [seg_skipI 8 _ _ 4, seg_skipB 4 _ _ 0, seg_hereI]
        · rw [seg_skipI 8 _ _ 8, seg_skipB 4 _ _ 4, seg_skipI 4 _ _ 0, seg_hereI, hm2]; decide
        · rw [seg_skipI 8 _ _ 9, seg_skipB 4 _ _ 5, seg_skipI 4 _ _ 1, seg_skipI 1 _ _ 0,
            seg_hereB _ _ (x.crc_lt _)]
        all_goals
          rw [seg_skipI 8, seg_skipB 4, seg_skipI 4, seg_skipI 1, seg_skipB 4]
          unfold RecordBatch.afterCrc
        · rw [seg_hereI]
        · rw [seg_skipI 2 _ _ 0, seg_hereI]
        · rw [seg_skipI 2 _ _ 4, seg_skipI 4 _ _ 0, seg_hereI]
        · rw [seg_skipI 2 _ _ 12, seg_skipI 4 _ _ 8, seg_skipI 8 _ _ 0, seg_hereI]
        · rw [seg_skipI 2 _ _ 20, seg_skipI 4 _ _ 16, seg_skipI 8 _ _ 8, seg_skipI 8 _ _ 0, seg_hereI]
        · rw [seg_skipI 2 _ _ 28, seg_skipI 4 _ _ 24, seg_skipI 8 _ _ 16, seg_skipI 8 _ _ 8,
            seg_skipI 8 _ _ 0, seg_hereI]
        · rw [seg_skipI 2 _ _ 30, seg_skipI 4 _ _ 26, seg_skipI 8 _ _ 18, seg_skipI 8 _ _ 10,
            seg_skipI 8 _ _ 2, seg_skipI 2 _ _ 0, seg_hereI]
        · rw [seg_skipI 2 _ _ 34, seg_skipI 4 _ _ 30, seg_skipI 8 _ _ 22, seg_skipI 8 _ _ 14,
            seg_skipI 8 _ _ 6, seg_skipI 2 _ _ 4, seg_skipI 4 _ _ 0, seg_hereB _ _ (by omega)]

/-- C15 for every batch not compressed with snappy (or without records): nothing else is written. -/
theorem C15_layout (x : Ext) (b : RecordBatch) (hc : compressionType b.attributes ≠ 2 ∨ b.recordList = []) (enc : Bytes)
    (h : b.write x = .ok enc) : Layout x b enc := by
  obtain ⟨body, t, rfl, hl, ht⟩ := C15_prefix x b enc h
  by_cases h0 : t = []
  · rw [h0, List.append_nil]; exact hl
  · obtain ⟨h2, h3, _⟩ := ht h0
    rcases hc with hc | hc
    · exact absurd h2 hc
    · exact absurd hc h3

/-- the header go-xerial-snappy puts before a compressed stream -/
def xerialHeader : Bytes := [0x82, 83, 78, 65, 80, 80, 89, 0, 0, 0, 0, 1, 0, 0, 0, 1]

/-- a compressor with that header; what follows it does not matter here -/
def xerialExt : Ext where
  compress := fun t p => .ok (if t = 2 then xerialHeader ++ p else p)
  gunzip := fun p => .ok ⟨p, [], .eof, false⟩
  unsnappy := fun p => .ok (p.drop 16)
  crc32c := fun _ => 0
  crc_lt := by simp
  again := fun _ => xerialHeader
  again_eq := fun _ => .inr rfl
  unread := fun _ _ => []
  unread_suffix := fun _ _ => List.nil_suffix

/-- a result that is a value with a property -/
def okWith (r : Res Bytes) (P : Bytes → Bool) : Bool := match r with | .ok e => P e | .error _ => false

theorem okWith_iff {r : Res Bytes} {P : Bytes → Bool} (h : okWith r P = true) : ∃ e, r = .ok e ∧ P e = true := by
  cases r with
  | ok e => exact ⟨e, rfl, h⟩
  | error _ => simp [okWith] at h

/-- **C191 is false of the code** for batches compressed with snappy: closing the writer twice leaves 16 bytes behind the
batch which the length field does not count. -/
theorem C191_snappy_false : ∃ (x : Ext) (b : RecordBatch) (enc : Bytes), b.write x = .ok enc ∧ ¬ Layout x b enc := by
  obtain ⟨enc, h1, h2⟩ := okWith_iff (r := ({ magic := 2, attributes := 2, records := some [exRecord] } : RecordBatch).write xerialExt)
    (P := fun enc => decide (field 8 4 enc ≠ enc.length - 12)) (by decide +kernel)
  exact ⟨_, _, enc, h1, fun h => of_decide_eq_true h2 h.2.2.1⟩


example : ∃ enc, (({ magic := 2, records := some [exRecord] } : RecordBatch).write
    ⟨fun _ b => .ok b, fun b => .ok ⟨b, [], .eof, false⟩, fun b => .ok b, fun _ => 0, by simp, fun _ => [], fun _ => .inl rfl,
      fun _ _ => [], fun _ _ => List.nil_suffix⟩) = .ok enc := ⟨_, by
  rw [RecordBatch.write, if_neg (by decide), RecordBatch.writePayload, if_neg (by decide), if_pos (by decide),
    RecordBatch.recordList, Option.getD_some, writeRecordItems_eq [exRecord] (by decide)]
  exact if_neg (by
    have h1 := exRecord.size_eq exRecord_valid.ok
    rw [if_pos (by decide)] at h1
    have h3 : exRecord.size < 100 := by decide
    simp only [encRecords, List.map_cons, List.map_nil, List.flatten_cons, List.flatten_nil, List.append_nil]
    omega)⟩

/-! #### C16: batches round-trip -/

/-- A batch that can be written uncompressed and read back: header values in their Go ranges, magic 2, no
compression, at most one record in a control batch, valid records, total size fits the int32 length field. -/
structure ValidBatch (b : RecordBatch) : Prop where
  baseOffset : IsInt64 b.baseOffset
  partitionLeaderEpoch : IsInt32 b.partitionLeaderEpoch
  magic : b.magic = 2
  attributes : -2^15 ≤ b.attributes ∧ b.attributes < 2^15
  lastOffsetDelta : IsInt32 b.lastOffsetDelta
  baseTimestamp : IsInt64 b.baseTimestamp
  maxTimestamp : IsInt64 b.maxTimestamp
  producerId : IsInt64 b.producerId
  producerEpoch : -2^15 ≤ b.producerEpoch ∧ b.producerEpoch < 2^15
  baseSequence : IsInt32 b.baseSequence
  uncompressed : compressionType b.attributes = 0
  control : isControlBatch b.attributes → b.recordList.length ≤ 1
  records : ∀ r ∈ b.recordList, ValidRecord r
  size : b.size < 2^31

theorem inS8 {v : Int} (h : IsInt64 v) : InS 8 v := by
  have h1 := h.1; have h2 := h.2
  constructor <;> simp <;> omega
theorem inS4 {v : Int} (h : IsInt32 v) : InS 4 v := by
  have h1 := h.1; have h2 := h.2
  constructor <;> simp <;> omega
theorem inS2 {v : Int} (h : -2^15 ≤ v ∧ v < 2^15) : InS 2 v := by
  have h1 := h.1; have h2 := h.2
  constructor <;> simp <;> omega

theorem encRecords_le (rs : List BatchRecord) (h : ∀ r ∈ rs, ValidRecord r) :
    (encRecords rs).length ≤ (rs.map BatchRecord.size).sum := by
  induction rs with
  | nil => simp [encRecords]
  | cons r rs ih =>
    have h1 := ih (fun s hs => h s (by simp [hs]))
    have h2 := r.size_eq (h r (by simp)).ok
    rw [encRecords_cons, List.length_append, List.map_cons, List.sum_cons]
    omega

theorem ValidBatch.ok {b : RecordBatch} (h : ValidBatch b) : b.Ok where
  baseOffset := inS8 h.baseOffset
  epoch := inS4 h.partitionLeaderEpoch
  magic := h.magic
  attributes := inS2 h.attributes
  lastOffsetDelta := inS4 h.lastOffsetDelta
  baseTimestamp := inS8 h.baseTimestamp
  maxTimestamp := inS8 h.maxTimestamp
  producerId := inS8 h.producerId
  producerEpoch := inS2 h.producerEpoch
  baseSequence := inS4 h.baseSequence
  plain := h.uncompressed
  control := h.control
  records := fun r hr => (h.records r hr).ok
  size := by
    have h1 := h.size
    have h2 := encRecords_le b.recordList h.records
    unfold RecordBatch.size at h1; omega

/-- Same batch content: every header field a user can set, and the records one by one. (batchLength and crc are
derived on write; a nil record list reads back as an empty one.) -/
def SameBatch (b c : RecordBatch) : Prop :=
  b.baseOffset = c.baseOffset ∧ b.partitionLeaderEpoch = c.partitionLeaderEpoch ∧ b.magic = c.magic ∧
  b.attributes = c.attributes ∧ b.lastOffsetDelta = c.lastOffsetDelta ∧ b.baseTimestamp = c.baseTimestamp ∧
  b.maxTimestamp = c.maxTimestamp ∧ b.producerId = c.producerId ∧ b.producerEpoch = c.producerEpoch ∧
  b.baseSequence = c.baseSequence ∧
  b.recordList.length = c.recordList.length ∧
  ∀ (i : Nat) r s, b.recordList[i]? = some r → c.recordList[i]? = some s → SameRecord r s

theorem sameBatch_readBack (b : RecordBatch) (crc : Nat) : SameBatch b (b.readBack crc) := by
  refine ⟨rfl, rfl, rfl, rfl, rfl, rfl, rfl, rfl, rfl, rfl, ?_, ?_⟩
  · simp [RecordBatch.readBack, RecordBatch.recordList]
  · intro i r s h1 h2
    have : (b.readBack crc).recordList = b.recordList.map BatchRecord.norm := rfl
    rw [this, List.getElem?_map, h1] at h2
    simp at h2
    rw [← h2]; exact sameRecord_norm r

/-- C16: a valid batch is written and read back (followed by anything) with the same content; the derived fields
hold the length and CRC actually on the wire. -/
theorem C16_batch_roundtrip (x : Ext) (b : RecordBatch) (h : ValidBatch b) (rest : Bytes) :
    ∃ enc b', b.write x = .ok enc ∧ RecordBatch.read x (enc ++ rest) = .ok (b', rest) ∧ SameBatch b b' ∧
      b'.isComplete = true ∧ b'.batchLength = enc.length - 12 ∧ b'.crc = field 17 4 enc := by
  have hw := RecordBatch.write_eq (x := x) h.ok
  refine ⟨_, _, hw, RecordBatch.rt h.ok _ (crcOf_lt x b) rest, sameBatch_readBack b _, rfl, ?_, ?_⟩
  · rw [RecordBatch.encWith_length]; simp [RecordBatch.readBack]; omega
  · have hl := (C15_layout x b (.inl (by rw [h.uncompressed]; decide)) _ hw).2.2.2.2.2.1
    rw [hl]
    have hd : (b.encWith (b.crcOf x)).drop 21 = b.afterCrc (encRecords b.recordList) := by
      unfold RecordBatch.encWith
      rw [List.drop_append, List.drop_of_length_le (by simp), List.nil_append, List.drop_append,
        List.drop_of_length_le (by simp), List.nil_append, List.drop_append,
        List.drop_of_length_le (by simp), List.nil_append, List.drop_append,
        List.drop_of_length_le (by simp), List.nil_append, List.drop_append,
        List.drop_of_length_le (by simp), List.nil_append]
      simp
    rw [hd]; rfl

/-- C16: a batch compressed with lz4 (3) or zstd (4) that holds at least one record is never readable: the decoders
do not support reading single bytes. Stated on the wire format: any bytes whose attributes select these codecs. -/
theorem C16_lz4_zstd_unreadable (x : Ext) (attributes : Int) (n : Nat) (w : Bytes)
    (hc : compressionType attributes = 3 ∨ compressionType attributes = 4) (hn : 0 < n) :
    ∃ e, readPayload x attributes n w = .error e := by
  refine ⟨.other, ?_⟩
  unfold readPayload
  rw [if_neg (by omega), if_neg (by omega), if_neg (by omega), if_pos (by omega), if_neg (by omega)]

/-- Every key, value, header key and header value of a record is shorter than 16 KiB. -/
def SmallRecord (r : BatchRecord) : Prop :=
  (r.key.getD []).length < 16384 ∧ (r.value.getD []).length < 16384 ∧
  ∀ h ∈ r.headers.getD [], (h.key.getD []).length < 16384 ∧ (h.value.getD []).length < 16384

theorem SmallRecord.below {r : BatchRecord} (h : SmallRecord r) : r.Below Gzip.bufLen := ⟨h.1, h.2.1, h.2.2⟩

/-- reading what is compressed gives it back: the gzip reader delivers it in pieces of any sizes -/
def Gunzips (x : Ext) : Prop := ∀ p z, x.compress 1 p = .ok z → ∃ sizes together, x.gunzip z = .ok ⟨p, sizes, .eof, together⟩

/-- reading what is compressed gives it back -/
def Unsnaps (x : Ext) : Prop := ∀ p z, x.compress 2 p = .ok z → x.unsnappy z = .ok p

/-- records compressed with gzip, all of them small -/
theorem gzip_records (rs : List BatchRecord) (h : ∀ r ∈ rs, r.Ok ∧ r.Below Gzip.bufLen) (sizes : List Nat) (together : Bool) (rest : Bytes) :
    ∃ st, recordsVia Source.gzip rs.length ⟨[], ⟨encRecords rs ++ rest, sizes, .eof, together⟩⟩ = .ok (rs.map BatchRecord.norm, st) ∧ st.data = rest := by
  obtain ⟨st, h1, h2, _⟩ := records_grt Gzip.faithful (by decide) rs h ⟨[], ⟨encRecords rs ++ rest, sizes, .eof, together⟩⟩ rest rfl rfl
  exact ⟨st, h1, h2⟩

theorem sameRecords_norm (rs : List BatchRecord) : ∀ (i : Nat) r s, rs[i]? = some r → (rs.map BatchRecord.norm)[i]? = some s → SameRecord r s := by
  intro i r s h1 h2
  rw [List.getElem?_map, h1] at h2
  simp at h2
  rw [← h2]; exact sameRecord_norm r

/-- C16 for gzip (1): the records part round-trips for any compressor whose decompressor inverts it, if everything in the records is shorter than
16 KiB; what the decompressor has not read of the window stays unread. (Larger values: C151.) -/
theorem C16_gzip_payload (x : Ext) (b : RecordBatch) (hb : b.recordList ≠ [])
    (hc : compressionType b.attributes = 1)
    (hr : ∀ r ∈ b.recordList, ValidRecord r ∧ SmallRecord r) (hx : Gunzips x)
    (payload : Bytes) (hw : b.writePayload x = .ok payload) :
    ∃ rs, readPayload x b.attributes b.recordList.length payload = .ok (rs, x.unread payload b.recordList.length) ∧
      rs.length = b.recordList.length ∧
      ∀ (i : Nat) r s, b.recordList[i]? = some r → rs[i]? = some s → SameRecord r s := by
  unfold RecordBatch.writePayload at hw
  rw [if_neg hb, if_neg (by omega), if_neg (by omega),
    writeRecordItems_eq _ (fun r h => (hr r h).1.headers)] at hw
  simp only at hw
  refine ⟨b.recordList.map BatchRecord.norm, ?_, by simp, sameRecords_norm _⟩
  rw [hc] at hw
  obtain ⟨sizes, tog, hg⟩ := hx _ _ hw
  obtain ⟨st, h1, -⟩ := gzip_records b.recordList (fun r h => ⟨(hr r h).1.ok, (hr r h).2.below⟩) sizes tog []
  rw [List.append_nil] at h1
  unfold readPayload
  rw [if_neg (by omega), if_pos (by omega), hg]
  simp only [h1]

/-- C16 for snappy (2): the records part round-trips for any compressor whose decompressor inverts it. -/
theorem C16_snappy_payload (x : Ext) (b : RecordBatch) (hb : b.recordList ≠ [])
    (hc : compressionType b.attributes = 2)
    (hr : ∀ r ∈ b.recordList, ValidRecord r) (hx : Unsnaps x)
    (payload : Bytes) (hw : b.writePayload x = .ok payload) :
    ∃ rs, readPayload x b.attributes b.recordList.length payload = .ok (rs, []) ∧
      rs.length = b.recordList.length ∧
      ∀ (i : Nat) r s, b.recordList[i]? = some r → rs[i]? = some s → SameRecord r s := by
  unfold RecordBatch.writePayload at hw
  rw [if_neg hb, if_neg (by omega), if_neg (by omega),
    writeRecordItems_eq _ (fun r h => (hr r h).headers)] at hw
  simp only at hw
  rw [hc] at hw
  refine ⟨b.recordList.map BatchRecord.norm, ?_, by simp, sameRecords_norm _⟩
  unfold readPayload
  rw [if_neg (by omega), if_neg (by omega), if_pos (by omega), hx _ _ hw]
  have := readRecordItems_rt b.recordList (fun r h => (hr r h).ok) []
  rw [List.append_nil] at this
  simp only [this]

def exBatch : RecordBatch :=
  { magic := 2, baseOffset := -1, attributes := 0x20, producerId := 12, records := some [exRecord] }

theorem exBatch_valid : ValidBatch exBatch where
  baseOffset := by decide
  partitionLeaderEpoch := by decide
  magic := rfl
  attributes := by decide
  lastOffsetDelta := by decide
  baseTimestamp := by decide
  maxTimestamp := by decide
  producerId := by decide
  producerEpoch := by decide
  baseSequence := by decide
  uncompressed := by decide
  control := by decide
  records := by intro r hr; simp [RecordBatch.recordList, exBatch] at hr; subst hr; exact exRecord_valid
  size := by decide

/-! #### C17: corrupted batches -/

/-- replace the CRC field of an encoded batch -/
def withCrc (enc : Bytes) (crc : Nat) : Bytes := enc.take 17 ++ beBytes 4 crc ++ enc.drop 21

/-- C17 is false, for every valid batch: whatever is put into the CRC field of its encoding, the reader accepts the
batch (it stores the field but never compares it). -/
theorem C17_crc_false (x : Ext) (b : RecordBatch) (h : ValidBatch b) (crc : Nat) (hc : crc < 2^32) (rest : Bytes) :
    ∃ enc b', b.write x = .ok enc ∧ RecordBatch.read x (withCrc enc crc ++ rest) = .ok (b', rest) ∧
      SameBatch b b' ∧ b'.crc = crc := by
  refine ⟨_, _, RecordBatch.write_eq h.ok, ?_, sameBatch_readBack b crc, rfl⟩
  have : withCrc (b.encWith (b.crcOf x)) crc = b.encWith crc := by
    unfold withCrc RecordBatch.encWith
    have hg : ∀ (a1 a2 a3 a4 a5 a6 c : Bytes), a1.length = 8 → a2.length = 4 → a3.length = 4 → a4.length = 1 →
        a5.length = 4 → (a1 ++ (a2 ++ (a3 ++ (a4 ++ (a5 ++ a6))))).take 17 ++ c ++
          (a1 ++ (a2 ++ (a3 ++ (a4 ++ (a5 ++ a6))))).drop 21 = a1 ++ (a2 ++ (a3 ++ (a4 ++ (c ++ a6)))) := by
      intro a1 a2 a3 a4 a5 a6 c h1 h2 h3 h4 h5
      have e1 : (a1 ++ (a2 ++ (a3 ++ (a4 ++ (a5 ++ a6))))) = (a1 ++ a2 ++ a3 ++ a4) ++ (a5 ++ a6) := by simp
      have e2 : (a1 ++ (a2 ++ (a3 ++ (a4 ++ (a5 ++ a6))))) = (a1 ++ a2 ++ a3 ++ a4 ++ a5) ++ a6 := by simp
      have t1 : (a1 ++ (a2 ++ (a3 ++ (a4 ++ (a5 ++ a6))))).take 17 = a1 ++ a2 ++ a3 ++ a4 := by
        rw [e1]; exact List.take_left' (by simp; omega)
      have t2 : (a1 ++ (a2 ++ (a3 ++ (a4 ++ (a5 ++ a6))))).drop 21 = a6 := by
        rw [e2]; exact List.drop_left' (by simp; omega)
      rw [t1, t2]; simp
    exact hg _ _ _ _ _ _ _ (by simp) (by simp) (by simp) (by simp) (by simp)
  rw [this]
  exact RecordBatch.rt h.ok crc hc rest

/-! #### C18: sequences of batches -/

/-- C18 without a partial batch: a section of written batches is read completely. -/
theorem C18_sequence (x : Ext) (l : List RecordBatch) (h : ∀ b ∈ l, ValidBatch b) :
    ∃ enc l', writeBatches x l = .ok enc ∧ readBatches x enc = .ok (l', []) ∧ l'.length = l.length ∧
      ∀ (i : Nat) b c, l[i]? = some b → l'[i]? = some c → SameBatch b c := by
  have hok : ∀ b ∈ l, b.Ok := fun b hb => (h b hb).ok
  refine ⟨_, l.map (fun b => b.readBack (b.crcOf x)), writeBatches_eq x l hok, ?_, by simp, ?_⟩
  · have := readBatches_list (x := x) l hok [] [] (fun f hf => readBatchesAux_nil f hf)
    simpa using this
  · intro i b c h1 h2
    rw [List.getElem?_map, h1] at h2
    simp at h2
    rw [← h2]; exact sameBatch_readBack b _

/-- C168 with a partial last batch of which at least the first 17 bytes (up to the magic byte) are present: exactly
the complete batches are returned and the section is consumed. -/
theorem C168_partial_last_partial (x : Ext) (l : List RecordBatch) (h : ∀ b ∈ l, ValidBatch b)
    (last : RecordBatch) (hlast : ValidBatch last) (encLast p s : Bytes)
    (hw : last.write x = .ok encLast) (hp : encLast = p ++ s) (hs : s ≠ []) (hl : 17 ≤ p.length) :
    ∃ enc l', writeBatches x l = .ok enc ∧ readBatches x (enc ++ p) = .ok (l', []) ∧ l'.length = l.length ∧
      ∀ (i : Nat) b c, l[i]? = some b → l'[i]? = some c → SameBatch b c := by
  have hok : ∀ b ∈ l, b.Ok := fun b hb => (h b hb).ok
  rw [RecordBatch.write_eq hlast.ok] at hw
  injection hw with hw
  refine ⟨_, l.map (fun b => b.readBack (b.crcOf x)), writeBatches_eq x l hok, ?_, by simp, ?_⟩
  · exact readBatches_list (x := x) l hok p []
      (fun f hf => readBatchesAux_partial hlast.ok _ p s (hw.trans hp) hs hl f hf)
  · intro i b c h1 h2
    rw [List.getElem?_map, h1] at h2
    simp at h2
    rw [← h2]; exact sameBatch_readBack b _

/-- C168 is false for a shorter partial batch: the complete batches are returned but the 1–16 remaining bytes are left
in the input, where the caller goes on to parse the next field. -/
theorem C168_short_partial_false (x : Ext) (l : List RecordBatch) (h : ∀ b ∈ l, ValidBatch b)
    (p : Bytes) (hp : p.length < 17) :
    ∃ enc l', writeBatches x l = .ok enc ∧ readBatches x (enc ++ p) = .ok (l', p) ∧ l'.length = l.length := by
  have hok : ∀ b ∈ l, b.Ok := fun b hb => (h b hb).ok
  exact ⟨_, l.map (fun b => b.readBack (b.crcOf x)), writeBatches_eq x l hok,
    readBatches_list (x := x) l hok p p (fun f hf => readBatchesAux_short p hp f hf), by simp⟩

example (x : Ext) : ∃ enc l', writeBatches x [exBatch, exBatch] = .ok enc ∧
    readBatches x (enc ++ [1, 2, 3]) = .ok (l', [1, 2, 3]) ∧ l'.length = 2 :=
  C168_short_partial_false x [exBatch, exBatch] (by
    intro b hb; simp at hb; subst hb; exact exBatch_valid) [1, 2, 3] (by decide)

end Verif.Props
