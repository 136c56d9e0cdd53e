import Verif.Kafka.RoundLemmas
import Verif.Props.Messages
import Verif.Props.Records
/-
Property theorems C57 (conformance with the Kafka wire format), and C08, C09, C16 restated against the specification of
Verif/Kafka/WireSpec.lean and Verif/Kafka/RoundSpec.lean, which use no reader, writer or size function of the model.

`m : Msg` ranges over every structure the generator can emit, `x : Ext` over every CRC and compression implementation,
`v` over all versions, `s` over all values of the generated Go type.
-/
namespace Verif.Props
open Verif Verif.Kafka Verif.Kafka.Gen

/-! #### C57: what is written is the Kafka wire format -/

/-- C185: fixed-size integers are big-endian two's complement. -/
theorem C185_int (k : Nat) (i : Int) : putInt k i = Wire.be k i := putInt_eq k i

/-- C185: unsigned varints. -/
theorem C185_uvarint (n : Nat) : putUvarint n = Wire.uvarint n := putUvarint_eq n

/-- C185: signed varints are zig-zag encoded, for every int64. -/
theorem C185_varint (i : Int) (h : -2^63 ≤ i ∧ i < 2^63) : putVarint i = Wire.varint i := putVarint_eq i h

/-- C57: a record that fits its length field is written in the record format. -/
theorem C57_record (r : BatchRecord) (h : Wire.RecordFits r) (ht : Wire.exactTs r.timestampDelta) (e : Bytes)
    (hw : r.write = .ok e) : e = Wire.record r := by
  rw [BatchRecord.write_eq r h.headers, record_eq r h.ok ht] at hw
  exact (Except.ok.inj hw).symm

/-- C57: a batch, compressed or not (but not with snappy), is written in the record batch format v2, with the length and
the CRC of what follows. -/
theorem C57_batch (x : Ext) (b : RecordBatch)
    (h : ∀ r ∈ b.records.getD [], Wire.RecordFits r ∧ Wire.exactTs r.timestampDelta) (hc : Wire.clean b) (e : Bytes)
    (hw : b.write x = .ok e) : e = Wire.batch x b := by
  rw [batch_eq x b (fun r hr => ⟨(h r hr).1.ok, (h r hr).2⟩) e hw, clean_trailer x b hc, List.append_nil]

/-- C192: a batch compressed with snappy is written in the format as well, but the compressed empty string may follow it. -/
theorem C192_snappy_partial (x : Ext) (b : RecordBatch)
    (h : ∀ r ∈ b.records.getD [], Wire.RecordFits r ∧ Wire.exactTs r.timestampDelta) (e : Bytes)
    (hw : b.write x = .ok e) : e = Wire.batch x b ∨ ∃ t, x.compress 2 [] = .ok t ∧ e = Wire.batch x b ++ t := by
  rw [batch_eq x b (fun r hr => ⟨(h r hr).1.ok, (h r hr).2⟩) e hw]
  unfold RecordBatch.trailer
  split
  · rcases x.again_eq b with h0 | h0
    · left; rw [h0, List.append_nil]
    · exact .inr ⟨_, h0, rfl⟩
  · left; rw [List.append_nil]

/-- **C192 is false of the code** for a batch compressed with snappy: 16 bytes follow it that belong to no field. -/
theorem C192_snappy_false : ∃ (x : Ext) (b : RecordBatch),
    (∀ r ∈ b.records.getD [], Wire.RecordFits r ∧ Wire.exactTs r.timestampDelta) ∧
    ∃ e, b.write x = .ok e ∧ e.length = (Wire.batch x b).length + 16 := by
  obtain ⟨e, h1, h2⟩ := okWith_iff (r := ({ magic := 2, attributes := 2, records := some [exRecord] } : RecordBatch).write xerialExt)
    (P := fun e => decide (e.length = (Wire.batch xerialExt { magic := 2, attributes := 2, records := some [exRecord] }).length + 16))
    (by decide +kernel)
  refine ⟨xerialExt, _, ?_, e, h1, of_decide_eq_true h2⟩
  intro r hr
  simp only [Option.getD_some, List.mem_singleton] at hr
  subst hr
  exact ⟨⟨by decide, by decide, by decide, by decide, by decide +kernel⟩, .inl (by decide +kernel)⟩

/-- C57: whenever Write succeeds, the bytes are those the Kafka protocol prescribes for the value at the version: fields
in declaration order, only those of the version, compact forms exactly in flexible versions, tagged fields with their
count by ascending tag, default-valued tagged fields left out. -/
theorem C57_message (m : Msg) (x : Ext) (v : Int) (hm : Wire.soundMsg m v = true) (s : m.Val)
    (hs : Wire.validMsg Wire.wireReq v m s) (e : Bytes) (hw : m.write x v s = .ok e) : e = Wire.message x v m s := by
  rw [soundMsg_eq] at hm
  exact m.wire x v hm s (validMsg_ok wireReq_ok x v m hm s hs) e hw

/-- every shipped message is sound at every version it advertises -/
theorem shipped_sound (t : Entry) (ht : t ∈ shipped) (v : Int) (h1 : t.lo ≤ v) (h2 : v ≤ t.hi) :
    Wire.soundMsg t.msg v = true := by
  rw [soundMsg_eq]; exact (C10_shipped_wf t ht v h1 h2).1

/-- C57 for every shipped request and response at every version it advertises. -/
theorem C57_shipped (t : Entry) (ht : t ∈ shipped) (x : Ext) (v : Int) (h1 : t.lo ≤ v) (h2 : v ≤ t.hi)
    (s : t.msg.Val) (hs : Wire.validMsg Wire.wireReq v t.msg s) (e : Bytes) (hw : t.msg.write x v s = .ok e) :
    e = Wire.message x v t.msg s :=
  C57_message t.msg x v (shipped_sound t ht v h1 h2) s hs e hw

/-- **C192 is false of the code** for a record whose timestamp delta is in the band of C02: it is written with a length that is one too
large, which no reader of the Kafka protocol can parse. -/
theorem C192_band_false : ∃ r : BatchRecord, Wire.RecordFits r ∧ ∃ e, r.write = .ok e ∧ e ≠ Wire.record r := by
  have hv : ValidRecord badTsRecord := ⟨by decide, by decide, by decide, by decide, by decide⟩
  refine ⟨badTsRecord, ⟨by decide, by decide, by decide, by decide, by decide +kernel⟩, putVarint (badTsRecord.body.length + 1) ++ badTsRecord.body, ?_, ?_⟩
  · rw [badTsRecord.write_eq hv.headers]
    unfold BatchRecord.enc
    rw [wrapS4_of_lt hv.length, badTsRecord.body_length hv.ok, if_neg (by decide)]
    rfl
  · decide +kernel

/-! #### C08, C09 against the same specification -/

/-- C09 against the specification: what Write produced, followed by anything, is read back as `Wire.backMsg`: the
carried fields unchanged, the others at their defaults, and the following bytes are left unread. -/
theorem C09_spec (m : Msg) (x : Ext) (v : Int) (hm : Wire.soundMsg m v = true) (s : m.Val)
    (hs : Wire.validMsg (Wire.roundReq x) v m s) (e : Bytes) (hw : m.write x v s = .ok e) (rest : Bytes) :
    m.read x v (e ++ rest) = .ok (Wire.backMsg x v m s, rest) := by
  rw [soundMsg_eq] at hm
  rw [C09_message_roundtrip m x v hm s (validMsg_ok (roundReq_ok x) x v m hm s hs) e hw rest,
    backMsg_eq x v m hm s hs]

/-- C09/C10: the same for every shipped message at every version it advertises. -/
theorem C09_shipped_spec (t : Entry) (ht : t ∈ shipped) (x : Ext) (v : Int) (h1 : t.lo ≤ v) (h2 : v ≤ t.hi)
    (s : t.msg.Val) (hs : Wire.validMsg (Wire.roundReq x) v t.msg s) (e : Bytes) (hw : t.msg.write x v s = .ok e)
    (rest : Bytes) : t.msg.read x v (e ++ rest) = .ok (Wire.backMsg x v t.msg s, rest) :=
  C09_spec t.msg x v (shipped_sound t ht v h1 h2) s hs e hw rest

/-- C08/C10: for every shipped message at every version it advertises, SizeInBytes is the number of bytes written. -/
theorem C08_shipped_spec (t : Entry) (ht : t ∈ shipped) (x : Ext) (v : Int) (h1 : t.lo ≤ v) (h2 : v ≤ t.hi)
    (s : t.msg.Val) (hs : Wire.validMsg (Wire.sizeReq x) v t.msg s) (e : Bytes) (hw : t.msg.write x v s = .ok e) :
    t.msg.size x v s = .ok e.length :=
  C08_shipped_size_exact t ht x v h1 h2 s
    (validMsg_ok (sizeReq_ok x) x v t.msg (C10_shipped_wf t ht v h1 h2).1 s hs) e hw

/-! #### C16: control batches -/

theorem control_of (a : Int) (h : a / 32 % 2 = 1) : isControlBatch a = true := by
  unfold isControlBatch
  have h5 : (wrapU 2 a).testBit 5 = true := by
    rw [Nat.testBit_eq_decide_div_mod_eq]
    simp only [decide_eq_true_eq]
    unfold wrapU; omega
  cases hz : (wrapU 2 a &&& 0x20 != 0) with
  | true => rfl
  | false =>
    have h0 : wrapU 2 a &&& 0x20 = 0 := by simpa using hz
    have := congrArg (fun n => n.testBit 5) h0
    rw [Nat.testBit_and, h5] at this
    simp at this
    exact absurd this (by decide)

/-- a reader whose results all satisfy `P` -/
def Always {α : Type} (d : Dec α) (P : α → Prop) : Prop := ∀ bs a rest, d bs = .ok (a, rest) → P a

theorem Always.bind {α β : Type} {d : Dec α} {f : α → Dec β} {P : β → Prop} (h : ∀ a, Always (f a) P) :
    Always (d ⟫= f) P := by
  intro bs b rest hr
  unfold Dec.andThen at hr
  cases hd : d bs with
  | error e => rw [hd] at hr; simp at hr
  | ok p => rw [hd] at hr; exact h _ _ _ _ hr

/-- C16: whatever the bytes, a control batch (bit 5 of the attributes) that is read holds at most one record. -/
theorem C16_control (x : Ext) (bs : Bytes) (b : RecordBatch) (rest : Bytes) (h : RecordBatch.read x bs = .ok (b, rest))
    (hc : Wire.isControl b = true) : (b.records.getD []).length ≤ 1 := by
  have body : ∀ o l, Always (readBatchBody x o l) (fun b => Wire.isControl b = true → (b.records.getD []).length ≤ 1) := by
    intro o l
    unfold readBatchBody
    refine Always.bind fun _ => Always.bind fun _ => Always.bind fun _ => Always.bind fun attributes => Always.bind fun _ =>
      Always.bind fun _ => Always.bind fun _ => Always.bind fun _ => Always.bind fun _ => Always.bind fun _ =>
      Always.bind fun _ => Always.bind fun _ => Always.bind fun records => ?_
    by_cases hn : isControlBatch attributes ∧ records.length > 1
    · rw [if_pos hn]; intro _ _ _ hr; simp [Dec.fail] at hr
    · rw [if_neg hn]
      intro _ _ _ hr
      simp only [Dec.ret, Except.ok.injEq, Prod.mk.injEq] at hr
      intro hb
      rw [← hr.1] at hb ⊢
      simp only [Wire.isControl, decide_eq_true_eq] at hb
      have := control_of _ hb
      simp only [Option.getD_some]
      exact Nat.le_of_not_lt fun hlt => hn ⟨this, hlt⟩
  have chunk : ∀ o, Always (readInt 4 ⟫= fun batchLength => fun rest =>
       if (rest.length : Int) < batchLength then .error .other
       else inChunk batchLength (readBatchBody x o batchLength) rest)
      (fun b => Wire.isControl b = true → (b.records.getD []).length ≤ 1) := by
    intro o
    apply Always.bind
    intro l bs b rest h
    simp only at h
    by_cases hl : (bs.length : Int) < l
    · rw [if_pos hl] at h; simp at h
    · rw [if_neg hl] at h
      unfold inChunk at h
      cases hb : readBatchBody x o l (bs.take l.toNat) with
      | error e => rw [hb] at h; simp at h
      | ok p =>
        rw [hb] at h
        simp only [Except.ok.injEq, Prod.mk.injEq] at h
        rw [← h.1]
        exact body _ _ _ _ _ hb
  have hread : Always (RecordBatch.read x) (fun b => Wire.isControl b = true → (b.records.getD []).length ≤ 1) := by
    intro bs b rest h
    unfold RecordBatch.read at h
    split at h
    · simp at h
    · split at h
      · simp at h
      · exact (Always.bind chunk) _ _ _ h
  exact hread bs b rest h hc

/-- C16: hence a control batch with two records, which Write accepts, is not readable. -/
theorem C16_control_unreadable (x : Ext) (b : RecordBatch) (bs rest : Bytes) (hc : Wire.isControl b = true)
    (hn : 1 < (b.records.getD []).length) : RecordBatch.read x bs ≠ .ok (b, rest) := by
  intro h
  have := C16_control x bs b rest h hc
  omega

/-! non-vacuity -/

theorem exFind_valid : Wire.validMsg Wire.wireReq 4 ⟨3, 32767, s_findcoordinator_Request⟩ exFind := by
  refine ⟨trivial, ⟨fun _ => trivial, fun _ => trivial, fun _ => ?_, trivial⟩, ?_⟩
  · intro l h
    injection h with h
    subst h
    exact ⟨by unfold Wire.lenFits; decide, fun _ _ => trivial⟩
  · intro a ha
    simp only [exFind, List.mem_cons, List.not_mem_nil, or_false] at ha
    subst ha
    show 9 < 2^32
    decide

theorem exFind_round (x : Ext) : Wire.validMsg (Wire.roundReq x) 4 ⟨3, 32767, s_findcoordinator_Request⟩ exFind := by
  refine ⟨rfl, ⟨fun _ => trivial, fun _ => ?_, fun _ => ?_, trivial⟩, ?_⟩
  · show -(256 ^ 1 / 2 : Nat) ≤ (1 : Int) ∧ (1 : Int) < (256 ^ 1 / 2 : Nat)
    decide
  · intro l h
    injection h with h
    subst h
    exact ⟨by unfold Wire.lenFits; decide, fun _ _ => trivial⟩
  · intro a ha
    simp only [exFind, List.mem_cons, List.not_mem_nil, or_false] at ha
    subst ha
    exact ⟨by decide, by decide, by decide⟩

/-- FindCoordinator v4 on the wire -/
example (x : Ext) : Wire.message x 4 ⟨3, 32767, s_findcoordinator_Request⟩ exFind =
    [1, 3, 3, 103, 49, 3, 103, 50, 1, 9, 2, 1, 2] :=
  (C57_message _ x 4 (by decide) exFind exFind_valid _ (by with_unfolding_all rfl)).symm

example (x : Ext) : (⟨3, 32767, s_findcoordinator_Request⟩ : Msg).read x 4
    ([1, 3, 3, 103, 49, 3, 103, 50, 1, 9, 2, 1, 2] ++ [7]) =
    .ok (Wire.backMsg x 4 ⟨3, 32767, s_findcoordinator_Request⟩ exFind, [7]) :=
  C09_spec _ x 4 (by decide) exFind (exFind_round x) _ (by with_unfolding_all rfl) [7]

example : Wire.varint (-3) = [5] ∧ Wire.uvarint 300 = [172, 2] ∧ Wire.be 4 (-2) = [255, 255, 255, 254] := by
  refine ⟨by decide +kernel, by decide +kernel, by decide +kernel⟩

end Verif.Props
