import Verif.Kafka.RoundSpec
import Verif.Kafka.WireLemmas
import Verif.Kafka.SchemaSize
/- The vocabulary of Verif/Kafka/RoundSpec.lean agrees with the one used in the proofs. -/
namespace Verif.Kafka
open Verif

theorem tagList_eq (c : Ctx) : Wire.tagList c = c.tag.toList := by
  unfold Wire.tagList; cases c.tag <;> rfl

theorem declared_eq (s : Sch) : Wire.declared s = s.tags := by
  induction s with
  | nil => rfl
  | prim c ig p d rest ih => simp only [Wire.declared, Sch.tags, ih, tagList_eq]
  | arr c ig p rest ih => simp only [Wire.declared, Sch.tags, ih, tagList_eq]
  | struct c ig flo fhi sub rest _ ih => simp only [Wire.declared, Sch.tags, ih, tagList_eq]
  | arrS c ig flo fhi sub rest _ ih => simp only [Wire.declared, Sch.tags, ih, tagList_eq]

theorem soundCtx_eq (c : Ctx) (v : Int) (flex : Bool) : Wire.soundCtx c v flex = c.wf v flex := by
  unfold Wire.soundCtx Ctx.wf
  rw [isTagged_eq, within_eq]
  rfl

theorem soundPrim_eq (p : Prim) : Wire.soundPrim p = p.wf := by
  cases p with
  | int k => simp only [Wire.soundPrim, Prim.wf]; congr 1; exact propext ⟨by omega, by omega⟩
  | _ => rfl

theorem tagFree_eq (c : Ctx) (l : List Nat) :
    (Wire.tagList c).all (fun t => !l.contains t) = !c.tag.any (l.contains ·) := by
  unfold Wire.tagList; cases c.tag <;> simp

theorem sound_eq (v : Int) (flex : Bool) (s : Sch) : Wire.sound v flex s = s.wf v flex := by
  induction s generalizing flex with
  | nil => rfl
  | prim c ig p d rest ih => simp only [Wire.sound, Sch.wf, ih, soundCtx_eq, soundPrim_eq, tagFree_eq, declared_eq]
  | arr c ig p rest ih => simp only [Wire.sound, Sch.wf, ih, soundCtx_eq, soundPrim_eq, tagFree_eq, declared_eq]
  | struct c ig flo fhi sub rest ihs ih =>
    simp only [Wire.sound, Sch.wf, ih, ihs, soundCtx_eq, tagFree_eq, declared_eq, isTagged_eq, within_eq]
  | arrS c ig flo fhi sub rest ihs ih =>
    simp only [Wire.sound, Sch.wf, ih, ihs, soundCtx_eq, tagFree_eq, declared_eq, within_eq]

theorem soundMsg_eq (m : Msg) (v : Int) : Wire.soundMsg m v = m.wf v := by
  unfold Wire.soundMsg Msg.wf; rw [sound_eq, within_eq]

/-! ### values -/

theorem control_eq (b : RecordBatch) (h : isControlBatch b.attributes = true) : Wire.isControl b = true := by
  unfold isControlBatch at h
  unfold Wire.isControl
  have h5 : (wrapU 2 b.attributes).testBit 5 = true := by
    have h0 : ((wrapU 2 b.attributes) &&& 0x20) ≠ 0 := by simpa using h
    cases ht : (wrapU 2 b.attributes).testBit 5 with
    | true => rfl
    | false =>
      refine absurd (Nat.eq_of_testBit_eq fun i => ?_) h0
      rw [Nat.testBit_and, show (0x20 : Nat) = 2^5 from rfl, Nat.testBit_two_pow, Nat.zero_testBit]
      by_cases hi : 5 = i
      · subst hi; simp [ht]
      · simp [hi]
  rw [Nat.testBit_eq_decide_div_mod_eq] at h5
  simp only [decide_eq_true_eq] at h5 ⊢
  unfold wrapU at h5
  omega

theorem Wire.BatchFits.payload_plain {x : Ext} {b : RecordBatch} (h : Wire.BatchFits x b) :
    encRecords b.recordList = Wire.payload x b := by
  rw [encRecords_eqW b.recordList (fun r hr => ⟨(h.records r hr).1.ok, (h.records r hr).2⟩)]
  unfold Wire.payload
  simp only
  rw [if_pos (.inl h.uncompressed)]
  rfl

theorem Wire.BatchFits.ok {x : Ext} {b : RecordBatch} (h : Wire.BatchFits x b) : b.Ok where
  baseOffset := by have := h.baseOffset; unfold InS; constructor <;> simp <;> omega
  epoch := by have := h.partitionLeaderEpoch; unfold InS; constructor <;> simp <;> omega
  magic := h.magic
  attributes := by have := h.attributes; unfold InS; constructor <;> simp <;> omega
  lastOffsetDelta := by have := h.lastOffsetDelta; unfold InS; constructor <;> simp <;> omega
  baseTimestamp := by have := h.baseTimestamp; unfold InS; constructor <;> simp <;> omega
  maxTimestamp := by have := h.maxTimestamp; unfold InS; constructor <;> simp <;> omega
  producerId := by have := h.producerId; unfold InS; constructor <;> simp <;> omega
  producerEpoch := by have := h.producerEpoch; unfold InS; constructor <;> simp <;> omega
  baseSequence := by have := h.baseSequence; unfold InS; constructor <;> simp <;> omega
  plain := by rw [codec_eq]; exact h.uncompressed
  control := fun hc => h.control (control_eq b hc)
  records := fun r hr => (h.records r hr).1.ok
  size := by rw [h.payload_plain]; exact h.length

theorem backBatch_eq {x : Ext} {b : RecordBatch} (h : Wire.BatchFits x b) :
    b.readBack (b.crcOf x) = Wire.backBatch x b := by
  unfold RecordBatch.readBack RecordBatch.crcOf Wire.backBatch
  rw [h.payload_plain, afterCrc_eq]
  rfl

theorem batchSize_eq {x : Ext} {b : RecordBatch} (h : Wire.BatchFits x b) : b.size = (b.encWith (b.crcOf x)).length := by
  have hl : (b.encWith (b.crcOf x)).length = 61 + (encRecords b.recordList).length := by
    unfold RecordBatch.encWith RecordBatch.afterCrc; simp; omega
  rw [hl]
  unfold RecordBatch.size
  congr 1
  have : ∀ rs : List BatchRecord, (∀ r ∈ rs, Wire.RecordFits r ∧ Wire.exactTs r.timestampDelta) →
      (rs.map BatchRecord.size).sum = (encRecords rs).length := by
    intro rs hr
    induction rs with
    | nil => rfl
    | cons r rs ih =>
      rw [encRecords_cons, List.length_append, List.map_cons, List.sum_cons, ih (fun s hs => hr s (by simp [hs])),
        r.size_eq (hr r (by simp)).1.ok, if_pos (by rw [zz_eq]; exact (hr r (by simp)).2)]
      omega
  exact this _ h.records

theorem present_eq {α : Type} (c : Ctx) (v : Int) (flex : Bool) (hc : c.wf v flex = true) (nd : α → Bool) (isD : α → Bool)
    (hnd : ∀ a, nd a = !isD a) (a : α) : carried c v nd a = Wire.present c v (isD a) := by
  unfold carried Wire.present
  rw [isTagged_eq, within_eq, hnd]
  by_cases ht : c.tagged v = true
  · rw [if_pos ht, if_pos ht]
  · rw [if_neg ht, if_neg ht]
    have hp := inPlace_eq c v flex hc
    unfold Wire.inPlace at hp
    simp only [Bool.not_eq_true] at ht
    rw [isTagged_eq, within_eq, ht] at hp
    simp only [Bool.not_false, Bool.and_true, Bool.or_false] at hp
    exact hp.symm

theorem structNd_eq (x : Ext) (v flo fhi : Int) (sub : Sch) (a : StructVal sub.Val) :
    (structOps flo fhi v (sub.ops x v)).nonDefault a = !(decide (a.unknown = []) && Wire.allDflt sub a.fields) := by
  simp only [structOps, allDflt_eq]

/-- a requirement of the specification implies one used in the proofs -/
structure ReqImp (K : Wire.Req) (C : Cover) : Prop where
  prim : ∀ p a, K.prim p a → C.prim p a
  isNil : ∀ b, K.isNil b → C.isNil b
  unknown : ∀ t a, K.unknown t a → C.unknown t a

theorem validStruct_ok {β : Type} {K : Wire.Req} {C : Cover} (hK : ReqImp K C) {tags : List Nat} {V O : β → Prop}
    (h : ∀ b, V b → O b) (s : StructVal β) (hs : Wire.validStruct K tags V s) : StructOk C tags O s :=
  ⟨hK.isNil _ hs.1, h _ hs.2.1, fun a ha => hK.unknown _ _ (hs.2.2 a ha)⟩

theorem validArray_ok {α : Type} (c : Ctx) (v : Int) {V O : α → Prop} (h : ∀ b, V b → O b) (a : Option (List α))
    (ha : Wire.validArray (Wire.within c.flo c.fhi v) V a) : ArrOk c v O a := by
  intro l hl
  have := ha l hl
  rw [within_eq] at this
  exact ⟨this.1, fun b hb => h b (this.2 b hb)⟩

theorem valid_ok {K : Wire.Req} {C : Cover} (hK : ReqImp K C) (x : Ext) (v : Int) (s : Sch) (flex : Bool)
    (hwf : s.wf v flex = true) (b : s.Val) (h : Wire.valid K v s b) : s.Ok C x v b := by
  induction s generalizing flex with
  | nil => trivial
  | prim c ig p d rest ih =>
    obtain ⟨a, b⟩ := b
    simp only [Sch.wf, Bool.and_eq_true] at hwf
    refine ⟨fun hc => hK.prim _ _ (h.1 ?_), ih flex hwf.2 b h.2⟩
    rw [← present_eq c v flex hwf.1.1.1 _ _ (nonDefault_eq p d) a]; exact hc
  | arr c ig p rest ih =>
    obtain ⟨a, b⟩ := b
    simp only [Sch.wf, Bool.and_eq_true] at hwf
    refine ⟨fun hc => validArray_ok c v (hK.prim p) a (h.1 ?_), ih flex hwf.2 b h.2⟩
    rw [← present_eq c v flex hwf.1.1.1 _ _ noItems_eq a]; exact hc
  | struct c ig flo fhi sub rest ihs ih =>
    obtain ⟨a, b⟩ := b
    simp only [Sch.wf, Bool.and_eq_true] at hwf
    refine ⟨fun hc => ?_, ih flex hwf.2 b h.2⟩
    rw [← declared_eq]
    refine validStruct_ok hK (fun y hy => ihs _ hwf.1.1.2 y hy) a (h.1 ?_)
    rw [← present_eq c v flex hwf.1.1.1.1 _ _ (structNd_eq x v flo fhi sub) a]; exact hc
  | arrS c ig flo fhi sub rest ihs ih =>
    obtain ⟨a, b⟩ := b
    simp only [Sch.wf, Bool.and_eq_true] at hwf
    refine ⟨fun hc => ?_, ih flex hwf.2 b h.2⟩
    rw [← declared_eq]
    refine validArray_ok c v (fun y hy => validStruct_ok hK (fun z hz => ihs _ hwf.1.1.2 z hz) y hy) a (h.1 ?_)
    rw [← present_eq c v flex hwf.1.1.1 _ _ noItems_eq a]; exact hc

theorem validMsg_ok {K : Wire.Req} {C : Cover} (hK : ReqImp K C) (x : Ext) (v : Int) (m : Msg) (hwf : m.wf v = true)
    (s : m.Val) (h : Wire.validMsg K v m s) : m.Ok C x v s := by
  unfold Msg.Ok
  rw [← declared_eq]
  exact validStruct_ok hK (fun y hy => valid_ok hK x v m.fields _ hwf y hy) s h

theorem roundReq_ok (x : Ext) : ReqImp (Wire.roundReq x) rtCover where
  prim := by
    intro p a h
    cases p with
    | records => exact fun b hb => (h b hb).ok
    | _ => exact h
  isNil := fun _ h => h
  unknown := fun _ _ h => h

theorem sizeReq_ok (x : Ext) : ReqImp (Wire.sizeReq x) (sizeCover x) where
  prim := by
    intro p a h
    cases p with
    | records => exact fun b hb => ⟨(h b hb).ok, batchSize_eq (h b hb)⟩
    | _ => exact h
  isNil := fun _ h => h
  unknown := fun _ _ h => h

theorem wireReq_ok : ReqImp Wire.wireReq wireCover where
  prim := by
    intro p a h
    cases p with
    | records => exact h
    | _ => trivial
  isNil := fun _ h => h
  unknown := fun _ _ h => h

/-! ### the value read back -/

theorem defaults_eq (x : Ext) (v : Int) (s : Sch) : (s.ops x v).dflt = Wire.defaults s := by
  induction s with
  | nil => rfl
  | prim c ig p d rest ih => simp only [Sch.ops, consField, primOps, Wire.defaults, ih, dflt_eq]
  | arr c ig p rest ih => simp only [Sch.ops, consField, arrOps, Wire.defaults, ih]
  | struct c ig flo fhi sub rest ihs ih => simp only [Sch.ops, consField, structOps, Wire.defaults, ih, ihs]
  | arrS c ig flo fhi sub rest ihs ih => simp only [Sch.ops, consField, arrOps, Wire.defaults, ih]

theorem backPrim_eq (x : Ext) (p : Prim) (a : p.Val) (h : Wire.validPrim x p a) : primNorm x p a = Wire.backPrim x p a := by
  cases p with
  | str =>
    obtain ⟨val, nil⟩ := a
    simp only [primNorm, NStr.norm, Wire.backPrim, utf8Null_eq]
    cases nil with
    | true => simp
    | false =>
      by_cases hv : val = nullBytes
      · simp [hv]
      · simp [hv]
  | records =>
    simp only [primNorm, RecBatches.norm, Wire.backPrim]
    split
    · rfl
    · congr 1
      exact List.map_congr_left fun b hb => backBatch_eq (h b hb)
  | _ => rfl

theorem map_opt_congr {α : Type} {f g : α → α} (a : Option (List α)) (h : ∀ l, a = some l → ∀ y ∈ l, f y = g y) :
    a.map (·.map f) = a.map (·.map g) := by
  cases a with
  | none => rfl
  | some l =>
    simp only [Option.map_some]
    congr 1
    exact List.map_congr_left (h l rfl)

theorem backStruct_eq {β : Type} {f g : β → β} (s : StructVal β) (h : f s.fields = g s.fields) :
    structNorm f s = Wire.backStruct g s := by
  unfold structNorm Wire.backStruct
  rw [h, sort_eq]

theorem back_eq (x : Ext) (v : Int) (s : Sch) (flex : Bool)
    (hwf : s.wf v flex = true) (b : s.Val) (h : Wire.valid (Wire.roundReq x) v s b) : s.norm x v b = Wire.back x v s b := by
  induction s generalizing flex with
  | nil => rfl
  | prim c ig p d rest ih =>
    obtain ⟨a, b⟩ := b
    simp only [Sch.wf, Bool.and_eq_true] at hwf
    simp only [Sch.norm, Wire.back, fieldNorm, ih flex hwf.2 b h.2, dflt_eq]
    rw [present_eq c v flex hwf.1.1.1 _ _ (nonDefault_eq p d) a]
    congr 1
    split
    · rename_i hp; exact backPrim_eq x p a (h.1 hp)
    · rfl
  | arr c ig p rest ih =>
    obtain ⟨a, b⟩ := b
    simp only [Sch.wf, Bool.and_eq_true] at hwf
    simp only [Sch.norm, Wire.back, fieldNorm, ih flex hwf.2 b h.2]
    rw [present_eq c v flex hwf.1.1.1 _ _ noItems_eq a]
    congr 1
    split
    · rename_i hp
      exact map_opt_congr a fun l hl y hy => backPrim_eq x p y ((h.1 hp l hl).2 y hy)
    · rfl
  | struct c ig flo fhi sub rest ihs ih =>
    obtain ⟨a, b⟩ := b
    simp only [Sch.wf, Bool.and_eq_true] at hwf
    simp only [Sch.norm, Wire.back, fieldNorm, ih flex hwf.2 b h.2, defaults_eq]
    rw [present_eq c v flex hwf.1.1.1.1 _ _ (structNd_eq x v flo fhi sub) a]
    congr 1
    split
    · rename_i hp
      exact backStruct_eq a (ihs _ hwf.1.1.2 a.fields (h.1 hp).2.1)
    · rfl
  | arrS c ig flo fhi sub rest ihs ih =>
    obtain ⟨a, b⟩ := b
    simp only [Sch.wf, Bool.and_eq_true] at hwf
    simp only [Sch.norm, Wire.back, fieldNorm, ih flex hwf.2 b h.2]
    rw [present_eq c v flex hwf.1.1.1 _ _ noItems_eq a]
    congr 1
    split
    · rename_i hp
      exact map_opt_congr a fun l hl y hy => backStruct_eq y (ihs _ hwf.1.1.2 y.fields ((h.1 hp l hl).2 y hy).2.1)
    · rfl

theorem backMsg_eq (x : Ext) (v : Int) (m : Msg) (hwf : m.wf v = true) (s : m.Val)
    (h : Wire.validMsg (Wire.roundReq x) v m s) : m.norm x v s = Wire.backMsg x v m s :=
  backStruct_eq s (back_eq x v m.fields _ hwf s.fields h.2.1)

end Verif.Kafka
