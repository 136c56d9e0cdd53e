import Verif.Props.Wire
import Verif.Kafka.Envelope
/-
Property theorems C59: reading arbitrary bytes.
`Tail d`: whatever the bytes, a successful read leaves an ending of its input unread (it never invents or reorders bytes).
`Calm d`: whatever the bytes, the read does not panic.
-/
namespace Verif.Props
open Verif Verif.Kafka Verif.Kafka.Gen

def Tail {α : Type} (d : Dec α) : Prop := ∀ bs a r, d bs = .ok (a, r) → ∃ used, bs = used ++ r
def Calm {α : Type} (d : Dec α) : Prop := ∀ bs, d bs ≠ .error .panic

theorem Tail.ret {α : Type} (a : α) : Tail (Dec.ret a) := by
  intro bs b r h
  simp only [Dec.ret, Except.ok.injEq, Prod.mk.injEq] at h
  exact ⟨[], by simp [h.2]⟩
theorem Tail.fail {α : Type} (e : Err) : Tail (Dec.fail e : Dec α) := by
  intro bs b r h; simp [Dec.fail] at h
theorem Tail.bind {α β : Type} {d : Dec α} {f : α → Dec β} (h : Tail d) (hf : ∀ a, Tail (f a)) : Tail (d ⟫= f) := by
  intro bs b r hr
  obtain ⟨a, r', h1, h2⟩ := andThen_ok hr
  obtain ⟨u, rfl⟩ := h _ _ _ h1
  obtain ⟨u', rfl⟩ := hf _ _ _ _ h2
  exact ⟨u ++ u', by simp⟩
theorem Tail.ite {α : Type} {p : Prop} [Decidable p] {d e : Dec α} (h : Tail d) (h' : Tail e) : Tail (if p then d else e) := by
  split <;> assumption
theorem Tail.exact (n : Nat) : Tail (readExact n) := by
  intro bs a r h; exact ⟨a, (readExact_ok h).2⟩

theorem Calm.ret {α : Type} (a : α) : Calm (Dec.ret a) := by intro bs h; simp [Dec.ret] at h
theorem Calm.fail {α : Type} {e : Err} (he : e ≠ .panic) : Calm (Dec.fail e : Dec α) := by
  intro bs h; simp only [Dec.fail, Except.error.injEq] at h; exact he h
theorem Calm.bind {α β : Type} {d : Dec α} {f : α → Dec β} (h : Calm d) (hf : ∀ a, Calm (f a)) : Calm (d ⟫= f) := by
  intro bs hr
  unfold Dec.andThen at hr
  cases hd : d bs with
  | error e => rw [hd] at hr; simp only [Except.error.injEq] at hr; subst hr; exact h bs hd
  | ok p => rw [hd] at hr; exact hf _ _ hr
theorem Calm.ite {α : Type} {p : Prop} [Decidable p] {d e : Dec α} (h : Calm d) (h' : Calm e) : Calm (if p then d else e) := by
  split <;> assumption
theorem Calm.exact (n : Nat) : Calm (readExact n) := by
  intro bs h
  unfold readExact at h
  split at h
  · simp at h
  · split at h <;> simp at h

/-! ### varints -/

theorem Tail.uvarintAux (fuel s x : Nat) : Tail (readUvarintAux fuel s x) := by
  induction fuel generalizing s x with
  | zero => intro bs a r h; simp [readUvarintAux] at h
  | succ n ih =>
    intro bs a r h
    unfold readUvarintAux at h
    cases bs with
    | nil => simp at h
    | cons b rest =>
      simp only at h
      split at h
      · split at h
        · simp at h
        · simp only [Except.ok.injEq, Prod.mk.injEq] at h; exact ⟨[b], by simp [h.2]⟩
      · obtain ⟨u, rfl⟩ := ih _ _ _ _ _ h
        exact ⟨b :: u, rfl⟩

theorem Calm.uvarintAux (fuel s x : Nat) : Calm (readUvarintAux fuel s x) := by
  induction fuel generalizing s x with
  | zero => intro bs h; simp [readUvarintAux] at h
  | succ n ih =>
    intro bs h
    unfold readUvarintAux at h
    cases bs with
    | nil => simp only [Except.error.injEq] at h; split at h <;> simp at h
    | cons b rest =>
      simp only at h
      split at h
      · split at h <;> simp at h
      · exact ih _ _ _ h

theorem uvarint32_eq : readUvarint32 = (readUvarint ⟫= fun v => if v ≥ 2^32 then Dec.fail .other else Dec.ret v) := by
  funext bs
  unfold readUvarint32 Dec.andThen
  cases readUvarint bs with
  | error e => rfl
  | ok p => simp only; split <;> rfl

theorem Tail.uvarint32 : Tail readUvarint32 := by
  rw [uvarint32_eq]
  exact .bind (.uvarintAux _ _ _) fun _ => .ite (.fail _) (.ret _)
theorem Calm.uvarint32 : Calm readUvarint32 := by
  rw [uvarint32_eq]
  exact .bind (.uvarintAux _ _ _) fun _ => .ite (.fail (by simp)) (.ret _)

theorem Tail.varint32 : Tail readVarint32 := by
  intro bs a r h
  unfold readVarint32 at h
  split at h
  · simp at h
  · rename_i u rest hu
    simp only [Except.ok.injEq, Prod.mk.injEq] at h
    rw [← h.2]; exact Tail.uvarint32 _ _ _ hu
theorem Calm.varint32 : Calm readVarint32 := by
  intro bs h
  unfold readVarint32 at h
  split at h
  · rename_i e hu; simp only [Except.error.injEq] at h; subst h; exact Calm.uvarint32 _ hu
  · simp at h
theorem Tail.varint64 : Tail readVarint64 := by
  intro bs a r h
  unfold readVarint64 at h
  split at h
  · simp at h
  · rename_i u rest hu
    simp only [Except.ok.injEq, Prod.mk.injEq] at h
    rw [← h.2]; exact Tail.uvarintAux _ _ _ _ _ _ hu

/-! ### fields without records -/

theorem Tail.int (k : Nat) : Tail (readInt k) := .bind (.exact _) fun _ => .ret _
theorem Calm.int (k : Nat) : Calm (readInt k) := .bind (.exact _) fun _ => .ret _
theorem Tail.uint (k : Nat) : Tail (readUInt k) := .bind (.exact _) fun _ => .ret _
theorem Calm.uint (k : Nat) : Calm (readUInt k) := .bind (.exact _) fun _ => .ret _
theorem Tail.len (f : Bool) (k : Nat) : Tail (readLen f k) := by
  unfold readLen; exact .ite (.bind .uvarint32 fun _ => .ret _) (.int _)
theorem Calm.len (f : Bool) (k : Nat) : Calm (readLen f k) := by
  unfold readLen; exact .ite (.bind .uvarint32 fun _ => .ret _) (.int _)
theorem other_ne : (Err.other : Err) ≠ .panic := by simp
theorem Tail.items {α : Type} {d : Dec α} (h : Tail d) (n : Nat) : Tail (readItems d n) := by
  induction n with
  | zero => exact .ret _
  | succ n ih => exact .bind h fun _ => .bind ih fun _ => .ret _
theorem Calm.items {α : Type} {d : Dec α} (h : Calm d) (n : Nat) : Calm (readItems d n) := by
  induction n with
  | zero => exact .ret _
  | succ n ih => exact .bind h fun _ => .bind ih fun _ => .ret _
theorem Tail.str (c : Ctx) (v : Int) (cur : NStr) : Tail (readStr c v cur) := by
  unfold readStr
  refine .ite (.ret _) (.bind (.len _ _) fun n => ?_)
  unfold readStrValue
  exact .ite (.ite (.ret _) (.fail _)) (.ite (.fail _) (.ite (.ret _) (.bind (.exact _) fun _ => .ret _)))
theorem Calm.str (c : Ctx) (v : Int) (cur : NStr) : Calm (readStr c v cur) := by
  unfold readStr
  refine .ite (.ret _) (.bind (.len _ _) fun n => ?_)
  unfold readStrValue
  exact .ite (.ite (.ret _) (.fail other_ne)) (.ite (.fail other_ne) (.ite (.ret _) (.bind (.exact _) fun _ => .ret _)))
theorem Tail.bytesF (c : Ctx) (v : Int) (cur : Option Bytes) : Tail (readBytesF c v cur) := by
  unfold readBytesF
  refine .ite (.ret _) (.bind (.len _ _) fun n => ?_)
  unfold readBytesValue
  exact .ite (.ite (.ret _) (.fail _)) (.ite (.fail _) (.ite (.ret _) (.bind (.exact _) fun _ => .ret _)))
theorem Calm.bytesF (c : Ctx) (v : Int) (cur : Option Bytes) : Calm (readBytesF c v cur) := by
  unfold readBytesF
  refine .ite (.ret _) (.bind (.len _ _) fun n => ?_)
  unfold readBytesValue
  exact .ite (.ite (.ret _) (.fail other_ne)) (.ite (.fail other_ne) (.ite (.ret _) (.bind (.exact _) fun _ => .ret _)))
theorem Tail.arr {α : Type} (c : Ctx) (v : Int) {d : Dec α} (h : Tail d) : Tail (readArr c v d) := by
  unfold readArr
  refine .ite (.ret _) (.bind (.len _ _) fun n => ?_)
  unfold readArrValue
  exact .ite (.ite (.ret _) (.fail _)) (.bind (.items h _) fun _ => .ret _)
theorem Calm.arr {α : Type} (c : Ctx) (v : Int) {d : Dec α} (h : Calm d) : Calm (readArr c v d) := by
  unfold readArr
  refine .ite (.ret _) (.bind (.len _ _) fun n => ?_)
  unfold readArrValue
  exact .ite (.ite (.ret _) (.fail other_ne)) (.bind (.items h _) fun _ => .ret _)
theorem Tail.tag : Tail readTag := .bind .uvarint32 fun _ => .bind .uvarint32 fun _ => .bind (.exact _) fun _ => .ret _
theorem Calm.tag : Calm readTag := .bind .uvarint32 fun _ => .bind .uvarint32 fun _ => .bind (.exact _) fun _ => .ret _
theorem Tail.rawTags : Tail readRawTags := by
  intro bs a r h
  unfold readRawTags at h
  split at h
  · simp only [Except.ok.injEq, Prod.mk.injEq] at h; exact ⟨bs, by simp [← h.2]⟩
  · simp at h
  · rename_i n r' hu
    obtain ⟨u, rfl⟩ := Tail.uvarint32 _ _ _ hu
    split at h
    · simp only [Except.ok.injEq, Prod.mk.injEq] at h; exact ⟨u, by simp [h.2]⟩
    · obtain ⟨u', rfl⟩ := Tail.items Tail.tag _ _ _ _ h
      exact ⟨u ++ u', by simp⟩
theorem Calm.rawTags : Calm readRawTags := by
  intro bs h
  unfold readRawTags at h
  split at h
  · simp at h
  · rename_i e hu hne
    simp only [Except.error.injEq] at h; subst h
    exact Calm.uvarint32 _ hne
  · split at h
    · simp at h
    · exact Calm.items Calm.tag _ _ h

/-! ### records -/

theorem Tail.chunk {α : Type} (n : Int) {d : Dec α} (h : Tail d) : Tail (inChunk n d) := by
  intro bs a r hr
  unfold inChunk at hr
  split at hr
  · simp at hr
  · rename_i a' r' hd
    simp only [Except.ok.injEq, Prod.mk.injEq] at hr
    obtain ⟨u, hu⟩ := h _ _ _ hd
    refine ⟨u, ?_⟩
    rw [← hr.2, ← List.append_assoc, ← hu, List.take_append_drop]
theorem Tail.some (n : Nat) : Tail (readSome n) := by
  intro bs a r h
  unfold readSome at h
  split at h
  · simp at h
  · simp only [Except.ok.injEq, Prod.mk.injEq] at h
    exact ⟨bs.take n, by rw [← h.2, List.take_append_drop]⟩
theorem Tail.sliceOrShort (n : Nat) : Tail (readSliceOrShort n) := .bind (.some _) fun _ => .ret _
theorem Tail.nullableSlice (n : Int) : Tail (readNullableSlice n) := by
  unfold readNullableSlice
  exact .ite (.ret _) (.ite (.ret _) (.bind (.sliceOrShort _) fun _ => .ret _))
theorem Tail.headerKey (n : Int) : Tail (readHeaderKey n) := by
  unfold readHeaderKey
  exact .ite (.bind (.sliceOrShort _) fun _ => .ret _) (.ret _)
theorem Tail.header : Tail RecordHeader.read := by
  refine .bind .varint32 fun _ => .bind (.headerKey _) fun ko => ?_
  cases ko with
  | none => exact .ret _
  | some k =>
    refine .bind .varint32 fun _ => .bind (.nullableSlice _) fun vo => ?_
    cases vo with
    | none => exact .ret _
    | some v => exact .ret _
theorem Tail.headers (n : Nat) : Tail (readHeaders n) := by
  induction n with
  | zero => exact .ret _
  | succ n ih => exact .bind .header fun _ => .bind ih fun _ => .ret _
theorem Tail.makeCount (n : Int) : Tail (makeCount n) := by
  unfold Kafka.makeCount; exact .ite (.fail _) (.ret _)
theorem Tail.record : Tail BatchRecord.read := by
  refine .bind .varint32 fun _ => .bind (.int _) fun _ => .bind .varint64 fun _ => .bind .varint32 fun _ =>
    .bind .varint32 fun _ => .bind (.nullableSlice _) fun ko => ?_
  cases ko with
  | none => exact .ret _
  | some k =>
    refine .bind .varint32 fun _ => .bind (.nullableSlice _) fun vo => ?_
    cases vo with
    | none => exact .ret _
    | some v =>
      refine .bind .varint32 fun _ => .bind (.makeCount _) fun _ => .bind (.headers _) fun _ => ?_
      exact .ite (.fail _) (.ret _)
theorem Tail.recordItems (n : Nat) : Tail (readRecordItems n) := by
  induction n with
  | zero => exact .ret _
  | succ n ih => exact .bind .record fun _ => .bind ih fun _ => .ret _
theorem Tail.payload (x : Ext) (a : Int) (n : Nat) : Tail (readPayload x a n) := by
  intro bs l r h
  unfold readPayload at h
  split at h
  · exact Tail.recordItems _ _ _ _ h
  · split at h
    · split at h
      · simp at h
      · split at h
        · simp at h
        · simp only [Except.ok.injEq, Prod.mk.injEq] at h; rw [← h.2]; obtain ⟨p, hp⟩ := x.unread_suffix bs n; exact ⟨p, hp.symm⟩
    · split at h
      · split at h
        · simp at h
        · split at h
          · simp at h
          · simp only [Except.ok.injEq, Prod.mk.injEq] at h; exact ⟨bs, by simp [← h.2]⟩
      · split at h
        · split at h
          · simp only [Except.ok.injEq, Prod.mk.injEq] at h; exact ⟨[], by simp [h.2]⟩
          · simp at h
        · simp at h
theorem Tail.batchBody (x : Ext) (o l : Int) : Tail (readBatchBody x o l) := by
  refine .bind (.int _) fun _ => .bind (.int _) fun _ => .bind (.uint _) fun _ => .bind (.int _) fun _ =>
    .bind (.int _) fun _ => .bind (.int _) fun _ => .bind (.int _) fun _ => .bind (.int _) fun _ => .bind (.int _) fun _ =>
    .bind (.int _) fun _ => .bind (.int _) fun _ => .bind (.makeCount _) fun _ => .bind (.payload _ _ _) fun _ => ?_
  exact .ite (.fail _) (.ret _)
theorem Tail.batch (x : Ext) : Tail (RecordBatch.read x) := by
  intro bs b r h
  unfold RecordBatch.read at h
  split at h
  · simp at h
  · split at h
    · simp at h
    · refine Tail.bind (.int _) (fun o => .bind (.int _) fun l => ?_) _ _ _ h
      intro bs b r h
      simp only at h
      split at h
      · simp at h
      · exact Tail.chunk _ (.batchBody _ _ _) _ _ _ h
theorem Tail.batchesAux (x : Ext) (fuel : Nat) : Tail (readBatchesAux x fuel) := by
  induction fuel with
  | zero => exact .fail _
  | succ n ih =>
    intro bs l r h
    unfold readBatchesAux at h
    split at h
    · simp at h
    · split at h
      · split at h
        · simp only [Except.ok.injEq, Prod.mk.injEq] at h; exact ⟨bs, by simp [← h.2]⟩
        · simp only [Except.ok.injEq, Prod.mk.injEq] at h; exact ⟨[], by simp [h.2]⟩
      · split at h
        · simp at h
        · rename_i b rest hb
          split at h
          · simp at h
          · rename_i items rest' hi
            simp only [Except.ok.injEq, Prod.mk.injEq] at h
            obtain ⟨u, rfl⟩ := Tail.chunk _ (.batch x) _ _ _ hb
            obtain ⟨u', rfl⟩ := ih _ _ _ hi
            exact ⟨u ++ u', by simp [h.2]⟩
theorem Tail.recordsF (x : Ext) (c : Ctx) (v : Int) (cur : RecBatches) : Tail (readRecordsF x c v cur) := by
  unfold readRecordsF
  refine .ite (.ret _) (.bind (.len _ _) fun n => ?_)
  unfold readRecordsValue
  refine .ite (.ite (.ret _) (.fail _)) (.ite (.ret _) ?_)
  intro bs a r h
  simp only at h
  split at h
  · simp at h
  · refine Tail.bind (.chunk _ ?_) (fun _ => .ret _) _ _ _ h
    intro bs l r h
    exact Tail.batchesAux _ _ _ _ _ h

/-! ### structures -/

theorem Tail.bool : Tail readBool := .bind (.exact _) fun _ => .ret _
theorem Calm.bool : Calm readBool := .bind (.exact _) fun _ => .ret _
theorem Tail.uuid : Tail readUuid := .bind (.exact _) fun _ => .bind (.exact _) fun _ => .ret _
theorem Calm.uuid : Calm readUuid := .bind (.exact _) fun _ => .bind (.exact _) fun _ => .ret _
theorem Tail.fixed {α : Type} (c : Ctx) (v : Int) {d : Dec α} (h : Tail d) (cur : α) : Tail (readFixed c v d cur) := by
  unfold readFixed; exact .ite (.ret _) h
theorem Calm.fixed {α : Type} (c : Ctx) (v : Int) {d : Dec α} (h : Calm d) (cur : α) : Calm (readFixed c v d cur) := by
  unfold readFixed; exact .ite (.ret _) h
theorem Tail.prim (x : Ext) (c : Ctx) (v : Int) (p : Prim) (cur : p.Val) : Tail (primRead x c v p cur) := by
  cases p with
  | bool => exact .fixed _ _ .bool _
  | int k => exact .fixed _ _ (.int _) _
  | u16 => exact .fixed _ _ (.uint _) _
  | f64 => exact .fixed _ _ (.uint _) _
  | uuid => exact .fixed _ _ .uuid _
  | str => exact .str _ _ _
  | bytes => exact .bytesF _ _ _
  | records => exact .recordsF _ _ _ _
theorem Calm.prim (x : Ext) (c : Ctx) (v : Int) (p : Prim) (hp : p ≠ .records) (cur : p.Val) : Calm (primRead x c v p cur) := by
  cases p with
  | bool => exact .fixed _ _ .bool _
  | int k => exact .fixed _ _ (.int _) _
  | u16 => exact .fixed _ _ (.uint _) _
  | f64 => exact .fixed _ _ (.uint _) _
  | uuid => exact .fixed _ _ .uuid _
  | str => exact .str _ _ _
  | bytes => exact .bytesF _ _ _
  | records => exact absurd rfl hp

theorem Tail.structRead {β : Type} (flo fhi v : Int) (fs : FieldsOps β) (h : Tail fs.readFields) :
    Tail (structRead flo fhi v fs) := by
  refine .bind h fun b => ?_
  intro bs s r hr
  simp only at hr
  split at hr
  · simp only [Except.ok.injEq, Prod.mk.injEq] at hr; exact ⟨[], by simp [hr.2]⟩
  · split at hr
    · simp only [Except.ok.injEq, Prod.mk.injEq] at hr; exact ⟨[], by simp [hr.2]⟩
    · split at hr
      · simp at hr
      · rename_i raw r' hraw
        split at hr
        · simp at hr
        · simp only [Except.ok.injEq, Prod.mk.injEq] at hr
          rw [← hr.2]; exact Tail.rawTags _ _ _ hraw

/-- the fields never panic, neither inline nor as tagged values -/
structure CalmFields {β : Type} (fs : FieldsOps β) : Prop where
  read : Calm fs.readFields
  tag : ∀ t val b, fs.applyTag t val b ≠ some (.error .panic)

theorem CalmFields.tags {β : Type} {fs : FieldsOps β} (h : CalmFields fs) (l : List RawTag) (s : β × List RawTag) :
    applyTags fs l s ≠ .error .panic := by
  induction l generalizing s with
  | nil => simp [applyTags]
  | cons a l ih =>
    obtain ⟨b, u⟩ := s
    unfold applyTags
    split
    · exact ih _
    · rename_i e he
      intro hc
      simp only [Except.error.injEq] at hc
      subst hc
      exact h.tag _ _ _ he
    · exact ih _

theorem Calm.structRead {β : Type} (flo fhi v : Int) (fs : FieldsOps β) (h : CalmFields fs) :
    Calm (structRead flo fhi v fs) := by
  refine .bind h.read fun b => ?_
  intro bs hr
  simp only at hr
  split at hr
  · simp at hr
  · split at hr
    · simp at hr
    · split at hr
      · rename_i e he
        simp only [Except.error.injEq] at hr; subst hr; exact Calm.rawTags _ he
      · split at hr
        · rename_i e he
          simp only [Except.error.injEq] at hr; subst hr; exact h.tags _ _ he
        · simp at hr

theorem Tail.cons {α β : Type} (c : Ctx) (ig : Bool) (v : Int) (f : FieldOps α) (rest : FieldsOps β)
    (hf : ∀ a, Tail (f.read a)) (hr : Tail rest.readFields) : Tail (consField c ig v f rest).readFields := by
  refine .bind (.ite (.ret _) (.ite (.ret _) (hf _))) fun _ => .bind hr fun _ => .ret _

theorem CalmFields.cons {α β : Type} (c : Ctx) (ig : Bool) (v : Int) (f : FieldOps α) (rest : FieldsOps β)
    (hf : ∀ a, Calm (f.read a)) (hr : CalmFields rest) : CalmFields (consField c ig v f rest) where
  read := .bind (.ite (.ret _) (.ite (.ret _) (hf _))) fun _ => .bind hr.read fun _ => .ret _
  tag := by
    rintro t val ⟨a, b⟩
    simp only [consField]
    split
    · intro h
      simp only [Option.some.injEq] at h
      split at h
      · simp at h
      · split at h
        · rename_i e he
          simp only [Except.error.injEq] at h; subst h; exact hf _ _ he
        · simp at h
    · split
      · simp
      · rename_i e he
        intro h
        simp only [Option.some.injEq, Except.error.injEq] at h
        subst h
        exact hr.tag _ _ _ he
      · simp

theorem Sch.tail (x : Ext) (v : Int) : ∀ s : Sch, Tail (s.ops x v).readFields := by
  intro s
  induction s with
  | nil => exact .ret _
  | prim c ig p d rest ih => exact .cons _ _ _ _ _ (fun a => Tail.prim x c v p a) ih
  | arr c ig p rest ih => exact .cons _ _ _ _ _ (fun _ => .arr _ _ (.prim x c v p _)) ih
  | struct c ig flo fhi sub rest ih1 ih2 => exact .cons _ _ _ _ _ (fun _ => .structRead _ _ _ _ ih1) ih2
  | arrS c ig flo fhi sub rest ih1 ih2 => exact .cons _ _ _ _ _ (fun _ => .arr _ _ (.structRead _ _ _ _ ih1)) ih2

/-- the message has no field of type records -/
def noRecords : Sch → Bool
  | .nil => true
  | .prim _ _ p _ rest => decide (p ≠ .records) && noRecords rest
  | .arr _ _ p rest => decide (p ≠ .records) && noRecords rest
  | .struct _ _ _ _ sub rest => noRecords sub && noRecords rest
  | .arrS _ _ _ _ sub rest => noRecords sub && noRecords rest

theorem Sch.calm (x : Ext) (v : Int) : ∀ s : Sch, noRecords s = true → CalmFields (s.ops x v) := by
  intro s
  induction s with
  | nil => intro _; exact ⟨.ret _, fun t val b => by simp [Sch.ops, nilFields]⟩
  | prim c ig p d rest ih =>
    intro h; simp only [noRecords, Bool.and_eq_true, decide_eq_true_eq] at h
    exact .cons _ _ _ _ _ (fun a => Calm.prim x c v p h.1 a) (ih h.2)
  | arr c ig p rest ih =>
    intro h; simp only [noRecords, Bool.and_eq_true, decide_eq_true_eq] at h
    exact .cons _ _ _ _ _ (fun _ => .arr _ _ (.prim x c v p h.1 _)) (ih h.2)
  | struct c ig flo fhi sub rest ih1 ih2 =>
    intro h; simp only [noRecords, Bool.and_eq_true] at h
    exact .cons _ _ _ _ _ (fun _ => .structRead _ _ _ _ (ih1 h.1)) (ih2 h.2)
  | arrS c ig flo fhi sub rest ih1 ih2 =>
    intro h; simp only [noRecords, Bool.and_eq_true] at h
    exact .cons _ _ _ _ _ (fun _ => .arr _ _ (.structRead _ _ _ _ (ih1 h.1))) (ih2 h.2)

/-! ### the property -/

/-- C59: reading any message type at any version from any bytes, if it succeeds, consumes a beginning of the input and
leaves the rest exactly as it was. -/
theorem C59_consumes (m : Msg) (x : Ext) (v : Int) (bs : Bytes) (s : m.Val) (r : Bytes) (h : m.read x v bs = .ok (s, r)) :
    ∃ used, bs = used ++ r :=
  Tail.structRead _ _ _ _ (Sch.tail x v m.fields) _ _ _ h

/-- C59: the same for record batches. -/
theorem C59_batch_consumes (x : Ext) (bs : Bytes) (b : RecordBatch) (r : Bytes) (h : RecordBatch.read x bs = .ok (b, r)) :
    ∃ used, bs = used ++ r := Tail.batch x _ _ _ h

/-- C177: reading a message without record batches never panics, whatever the bytes and version. -/
theorem C177_no_panic_partial (m : Msg) (hm : noRecords m.fields = true) (x : Ext) (v : Int) (bs : Bytes) :
    m.read x v bs ≠ .error .panic :=
  Calm.structRead _ _ _ _ (Sch.calm x v m.fields hm) bs

/-- C177: of the shipped messages exactly the Produce request (key 0) and the Fetch (1) and FetchSnapshot (59) responses
carry record batches; all others never panic on arbitrary bytes. -/
theorem C177_carriers : (shipped.filter fun e => !noRecords e.msg.fields).map (fun e => (e.apiKey, e.isRequest)) =
    [(0, true), (1, false), (59, false)] := by decide +kernel

theorem C177_shipped_partial (t : Entry) (ht : t ∈ shipped)
    (hk : (t.apiKey, t.isRequest) ≠ (0, true) ∧ (t.apiKey, t.isRequest) ≠ (1, false) ∧ (t.apiKey, t.isRequest) ≠ (59, false))
    (x : Ext) (v : Int) (bs : Bytes) : t.msg.read x v bs ≠ .error .panic := by
  apply C177_no_panic_partial
  cases h : noRecords t.msg.fields with
  | true => rfl
  | false =>
    have : (t.apiKey, t.isRequest) ∈ (shipped.filter fun e => !noRecords e.msg.fields).map (fun e => (e.apiKey, e.isRequest)) :=
      List.mem_map.mpr ⟨t, List.mem_filter.mpr ⟨ht, by simp [h]⟩, rfl⟩
    rw [C177_carriers] at this
    simp only [List.mem_cons, List.not_mem_nil, or_false] at this
    rcases this with h | h | h
    · exact absurd h hk.1
    · exact absurd h hk.2.1
    · exact absurd h hk.2.2

theorem reqTable_safe : newRequestTable.all (fun p => p.1 == 0 || noRecords p.2.msg.fields) = true := by decide +kernel
theorem respTable_safe : newResponseTable.all (fun p => p.1 == 1 || p.1 == 59 || noRecords p.2.msg.fields) = true := by
  decide +kernel

/-- C177: parsing arbitrary bytes as a request never panics unless the bytes announce a Produce request. -/
theorem C177_parse_request_partial (x : Ext) (bs : Bytes) (hk : bs.take 2 ≠ [0, 0]) : Request.parse x bs ≠ .error .panic := by
  unfold Request.parse
  split
  · simp
  · rename_i hlen
    split
    · rename_i e he; intro h; simp only [Except.error.injEq] at h; subst h; exact Calm.int _ _ he
    · rename_i key r1 h1
      split
      · rename_i e he; intro h; simp only [Except.error.injEq] at h; subst h; exact Calm.int _ _ he
      · rename_i ver r2 h2
        simp only
        split
        · simp
        · split
          · simp
          · split
            · rename_i e he; intro h; simp only [Except.error.injEq] at h; subst h
              exact C177_no_panic_partial m_request_Header (by decide) _ _ _ he
            · split
              · simp
              · rename_i t ht
                split
                · rename_i e he; intro h; simp only [Except.error.injEq] at h; subst h
                  have hnr : noRecords t.msg.fields = true := by
                    unfold newRequest at ht
                    rw [Option.map_eq_some_iff] at ht
                    obtain ⟨q, hq, rfl⟩ := ht
                    have h3 := List.find?_some hq
                    have h4 := List.all_eq_true.mp reqTable_safe q (List.mem_of_find?_eq_some hq)
                    simp only [beq_iff_eq] at h3
                    rw [Bool.or_eq_true] at h4
                    rcases h4 with h4 | h4
                    · exfalso
                      simp only [beq_iff_eq] at h4
                      rw [h4] at h3
                      subst h3
                      apply hk
                      match bs, hlen with
                      | [], hlen => simp at hlen
                      | [_], hlen => simp at hlen
                      | [_, _], hlen => simp at hlen
                      | a :: b :: c :: l, _ =>
                        have : readInt 2 ((a :: b :: c :: l).take 4) = .ok (wrapS 2 (beNat [a, b] 0), c :: l.take 1) := rfl
                        rw [this] at h1
                        simp only [Except.ok.injEq, Prod.mk.injEq] at h1
                        have h5 := h1.1
                        have ha := a.toNat_lt
                        have hb := b.toNat_lt
                        simp only [beNat, wrapS, Int.bmod] at h5
                        have h6 : a.toNat = 0 ∧ b.toNat = 0 := by
                          have h9 : ((a.toNat * 256 + b.toNat : Nat) : Int) % 65536 = (a.toNat * 256 + b.toNat : Nat) := by omega
                          have h10 : ((256 ^ 2 : Nat) : Int) = 65536 := rfl
                          rw [h10] at h5
                          simp only [Nat.zero_mul, Nat.zero_add, h9] at h5
                          by_cases h11 : ((a.toNat * 256 + b.toNat : Nat) : Int) < (65536 + 1) / 2
                          · rw [if_pos h11] at h5; omega
                          · rw [if_neg h11] at h5; omega
                        have h7 : a = 0 := UInt8.toNat_inj.mp (by simpa using h6.1)
                        have h8 : b = 0 := UInt8.toNat_inj.mp (by simpa using h6.2)
                        simp [h7, h8]
                    · exact h4
                  exact C177_no_panic_partial _ hnr _ _ _ he
                · simp

/-- C177: parsing arbitrary bytes as a response never panics unless a Fetch or FetchSnapshot response is expected. -/
theorem C177_parse_response_partial (x : Ext) (bs : Bytes) (key ver corr : Int) (h1 : key ≠ 1) (h59 : key ≠ 59) :
    Response.parse x bs key ver corr ≠ .error .panic := by
  unfold Response.parse
  simp only
  split
  · simp
  · split
    · rename_i e he; intro h; simp only [Except.error.injEq] at h; subst h
      exact C177_no_panic_partial m_response_Header (by decide) _ _ _ he
    · split
      · simp
      · split
        · simp
        · rename_i t ht
          have hnr : noRecords t.msg.fields = true := by
            unfold newResponse at ht
            rw [Option.map_eq_some_iff] at ht
            obtain ⟨q, hq, rfl⟩ := ht
            have h3 := List.find?_some hq
            have h4 := List.all_eq_true.mp respTable_safe q (List.mem_of_find?_eq_some hq)
            simp only [beq_iff_eq] at h3
            simp only [Bool.or_eq_true, beq_iff_eq, h3] at h4
            rcases h4 with (h4 | h4) | h4
            · exact absurd h4 h1
            · exact absurd h4 h59
            · exact h4
          split
          · simp
          · rename_i e he
            split
            · split
              · simp
              · rename_i e' he'; intro h; simp only [Except.error.injEq] at h; subst h
                exact C177_no_panic_partial _ hnr _ _ _ he'
            · intro h; simp only [Except.error.injEq] at h; subst h
              exact C177_no_panic_partial _ hnr _ _ _ he

/-! ### the full statement is false: a record or header count below zero -/

/-- Produce request, version 3: header, null transactional id, acks 1, timeout 0, one topic "t", one partition 0, and
`n` bytes of record batches -/
def evilProduce (n : UInt8) (batch : Bytes) : Bytes :=
  [0,0, 0,3, 0,0,0,7, 0,1,99] ++ [255,255, 0,1, 0,0,0,0, 0,0,0,1, 0,1,116, 0,0,0,1, 0,0,0,0, 0,0,0,n] ++ batch

/-- a batch without records whose record count is -1 (61 bytes) -/
def evilBatch : Bytes :=
  [0,0,0,0,0,0,0,0, 0,0,0,49, 0,0,0,0, 2, 0,0,0,0, 0,0, 0,0,0,0] ++ List.replicate 16 0 ++
  [0,0,0,0,0,0,0,0, 0,0, 0,0,0,0, 255,255,255,255]

/-- a batch with one record (null key, null value) whose header count is -1 (68 bytes) -/
def evilBatch2 : Bytes :=
  [0,0,0,0,0,0,0,0, 0,0,0,56, 0,0,0,0, 2, 0,0,0,0, 0,0, 0,0,0,0] ++ List.replicate 16 0 ++
  [0,0,0,0,0,0,0,0, 0,0, 0,0,0,0, 0,0,0,1] ++ [12, 0, 0, 0, 1, 1, 1]

/-- how a call ended -/
inductive How where | value | error | panic
deriving DecidableEq
def how {α : Type} : Res α → How
  | .ok _ => .value
  | .error .panic => .panic
  | .error _ => .error
theorem how_panic {α : Type} {r : Res α} (h : how r = .panic) : r = .error .panic := by
  cases r with
  | ok a => simp [how] at h
  | error e => cases e <;> simp [how] at h ⊢

/-- some compressors and checksum -/
def exExt : Ext where
  compress := fun _ b => .ok b
  gunzip := fun b => .ok ⟨b, [], .eof, false⟩
  unsnappy := fun b => .ok b
  crc32c := fun _ => 0
  crc_lt := by simp
  again := fun _ => []
  again_eq := fun _ => .inl rfl
  unread := fun _ _ => []
  unread_suffix := fun _ _ => List.nil_suffix

/-- C177 (negation): a received Produce request with a negative record count crashes the parser. -/
theorem C177_request_false : ∃ x bs, Request.parse x bs = .error .panic :=
  ⟨exExt, evilProduce 61 evilBatch, how_panic (by decide +kernel)⟩

/-- C177 (negation): so does one with a negative header count in a record. -/
theorem C177_header_false : Request.parse exExt (evilProduce 68 evilBatch2) = .error .panic :=
  how_panic (by decide +kernel)

/-! non-vacuity: bytes that parse, with bytes left over; a ListGroups v0 request, garbage that is rejected, and the two
requests above with the counts set to zero -/
def exTwo : Msg := ⟨2, 32767, .prim { lo := 0, hi := 9 } false (.int 2) .none .nil⟩
example : how (exTwo.read exExt 1 [0, 5, 9]) = .value := by decide +kernel
example : how (Request.parse exExt [0,16, 0,0, 0,0,0,7, 0,1,99]) = .value := by decide +kernel
example : how (Request.parse exExt [0,16, 0,0, 0,0,0,7, 127,1,99]) = .error := by decide +kernel
example : how (Request.parse exExt (evilProduce 61 (evilBatch.take 57 ++ [0, 0, 0, 0]))) = .value := by decide +kernel
example : how (Request.parse exExt (evilProduce 68 (evilBatch2.take 67 ++ [0]))) = .value := by decide +kernel

end Verif.Props
