import Verif.Kafka.RoundLemmas
import Verif.Kafka.WriteSpec
/- Write accepts exactly the writable values (Verif/Kafka/WriteSpec.lean). -/
namespace Verif.Kafka
open Verif

theorem wseq_ex {a b : Res Bytes} : (∃ e, (a +++ b) = .ok e) ↔ (∃ e, a = .ok e) ∧ ∃ e, b = .ok e := by
  constructor
  · rintro ⟨e, he⟩
    obtain ⟨x, y, h1, h2, _⟩ := wseq_eq_ok.mp he
    exact ⟨⟨x, h1⟩, ⟨y, h2⟩⟩
  · rintro ⟨⟨x, h1⟩, ⟨y, h2⟩⟩
    exact ⟨_, wseq_eq_ok.mpr ⟨x, y, h1, h2, rfl⟩⟩

theorem ok_ex {α : Type} (a : α) : (∃ e, (Except.ok a : Res α) = .ok e) ↔ True := ⟨fun _ => trivial, fun _ => ⟨a, rfl⟩⟩
theorem error_ex {α : Type} (x : Err) : (∃ e : α, (Except.error x : Res α) = .ok e) ↔ False :=
  ⟨fun ⟨_, h⟩ => by simp at h, fun h => h.elim⟩

theorem payload_ex (x : Ext) (b : RecordBatch) (h : ∀ r ∈ b.recordList, r.Ok ∧ Wire.exactTs r.timestampDelta) :
    (∃ p, b.writePayload x = .ok p) ↔
      (b.records.getD [] = [] ∨ Wire.codec b = 0 ∨
        (Wire.codec b ≤ 4 ∧ ∃ z, x.compress (Wire.codec b) ((b.records.getD []).map Wire.record).flatten = .ok z)) := by
  have hw := writeRecordItems_eq b.recordList (fun r hr => (h r hr).1.hdr)
  rw [encRecords_eqW _ h] at hw
  unfold RecordBatch.writePayload
  have hr : b.recordList = b.records.getD [] := rfl
  rw [hr] at hw ⊢
  rw [codec_eq, hw]
  by_cases he : b.records.getD [] = []
  · rw [if_pos he]; simp [he]
  · rw [if_neg he]
    by_cases hc : Wire.codec b = 0
    · rw [if_pos hc]; simp [hc]
    · rw [if_neg hc]
      by_cases h4 : Wire.codec b > 4
      · rw [if_pos h4, error_ex]
        constructor
        · exact False.elim
        · rintro (h1 | h1 | h1)
          · exact he h1
          · exact hc h1
          · omega
      · rw [if_neg h4]
        simp only
        constructor
        · intro hz; exact .inr (.inr ⟨by omega, hz⟩)
        · rintro (h1 | h1 | h1)
          · exact absurd h1 he
          · exact absurd h1 hc
          · exact h1.2

theorem batch_ex (x : Ext) (b : RecordBatch) (h : ∀ r ∈ b.recordList, r.Ok ∧ Wire.exactTs r.timestampDelta) :
    (∃ e, b.write x = .ok e) ↔ Wire.batchWritable x b := by
  unfold Wire.batchWritable
  rw [← payload_ex x b h]
  unfold RecordBatch.write
  by_cases hm : b.magic = 2
  · rw [if_neg (by simp [hm])]
    constructor
    · rintro ⟨e, he⟩
      cases hp : b.writePayload x with
      | error y => rw [hp] at he; simp at he
      | ok p =>
        rw [hp] at he
        simp only at he
        rw [← payload_eq x b h p hp]
        refine ⟨hm, ⟨p, rfl⟩, ?_⟩
        split at he
        · simp at he
        · omega
    · rintro ⟨_, ⟨p, hp⟩, hl⟩
      rw [hp]
      simp only
      rw [← payload_eq x b h p hp] at hl
      rw [if_neg (by omega)]
      exact ⟨_, rfl⟩
  · rw [if_pos hm, error_ex]
    exact ⟨False.elim, fun hh => hm hh.1⟩

theorem batches_ex (x : Ext) (l : List RecordBatch)
    (h : ∀ b ∈ l, ∀ r ∈ b.recordList, r.Ok ∧ Wire.exactTs r.timestampDelta) :
    (∃ e, writeBatches x l = .ok e) ↔ ∀ b ∈ l, Wire.batchWritable x b := by
  induction l with
  | nil => rw [writeBatches, ok_ex]; simp
  | cons b l ih =>
    rw [writeBatches, wseq_ex, batch_ex x b (h b (by simp)), ih (fun c hc => h c (by simp [hc]))]
    simp

/-- what the acceptance claim requires; (proof helper; models no code.) -/
def acceptCover : Cover where
  prim := fun p => match p with
    | .records => fun a => ∀ b ∈ a.items, (∀ r ∈ b.recordList, Wire.RecordFits r ∧ Wire.exactTs r.timestampDelta) ∧ Wire.clean b
    | .uuid => fun a => a.length = 16
    | .bytes => fun a => ∀ b, a = some b → b.length ≠ 2147483647
    | _ => fun _ => True
  isNil := fun _ => True
  unknown := fun _ a => a.tag < 2^32

theorem acceptReq_ok : ReqImp Wire.acceptReq acceptCover where
  prim := by
    intro p a h
    cases p with
    | records => exact h
    | uuid => exact h
    | bytes => exact h
    | _ => trivial
  isNil := fun _ h => h
  unknown := fun _ _ h => h

theorem acceptReq_wire : ReqImp Wire.acceptReq wireCover where
  prim := by
    intro p a h
    cases p with
    | records => exact h
    | _ => trivial
  isNil := fun _ h => h
  unknown := fun _ _ h => h

theorem primA (x : Ext) (c : Ctx) (v : Int) (p : Prim) (a : p.Val) (hs : c.supported v = true)
    (hOk : acceptCover.prim p a) :
    (∃ e, primWrite x c v p a = .ok e) ↔
      Wire.primWritable x (Wire.within c.nlo c.nhi v) (Wire.within c.flo c.fhi v) p a := by
  have hf : c.flexible v = Wire.within c.flo c.fhi v := (within_eq _ _ _).symm
  have hn : c.nullable v = Wire.within c.nlo c.nhi v := (within_eq _ _ _).symm
  rw [← hf, ← hn]
  cases p with
  | bool => simp [primWrite, writeFixed_sup hs, Wire.primWritable]
  | int k => simp [primWrite, writeFixed_sup hs, Wire.primWritable]
  | u16 => simp [primWrite, writeFixed_sup hs, Wire.primWritable]
  | f64 => simp [primWrite, writeFixed_sup hs, Wire.primWritable]
  | uuid => simp [primWrite, writeFixed_sup hs, Wire.primWritable]
  | str =>
    simp only [primWrite, writeStr, hs, Bool.not_true, Bool.false_eq_true, ↓reduceIte, Wire.primWritable]
    by_cases h1 : a.isNil = true
    · rw [if_pos h1, if_pos h1]
      cases hnl : c.nullable v
      · simp
      · cases hfl : c.flexible v <;> simp [writeUvarint32_ok]
    · rw [if_neg h1, if_neg h1]
      by_cases h2 : a.value.length > 0x7fff
      · rw [if_pos h2, error_ex]; exact ⟨False.elim, fun h => by omega⟩
      · rw [if_neg h2, writeLen_ok, wseq_ok, ok_ex]; exact ⟨fun _ => by omega, fun _ => trivial⟩
  | bytes =>
    simp only [primWrite, writeBytesF, hs, Bool.not_true, Bool.false_eq_true, ↓reduceIte]
    cases a with
    | none =>
      simp only [Wire.primWritable]
      cases hnl : c.nullable v
      · simp
      · simp [writeLen_ok]
    | some b =>
      simp only [Wire.primWritable]
      by_cases h1 : b = []
      · rw [if_pos h1, writeLen_ok, ok_ex]
        subst h1
        exact ⟨fun _ => by decide, fun _ => trivial⟩
      · rw [if_neg h1]
        by_cases h2 : b.length > 2147483647
        · rw [if_pos h2, error_ex]; exact ⟨False.elim, fun h => by omega⟩
        · rw [if_neg h2, writeLen_ok, wseq_ok, ok_ex]; exact ⟨fun _ => by omega, fun _ => trivial⟩
  | records =>
    have hOk' : ∀ b ∈ a.items, (∀ r ∈ b.recordList, r.Ok ∧ Wire.exactTs r.timestampDelta) ∧ Wire.clean b :=
      (fun b hb => ⟨fun r hr => ⟨((hOk b hb).1 r hr).1.ok, ((hOk b hb).1 r hr).2⟩, (hOk b hb).2⟩)
    have hb := batches_ex x a.items (fun b hb => (hOk' b hb).1)
    simp only [primWrite, writeRecordsF, hs, Bool.not_true, Bool.false_eq_true, ↓reduceIte, Wire.primWritable]
    by_cases h1 : a.isNil = true
    · rw [if_pos h1, if_pos h1]
      cases hnl : c.nullable v
      · simp
      · cases hfl : c.flexible v <;> simp [writeUvarint32_ok]
    · rw [if_neg h1, if_neg h1, ← hb]
      cases hw : writeBatches x a.items with
      | error y => simp
      | ok e =>
        have he := batches_eq x a.items hOk' e hw
        rw [← he]
        simp only
        cases hfl : c.flexible v with
        | true =>
          simp only [↓reduceIte]
          by_cases h2 : e.length + 1 > 4294967295
          · rw [if_pos h2, error_ex]; exact ⟨False.elim, fun h => by have := h.2; omega⟩
          · rw [if_neg h2, writeLen_ok, wseq_ok, ok_ex]; exact ⟨fun _ => ⟨⟨e, rfl⟩, by omega⟩, fun _ => trivial⟩
        | false =>
          simp only [Bool.false_eq_true, ↓reduceIte]
          by_cases h2 : e.length > 2147483647
          · rw [if_pos h2, error_ex]; exact ⟨False.elim, fun h => by have := h.2; omega⟩
          · rw [if_neg h2, writeLen_ok, wseq_ok, ok_ex]; exact ⟨fun _ => ⟨⟨e, rfl⟩, by omega⟩, fun _ => trivial⟩

theorem writeItems_ex {α : Type} (w : α → Res Bytes) (acc : α → Prop) (l : List α)
    (h : ∀ a ∈ l, ((∃ e, w a = .ok e) ↔ acc a)) : (∃ e, writeItems w l = .ok e) ↔ ∀ y ∈ l, acc y := by
  induction l with
  | nil => rw [writeItems, ok_ex]; simp
  | cons a l ih =>
    rw [writeItems, wseq_ex, h a (by simp), ih (fun b hb => h b (by simp [hb]))]
    simp

theorem arrA {α : Type} (c : Ctx) (v : Int) (w : α → Res Bytes) (acc : α → Prop) (d : Option (List α))
    (hs : c.supported v = true) (h : ∀ l, d = some l → ∀ a ∈ l, ((∃ e, w a = .ok e) ↔ acc a)) :
    (∃ e, writeArr c v w d = .ok e) ↔ Wire.arrayWritable (Wire.within c.nlo c.nhi v) acc d := by
  have hn : c.nullable v = Wire.within c.nlo c.nhi v := (within_eq _ _ _).symm
  rw [← hn]
  simp only [writeArr, hs, Bool.not_true, Bool.false_eq_true, ↓reduceIte]
  cases d with
  | none =>
    simp only [Wire.arrayWritable]
    cases hnl : c.nullable v
    · simp
    · simp [writeLen_ok]
  | some l =>
    simp only [Wire.arrayWritable]
    rw [← writeItems_ex w acc l (h l rfl)]
    by_cases h0 : l.length = 0
    · rw [if_pos h0, writeLen_ok, ok_ex]
      rw [List.length_eq_zero_iff] at h0
      subst h0
      exact ⟨fun _ => ⟨[], rfl⟩, fun _ => trivial⟩
    · rw [if_neg h0, wseq_ex, writeLen_ok, ok_ex]
      simp

/-- a field type accepts exactly `acc`; (proof helper; models no code.) -/
structure FieldA {α : Type} (f : FieldOps α) (sup : Bool) (Ok : α → Prop) (isD : α → Bool) (acc : α → Prop) : Prop where
  a : sup = true → ∀ a, Ok a → ((∃ e, f.write a = .ok e) ↔ acc a)
  unsup : f.isStruct = false → sup = false → ∀ a, f.write a = .ok []
  nd : ∀ a, f.nonDefault a = !isD a

/-- a field list accepts exactly `acc`; (proof helper; models no code.) -/
structure FieldsA {β : Type} (fs : FieldsOps β) (Ok : β → Prop) (acc : β → Prop) : Prop where
  a : ∀ b, Ok b →
    ((fs.validate b = true ∧ (∃ e, fs.writeFields b = .ok e) ∧ ∃ l, fs.tagged b = .ok l) ↔ acc b)

theorem inCap_ex {size : Res Nat} {w : Res Bytes} (h : ∀ e, w = .ok e → size = .ok e.length) :
    (∃ e, inCap size w = .ok e) ↔ ∃ e, w = .ok e := by
  cases w with
  | error y =>
    unfold inCap
    cases size <;> simp
  | ok e =>
    rw [h e rfl]
    simp [inCap]

theorem consField_a {α β : Type} {c : Ctx} {ig : Bool} {v : Int} {flex : Bool} {f : FieldOps α} {rest : FieldsOps β}
    {OkF : α → Prop} {Ok : β → Prop} {isD : α → Bool} {acc : α → Prop} {accR : β → Prop}
    (hf : FieldA f (c.supported v) OkF isD acc) (hr : FieldsA rest Ok accR) (hc : c.wf v flex = true)
    (hsz : c.tagged v = true → ∀ a e, OkF a → f.write a = .ok e → f.size a = .ok e.length) :
    FieldsA (consField c ig v f rest) (fun p => (carried c v f.nonDefault p.1 → OkF p.1) ∧ Ok p.2)
      (fun p => Wire.fieldWritable c ig v (isD p.1) (acc p.1) ∧ accR p.2) where
  a := by
    rintro ⟨a, b⟩ ⟨hOk, hOkr⟩
    have hrest := hr.a b hOkr
    rw [← hrest]
    have hpres := present_eq c v flex hc f.nonDefault isD hf.nd a
    simp only [Wire.fieldWritable, ← hpres, within_eq]
    have hv : (consField c ig v f rest).validate (a, b) = true ↔
        ((ig = false → 0 < c.lo → inRange c.lo c.hi v = false → isD a = true) ∧ rest.validate b = true) := by
      simp only [consField, hf.nd]
      have hsup : c.supported v = inRange c.lo c.hi v := rfl
      rw [hsup]
      by_cases h0 : 0 < c.lo
      · have h0' : ¬ c.lo ≤ 0 := by omega
        cases ig <;> cases isD a <;> cases inRange c.lo c.hi v <;> simp [h0, h0']
      · have h0' : c.lo ≤ 0 := by omega
        cases ig <;> cases isD a <;> cases inRange c.lo c.hi v <;> simp [h0, h0']
    have hw : (∃ e, (consField c ig v f rest).writeFields (a, b) = .ok e) ↔
        ((c.tagged v = false → carried c v f.nonDefault a = true → acc a) ∧ ∃ e, rest.writeFields b = .ok e) := by
      simp only [consField, wseq_ex]
      apply and_congr_left
      intro _
      by_cases ht : (c.onlyTagged || c.tagged v) = true
      · rw [if_pos ht, ok_ex]
        constructor
        · intro _ h1 h2
          unfold carried at h2
          rw [if_neg (by simp [h1])] at h2
          simp only [Bool.and_eq_true, Bool.not_eq_true'] at h2
          simp [h1, h2.1] at ht
        · intro _; trivial
      · rw [if_neg ht]
        simp only [Bool.not_eq_true, Bool.or_eq_false_iff] at ht
        have hcar : carried c v f.nonDefault a = c.supported v := by simp [carried, ht.1, ht.2]
        rw [hcar]
        by_cases hs : c.supported v = true
        · rw [if_neg (by simp [hs])]
          have hOk' := hOk (by rw [hcar]; exact hs)
          rw [hf.a hs a hOk']
          simp [ht.2, hs]
        · simp only [Bool.not_eq_true] at hs
          have : (∃ e, (if (f.isStruct && !c.supported v) = true then (.ok [] : Res Bytes) else f.write a) = .ok e) := by
            cases hi : f.isStruct with
            | true => rw [if_pos (by simp [hs])]; exact ⟨_, rfl⟩
            | false => rw [if_neg (by simp), hf.unsup hi hs a]; exact ⟨_, rfl⟩
          exact ⟨fun _ _ h => by rw [hs] at h; simp at h, fun _ => this⟩
    have ht : (∃ l, (consField c ig v f rest).tagged (a, b) = .ok l) ↔
        ((c.tagged v = true → carried c v f.nonDefault a = true → acc a) ∧ ∃ l, rest.tagged b = .ok l) := by
      by_cases htv : c.tagged v = true
      · have htag : ∃ t, c.tag = some t := by
          unfold Ctx.tagged at htv
          simp only [Bool.and_eq_true] at htv
          exact Option.isSome_iff_exists.mp htv.1
        obtain ⟨t, htag⟩ := htag
        have hsup : c.supported v = true := by
          simp only [Ctx.wf, Bool.and_eq_true, Bool.or_eq_true, Bool.not_eq_true'] at hc
          rcases hc.1 with h' | h'
          · rw [htv] at h'; simp at h'
          · exact h'.2
        unfold carried at hOk ⊢
        simp only [htv, if_true, forall_const] at hOk ⊢
        by_cases hnd : f.nonDefault a = true
        · have hOk' := hOk hnd
          have hcap := inCap_ex (size := f.size a) (w := f.write a) (fun e he => hsz htv a e hOk' he)
          rw [hf.a hsup a hOk'] at hcap
          simp only [hnd, forall_const, ← hcap]
          simp only [consField, htag, htv, hnd, Bool.and_self, if_true]
          cases hi : inCap (f.size a) (f.write a) with
          | error y => simp
          | ok w =>
            cases hl : rest.tagged b with
            | error y => simp
            | ok l => simp
        · simp only [hnd]
          simp only [consField, htag, htv, hnd]
          simp
      · simp only [Bool.not_eq_true] at htv
        simp only [htv]
        simp only [consField, htv]
        cases c.tag <;> simp
    rw [hv, hw, ht]
    cases htv : c.tagged v with
    | true =>
      simp only [Bool.true_eq_false, false_implies, true_and, forall_const]
      constructor
      · rintro ⟨⟨h1, h2⟩, h3, h4, h5⟩; exact ⟨⟨h4, h1⟩, h2, h3, h5⟩
      · rintro ⟨⟨h4, h1⟩, h2, h3, h5⟩; exact ⟨⟨h1, h2⟩, h3, h4, h5⟩
    | false =>
      simp only [Bool.false_eq_true, false_implies, true_and, forall_const]
      constructor
      · rintro ⟨⟨h1, h2⟩, ⟨h4, h3⟩, h5⟩; exact ⟨⟨h4, h1⟩, h2, h3, h5⟩
      · rintro ⟨⟨h4, h1⟩, h2, h3, h5⟩; exact ⟨⟨h1, h2⟩, ⟨h4, h3⟩, h5⟩

theorem nilFields_a : FieldsA nilFields (fun _ => True) (fun _ => True) where
  a := by intro b _; simp [nilFields]

/-- without flexible versions no field is tagged -/
theorem tagged_nil (x : Ext) (v : Int) (s : Sch) (h : s.wf v false = true) (b : s.Val) :
    (s.ops x v).count b = 0 ∧ (s.ops x v).tagged b = .ok [] ∧ (Wire.fields x v s b).2 = [] := by
  have nt : ∀ c : Ctx, c.wf v false = true → c.tagged v = false := by
    intro c hc
    simp only [Ctx.wf, Bool.and_eq_true, Bool.or_eq_true, Bool.not_eq_true'] at hc
    rcases hc.1 with h' | h'
    · exact h'
    · simp at h'
  have step : ∀ {α β : Type} (c : Ctx) (ig : Bool) (f : FieldOps α) (rest : FieldsOps β) (a : α) (b : β),
      c.tagged v = false → rest.count b = 0 → rest.tagged b = .ok [] →
      (consField c ig v f rest).count (a, b) = 0 ∧ (consField c ig v f rest).tagged (a, b) = .ok [] := by
    intro α β c ig f rest a b hc h1 h2
    simp only [consField, hc, Bool.false_and, Bool.false_eq_true, if_false, h1, h2]
    cases c.tag <;> simp
  have stepE : ∀ (c : Ctx) (d : Bool) (e : Bytes) (r : Bytes × List RawTag), c.tagged v = false → r.2 = [] →
      (Wire.field c v d e r).2 = [] := by
    intro c d e r hc hr
    simp only [Wire.field, isTagged_eq, hc, hr]
    cases c.tag <;> simp
  induction s with
  | nil => exact ⟨rfl, rfl, rfl⟩
  | prim c ig p d rest ih =>
    obtain ⟨a, b⟩ := b
    simp only [Sch.wf, Bool.and_eq_true] at h
    have hc := nt c h.1.1.1
    have := ih h.2 b
    have h2 := step c ig (primOps x c v p d) (rest.ops x v) a b hc this.1 this.2.1
    exact ⟨h2.1, h2.2, stepE c _ _ _ hc this.2.2⟩
  | arr c ig p rest ih =>
    obtain ⟨a, b⟩ := b
    simp only [Sch.wf, Bool.and_eq_true] at h
    have hc := nt c h.1.1.1
    have := ih h.2 b
    have h2 := step c ig (arrOps c v p.zero (primOps x c v p .none)) (rest.ops x v) a b hc this.1 this.2.1
    exact ⟨h2.1, h2.2, stepE c _ _ _ hc this.2.2⟩
  | struct c ig flo fhi sub rest ihs ih =>
    obtain ⟨a, b⟩ := b
    simp only [Sch.wf, Bool.and_eq_true] at h
    have hc := nt c h.1.1.1.1
    have := ih h.2 b
    have h2 := step c ig (structOps flo fhi v (sub.ops x v)) (rest.ops x v) a b hc this.1 this.2.1
    exact ⟨h2.1, h2.2, stepE c _ _ _ hc this.2.2⟩
  | arrS c ig flo fhi sub rest ihs ih =>
    obtain ⟨a, b⟩ := b
    simp only [Sch.wf, Bool.and_eq_true] at h
    have hc := nt c h.1.1.1
    have := ih h.2 b
    have h2 := step c ig (arrOps c v (structOps flo fhi v (sub.ops x v)).dflt (structOps flo fhi v (sub.ops x v)))
      (rest.ops x v) a b hc this.1 this.2.1
    exact ⟨h2.1, h2.2, stepE c _ _ _ hc this.2.2⟩

theorem structA {β : Type} {fs : FieldsOps β} {tags : List Nat} {Ok OkW : β → Prop} {enc : β → Bytes × List RawTag}
    {acc : β → Prop} (ha : FieldsA fs Ok acc) (hr : FieldsW fs OkW enc) (flo fhi v : Int)
    (h0 : inRange flo fhi v = false → ∀ b, fs.count b = 0 ∧ fs.tagged b = .ok [])
    (s : StructVal β) (hOk : StructOk acceptCover tags Ok s) (hOkW : OkW s.fields) :
    (∃ e, structWrite flo fhi v fs s = .ok e) ↔ Wire.structWritable flo fhi v acc enc s := by
  unfold structWrite Wire.structWritable
  rw [within_eq, ← ha.a s.fields hOk.2.1]
  by_cases hn : s.isNil = true
  · rw [if_pos hn]; simp [hn]
  · rw [if_neg hn]
    rw [or_iff_right hn]
    cases hv : fs.validate s.fields with
    | false => simp
    | true =>
      simp only [Bool.not_true, Bool.false_eq_true, if_false, wseq_ex, true_and]
      rw [and_assoc]
      apply and_congr_right
      intro _
      cases hf : inRange flo fhi v with
      | true =>
        simp only [Bool.not_true, Bool.false_eq_true, if_false, if_true]
        cases hl : fs.tagged s.fields with
        | error y => simp
        | ok l =>
          have hl' := hr.t s.fields l hOkW hl
          have hlt : ∀ a ∈ s.unknown ++ l, a.tag < 2^32 := by
            intro a ha
            rcases List.mem_append.mp ha with ha | ha
            · exact hOk.2.2 a ha
            · exact hr.tlt _ l hl a ha
          rw [← hl']
          simp only
          constructor
          · rintro ⟨e, he⟩
            obtain ⟨h1, h2, h3, _⟩ := (writeRawTags_ok hlt).mp he
            exact ⟨⟨l, rfl⟩, h2, h1, fun a ha => (h3 a ha).2⟩
          · rintro ⟨_, h1, h2, h3⟩
            exact ⟨_, (writeRawTags_ok hlt).mpr ⟨h2, h1, fun a ha => ⟨hlt a ha, h3 a ha⟩, rfl⟩⟩
      | false =>
        have := h0 hf s.fields
        simp only [this.1, this.2, Nat.add_zero, Bool.not_false, if_true, Bool.false_eq_true, if_false]
        cases hu : s.unknown with
        | nil => simp
        | cons a l => simp

/-- the two covers agree without record batches -/
theorem noRecords_size (x : Ext) (v : Int) (s : Sch) (h : Wire.noRecords s = true) (b : s.Val)
    (hOk : s.Ok acceptCover x v b) : s.Ok (sizeCover x) x v b := by
  have hp : ∀ p : Prim, p ≠ .records → ∀ a : p.Val, acceptCover.prim p a → (sizeCover x).prim p a := by
    intro p hp a h
    cases p with
    | records => exact absurd rfl hp
    | uuid => exact h
    | bytes => exact h
    | _ => trivial
  induction s with
  | nil => trivial
  | prim c ig p d rest ih =>
    obtain ⟨a, b⟩ := b
    simp only [Wire.noRecords, Bool.and_eq_true, Bool.not_eq_true', decide_eq_false_iff_not] at h
    exact ⟨fun hc => hp p h.1 a (hOk.1 hc), ih h.2 b hOk.2⟩
  | arr c ig p rest ih =>
    obtain ⟨a, b⟩ := b
    simp only [Wire.noRecords, Bool.and_eq_true, Bool.not_eq_true', decide_eq_false_iff_not] at h
    exact ⟨fun hc l hl => ⟨(hOk.1 hc l hl).1, fun y hy => hp p h.1 y ((hOk.1 hc l hl).2 y hy)⟩, ih h.2 b hOk.2⟩
  | struct c ig flo fhi sub rest ihs ih =>
    obtain ⟨a, b⟩ := b
    simp only [Wire.noRecords, Bool.and_eq_true] at h
    exact ⟨fun hc => ⟨trivial, ihs h.1 _ (hOk.1 hc).2.1, (hOk.1 hc).2.2⟩, ih h.2 b hOk.2⟩
  | arrS c ig flo fhi sub rest ihs ih =>
    obtain ⟨a, b⟩ := b
    simp only [Wire.noRecords, Bool.and_eq_true] at h
    exact ⟨fun hc l hl => ⟨(hOk.1 hc l hl).1, fun y hy =>
      ⟨trivial, ihs h.1 _ ((hOk.1 hc l hl).2 y hy).2.1, ((hOk.1 hc l hl).2 y hy).2.2⟩⟩, ih h.2 b hOk.2⟩

theorem accept_wire (x : Ext) (v : Int) (s : Sch) (b : s.Val) (hOk : s.Ok acceptCover x v b) : s.Ok wireCover x v b := by
  have hp : ∀ p : Prim, ∀ a : p.Val, acceptCover.prim p a → wireCover.prim p a := by
    intro p a h
    cases p with
    | records => exact h
    | _ => trivial
  induction s with
  | nil => trivial
  | prim c ig p d rest ih =>
    obtain ⟨a, b⟩ := b
    exact ⟨fun hc => hp p a (hOk.1 hc), ih b hOk.2⟩
  | arr c ig p rest ih =>
    obtain ⟨a, b⟩ := b
    exact ⟨fun hc l hl => ⟨(hOk.1 hc l hl).1, fun y hy => hp p y ((hOk.1 hc l hl).2 y hy)⟩, ih b hOk.2⟩
  | struct c ig flo fhi sub rest ihs ih =>
    obtain ⟨a, b⟩ := b
    exact ⟨fun hc => ⟨trivial, ihs _ (hOk.1 hc).2.1, (hOk.1 hc).2.2⟩, ih b hOk.2⟩
  | arrS c ig flo fhi sub rest ihs ih =>
    obtain ⟨a, b⟩ := b
    exact ⟨fun hc l hl => ⟨(hOk.1 hc l hl).1, fun y hy =>
      ⟨trivial, ihs _ ((hOk.1 hc l hl).2 y hy).2.1, ((hOk.1 hc l hl).2 y hy).2.2⟩⟩, ih b hOk.2⟩

theorem plain_structsSupported (v : Int) (s : Sch) (h : Wire.plain v s = true) : s.structsSupported v = true := by
  induction s with
  | nil => rfl
  | prim c ig p d rest ih => simp only [Wire.plain, Bool.and_eq_true] at h; exact ih h.2
  | arr c ig p rest ih => simp only [Wire.plain, Bool.and_eq_true] at h; exact ih h.2
  | struct c ig flo fhi sub rest ihs ih =>
    simp only [Wire.plain, Bool.and_eq_true, isTagged_eq, within_eq] at h
    simp only [Sch.structsSupported, Bool.and_eq_true]
    exact ⟨⟨h.1.1.1, ihs h.1.2⟩, ih h.2⟩
  | arrS c ig flo fhi sub rest ihs ih =>
    simp only [Wire.plain, Bool.and_eq_true] at h
    simp only [Sch.structsSupported, Bool.and_eq_true]
    exact ⟨ihs h.1.2, ih h.2⟩

theorem FieldsA.of_eq {β : Type} {fs : FieldsOps β} {Ok Ok' : β → Prop} {acc acc' : β → Prop}
    (h : FieldsA fs Ok acc) (h1 : Ok' = Ok) (h2 : acc' = acc) : FieldsA fs Ok' acc' := by subst h1 h2; exact h

/-- every sound schema accepts exactly the writable values -/
theorem Sch.a (x : Ext) (v : Int) (s : Sch) (flex : Bool) (h : s.wf v flex = true) (hp : Wire.plain v s = true) :
    FieldsA (s.ops x v) (s.Ok acceptCover x v) (Wire.writable x v s) := by
  induction s generalizing flex with
  | nil => exact nilFields_a
  | prim c ig p d rest ih =>
    simp only [Sch.wf, Bool.and_eq_true, Bool.not_eq_true'] at h
    simp only [Wire.plain, Bool.and_eq_true, Bool.or_eq_true, Bool.not_eq_true', decide_eq_false_iff_not, isTagged_eq] at hp
    have hf : FieldA (primOps x c v p d) (c.supported v) (acceptCover.prim p) (Wire.isDflt p d)
        (Wire.primWritable x (Wire.within c.nlo c.nhi v) (Wire.within c.flo c.fhi v) p) :=
      ⟨fun hs a hOk => primA x c v p a hs hOk,
        fun _ hs a => by
          cases p <;> simp [primOps, primWrite, writeFixed, writeStr, writeBytesF, writeRecordsF, hs],
        nonDefault_eq p d⟩
    refine (consField_a (ig := ig) hf (ih flex h.2 hp.2) h.1.1.1 ?_).of_eq rfl rfl
    intro ht a e hOk hw
    refine (primOps_sz x c v p d).sz a e ?_ hw
    rcases hp.1 with h' | h'
    · rw [ht] at h'; simp at h'
    · cases p with
      | records => exact absurd rfl h'
      | uuid => exact hOk
      | bytes => exact hOk
      | _ => trivial
  | arr c ig p rest ih =>
    simp only [Sch.wf, Bool.and_eq_true, Bool.not_eq_true'] at h
    simp only [Wire.plain, Bool.and_eq_true, Bool.or_eq_true, Bool.not_eq_true', decide_eq_false_iff_not, isTagged_eq] at hp
    have hf : FieldA (arrOps c v p.zero (primOps x c v p .none)) (c.supported v) (ArrOk c v (acceptCover.prim p))
        Wire.noItems (Wire.arrayWritable (Wire.within c.nlo c.nhi v)
          (Wire.primWritable x (Wire.within c.nlo c.nhi v) (Wire.within c.flo c.fhi v) p)) :=
      ⟨fun hs a hOk => arrA c v _ _ a hs (fun l hl y hy => primA x c v p y hs ((hOk l hl).2 y hy)),
        fun _ hs a => by simp [arrOps, writeArr, hs], noItems_eq⟩
    refine (consField_a (ig := ig) hf (ih flex h.2 hp.2) h.1.1.1 ?_).of_eq rfl rfl
    intro ht a e hOk hw
    refine (arrOps_sz c v p.zero (primOps x c v p .none) ((sizeCover x).prim p)
      (primOps_sz x c v p .none).sz).sz a e (fun l hl => ⟨(hOk l hl).1, fun y hy => ?_⟩) hw
    have hy' := (hOk l hl).2 y hy
    rcases hp.1 with h' | h'
    · rw [ht] at h'; simp at h'
    · cases p with
      | records => exact absurd rfl h'
      | uuid => exact hy'
      | bytes => exact hy'
      | _ => trivial
  | struct c ig flo fhi sub rest ihs ih =>
    simp only [Sch.wf, Bool.and_eq_true, Bool.not_eq_true', Bool.or_eq_true] at h
    simp only [Wire.plain, Bool.and_eq_true, Bool.or_eq_true, Bool.not_eq_true', isTagged_eq] at hp
    have hsub := ihs _ h.1.1.2 hp.1.2
    have hf : FieldA (structOps flo fhi v (sub.ops x v)) (c.supported v)
        (StructOk acceptCover sub.tags (sub.Ok acceptCover x v))
        (fun a => decide (a.unknown = []) && Wire.allDflt sub a.fields)
        (Wire.structWritable flo fhi v (Wire.writable x v sub) (Wire.fields x v sub)) :=
      ⟨fun _ a hOk => structA hsub (sub.w x v _ h.1.1.2) flo fhi v
          (fun hr b => by
            have hw := h.1.1.2; rw [hr] at hw
            exact ⟨(tagged_nil x v sub hw b).1, (tagged_nil x v sub hw b).2.1⟩)
          a hOk (accept_wire x v sub _ hOk.2.1),
        fun hst => absurd hst (by simp [structOps]),
        fun a => by simp only [structOps, allDflt_eq]⟩
    refine (consField_a (ig := ig) hf (ih flex h.2 hp.2) h.1.1.1.1 ?_).of_eq rfl rfl
    intro ht a e hOk hw
    rcases hp.1.1.2 with h' | h'
    · rw [ht] at h'; simp at h'
    · exact structSz (x := x) (sub.rt x v _ h.1.1.2) (sub.sz x v _ h.1.1.2 (plain_structsSupported v sub hp.1.2)) flo fhi v a
        ⟨trivial, noRecords_size x v sub h' _ hOk.2.1, hOk.2.2⟩ e hw
  | arrS c ig flo fhi sub rest ihs ih =>
    simp only [Sch.wf, Bool.and_eq_true, Bool.not_eq_true'] at h
    simp only [Wire.plain, Bool.and_eq_true, Bool.or_eq_true, Bool.not_eq_true', isTagged_eq] at hp
    have hsub := ihs _ h.1.1.2 hp.1.2
    have hel : ∀ y : StructVal sub.Val, StructOk acceptCover sub.tags (sub.Ok acceptCover x v) y →
        ((∃ e, structWrite flo fhi v (sub.ops x v) y = .ok e) ↔
          Wire.structWritable flo fhi v (Wire.writable x v sub) (Wire.fields x v sub) y) :=
      fun a hOk => structA hsub (sub.w x v _ h.1.1.2) flo fhi v
          (fun hr b => by
            have hw := h.1.1.2; rw [hr] at hw
            exact ⟨(tagged_nil x v sub hw b).1, (tagged_nil x v sub hw b).2.1⟩)
          a hOk (accept_wire x v sub _ hOk.2.1)
    have hf : FieldA (arrOps c v (structOps flo fhi v (sub.ops x v)).dflt (structOps flo fhi v (sub.ops x v))) (c.supported v)
        (ArrOk c v (StructOk acceptCover sub.tags (sub.Ok acceptCover x v))) Wire.noItems
        (Wire.arrayWritable (Wire.within c.nlo c.nhi v)
          (Wire.structWritable flo fhi v (Wire.writable x v sub) (Wire.fields x v sub))) :=
      ⟨fun hs a hOk => arrA c v _ _ a hs (fun l hl y hy => hel y ((hOk l hl).2 y hy)),
        fun _ hs a => by simp [arrOps, writeArr, hs], noItems_eq⟩
    refine (consField_a (ig := ig) hf (ih flex h.2 hp.2) h.1.1.1 ?_).of_eq rfl rfl
    intro ht a e hOk hw
    rcases hp.1.1 with h' | h'
    · rw [ht] at h'; simp at h'
    · refine (arrOps_sz c v _ (structOps flo fhi v (sub.ops x v)) (StructOk (sizeCover x) sub.tags (sub.Ok (sizeCover x) x v))
        (fun y e hy hw => ?_)).sz a e (fun l hl => ⟨(hOk l hl).1, fun y hy => ?_⟩) hw
      · exact structSz (x := x) (sub.rt x v _ h.1.1.2) (sub.sz x v _ h.1.1.2 (plain_structsSupported v sub hp.1.2)) flo fhi v y
          hy e hw
      · have := (hOk l hl).2 y hy
        exact ⟨trivial, noRecords_size x v sub h' _ this.2.1, this.2.2⟩

/-- every message is accepted exactly when it is writable -/
theorem Msg.accepts (m : Msg) (x : Ext) (v : Int) (hwf : m.wf v = true) (hp : Wire.plain v m.fields = true) (s : m.Val)
    (hOk : m.Ok acceptCover x v s) : (∃ e, m.write x v s = .ok e) ↔ Wire.messageWritable x v m s :=
  structA (m.fields.a x v _ hwf hp) (m.fields.w x v _ hwf) m.flo m.fhi v
    (fun hr b => by
      have hw : m.fields.wf v (inRange m.flo m.fhi v) = true := hwf
      rw [hr] at hw
      exact ⟨(tagged_nil x v m.fields hw b).1, (tagged_nil x v m.fields hw b).2.1⟩)
    s hOk (accept_wire x v m.fields _ hOk.2.1)

end Verif.Kafka
