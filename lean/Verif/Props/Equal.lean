import Verif.Kafka.Schema
/-
C147: `Equal` on messages: which messages are equal.
-/
namespace Verif.Props.Equal
open Verif Verif.Kafka

/-! ### specification: the content of a message, without the difference between null and empty -/

/-- empty instead of null -/
def full {α : Type} (o : Option (List α)) : Option (List α) := some (o.getD [])

def headerC (h : RecordHeader) : RecordHeader := ⟨full h.key, full h.value⟩

/-- the attributes of a record are not part of its content -/
def recordC (r : BatchRecord) : BatchRecord :=
  { r with attributes := 0, key := full r.key, value := full r.value, headers := some ((r.headers.getD []).map headerC) }

def batchC (b : RecordBatch) : RecordBatch := { b with isComplete := true, records := some ((b.records.getD []).map recordC) }

def NaN (n : Nat) : Prop := n % 2 ^ 63 > 0x7ff * 2 ^ 52

def primC : (p : Prim) → p.Val → p.Val
  | .bool, a => a
  | .int _, a => a
  | .u16, a => a
  -- the two zeros are the same
  | .f64, a => (if a % 2 ^ 63 = 0 then 0 else a : Nat)
  | .uuid, a => a
  | .str, a => { a with isNil := false }
  | .bytes, a => full a
  | .records, a => { isNil := false, items := a.items.map batchC }

def structC {β : Type} (f : β → β) (s : StructVal β) : StructVal β := ⟨false, f s.fields, s.unknown⟩

/-- the content of the fields -/
def content : (s : Sch) → s.Val → s.Val
  | .nil, _ => ()
  | .prim _ _ p _ rest, (a, b) => (primC p a, content rest b)
  | .arr _ _ p rest, (a, b) => (some ((a.getD []).map (primC p)), content rest b)
  | .struct _ _ _ _ sub rest, (a, b) => (structC (content sub) a, content rest b)
  | .arrS _ _ _ _ sub rest, (a, b) => (some ((a.getD []).map (structC (content sub))), content rest b)

/-- the content of a message -/
def contentM {m : Msg} (s : m.Val) : m.Val := structC (content m.fields) s

def primNum : (p : Prim) → p.Val → Prop
  | .f64, a => ¬ NaN a
  | _, _ => True

/-- no field is NaN -/
def Numbers : (s : Sch) → s.Val → Prop
  | .nil, _ => True
  | .prim _ _ p _ rest, (a, b) => primNum p a ∧ Numbers rest b
  | .arr _ _ p rest, (a, b) => (∀ x ∈ a.getD [], primNum p x) ∧ Numbers rest b
  | .struct _ _ _ _ sub rest, (a, b) => Numbers sub a.fields ∧ Numbers rest b
  | .arrS _ _ _ _ sub rest, (a, b) => (∀ x ∈ a.getD [], Numbers sub x.fields) ∧ Numbers rest b

/-! ### proofs -/

/-- element by element -/
theorem zip_all {α β : Type} (eq : α → α → Bool) (f : α → β) : ∀ (l m : List α), (∀ x ∈ l, ∀ y ∈ m, (eq x y = true ↔ f x = f y)) →
    ((decide (l.length = m.length) && (l.zip m).all fun (x, y) => eq x y) = true ↔ l.map f = m.map f)
  | [], [], _ => by simp
  | [], _ :: _, _ => by simp
  | _ :: _, [], _ => by simp
  | x :: l, y :: m, h => by
    have ih := zip_all eq f l m fun a ha b hb => h a (by simp [ha]) b (by simp [hb])
    have hxy := h x (by simp) y (by simp)
    simp only [Bool.and_eq_true, decide_eq_true_eq] at ih
    simp only [List.length_cons, List.zip_cons_cons, List.all_cons, List.map_cons, Bool.and_eq_true, decide_eq_true_eq, Nat.add_right_cancel_iff, List.cons.injEq]
    rw [← ih, ← hxy]
    constructor
    · rintro ⟨a, b, c⟩; exact ⟨b, a, c⟩
    · rintro ⟨b, a, c⟩; exact ⟨a, b, c⟩

theorem header_iff (h g : RecordHeader) : h.equal g = true ↔ headerC h = headerC g := by
  simp [RecordHeader.equal, headerC, full, slice]

theorem record_iff (r s : BatchRecord) : r.equal s = true ↔ recordC r = recordC s := by
  have hz := zip_all RecordHeader.equal headerC (r.headers.getD []) (s.headers.getD []) fun x _ y _ => header_iff x y
  have : r.equal s = (((((r.timestampDelta == s.timestampDelta) && (r.offsetDelta == s.offsetDelta)) && (slice r.key == slice s.key)) && (slice r.value == slice s.value)) &&
      (decide ((r.headers.getD []).length = (s.headers.getD []).length) && ((r.headers.getD []).zip (s.headers.getD [])).all fun (x, y) => x.equal y)) := by
    simp only [BatchRecord.equal, BatchRecord.headerList, Bool.and_assoc]
    rfl
  rw [this, Bool.and_eq_true, hz]
  simp only [Bool.and_eq_true, beq_iff_eq, recordC, BatchRecord.mk.injEq, full, slice, Option.some.injEq]
  constructor
  · rintro ⟨⟨⟨⟨a, b⟩, c⟩, d⟩, e⟩; exact ⟨trivial, a, b, c, d, e⟩
  · rintro ⟨_, a, b, c, d, e⟩; exact ⟨⟨⟨⟨a, b⟩, c⟩, d⟩, e⟩

theorem batch_iff (a b : RecordBatch) : a.equal b = true ↔ batchC a = batchC b := by
  have hz := zip_all BatchRecord.equal recordC (a.records.getD []) (b.records.getD []) fun x _ y _ => record_iff x y
  have : a.equal b = (decide ({ a with records := none, isComplete := true } = { b with records := none, isComplete := true }) &&
      (decide ((a.records.getD []).length = (b.records.getD []).length) && ((a.records.getD []).zip (b.records.getD [])).all fun (x, y) => x.equal y)) := by
    simp only [RecordBatch.equal, RecordBatch.recordList, Bool.and_assoc]
    rfl
  rw [this, Bool.and_eq_true, hz]
  simp only [decide_eq_true_eq, batchC, RecordBatch.mk.injEq, Option.some.injEq]
  constructor
  · rintro ⟨h, e⟩; simp_all
  · intro h; simp_all

theorem f64_iff (a b : Nat) (ha : ¬ NaN a) (hb : ¬ NaN b) : (!f64Ne a b) = true ↔ primC .f64 a = primC .f64 b := by
  have h1 : decide (a % 2 ^ 63 > 0x7ff * 2 ^ 52) = false := decide_eq_false ha
  have h2 : decide (b % 2 ^ 63 > 0x7ff * 2 ^ 52) = false := decide_eq_false hb
  unfold f64Ne
  simp only [h1, h2, Bool.or_self, primC]
  by_cases za : a % 2 ^ 63 = 0 <;> by_cases zb : b % 2 ^ 63 = 0
  · simp [za, zb]
  · simp only [za, zb, and_false, if_false, if_true, Bool.false_eq_true, Bool.not_eq_true', decide_eq_false_iff_not, Decidable.not_not]
    constructor
    · rintro rfl; exact absurd za zb
    · intro e
      have e' : (0 : Nat) = b := e
      exfalso; rw [← e'] at zb; exact zb rfl
  · simp only [za, zb, false_and, if_false, if_true, Bool.false_eq_true, Bool.not_eq_true', decide_eq_false_iff_not, Decidable.not_not]
    constructor
    · rintro rfl; exact absurd zb za
    · intro e
      have e' : a = (0 : Nat) := e
      exfalso; rw [e'] at za; exact za rfl
  · simp [za, zb]

theorem prim_iff (p : Prim) (a b : p.Val) (ha : primNum p a) (hb : primNum p b) : primEqual p a b = true ↔ primC p a = primC p b := by
  cases p with
  | bool => exact decide_eq_true_iff
  | int k => exact decide_eq_true_iff
  | u16 => exact decide_eq_true_iff
  | f64 => exact f64_iff a b ha hb
  | uuid => exact decide_eq_true_iff
  | str =>
    show decide (a.value = b.value) = true ↔ ({ a with isNil := false } : NStr) = { b with isNil := false }
    simp
  | bytes =>
    show decide (a.getD [] = b.getD []) = true ↔ full a = full b
    simp [full]
  | records =>
    have := zip_all RecordBatch.equal batchC a.items b.items fun x _ y _ => batch_iff x y
    show (decide (a.items.length = b.items.length) && (a.items.zip b.items).all fun (a, b) => a.equal b) = true ↔ _
    rw [this]
    show _ ↔ ({ isNil := false, items := a.items.map batchC } : RecBatches) = { isNil := false, items := b.items.map batchC }
    simp

theorem struct_iff {β : Type} (f : β → β) (flo fhi v : Int) (fs : FieldsOps β) (s t : StructVal β) (h : fs.equal s.fields t.fields = true ↔ f s.fields = f t.fields) :
    (structOps flo fhi v fs).equal s t = true ↔ structC f s = structC f t := by
  show (decide (s.unknown = t.unknown) && fs.equal s.fields t.fields) = true ↔ _
  simp only [Bool.and_eq_true, decide_eq_true_eq, h, structC, StructVal.mk.injEq, true_and]
  exact and_comm

theorem fields_iff (x : Ext) (v : Int) : ∀ (s : Sch) (a b : s.Val), Numbers s a → Numbers s b → ((s.ops x v).equal a b = true ↔ content s a = content s b) := by
  intro s
  induction s with
  | nil => intro a b _ _; simp [Sch.ops, nilFields]
  | prim c ig p d rest ih =>
    rintro ⟨a, b⟩ ⟨a', b'⟩ h h'
    show (primEqual p a a' && (rest.ops x v).equal b b') = true ↔ (primC p a, content rest b) = (primC p a', content rest b')
    rw [Bool.and_eq_true, prim_iff p a a' h.1 h'.1, ih b b' h.2 h'.2, Prod.mk.injEq]
  | arr c ig p rest ih =>
    rintro ⟨a, b⟩ ⟨a', b'⟩ h h'
    have := zip_all (primEqual p) (primC p) (a.getD []) (a'.getD []) fun x hx y hy => prim_iff p x y (h.1 x hx) (h'.1 y hy)
    show (((decide _ && _) : Bool) && (rest.ops x v).equal b b') = true ↔ (some ((a.getD []).map (primC p)), content rest b) = (some ((a'.getD []).map (primC p)), content rest b')
    rw [Bool.and_eq_true, ih b b' h.2 h'.2, Prod.mk.injEq, Option.some.injEq, ← this]
    rfl
  | struct c ig flo fhi sub rest ihs ih =>
    rintro ⟨a, b⟩ ⟨a', b'⟩ h h'
    show ((structOps flo fhi v (sub.ops x v)).equal a a' && (rest.ops x v).equal b b') = true ↔ (structC (content sub) a, content rest b) = (structC (content sub) a', content rest b')
    rw [Bool.and_eq_true, struct_iff (content sub) _ _ _ _ _ _ (ihs a.fields a'.fields h.1 h'.1), ih b b' h.2 h'.2, Prod.mk.injEq]
  | arrS c ig flo fhi sub rest ihs ih =>
    rintro ⟨a, b⟩ ⟨a', b'⟩ h h'
    have := zip_all (structOps flo fhi v (sub.ops x v)).equal (structC (content sub)) (a.getD []) (a'.getD [])
      fun s hs t ht => struct_iff (content sub) _ _ _ _ _ _ (ihs s.fields t.fields (h.1 s hs) (h'.1 t ht))
    show (((decide _ && _) : Bool) && (rest.ops x v).equal b b') = true ↔
      (some ((a.getD []).map (structC (content sub))), content rest b) = (some ((a'.getD []).map (structC (content sub))), content rest b')
    rw [Bool.and_eq_true, ih b b' h.2 h'.2, Prod.mk.injEq, Option.some.injEq, ← this]

/-- C147: two messages without NaN are Equal exactly if they have the same content: the same fields with the same values, where null counts as empty,
the attributes of records are left out, and the two zeros of float64 are the same. -/
theorem C147_content (m : Msg) (x : Ext) (s t : m.Val) (hs : Numbers m.fields s.fields) (ht : Numbers m.fields t.fields) :
    m.equal x s t = true ↔ contentM s = contentM t :=
  struct_iff (content m.fields) m.flo m.fhi 0 (m.fields.ops x 0) s t (fields_iff x 0 m.fields _ _ hs ht)

/-- C147: without NaN, Equal is an equivalence. -/
theorem C147_equivalence (m : Msg) (x : Ext) (s t u : m.Val) (hs : Numbers m.fields s.fields) (ht : Numbers m.fields t.fields) (hu : Numbers m.fields u.fields) :
    m.equal x s s = true ∧ (m.equal x s t = true → m.equal x t s = true) ∧ (m.equal x s t = true → m.equal x t u = true → m.equal x s u = true) := by
  refine ⟨(C147_content m x s s hs hs).mpr rfl, fun h => ?_, fun h h' => ?_⟩
  · exact (C147_content m x t s ht hs).mpr ((C147_content m x s t hs ht).mp h).symm
  · exact (C147_content m x s u hs hu).mpr (((C147_content m x s t hs ht).mp h).trans ((C147_content m x t u ht hu).mp h'))

/-- C147: Equal messages without nulls, NaN, negative zeros and record attributes are the same, and give the same bytes in every version. -/
theorem C147_bytes (m : Msg) (x : Ext) (s t : m.Val) (hs : contentM s = s) (ht : contentM t = t) (ns : Numbers m.fields s.fields)
    (nt : Numbers m.fields t.fields) (h : m.equal x s t = true) : s = t ∧ ∀ v, m.write x v s = m.write x v t := by
  have : s = t := by rw [← hs, ← ht]; exact (C147_content m x s t ns nt).mp h
  exact ⟨this, fun v => by rw [this]⟩

/-! ### a message with a nullable string, a float64 and records -/

def ctx : Ctx := { lo := 0, hi := 32767, flo := 0, fhi := 32767, nlo := 0, nhi := 32767 }
def msgS : Msg := ⟨0, 32767, .prim ctx false .str .none (.prim ctx false .f64 .none .nil)⟩
def valS (s : NStr) (f : Nat) : msgS.Val := ⟨false, (s, f, ()), []⟩

example (s : Bytes) : contentM (valS ⟨s, false⟩ 5) = valS ⟨s, false⟩ 5 ∧ Numbers msgS.fields (valS ⟨s, false⟩ 5).fields :=
  ⟨rfl, trivial, (by show ¬ (_ > _); decide : ¬ NaN 5), trivial⟩

/-- Known defect (C224): a null string and an empty one are Equal, although they are different on the wire. -/
theorem C224_null_false (x : Ext) : msgS.equal x (valS ⟨[], true⟩ 5) (valS ⟨[], false⟩ 5) = true ∧
    (msgS.write x 0 (valS ⟨[], true⟩ 5)).isOk = true ∧ (msgS.write x 0 (valS ⟨[], false⟩ 5)).isOk = true ∧
    msgS.write x 0 (valS ⟨[], true⟩ 5) ≠ msgS.write x 0 (valS ⟨[], false⟩ 5) := by
  refine ⟨rfl, rfl, rfl, ?_⟩
  intro h
  have a : msgS.write x 0 (valS ⟨[], true⟩ 5) = .ok [0, 0, 0, 0, 0, 0, 0, 0, 5, 0] := by with_unfolding_all rfl
  have b : msgS.write x 0 (valS ⟨[], false⟩ 5) = .ok [1, 0, 0, 0, 0, 0, 0, 0, 5, 0] := by with_unfolding_all rfl
  rw [a, b] at h
  cases h

/-- Known defect (C224): a message with NaN is not Equal to itself. -/
theorem C224_nan_false (x : Ext) (s : NStr) : msgS.equal x (valS s 0x7ff8000000000001) (valS s 0x7ff8000000000001) = false := by
  have : primEqual .f64 (0x7ff8000000000001 : Nat) (0x7ff8000000000001 : Nat) = false := by decide
  show (true && (decide (s.value = s.value) && (primEqual .f64 (0x7ff8000000000001 : Nat) (0x7ff8000000000001 : Nat) && true))) = false
  rw [this]; simp

/-- Known defect (C224): records that differ in their attributes are Equal, although they are different on the wire. -/
theorem C224_attributes_false : BatchRecord.equal { attributes := 1, headers := some [] } { attributes := 2, headers := some [] } = true ∧
    BatchRecord.write { attributes := 1, headers := some [] } = .ok [12, 1, 0, 0, 1, 1, 0] ∧
    BatchRecord.write { attributes := 2, headers := some [] } = .ok [12, 2, 0, 0, 1, 1, 0] := by
  refine ⟨by decide, by decide +kernel, by decide +kernel⟩

/-- Known defect (C224): a string cannot have the value "null": setting it makes the string null. -/
theorem C224_setnull_false : (NStr.ofValue nullBytes).isNil = true ∧ (NStr.ofValue nullBytes).value ≠ nullBytes ∧
    ∀ s, s ≠ nullBytes → (NStr.ofValue s).value = s ∧ (NStr.ofValue s).isNil = false := by
  refine ⟨by decide, by decide, fun s h => ?_⟩
  simp [NStr.ofValue, h]

end Verif.Props.Equal
