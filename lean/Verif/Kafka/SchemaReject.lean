import Verif.Kafka.SchemaSize
/- Rejection by Write and SizeInBytes; independence from fields that are not carried; faithful values. -/
namespace Verif.Kafka
open Verif

/-- Is an error; (proof helper; models no code.) -/
def IsErr {α : Type} (r : Res α) : Prop := ∃ e, r = .error e

theorem wseq_err_right {a b : Res Bytes} (h : IsErr b) : IsErr (a +++ b) := by
  obtain ⟨e, rfl⟩ := h
  cases a with
  | error e' => exact ⟨e', rfl⟩
  | ok x => exact ⟨e, rfl⟩
theorem wseq_err_left {a b : Res Bytes} (h : IsErr a) : IsErr (a +++ b) := by
  obtain ⟨e, rfl⟩ := h; exact ⟨e, rfl⟩
theorem sadd_err_right {a b : Res Nat} (h : IsErr b) : IsErr (sadd a b) := by
  obtain ⟨e, rfl⟩ := h
  cases a with
  | error e' => exact ⟨e', rfl⟩
  | ok x => exact ⟨e, rfl⟩
theorem sadd_err_left {a b : Res Nat} (h : IsErr a) : IsErr (sadd a b) := by
  obtain ⟨e, rfl⟩ := h; exact ⟨e, rfl⟩

/-- the field list makes Write and SizeInBytes of its struct fail; (proof helper; models no code.) -/
structure Fails {β : Type} (fs : FieldsOps β) (flex : Bool) (b : β) : Prop where
  w : fs.validate b = false ∨ IsErr (fs.writeFields b) ∨ (flex = true ∧ IsErr (fs.tagged b))
  s : fs.validate b = false ∨ IsErr (fs.sizeFields b) ∨ (flex = true ∧ IsErr (fs.taggedSize b))

theorem Fails.struct {β : Type} {fs : FieldsOps β} {flo fhi v : Int} {s : StructVal β} (hn : s.isNil = false)
    (h : Fails fs (inRange flo fhi v) s.fields) :
    IsErr (structWrite flo fhi v fs s) ∧ IsErr (structSize flo fhi v fs s) := by
  constructor
  · unfold structWrite
    simp only [hn, Bool.false_eq_true, ↓reduceIte]
    cases hv : fs.validate s.fields with
    | false => simp only [Bool.not_false, ↓reduceIte]; exact ⟨_, rfl⟩
    | true =>
      simp only [Bool.not_true, Bool.false_eq_true, ↓reduceIte]
      rcases h.w with h | h | ⟨hf, h⟩
      · rw [hv] at h; simp at h
      · exact wseq_err_left h
      · apply wseq_err_right
        simp only [hf, Bool.not_true, Bool.false_eq_true, ↓reduceIte]
        obtain ⟨e, h⟩ := h
        rw [h]; exact ⟨e, rfl⟩
  · unfold structSize
    simp only [hn, Bool.false_eq_true, ↓reduceIte]
    cases hv : fs.validate s.fields with
    | false => simp only [Bool.not_false, ↓reduceIte]; exact ⟨_, rfl⟩
    | true =>
      simp only [Bool.not_true, Bool.false_eq_true, ↓reduceIte]
      rcases h.s with h | h | ⟨hf, h⟩
      · rw [hv] at h; simp at h
      · exact sadd_err_left h
      · apply sadd_err_right
        simp only [hf, Bool.not_true, Bool.false_eq_true, ↓reduceIte]
        split
        · exact ⟨_, rfl⟩
        · exact sadd_err_right (sadd_err_left h)

theorem Fails.rest {α β : Type} {c : Ctx} {ig : Bool} {v : Int} {flex : Bool} {f : FieldOps α} {rest : FieldsOps β}
    {a : α} {b : β} (h : Fails rest flex b) : Fails (consField c ig v f rest) flex (a, b) where
  w := by
    rcases h.w with h | h | ⟨hf, h⟩
    · left; simp [consField, h]
    · right; left; exact wseq_err_right h
    · right; right
      refine ⟨hf, ?_⟩
      obtain ⟨e, h⟩ := h
      simp only [consField, h]
      split
      · split
        · split
          · exact ⟨_, rfl⟩
          · exact ⟨_, rfl⟩
        · exact ⟨_, rfl⟩
      · exact ⟨_, rfl⟩
  s := by
    rcases h.s with h | h | ⟨hf, h⟩
    · left; simp [consField, h]
    · right; left; exact sadd_err_right h
    · right; right
      refine ⟨hf, ?_⟩
      simp only [consField]
      split
      · exact sadd_err_right h
      · exact h

theorem Fails.lost {α β : Type} {c : Ctx} {ig : Bool} {v : Int} {flex : Bool} {f : FieldOps α} {rest : FieldsOps β}
    {a : α} {b : β} (h : lostField c ig v f.nonDefault a) : Fails (consField c ig v f rest) flex (a, b) := by
  obtain ⟨h1, h2, h3, h4⟩ := h
  have : (consField c ig v f rest).validate (a, b) = false := by
    have h2' : ¬ c.lo ≤ 0 := by omega
    simp [consField, h1, h2', h3, h4]
  exact ⟨.inl this, .inl this⟩

theorem Fails.field {α β : Type} {c : Ctx} {ig : Bool} {v : Int} {flex : Bool} {f : FieldOps α} {rest : FieldsOps β}
    {a : α} {b : β} (hc : c.wf v flex = true) (hcar : carried c v f.nonDefault a = true)
    (hw : IsErr (f.write a)) (hs : IsErr (f.size a)) : Fails (consField c ig v f rest) flex (a, b) := by
  unfold carried at hcar
  by_cases ht : c.tagged v = true
  · simp only [ht, ↓reduceIte] at hcar
    have hflex : flex = true := by
      simp only [Ctx.wf, ht, Bool.not_true, Bool.false_or, Bool.and_eq_true] at hc
      exact hc.1.1
    obtain ⟨t, htag⟩ : ∃ t, c.tag = some t := by
      cases htg : c.tag with
      | none => simp [Ctx.tagged, htg] at ht
      | some t => exact ⟨t, rfl⟩
    obtain ⟨e, hs⟩ := hs
    refine ⟨.inr (.inr ⟨hflex, ?_⟩), .inr (.inr ⟨hflex, ?_⟩)⟩
    · simp only [consField, htag, ht, hcar, Bool.and_self, ↓reduceIte, inCap, hs]; exact ⟨e, rfl⟩
    · simp only [consField, htag, ht, hcar, Bool.and_self, ↓reduceIte, hs]; exact ⟨e, rfl⟩
  · simp only [Bool.not_eq_true] at ht
    simp only [ht, Bool.false_eq_true, ↓reduceIte, Bool.and_eq_true, Bool.not_eq_true'] at hcar
    refine ⟨.inr (.inl ?_), .inr (.inl ?_)⟩
    · simp only [consField, ht, hcar.1, hcar.2, Bool.or_self, Bool.not_true, Bool.and_false, Bool.false_eq_true,
        ↓reduceIte]
      exact wseq_err_left hw
    · simp only [consField, ht, hcar.1, Bool.or_self, Bool.false_eq_true, ↓reduceIte]
      exact sadd_err_left hs

theorem carried_supported {α : Type} {c : Ctx} {v : Int} {flex : Bool} {nd : α → Bool} {a : α} (hc : c.wf v flex = true)
    (h : carried c v nd a = true) : c.supported v = true := by
  unfold carried at h
  by_cases ht : c.tagged v = true
  · simp only [Ctx.wf, ht, Bool.not_true, Bool.false_or, Bool.and_eq_true] at hc
    exact hc.1.2
  · simp only [ht, Bool.false_eq_true, ↓reduceIte, Bool.and_eq_true] at h
    exact h.2

theorem prim_null_err (x : Ext) (c : Ctx) (v : Int) (p : Prim) (a : p.Val) (hs : c.supported v = true)
    (hn : c.nullable v = false) (ha : p.null a = true) : IsErr (primWrite x c v p a) ∧ IsErr (primSize c v p a) := by
  cases p with
  | str =>
    have ha : a.isNil = true := ha
    constructor <;> exact ⟨.other, by simp [primWrite, primSize, writeStr, sizeStr, hs, hn, ha]⟩
  | bytes =>
    have ha : a = none := by simpa [Prim.null] using ha
    subst ha
    constructor <;> exact ⟨.other, by simp [primWrite, primSize, writeBytesF, sizeBytesF, hs, hn]⟩
  | records =>
    have ha : a.isNil = true := ha
    constructor <;> exact ⟨.other, by simp [primWrite, primSize, writeRecordsF, sizeRecordsF, hs, hn, ha]⟩
  | _ => simp [Prim.null] at ha

theorem writeItems_err {α : Type} {w : α → Res Bytes} {l : List α} {y : α} (hy : y ∈ l) (h : IsErr (w y)) :
    IsErr (writeItems w l) := by
  induction l with
  | nil => simp at hy
  | cons a l ih =>
    rcases List.mem_cons.mp hy with rfl | hy
    · exact wseq_err_left h
    · exact wseq_err_right (ih hy)

theorem sizeItems_err {α : Type} {w : α → Res Nat} {l : List α} {y : α} (hy : y ∈ l) (h : IsErr (w y)) :
    IsErr (sizeItems w l) := by
  induction l with
  | nil => simp at hy
  | cons a l ih =>
    rcases List.mem_cons.mp hy with rfl | hy
    · exact sadd_err_left h
    · exact sadd_err_right (ih hy)

theorem arr_err {α : Type} {c : Ctx} {v : Int} {w : α → Res Bytes} {s : α → Res Nat} (hs : c.supported v = true)
    {l : List α} {y : α} (hy : y ∈ l) (h1 : IsErr (w y)) (h2 : IsErr (s y)) :
    IsErr (writeArr c v w (some l)) ∧ IsErr (sizeArr c v s (some l)) := by
  have hl : ¬ l.length = 0 := by
    intro h
    have := List.length_eq_zero_iff.mp h
    subst this; simp at hy
  constructor
  · simp only [writeArr, hs, Bool.not_true, Bool.false_eq_true, ↓reduceIte, hl]
    exact wseq_err_right (writeItems_err hy h1)
  · simp only [sizeArr, hs, Bool.not_true, Bool.false_eq_true, ↓reduceIte, hl]
    split
    · split
      · exact ⟨_, rfl⟩
      · exact sadd_err_right (sizeItems_err hy h2)
    · split
      · exact ⟨_, rfl⟩
      · exact sadd_err_right (sizeItems_err hy h2)

theorem arr_null_err {α : Type} {c : Ctx} {v : Int} {w : α → Res Bytes} {s : α → Res Nat} (hs : c.supported v = true)
    (hn : c.nullable v = false) : IsErr (writeArr c v w none) ∧ IsErr (sizeArr c v s none) := by
  constructor <;> exact ⟨.other, by simp [writeArr, sizeArr, hs, hn]⟩

/-- offending values are rejected -/
theorem Sch.fails (o : Offence) (x : Ext) (v : Int) (s : Sch) (flex : Bool) (hwf : s.wf v flex = true) (b : s.Val)
    (h : s.Has o x v b) : Fails (s.ops x v) flex b := by
  induction s generalizing flex with
  | nil => exact absurd h (by simp [Sch.Has])
  | prim c ig p d rest ih =>
    simp only [Sch.wf, Bool.and_eq_true, Bool.not_eq_true'] at hwf
    obtain ⟨a, b⟩ := b
    rcases h with ⟨_, h⟩ | ⟨_, hcar, hn, ha⟩ | h
    · exact Fails.lost h
    · have := prim_null_err x c v p a (carried_supported hwf.1.1.1 hcar) hn ha
      exact Fails.field hwf.1.1.1 hcar this.1 this.2
    · exact (ih flex hwf.2 b h).rest
  | arr c ig p rest ih =>
    simp only [Sch.wf, Bool.and_eq_true, Bool.not_eq_true'] at hwf
    obtain ⟨a, b⟩ := b
    rcases h with ⟨_, h⟩ | ⟨_, hcar, hn, ha⟩ | h
    · exact Fails.lost h
    · have hs := carried_supported hwf.1.1.1 hcar
      have : IsErr (writeArr c v (primWrite x c v p) a) ∧ IsErr (sizeArr c v (primSize c v p) a) := by
        rcases ha with rfl | ⟨l, rfl, y, hy, hny⟩
        · exact arr_null_err hs hn
        · have := prim_null_err x c v p y hs hn hny
          exact arr_err hs hy this.1 this.2
      exact Fails.field hwf.1.1.1 hcar this.1 this.2
    · exact (ih flex hwf.2 b h).rest
  | struct c ig flo fhi sub rest ihs ih =>
    simp only [Sch.wf, Bool.and_eq_true, Bool.not_eq_true', Bool.or_eq_true] at hwf
    obtain ⟨a, b⟩ := b
    rcases h with ⟨_, h⟩ | ⟨hcar, hnil, h⟩ | h
    · exact Fails.lost h
    · have := (ihs _ hwf.1.1.2 a.fields h).struct (flo := flo) (fhi := fhi) (v := v) hnil
      exact Fails.field hwf.1.1.1.1 hcar this.1 this.2
    · exact (ih flex hwf.2 b h).rest
  | arrS c ig flo fhi sub rest ihs ih =>
    simp only [Sch.wf, Bool.and_eq_true, Bool.not_eq_true'] at hwf
    obtain ⟨a, b⟩ := b
    rcases h with ⟨_, h⟩ | ⟨hcar, h⟩ | h
    · exact Fails.lost h
    · have hs := carried_supported hwf.1.1.1 hcar
      have : IsErr (writeArr c v (structWrite flo fhi v (sub.ops x v)) a) ∧
          IsErr (sizeArr c v (structSize flo fhi v (sub.ops x v)) a) := by
        rcases h with ⟨_, hn, rfl⟩ | ⟨l, rfl, y, hy, hnil, h⟩
        · exact arr_null_err hs hn
        · have := (ihs _ hwf.1.1.2 y.fields h).struct (flo := flo) (fhi := fhi) (v := v) hnil
          exact arr_err hs hy this.1 this.2
      exact Fails.field hwf.1.1.1 hcar this.1 this.2
    · exact (ih flex hwf.2 b h).rest

/-! ### faithful values -/

theorem sortTags_of_sorted {l : List RawTag} (h : l.Pairwise (·.tag < ·.tag)) : sortTags l = l := by
  have hn : TagsNodup l := by
    unfold TagsNodup List.Nodup
    rw [List.pairwise_map]
    exact h.imp (fun {a b} hh => by omega)
  exact eq_of_perm_sorted (sortTags_perm l) (sort_strict hn) h

theorem map_id_of {α : Type} {f : α → α} {l : List α} (h : ∀ y ∈ l, f y = y) : l.map f = l := by
  conv => rhs; rw [← List.map_id l]
  exact List.map_congr_left h

theorem structNorm_of {β : Type} {F : β → Prop} {n : β → β} (h : ∀ b, F b → n b = b) (s : StructVal β)
    (hs : StructFaithful F s) : structNorm n s = s := by
  obtain ⟨nil, b, u⟩ := s
  obtain ⟨h1, h2, h3⟩ := hs
  have h1' : nil = false := h1
  subst h1'
  simp [structNorm, h b h2, sortTags_of_sorted h3]

theorem Sch.norm_of_faithful (x : Ext) (v : Int) (s : Sch) (b : s.Val) (h : s.Faithful x v b) : s.norm x v b = b := by
  induction s with
  | nil => rfl
  | prim c ig p d rest ih =>
    obtain ⟨a, b⟩ := b
    obtain ⟨h1, h2⟩ := h
    have := ih b h2
    simp only [Sch.norm, this, fieldNorm, Prod.mk.injEq, and_true]
    split <;> rename_i hc
    · rw [if_pos hc] at h1; exact h1
    · rw [if_neg hc] at h1; exact h1.symm
  | arr c ig p rest ih =>
    obtain ⟨a, b⟩ := b
    obtain ⟨h1, h2⟩ := h
    have := ih b h2
    simp only [Sch.norm, this, fieldNorm, Prod.mk.injEq, and_true]
    split <;> rename_i hc
    · rw [if_pos hc] at h1
      cases a with
      | none => rfl
      | some l => simp [map_id_of (h1 l rfl)]
    · rw [if_neg hc] at h1; exact h1.symm
  | struct c ig flo fhi sub rest ihs ih =>
    obtain ⟨a, b⟩ := b
    obtain ⟨h1, h2⟩ := h
    have := ih b h2
    simp only [Sch.norm, this, fieldNorm, Prod.mk.injEq, and_true]
    split <;> rename_i hc
    · rw [if_pos hc] at h1; exact structNorm_of ihs a h1
    · rw [if_neg hc] at h1; exact h1.symm
  | arrS c ig flo fhi sub rest ihs ih =>
    obtain ⟨a, b⟩ := b
    obtain ⟨h1, h2⟩ := h
    have := ih b h2
    simp only [Sch.norm, this, fieldNorm, Prod.mk.injEq, and_true]
    split <;> rename_i hc
    · rw [if_pos hc] at h1
      cases a with
      | none => rfl
      | some l => simp [map_id_of (fun y hy => structNorm_of ihs y (h1 l rfl y hy))]
    · rw [if_neg hc] at h1; exact h1.symm

/-! ### fields that are not carried contribute nothing -/

theorem f64Ne_self_zero : f64Ne 0 0 = false := by decide

theorem primEqual_dflt (p : Prim) (d : Dflt) (h : tagNonDefault p d (primDflt p d) = false ∨ p = .records) :
    primEqual p (primDflt p d) (primDflt p d) = true := by
  cases p with
  | f64 =>
    replace h : tagNonDefault .f64 d (primDflt .f64 d) = false := h.resolve_right (by simp)
    cases d with
    | int i => simpa [tagNonDefault, primDflt, primEqual] using h
    | _ => simp [primDflt, primEqual, Prim.zero, f64Ne_self_zero]
  | records => cases d <;> rfl
  | _ => simp [primEqual]

theorem Sch.equal_dflt (x : Ext) (v : Int) (s : Sch) (h : s.dfltOk = true) :
    (s.ops x v).equal (s.ops x v).dflt (s.ops x v).dflt = true := by
  induction s with
  | nil => rfl
  | prim c ig p d rest ih =>
    simp only [Sch.dfltOk, Bool.and_eq_true, Bool.or_eq_true, Bool.not_eq_true', decide_eq_true_eq] at h
    simp [Sch.ops, consField, primOps, primEqual_dflt p d (h.1.imp id (·.1.1)), ih h.2]
  | arr c ig p rest ih =>
    simp only [Sch.dfltOk] at h
    simp [Sch.ops, consField, arrOps, ih h]
  | struct c ig flo fhi sub rest ihs ih =>
    simp only [Sch.dfltOk, Bool.and_eq_true] at h
    simp [Sch.ops, consField, structOps, ihs h.1, ih h.2]
  | arrS c ig flo fhi sub rest ihs ih =>
    simp only [Sch.dfltOk, Bool.and_eq_true] at h
    simp [Sch.ops, consField, arrOps, ih h.2]

/-- two field values that look the same to Write; (proof helper; models no code.) -/
structure SameW {β : Type} (fs : FieldsOps β) (b b' : β) : Prop where
  val : fs.validate b = true → fs.validate b' = true
  w : fs.writeFields b' = fs.writeFields b
  t : fs.tagged b' = fs.tagged b
  c : fs.count b' = fs.count b

theorem SameW.cons {α β : Type} {c : Ctx} {ig : Bool} {v : Int} {f : FieldOps α} {rest : FieldsOps β}
    {a : α} {b b' : β} (h : SameW rest b b') (hd : f.nonDefault f.dflt = false ∨ (c.tag = none ∧ c.lo ≤ 0))
    (hu : f.isStruct = false → c.supported v = false → ∀ a, f.write a = .ok []) :
    SameW (consField c ig v f rest) (a, b) (if carried c v f.nonDefault a then a else f.dflt, b') := by
  by_cases hcar : carried c v f.nonDefault a = true
  · rw [if_pos hcar]
    refine ⟨?_, ?_, ?_, ?_⟩
    · simp only [consField, Bool.and_eq_true]; rintro ⟨h1, h2⟩; exact ⟨h1, h.val h2⟩
    · simp only [consField, h.w]
    · simp only [consField, h.t]
    · simp only [consField, h.c]
  · rw [if_neg hcar]
    simp only [Bool.not_eq_true] at hcar
    unfold carried at hcar
    refine ⟨?_, ?_, ?_, ?_⟩
    · simp only [consField, Bool.and_eq_true]; rintro ⟨h1, h2⟩
      refine ⟨?_, h.val h2⟩
      rcases hd with hd | hd
      · simp [hd]
      · simp [hd.2]
    · simp only [consField, h.w]
      by_cases ht : c.tagged v = true
      · simp [ht]
      · simp only [ht, Bool.false_eq_true, ↓reduceIte] at hcar
        by_cases ho : c.onlyTagged = true
        · simp [ho]
        · simp only [ho, Bool.not_false, Bool.true_and] at hcar
          cases hst : f.isStruct with
          | true => simp [hcar]
          | false => simp only [Bool.false_and, Bool.false_eq_true, ↓reduceIte, hu hst hcar]
    · simp only [consField, h.t]
      by_cases ht : c.tagged v = true
      · simp only [ht, ↓reduceIte] at hcar
        replace hd := hd.resolve_right (by rintro ⟨h1, -⟩; simp [Ctx.tagged, h1] at ht)
        simp [hcar, hd]
      · simp [ht]
    · simp only [consField, h.c]
      by_cases ht : c.tagged v = true
      · simp only [ht, ↓reduceIte] at hcar
        replace hd := hd.resolve_right (by rintro ⟨h1, -⟩; simp [Ctx.tagged, h1] at ht)
        simp [hcar, hd]
      · simp [ht]

theorem Sch.blank_same (x : Ext) (v : Int) (s : Sch) (hd : s.dfltOk = true) (b : s.Val) :
    SameW (s.ops x v) b (s.blank x v b) := by
  induction s with
  | nil => exact ⟨id, rfl, rfl, rfl⟩
  | prim c ig p d rest ih =>
    simp only [Sch.dfltOk, Bool.and_eq_true, Bool.or_eq_true, Bool.not_eq_true', decide_eq_true_eq,
      Option.isNone_iff_eq_none] at hd
    obtain ⟨a, b⟩ := b
    refine SameW.cons (f := primOps x c v p d) (ih hd.2 b) (hd.1.imp id (fun h => ⟨h.1.2, h.2⟩)) ?_
    intro _ hs a
    cases p <;>
      simp [primOps, primWrite, writeFixed, writeStr, writeBytesF, writeRecordsF, hs]
  | arr c ig p rest ih =>
    obtain ⟨a, b⟩ := b
    refine SameW.cons (f := arrOps c v p.zero (primOps x c v p .none)) (ih hd b) (.inl (by simp [arrOps])) ?_
    intro _ hs a
    simp [arrOps, writeArr, hs]
  | struct c ig flo fhi sub rest ihs ih =>
    simp only [Sch.dfltOk, Bool.and_eq_true] at hd
    obtain ⟨a, b⟩ := b
    refine SameW.cons (f := structOps flo fhi v (sub.ops x v)) (ih hd.2 b) ?_ ?_
    · left; simp [structOps, sub.equal_dflt x v hd.1]
    · intro h; exact absurd h (by simp [structOps])
  | arrS c ig flo fhi sub rest ihs ih =>
    simp only [Sch.dfltOk, Bool.and_eq_true] at hd
    obtain ⟨a, b⟩ := b
    refine SameW.cons (f := arrOps c v _ (structOps flo fhi v (sub.ops x v))) (ih hd.2 b) (.inl (by simp [arrOps])) ?_
    intro _ hs a
    simp [arrOps, writeArr, hs]

/-- Write does not depend on fields that are not carried -/
theorem Msg.write_blank (m : Msg) (x : Ext) (v : Int) (hd : m.fields.dfltOk = true) (s : m.Val) (e : Bytes)
    (hw : m.write x v s = .ok e) : m.write x v { s with fields := m.fields.blank x v s.fields } = .ok e := by
  have h := m.fields.blank_same x v hd s.fields
  unfold Msg.write structWrite at hw ⊢
  cases hn : s.isNil with
  | true => simpa [hn] using hw
  | false =>
    simp only [hn, Bool.false_eq_true, ↓reduceIte] at hw ⊢
    cases hv : (m.fields.ops x v).validate s.fields with
    | false => simp [hv] at hw
    | true =>
      simp only [hv, h.val hv, Bool.not_true, Bool.false_eq_true, ↓reduceIte, h.w, h.t, h.c] at hw ⊢
      exact hw

end Verif.Kafka
