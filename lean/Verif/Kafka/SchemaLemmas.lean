import Verif.Kafka.SchemaSpec
/- Round trip and size of generated structs. -/
namespace Verif.Kafka
open Verif

/-! ### round trip -/

/-- reading back a field type (at a version that supports it) (proof helper; models no code.) -/
structure FieldRT {α : Type} (f : FieldOps α) (sup tg : Bool) (Ok : α → Prop) (norm : α → α) : Prop where
  rt : sup = true → ∀ a e, Ok a → f.write a = .ok e → RT e (f.read f.dflt) (norm a)
  ne : sup = true → tg = true → ∀ a e, Ok a → f.write a = .ok e → f.nonDefault a = true → e ≠ []
  /-- field types that are not structs check support themselves -/
  unsup : f.isStruct = false → sup = false → ∀ a, f.write a = .ok [] ∧ f.read f.dflt = Dec.ret f.dflt

/-- reading back a field list; `mix D b` is the value after the untagged fields and the tagged fields with `D tag`; (proof helper; models no code.) -/
structure FieldsRT {β : Type} (fs : FieldsOps β) (tags : List Nat) (Ok : β → Prop)
    (mix : (Nat → Bool) → β → β) (norm : β → β) : Prop where
  rt : ∀ b e, Ok b → fs.writeFields b = .ok e → RT e fs.readFields (mix (fun _ => false) b)
  tag : ∀ b l, Ok b → fs.tagged b = .ok l → ∀ a ∈ l, ∀ D : Nat → Bool, D a.tag = false →
    fs.applyTag a.tag a.value (mix D b) = some (.ok (mix (fun t => D t || t == a.tag) b))
  tagMem : ∀ b l, fs.tagged b = .ok l → ∀ a ∈ l, a.tag ∈ tags ∧ a.tag < 2^32
  unk : ∀ t val b, t ∉ tags → fs.applyTag t val b = none
  full : ∀ b l, fs.tagged b = .ok l → ∀ D : Nat → Bool, (∀ a ∈ l, D a.tag = true) → mix D b = norm b
  congr : ∀ (D D' : Nat → Bool) b, (∀ t ∈ tags, D t = D' t) → mix D b = mix D' b
  ne : ∀ b l, Ok b → fs.tagged b = .ok l → ∀ a ∈ l, a.value ≠ []
  cnt : ∀ b l, fs.tagged b = .ok l → l.length = fs.count b
  cnt0 : ∀ b, fs.count b = 0 → fs.tagged b = .ok []

theorem inCap_ok {s : Res Nat} {w : Res Bytes} {b : Bytes} (h : inCap s w = .ok b) :
    w = .ok b ∧ ∃ n, s = .ok n ∧ b.length ≤ n := by
  unfold inCap at h
  split at h
  · simp at h
  · split at h
    · simp at h
    · split at h
      · injection h with h; subst h; exact ⟨rfl, _, rfl, by assumption⟩
      · simp at h

/-- the tagged list of a field in front of others -/
theorem consField_tagged {α β : Type} {c : Ctx} {ig : Bool} {v : Int} {f : FieldOps α} {rest : FieldsOps β}
    {a : α} {b : β} {l : List RawTag} (h : (consField c ig v f rest).tagged (a, b) = .ok l) :
    (∃ t w l', c.tag = some t ∧ c.tagged v = true ∧ f.nonDefault a = true ∧ f.write a = .ok w ∧
      rest.tagged b = .ok l' ∧ l = ⟨t, w⟩ :: l' ∧ (∃ n, f.size a = .ok n ∧ w.length ≤ n)) ∨
    ((c.tagged v && f.nonDefault a) = false ∧ rest.tagged b = .ok l) := by
  simp only [consField] at h
  split at h
  · rename_i t ht
    split at h
    · rename_i hn
      simp only [Bool.and_eq_true] at hn
      split at h
      · simp at h
      · rename_i w hw
        obtain ⟨h1, h2⟩ := inCap_ok hw
        split at h
        · simp at h
        · rename_i l' hl'
          injection h with h
          exact .inl ⟨t, w, l', ht, hn.1, hn.2, h1, hl', h.symm, h2⟩
    · rename_i hn
      exact .inr ⟨by simpa using hn, h⟩
  · rename_i ht
    refine .inr ⟨?_, h⟩
    simp [Ctx.tagged, ht]

/-- value of one field after the untagged part and the tags in `D`; (proof helper; models no code.) -/
def fieldMix {α : Type} (c : Ctx) (v : Int) (dflt : α) (nonDefault : α → Bool) (n : α → α) (D : Nat → Bool) (a : α) : α :=
  if c.tagged v then
    (if nonDefault a && c.tag.any D then n a else dflt)
  else if !c.onlyTagged && c.supported v then n a else dflt

theorem consField_rt {α β : Type} {c : Ctx} {ig : Bool} {v : Int} {flex : Bool} {f : FieldOps α} {rest : FieldsOps β}
    {OkF : α → Prop} {normF : α → α} {tags : List Nat} {Ok : β → Prop} {mix : (Nat → Bool) → β → β} {norm : β → β}
    (hf : FieldRT f (c.supported v) (c.tagged v) OkF normF) (hr : FieldsRT rest tags Ok mix norm)
    (hc : c.wf v flex = true) (ht : c.tag.any (tags.contains ·) = false) :
    FieldsRT (consField c ig v f rest) (c.tag.toList ++ tags)
      (fun p => (carried c v f.nonDefault p.1 → OkF p.1) ∧ Ok p.2)
      (fun D p => (fieldMix c v f.dflt f.nonDefault normF D p.1, mix D p.2))
      (fun p => (fieldNorm c v f.dflt f.nonDefault normF p.1, norm p.2)) where
  rt := by
    rintro ⟨a, b⟩ e ⟨hOk, hOkr⟩ hw
    simp only [consField] at hw ⊢
    obtain ⟨e1, e2, h1, h2, rfl⟩ := wseq_eq_ok.mp hw
    refine RT.bind (a := fieldMix c v f.dflt f.nonDefault normF (fun _ => false) a) ?_ ?_
    · unfold fieldMix
      unfold carried at hOk
      by_cases hta : c.tagged v = true
      · simp only [hta, Bool.or_true, ↓reduceIte, Except.ok.injEq] at h1 ⊢
        subst h1
        have : c.tag.any (fun _ => false) = false := by cases c.tag <;> rfl
        simp only [this, Bool.and_false, Bool.false_eq_true, ↓reduceIte]
        exact RT.ret _
      · simp only [Bool.not_eq_true] at hta
        by_cases ho : c.onlyTagged = true
        · simp only [hta, ho, Bool.true_or, ↓reduceIte, Except.ok.injEq, Bool.not_true, Bool.false_and,
            Bool.false_eq_true] at h1 ⊢
          subst h1; exact RT.ret _
        · simp only [Bool.not_eq_true] at ho
          simp only [hta, ho, Bool.or_self, Bool.false_eq_true, ↓reduceIte, Bool.not_false, Bool.true_and] at h1 hOk ⊢
          by_cases hs : c.supported v = true
          · simp only [hs, Bool.not_true, Bool.and_false, Bool.false_eq_true, ↓reduceIte, forall_const] at h1 hOk ⊢
            exact hf.rt hs a e1 hOk h1
          · simp only [Bool.not_eq_true] at hs
            simp only [hs, Bool.not_false, Bool.and_true, Bool.false_eq_true, ↓reduceIte] at h1 ⊢
            cases hst : f.isStruct with
            | true =>
              simp only [hst, ↓reduceIte, Except.ok.injEq] at h1 ⊢
              subst h1; exact RT.ret _
            | false =>
              obtain ⟨u1, u2⟩ := hf.unsup hst hs a
              simp only [hst, Bool.false_eq_true, ↓reduceIte] at h1 ⊢
              rw [u1] at h1
              injection h1 with h1
              rw [← h1, u2]; exact RT.ret _
    · exact RT.map (hr.rt b e2 hOkr h2) (RT.ret _)
  tag := by
    rintro ⟨a, b⟩ l ⟨hOk, hOkr⟩ hl x hx D hD
    rcases consField_tagged hl with ⟨t, w, l', htag, htv, hnd, hw, hl', rfl, _⟩ | ⟨hn, hl'⟩
    · rcases List.mem_cons.mp hx with rfl | hx
      · -- the field itself
        simp only [consField, htag, ↓reduceIte, htv, Bool.not_true, Bool.false_eq_true]
        have hsup : c.supported v = true := by
          simp only [Ctx.wf, htv, Bool.not_true, Bool.false_or, Bool.and_eq_true] at hc
          exact hc.1.2
        have hcur : fieldMix c v f.dflt f.nonDefault normF D a = f.dflt := by
          simp [fieldMix, htv, htag, hD]
        have hc1 : carried c v f.nonDefault a = true := by simp [carried, htv, hnd]
        have := hf.rt hsup a w (hOk hc1) hw []
        simp only [List.append_nil] at this
        simp only [hcur, this]
        have e1 : fieldMix c v f.dflt f.nonDefault normF (fun t_1 => D t_1 || t_1 == t) a = normF a := by
          simp [fieldMix, htv, hnd, htag]
        have hnt : t ∉ tags := by simpa [htag] using ht
        have e2 : mix (fun t_1 => D t_1 || t_1 == t) b = mix D b := by
          refine hr.congr _ _ b fun t' ht' => ?_
          have : t' ≠ t := fun h => hnt (h ▸ ht')
          simp [this]
        rw [e1, e2]
      · -- a later field
        have hm := (hr.tagMem b l' hl' x hx).1
        have hne : c.tag ≠ some x.tag := by
          intro h
          simp [h, hm] at ht
        have hr' := hr.tag b l' hOkr hl' x hx D hD
        have e1 : fieldMix c v f.dflt f.nonDefault normF (fun t_1 => D t_1 || t_1 == x.tag) a =
            fieldMix c v f.dflt f.nonDefault normF D a := by
          have : t ≠ x.tag := fun h => hne (h ▸ htag)
          simp [fieldMix, htag, this]
        simp only [consField, hne, ↓reduceIte, hr', e1]
    · have hm := (hr.tagMem b l hl' x hx).1
      have hne : c.tag ≠ some x.tag := by
        intro h
        simp [h, hm] at ht
      have hr' := hr.tag b l hOkr hl' x hx D hD
      have e1 : fieldMix c v f.dflt f.nonDefault normF (fun t_1 => D t_1 || t_1 == x.tag) a =
          fieldMix c v f.dflt f.nonDefault normF D a := by
        cases htg : c.tag with
        | none => simp [fieldMix, htg]
        | some t =>
          have : t ≠ x.tag := fun h => hne (h ▸ htg)
          simp [fieldMix, htg, this]
      simp only [consField, hne, ↓reduceIte, hr', e1]
  tagMem := by
    rintro ⟨a, b⟩ l hl x hx
    rcases consField_tagged hl with ⟨t, w, l', htag, htv, hnd, hw, hl', rfl, _⟩ | ⟨hn, hl'⟩
    · rcases List.mem_cons.mp hx with rfl | hx
      · simp only [Ctx.wf, htag, Bool.and_eq_true, decide_eq_true_eq] at hc
        exact ⟨by simp [htag], hc.2⟩
      · have := hr.tagMem b l' hl' x hx
        exact ⟨List.mem_append_right _ this.1, this.2⟩
    · have := hr.tagMem b l hl' x hx
      exact ⟨List.mem_append_right _ this.1, this.2⟩
  unk := by
    rintro t val ⟨a, b⟩ h
    simp only [List.mem_append, not_or, Option.mem_toList] at h
    have h1 : c.tag ≠ some t := h.1
    simp only [consField, h1, ↓reduceIte, hr.unk t val b h.2]
  full := by
    rintro ⟨a, b⟩ l hl D hD
    rcases consField_tagged hl with ⟨t, w, l', htag, htv, hnd, hw, hl', rfl, _⟩ | ⟨hn, hl'⟩
    · have e2 := hr.full b l' hl' D (fun a ha => hD a (List.mem_cons_of_mem _ ha))
      have e1 : D t = true := hD ⟨t, w⟩ (List.mem_cons_self ..)
      simp [fieldMix, fieldNorm, carried, htag, htv, hnd, e1, e2]
    · have e2 := hr.full b l hl' D hD
      simp only [e2, Prod.mk.injEq, and_true]
      unfold fieldMix fieldNorm carried
      by_cases htv : c.tagged v = true
      · simp only [htv, Bool.true_and] at hn
        simp [htv, hn]
      · simp [htv]
  congr := by
    rintro D D' ⟨a, b⟩ h
    have e2 := hr.congr D D' b fun t ht => h t (List.mem_append_right _ ht)
    simp only [e2, Prod.mk.injEq, and_true]
    cases htg : c.tag with
    | none => simp [fieldMix, htg]
    | some t =>
      have := h t (by simp [htg])
      simp [fieldMix, htg, this]
  ne := by
    rintro ⟨a, b⟩ l ⟨hOk, hOkr⟩ hl x hx
    rcases consField_tagged hl with ⟨t, w, l', htag, htv, hnd, hw, hl', rfl, _⟩ | ⟨hn, hl'⟩
    · rcases List.mem_cons.mp hx with rfl | hx
      · have hsup : c.supported v = true := by
          simp only [Ctx.wf, htv, Bool.not_true, Bool.false_or, Bool.and_eq_true] at hc
          exact hc.1.2
        have hc1 : carried c v f.nonDefault a = true := by simp [carried, htv, hnd]
        exact hf.ne hsup htv a w (hOk hc1) hw hnd
      · exact hr.ne b l' hOkr hl' x hx
    · exact hr.ne b l hOkr hl' x hx
  cnt := by
    rintro ⟨a, b⟩ l hl
    rcases consField_tagged hl with ⟨t, w, l', htag, htv, hnd, hw, hl', rfl, _⟩ | ⟨hn, hl'⟩
    · have := hr.cnt b l' hl'
      simp [consField, htv, hnd, this, Nat.add_comm]
    · have := hr.cnt b l hl'
      simp only [consField, hn, this, Bool.false_eq_true, ↓reduceIte, Nat.zero_add]
  cnt0 := by
    rintro ⟨a, b⟩ h
    simp only [consField] at h ⊢
    by_cases hn : (c.tagged v && f.nonDefault a) = true
    · simp [hn] at h
    · simp only [Bool.not_eq_true] at hn
      simp only [hn, Bool.false_eq_true, ↓reduceIte, Nat.zero_add] at h ⊢
      have := hr.cnt0 b h
      cases c.tag <;> exact this

theorem nilFields_rt : FieldsRT nilFields [] (fun _ => True) (fun _ b => b) (fun b => b) where
  rt := by
    rintro b e - h
    simp only [nilFields, Except.ok.injEq] at h ⊢
    subst h; exact RT.ret _
  tag := by rintro b l - h; simp only [nilFields, Except.ok.injEq] at h; subst h; simp
  tagMem := by rintro b l h; simp only [nilFields, Except.ok.injEq] at h; subst h; simp
  unk := fun _ _ _ _ => rfl
  full := fun _ _ _ _ _ => rfl
  congr := fun _ _ _ _ => rfl
  ne := by rintro b l - h; simp only [nilFields, Except.ok.injEq] at h; subst h; simp
  cnt := by rintro b l h; simp only [nilFields, Except.ok.injEq] at h; subst h; rfl
  cnt0 := fun _ _ => rfl

/-- dispatching written tags -/
theorem applyTags_ok {β : Type} {fs : FieldsOps β} {tags : List Nat} {Ok : β → Prop}
    {mix : (Nat → Bool) → β → β} {norm : β → β} (hr : FieldsRT fs tags Ok mix norm) (b : β) (l : List RawTag)
    (hOk : Ok b) (hl : fs.tagged b = .ok l) (m : List RawTag) (hn : TagsNodup m)
    (hm : ∀ a ∈ m, a.tag ∈ tags → a ∈ l) (D : Nat → Bool) (hD : ∀ a ∈ m, D a.tag = false) (u : List RawTag) :
    applyTags fs m (mix D b, u) =
      .ok (mix (fun t => D t || m.any (·.tag == t)) b, u ++ m.filter (fun a => !tags.contains a.tag)) := by
  induction m generalizing D u with
  | nil => simp [applyTags]
  | cons a m ih =>
    have hn' : a.tag ∉ m.map RawTag.tag ∧ TagsNodup m := by
      simpa [TagsNodup] using hn
    have hm' : ∀ a ∈ m, a.tag ∈ tags → a ∈ l := fun a ha => hm a (List.mem_cons_of_mem _ ha)
    unfold applyTags
    by_cases ht : a.tag ∈ tags
    · rw [hr.tag b l hOk hl a (hm a (List.mem_cons_self ..) ht) D (hD a (List.mem_cons_self ..))]
      simp only
      rw [ih hn'.2 hm' _ ?_ u]
      · have e1 : (fun t => (D t || t == a.tag) || m.any (·.tag == t)) =
            (fun t => D t || (a :: m).any (·.tag == t)) := by
          funext t
          simp only [List.any_cons, Bool.or_assoc]
          rw [show (t == a.tag) = (a.tag == t) from BEq.comm]
        rw [e1]
        simp [ht]
      · intro a' ha'
        have h1 := hD a' (List.mem_cons_of_mem _ ha')
        have h2 : a'.tag ≠ a.tag := fun h => hn'.1 (h ▸ List.mem_map_of_mem ha')
        simp [h1, h2]
    · rw [hr.unk a.tag a.value _ ht]
      simp only
      rw [ih hn'.2 hm' D (fun a' ha' => hD a' (List.mem_cons_of_mem _ ha')) (u ++ [a])]
      have e1 : mix (fun t => D t || m.any (·.tag == t)) b = mix (fun t => D t || (a :: m).any (·.tag == t)) b := by
        refine hr.congr _ _ b fun t hmem => ?_
        have : (a.tag == t) = false := beq_eq_false_iff_ne.mpr fun h => ht (h ▸ hmem)
        simp only [List.any_cons, this, Bool.false_or]
      rw [e1]
      simp [ht]

/-- a struct reads back -/
theorem structRT {β : Type} {fs : FieldsOps β} {tags : List Nat} {Ok : β → Prop}
    {mix : (Nat → Bool) → β → β} {norm : β → β} (hr : FieldsRT fs tags Ok mix norm) (flo fhi v : Int)
    (s : StructVal β) (hOk : StructOk rtCover tags Ok s) (e : Bytes) (hw : structWrite flo fhi v fs s = .ok e) :
    RT e (structRead flo fhi v fs) (structNorm norm s) ∧ (inRange flo fhi v = true → e ≠ []) := by
  obtain ⟨hnil, hOkf, hu⟩ := hOk
  obtain ⟨isNil, b, unk⟩ := s
  have hnil' : isNil = false := hnil
  subst hnil'
  unfold structWrite at hw
  simp only [Bool.false_eq_true, ↓reduceIte] at hw
  split at hw
  · simp at hw
  obtain ⟨e1, e2, h1, h2, rfl⟩ := wseq_eq_ok.mp hw
  have hfields := hr.rt b e1 hOkf h1
  unfold structRead
  cases hflex : inRange flo fhi v with
  | false =>
    simp only [hflex, Bool.not_false, ↓reduceIte] at h2 ⊢
    split at h2
    · simp at h2
    rename_i h0
    injection h2 with h2
    subst h2
    refine ⟨?_, by simp⟩
    have hc0 : fs.count b = 0 := by omega
    have hu0 : unk = [] := by
      cases unk with
      | nil => rfl
      | cons _ _ => simp only [List.length_cons] at h0; omega
    subst hu0
    refine RT.bind hfields ?_
    intro rest
    simp only [List.nil_append]
    rw [hr.full b [] (hr.cnt0 b hc0) (fun _ => false) (by simp)]
    rfl
  | true =>
    simp only [hflex, Bool.not_true, Bool.false_eq_true, ↓reduceIte] at h2 ⊢
    split at h2
    · simp at h2
    rename_i l hl
    have htag : ∀ a ∈ unk ++ l, a.tag < 2^32 := by
      intro a ha
      rcases List.mem_append.mp ha with ha | ha
      · exact (hu a ha).1
      · exact (hr.tagMem b l hl a ha).2
    obtain ⟨hlen, hnd, hfit, he⟩ := (writeRawTags_ok htag).mp h2
    have hne2 : e2 ≠ [] := by
      rw [he]; exact List.append_ne_nil_of_left_ne_nil (putUvarint_ne_nil _) _
    refine ⟨?_, by intro _; simp [hne2]⟩
    refine RT.bind hfields ?_
    intro rest
    have h0 : ¬ (e2 ++ rest).length = 0 := by
      cases e2 with
      | nil => exact absurd rfl hne2
      | cons _ _ => simp
    simp only [h0, ↓reduceIte]
    have hp := sortTags_perm (unk ++ l)
    have hread : readRawTags (e2 ++ rest) = .ok (sortTags (unk ++ l), rest) := by
      rw [he]
      have := readRawTags_enc (sortTags (unk ++ l)) (by rw [hp.length_eq]; exact hlen)
        (fun a ha => hfit a (hp.mem_iff.mp ha)) rest (.inr fun a ha => ?_)
      · rwa [hp.length_eq] at this
      · rcases List.mem_append.mp (hp.mem_iff.mp ha) with ha | ha
        · exact (hu a ha).2.1
        · exact hr.ne b l hOkf hl a ha
    rw [hread]
    simp only
    rw [applyTags_ok hr b l hOkf hl (sortTags (unk ++ l)) ((TagsNodup.perm hp).mpr hnd) ?_ (fun _ => false) (by simp) []]
    · simp only [List.nil_append, structNorm, Bool.false_or]
      rw [filter_sort _ hnd, List.filter_append]
      have f1 : unk.filter (fun a => !tags.contains a.tag) = unk := by
        rw [List.filter_eq_self]
        intro a ha
        have := (hu a ha).2.2
        simp [this]
      have f2 : l.filter (fun a => !tags.contains a.tag) = [] := by
        rw [List.filter_eq_nil_iff]
        intro a ha
        have := (hr.tagMem b l hl a ha).1
        simp [this]
      rw [f1, f2, List.append_nil, hr.full b l hl _ ?_]
      intro a ha
      rw [List.any_eq_true]
      exact ⟨a, hp.mem_iff.mpr (List.mem_append_right _ ha), by simp⟩
    · intro a ha hmem
      rcases List.mem_append.mp (hp.mem_iff.mp ha) with ha | ha
      · exact absurd hmem (hu a ha).2.2
      · exact ha

theorem structOps_rt {β : Type} {fs : FieldsOps β} {tags : List Nat} {Ok : β → Prop}
    {mix : (Nat → Bool) → β → β} {norm : β → β} (hr : FieldsRT fs tags Ok mix norm) (flo fhi v : Int) (sup tg : Bool)
    (htg : tg = true → inRange flo fhi v = true) :
    FieldRT (structOps flo fhi v fs) sup tg (StructOk rtCover tags Ok) (structNorm norm) where
  rt := fun _ a e hOk hw => (structRT hr flo fhi v a hOk e hw).1
  ne := fun _ ht a e hOk hw _ => (structRT hr flo fhi v a hOk e hw).2 (htg ht)
  unsup := by intro h; exact absurd h (by simp [structOps])

theorem writeFixed_sup {c : Ctx} {v : Int} {b : Bytes} (h : c.supported v = true) : writeFixed c v b = .ok b := by
  simp [writeFixed, h]

theorem readFixed_sup {α : Type} {c : Ctx} {v : Int} {d : Dec α} {cur : α} (h : c.supported v = true) :
    readFixed c v d cur = d := by
  simp [readFixed, h]

theorem lenPrefix_ne (f : Bool) (k : Nat) (n : Int) (hk : 0 < k) :
    (if f then putUvarint (wrapU 4 (n + 1)) else putInt k n) ≠ [] := by
  cases f with
  | true => exact putUvarint_ne_nil _
  | false =>
    have : (putInt k n).length = k := by simp
    intro h
    simp only [Bool.false_eq_true, ↓reduceIte] at h
    rw [h] at this; simp at this; omega

theorem writeStr_ne {c : Ctx} {v : Int} {s : NStr} {e : Bytes} (hs : c.supported v = true)
    (h : writeStr c v s = .ok e) : e ≠ [] := by
  unfold writeStr at h
  simp only [hs, Bool.not_true, Bool.false_eq_true, ↓reduceIte, writeLen_ok, writeUvarint32_ok] at h
  split at h
  · split at h
    · simp at h
    · split at h <;> injection h with h <;> subst h
      · exact putUvarint_ne_nil _
      · exact lenPrefix_ne false 2 _ (by decide)
  · split at h
    · simp at h
    · obtain ⟨e1, e2, h1, h2, rfl⟩ := wseq_eq_ok.mp h
      injection h1 with h1; subst h1
      exact List.append_ne_nil_of_left_ne_nil (lenPrefix_ne _ 2 _ (by decide)) _

theorem writeBytesF_ne {c : Ctx} {v : Int} {s : Option Bytes} {e : Bytes} (hs : c.supported v = true)
    (h : writeBytesF c v s = .ok e) : e ≠ [] := by
  unfold writeBytesF at h
  simp only [hs, Bool.not_true, Bool.false_eq_true, ↓reduceIte, writeLen_ok] at h
  split at h
  · split at h
    · simp at h
    · injection h with h; subst h; exact lenPrefix_ne _ 4 _ (by decide)
  · split at h
    · injection h with h; subst h; exact lenPrefix_ne _ 4 _ (by decide)
    · split at h
      · simp at h
      · obtain ⟨e1, e2, h1, h2, rfl⟩ := wseq_eq_ok.mp h
        injection h1 with h1; subst h1
        exact List.append_ne_nil_of_left_ne_nil (lenPrefix_ne _ 4 _ (by decide)) _

theorem writeRecordsF_ne {x : Ext} {c : Ctx} {v : Int} {s : RecBatches} {e : Bytes} (hs : c.supported v = true)
    (h : writeRecordsF x c v s = .ok e) : e ≠ [] := by
  unfold writeRecordsF at h
  simp only [hs, Bool.not_true, Bool.false_eq_true, ↓reduceIte, writeLen_ok, writeUvarint32_ok] at h
  split at h
  · split at h
    · simp at h
    · split at h <;> injection h with h <;> subst h
      · exact putUvarint_ne_nil _
      · exact lenPrefix_ne false 4 _ (by decide)
  · split at h
    · simp at h
    · split at h
      · split at h
        · simp at h
        · obtain ⟨e1, e2, h1, h2, rfl⟩ := wseq_eq_ok.mp h
          injection h1 with h1; subst h1
          exact List.append_ne_nil_of_left_ne_nil (putUvarint_ne_nil _) _
      · split at h
        · simp at h
        · obtain ⟨e1, e2, h1, h2, rfl⟩ := wseq_eq_ok.mp h
          injection h1 with h1; subst h1
          exact List.append_ne_nil_of_left_ne_nil (lenPrefix_ne false 4 _ (by decide)) _

theorem writeArr_ne {α : Type} {c : Ctx} {v : Int} {w : α → Res Bytes} {s : Option (List α)} {e : Bytes}
    (hs : c.supported v = true) (h : writeArr c v w s = .ok e) : e ≠ [] := by
  unfold writeArr at h
  simp only [hs, Bool.not_true, Bool.false_eq_true, ↓reduceIte, writeLen_ok] at h
  split at h
  · split at h
    · simp at h
    · injection h with h; subst h; exact lenPrefix_ne _ 4 _ (by decide)
  · split at h
    · injection h with h; subst h; exact lenPrefix_ne _ 4 _ (by decide)
    · obtain ⟨e1, e2, h1, h2, rfl⟩ := wseq_eq_ok.mp h
      injection h1 with h1; subst h1
      exact List.append_ne_nil_of_left_ne_nil (lenPrefix_ne _ 4 _ (by decide)) _

theorem ne_of_len {b : Bytes} {k : Nat} (h : b.length = k) (hk : 0 < k) : b ≠ [] := by
  intro h'; subst h'; simp at h; omega

theorem primOps_rt (x : Ext) (c : Ctx) (v : Int) (p : Prim) (d : Dflt) (tg : Bool) (hp : p.wf = true) :
    FieldRT (primOps x c v p d) (c.supported v) tg (PrimOk p) (primNorm x p) where
  rt := by
    intro hs a e hOk hw
    cases p with
    | bool =>
      simp only [primOps, primWrite, primRead, writeFixed_sup hs, readFixed_sup hs, Except.ok.injEq] at hw ⊢
      subst hw; exact RT.bool a
    | int k =>
      simp only [primOps, primWrite, primRead, writeFixed_sup hs, readFixed_sup hs, Except.ok.injEq] at hw ⊢
      subst hw; exact RT.int k (by simpa [Prim.wf] using hp) a hOk
    | u16 =>
      simp only [primOps, primWrite, primRead, writeFixed_sup hs, readFixed_sup hs, Except.ok.injEq] at hw ⊢
      subst hw; exact RT.uint 2 (by decide) a hOk
    | f64 =>
      simp only [primOps, primWrite, primRead, writeFixed_sup hs, readFixed_sup hs, Except.ok.injEq] at hw ⊢
      subst hw; exact RT.uint 8 (by decide) a hOk
    | uuid =>
      simp only [primOps, primWrite, primRead, writeFixed_sup hs, readFixed_sup hs, Except.ok.injEq] at hw ⊢
      subst hw; exact RT.uuid a hOk
    | str => exact RT.str _ hs hw
    | bytes =>
      have : primDflt Prim.bytes d = none := by cases d <;> rfl
      simp only [primOps, primRead, this]
      exact RT.bytesF hs hw
    | records =>
      have : primDflt Prim.records d = ⟨[], false⟩ := by cases d <;> rfl
      simp only [primOps, primRead, this]
      exact RT.recordsF hs hOk hw
  ne := by
    intro hs _ a e hOk hw _
    cases p with
    | bool =>
      simp only [primOps, primWrite, writeFixed_sup hs, Except.ok.injEq] at hw
      subst hw; simp [putBool]
    | int k =>
      simp only [primOps, primWrite, writeFixed_sup hs, Except.ok.injEq] at hw
      subst hw; exact ne_of_len (k := k) (by simp) (by simpa [Prim.wf] using hp)
    | u16 =>
      simp only [primOps, primWrite, writeFixed_sup hs, Except.ok.injEq] at hw
      subst hw; exact ne_of_len (k := 2) (by simp) (by decide)
    | f64 =>
      simp only [primOps, primWrite, writeFixed_sup hs, Except.ok.injEq] at hw
      subst hw; exact ne_of_len (k := 8) (by simp) (by decide)
    | uuid =>
      simp only [primOps, primWrite, writeFixed_sup hs, Except.ok.injEq] at hw
      subst hw; exact ne_of_len hOk (by decide)
    | str => exact writeStr_ne hs hw
    | bytes => exact writeBytesF_ne hs hw
    | records => exact writeRecordsF_ne hs hw
  unsup := by
    intro _ hs a
    cases p <;>
      simp [primOps, primWrite, primRead, writeFixed, readFixed, writeStr, readStr, writeBytesF, readBytesF,
        writeRecordsF, readRecordsF, hs]

theorem arrOps_rt {α : Type} (c : Ctx) (v : Int) (zero : α) (el : FieldOps α) (tg tg' sup' : Bool) (Ok : α → Prop)
    (norm : α → α) (hz : zero = el.dflt) (hs' : c.supported v = true → sup' = true) (h : FieldRT el sup' tg' Ok norm) :
    FieldRT (arrOps c v zero el) (c.supported v) tg (ArrOk c v Ok) (fun a => a.map (·.map norm)) where
  rt := by
    intro hs a e hOk hw
    subst hz
    exact RT.arr el.write (el.read el.dflt) norm a hs (fun l hl => (hOk l hl).1)
      (fun l hl b hb e hw => h.rt (hs' hs) b e ((hOk l hl).2 b hb) hw) e hw
  ne := fun hs _ a e _ hw _ => writeArr_ne hs hw
  unsup := by intro _ hs a; simp [arrOps, writeArr, readArr, hs]

/-- the value of the fields after the untagged part and the tags in `D`; (proof helper; models no code.) -/
def Sch.mix (x : Ext) (v : Int) (D : Nat → Bool) : (s : Sch) → s.Val → s.Val
  | .nil, _ => ()
  | .prim c _ p d rest, (a, b) =>
    (fieldMix c v (primDflt p d) (tagNonDefault p d) (primNorm x p) D a, rest.mix x v D b)
  | .arr c _ p rest, (a, b) =>
    (fieldMix c v none (fun a => decide (0 < (a.getD []).length)) (fun a => a.map (·.map (primNorm x p))) D a,
     rest.mix x v D b)
  | .struct c _ flo fhi sub rest, (a, b) =>
    (fieldMix c v ⟨false, (sub.ops x v).dflt, []⟩ (structOps flo fhi v (sub.ops x v)).nonDefault
      (structNorm (sub.norm x v)) D a, rest.mix x v D b)
  | .arrS c _ _ _ sub rest, (a, b) =>
    (fieldMix c v none (fun a => decide (0 < (a.getD []).length)) (fun a => a.map (·.map (structNorm (sub.norm x v)))) D a,
     rest.mix x v D b)

theorem FieldsRT.of_eq {β : Type} {fs : FieldsOps β} {tags : List Nat} {Ok Ok' : β → Prop}
    {mix mix' : (Nat → Bool) → β → β} {norm norm' : β → β} (h : FieldsRT fs tags Ok mix norm)
    (h1 : Ok' = Ok) (h2 : mix' = mix) (h3 : norm' = norm) : FieldsRT fs tags Ok' mix' norm' := by
  subst h1 h2 h3; exact h

/-- every well-formed schema reads back -/
theorem Sch.rt (x : Ext) (v : Int) (s : Sch) (flex : Bool) (h : s.wf v flex = true) :
    FieldsRT (s.ops x v) s.tags (s.Ok rtCover x v) (fun D => s.mix x v D) (s.norm x v) := by
  induction s generalizing flex with
  | nil => exact nilFields_rt
  | prim c ig p d rest ih =>
    simp only [Sch.wf, Bool.and_eq_true, Bool.not_eq_true'] at h
    refine (consField_rt (ig := ig) (primOps_rt x c v p d (c.tagged v) h.1.1.2) (ih flex h.2) h.1.1.1 h.1.2).of_eq ?_ ?_ ?_
      <;> rfl
  | arr c ig p rest ih =>
    simp only [Sch.wf, Bool.and_eq_true, Bool.not_eq_true'] at h
    refine (consField_rt (ig := ig) (arrOps_rt c v p.zero (primOps x c v p .none) (c.tagged v) false (c.supported v)
      (PrimOk p) (primNorm x p) (by cases p <;> rfl) id (primOps_rt x c v p .none false h.1.1.2))
      (ih flex h.2) h.1.1.1 h.1.2).of_eq ?_ ?_ ?_ <;> rfl
  | struct c ig flo fhi sub rest ihs ih =>
    simp only [Sch.wf, Bool.and_eq_true, Bool.not_eq_true', Bool.or_eq_true] at h
    refine (consField_rt (ig := ig) (structOps_rt (ihs _ h.1.1.2) flo fhi v (c.supported v) (c.tagged v) (fun ht => ?_))
      (ih flex h.2) h.1.1.1.1 h.1.2).of_eq ?_ ?_ ?_
    · rcases h.1.1.1.2 with h' | h'
      · rw [ht] at h'; simp at h'
      · exact h'
    all_goals rfl
  | arrS c ig flo fhi sub rest ihs ih =>
    simp only [Sch.wf, Bool.and_eq_true, Bool.not_eq_true'] at h
    refine (consField_rt (ig := ig) (arrOps_rt c v _ (structOps flo fhi v (sub.ops x v)) (c.tagged v) false true
      _ _ rfl (fun _ => rfl) (structOps_rt (ihs _ h.1.1.2) flo fhi v true false (by simp)))
      (ih flex h.2) h.1.1.1 h.1.2).of_eq ?_ ?_ ?_ <;> rfl

/-- every message reads back -/
theorem Msg.rt (m : Msg) (x : Ext) (v : Int) (hwf : m.wf v = true) (s : m.Val) (hOk : m.Ok rtCover x v s) (e : Bytes)
    (hw : m.write x v s = .ok e) : RT e (m.read x v) (m.norm x v s) :=
  (structRT (m.fields.rt x v _ hwf) m.flo m.fhi v s hOk e hw).1

end Verif.Kafka
