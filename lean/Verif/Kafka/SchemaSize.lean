import Verif.Kafka.SchemaLemmas
/- SizeInBytes of generated structs equals the number of bytes written. -/
namespace Verif.Kafka
open Verif

/-- size of a field type; (proof helper; models no code.) -/
structure FieldSz {α : Type} (f : FieldOps α) (sup : Bool) (Ok : α → Prop) : Prop where
  sz : ∀ a e, Ok a → f.write a = .ok e → f.size a = .ok e.length
  unsup : f.isStruct = false → sup = false → ∀ a, f.write a = .ok [] ∧ f.size a = .ok 0

/-- announced size of the tagged fields in a list; (proof helper; models no code.) -/
def tagsSum (l : List RawTag) : Nat := (l.map fun a => uint32Size a.tag + uint32Size a.value.length + a.value.length).sum

/-- size of a field list; (proof helper; models no code.) -/
structure FieldsSz {β : Type} (fs : FieldsOps β) (Ok : β → Prop) : Prop where
  sz : ∀ b e, Ok b → fs.writeFields b = .ok e → fs.sizeFields b = .ok e.length
  tsz : ∀ b l, Ok b → fs.tagged b = .ok l → (∀ a ∈ l, a.value.length < 2^32) → fs.taggedSize b = .ok (tagsSum l)

theorem sadd_ok (a b : Nat) : sadd (.ok a) (.ok b) = .ok (a + b) := rfl

theorem consField_sz {α β : Type} {c : Ctx} {ig : Bool} {v : Int} {flex : Bool} {f : FieldOps α} {rest : FieldsOps β}
    {OkF : α → Prop} {Ok : β → Prop} (hf : FieldSz f (c.supported v) OkF) (hr : FieldsSz rest Ok)
    (_ : c.wf v flex = true) (hst : f.isStruct = true → (c.onlyTagged || c.tagged v || c.supported v) = true) :
    FieldsSz (consField c ig v f rest) (fun p => (carried c v f.nonDefault p.1 → OkF p.1) ∧ Ok p.2) where
  sz := by
    rintro ⟨a, b⟩ e ⟨hOk, hOkr⟩ hw
    simp only [consField] at hw ⊢
    obtain ⟨e1, e2, h1, h2, rfl⟩ := wseq_eq_ok.mp hw
    rw [hr.sz b e2 hOkr h2, List.length_append, ← sadd_ok]
    congr 1
    unfold carried at hOk
    by_cases hta : c.tagged v = true
    · simp only [hta, Bool.or_true, ↓reduceIte, Except.ok.injEq] at h1 ⊢
      subst h1; rfl
    · simp only [Bool.not_eq_true] at hta
      by_cases ho : c.onlyTagged = true
      · simp only [hta, ho, Bool.true_or, ↓reduceIte, Except.ok.injEq] at h1 ⊢
        subst h1; rfl
      · simp only [Bool.not_eq_true] at ho
        simp only [hta, ho, Bool.or_self, Bool.false_eq_true, ↓reduceIte, Bool.not_false, Bool.true_and, Bool.false_or]
          at h1 hOk hst ⊢
        by_cases hs : c.supported v = true
        · simp only [hs, Bool.not_true, Bool.and_false, Bool.false_eq_true, ↓reduceIte, forall_const] at h1 hOk
          exact hf.sz a e1 hOk h1
        · simp only [Bool.not_eq_true] at hs
          cases hi : f.isStruct with
          | true => have := hst hi; rw [hs] at this; simp at this
          | false =>
            obtain ⟨u1, u2⟩ := hf.unsup hi hs a
            simp only [hi, Bool.false_and, Bool.false_eq_true, ↓reduceIte, u1, Except.ok.injEq] at h1
            subst h1; exact u2
  tsz := by
    rintro ⟨a, b⟩ l ⟨hOk, hOkr⟩ hl hb
    rcases consField_tagged hl with ⟨t, w, l', htag, htv, hnd, hw, hl', rfl, _⟩ | ⟨hn, hl'⟩
    · have hc1 : carried c v f.nonDefault a = true := by simp [carried, htv, hnd]
      have hsz := hf.sz a w (hOk hc1) hw
      have hlt : w.length < 2^32 := hb ⟨t, w⟩ (List.mem_cons_self ..)
      simp only [consField, htag, htv, hnd, Bool.and_self, ↓reduceIte, hsz]
      rw [if_neg (by omega), hr.tsz b l' hOkr hl' (fun a ha => hb a (List.mem_cons_of_mem _ ha)), sadd_ok]
      congr 1
      simp only [tagsSum, List.map_cons, List.sum_cons]
      omega
    · have := hr.tsz b l hOkr hl' hb
      simp only [consField, hn, Bool.false_eq_true, ↓reduceIte, this]
      cases c.tag with
      | none => rfl
      | some t => simp [sadd_ok]

theorem nilFields_sz : FieldsSz nilFields (fun _ => True) where
  sz := by rintro b e - h; simp only [nilFields, Except.ok.injEq] at h ⊢; subst h; rfl
  tsz := by rintro b l - h _; simp only [nilFields, Except.ok.injEq] at h ⊢; subst h; rfl

theorem unknownSize_eq (l : List RawTag) (h : ∀ a ∈ l, a.value.length < 2^32) : unknownSize l = .ok (tagsSum l) := by
  induction l with
  | nil => rfl
  | cons a l ih =>
    have ha := h a (List.mem_cons_self ..)
    rw [unknownSize, if_neg (by omega), ih (fun b hb => h b (List.mem_cons_of_mem _ hb)), sadd_ok]
    simp only [tagsSum, List.map_cons, List.sum_cons]

theorem structSz {β : Type} {x : Ext} {fs : FieldsOps β} {tags : List Nat} {Ok OkR : β → Prop}
    {mix : (Nat → Bool) → β → β} {norm : β → β} (hr : FieldsRT fs tags OkR mix norm) (hz : FieldsSz fs Ok)
    (flo fhi v : Int) (s : StructVal β) (hOk : StructOk (sizeCover x) tags Ok s) (e : Bytes)
    (hw : structWrite flo fhi v fs s = .ok e) : structSize flo fhi v fs s = .ok e.length := by
  obtain ⟨-, hOkf, hu⟩ := hOk
  obtain ⟨isNil, b, unk⟩ := s
  unfold structWrite at hw
  unfold structSize
  cases isNil with
  | true => simp only [↓reduceIte, Except.ok.injEq] at hw ⊢; subst hw; rfl
  | false =>
    simp only [Bool.false_eq_true, ↓reduceIte] at hw ⊢
    split at hw
    · simp at hw
    rename_i hv
    rw [if_neg hv]
    obtain ⟨e1, e2, h1, h2, rfl⟩ := wseq_eq_ok.mp hw
    rw [hz.sz b e1 hOkf h1, List.length_append, ← sadd_ok]
    congr 1
    cases hflex : inRange flo fhi v with
    | false =>
      simp only [hflex, Bool.not_false, ↓reduceIte] at h2 ⊢
      split at h2
      · simp at h2
      rename_i h0
      injection h2 with h2
      subst h2
      rw [if_neg (by omega), if_neg h0]
      rfl
    | true =>
      simp only [hflex, Bool.not_true, Bool.false_eq_true, ↓reduceIte] at h2 ⊢
      split at h2
      · simp at h2
      rename_i l hl
      have htag : ∀ a ∈ unk ++ l, a.tag < 2^32 := by
        intro a ha
        rcases List.mem_append.mp ha with ha | ha
        · exact hu a ha
        · exact (hr.tagMem b l hl a ha).2
      obtain ⟨hlen, hnd, hfit, rfl⟩ := (writeRawTags_ok htag).mp h2
      have hcnt := hr.cnt b l hl
      rw [← hcnt]
      rw [List.length_append] at hlen
      rw [if_neg (by omega), hz.tsz b l hOkf hl (fun a ha => (hfit a (List.mem_append_right _ ha)).2),
        unknownSize_eq unk (fun a ha => (hfit a (List.mem_append_left _ ha)).2), sadd_ok, sadd_ok]
      congr 1
      rw [List.length_append, List.length_append, uint32Size_eq _ hlen, encTags_sort_length _ hfit]
      simp only [tagsSum, List.map_append, List.sum_append]
      omega

theorem primOps_sz (x : Ext) (c : Ctx) (v : Int) (p : Prim) (d : Dflt) :
    FieldSz (primOps x c v p d) (c.supported v) ((sizeCover x).prim p) where
  sz := by
    intro a e hOk hw
    cases hs : c.supported v with
    | false =>
      cases p <;>
        simp_all [primOps, primWrite, primSize, writeFixed, sizeFixed, writeStr, sizeStr, writeBytesF, sizeBytesF,
          writeRecordsF, sizeRecordsF] <;> subst hw <;> rfl
    | true =>
      cases p with
      | bool =>
        simp only [primOps, primWrite, primSize, sizeFixed, hs, writeFixed_sup hs, Except.ok.injEq] at hw ⊢
        subst hw; rfl
      | int k =>
        simp only [primOps, primWrite, primSize, sizeFixed, hs, writeFixed_sup hs, Except.ok.injEq] at hw ⊢
        subst hw; simp
      | u16 =>
        simp only [primOps, primWrite, primSize, sizeFixed, hs, writeFixed_sup hs, Except.ok.injEq] at hw ⊢
        subst hw; simp
      | f64 =>
        simp only [primOps, primWrite, primSize, sizeFixed, hs, writeFixed_sup hs, Except.ok.injEq] at hw ⊢
        subst hw; simp
      | uuid =>
        simp only [primOps, primWrite, primSize, sizeFixed, hs, writeFixed_sup hs, Except.ok.injEq] at hw ⊢
        subst hw
        have : a.length = 16 := hOk
        simp [this]
      | str => exact sizeStr_eq hw
      | bytes => exact sizeBytesF_eq hOk hw
      | records => exact sizeRecordsF_eq (fun b hb => (hOk b hb).1) (fun b hb => (hOk b hb).2) hw
  unsup := by
    intro _ hs a
    cases p <;>
      simp [primOps, primWrite, primSize, writeFixed, sizeFixed, writeStr, sizeStr, writeBytesF, sizeBytesF,
        writeRecordsF, sizeRecordsF, hs]

theorem arrOps_sz {α : Type} (c : Ctx) (v : Int) (zero : α) (el : FieldOps α) (Ok : α → Prop)
    (h : ∀ a e, Ok a → el.write a = .ok e → el.size a = .ok e.length) :
    FieldSz (arrOps c v zero el) (c.supported v) (ArrOk c v Ok) where
  sz := by
    intro a e hOk hw
    exact sizeArr_eq el.write el.size a (fun _ l hl => (hOk l hl).1)
      (fun _ l hl b hb e hw => h b e ((hOk l hl).2 b hb) hw) e hw
  unsup := by intro _ hs a; simp [arrOps, writeArr, sizeArr, hs]

theorem Sch.sz (x : Ext) (v : Int) (s : Sch) (flex : Bool) (h : s.wf v flex = true) (hs : s.structsSupported v = true) :
    FieldsSz (s.ops x v) (s.Ok (sizeCover x) x v) := by
  induction s generalizing flex with
  | nil => exact nilFields_sz
  | prim c ig p d rest ih =>
    simp only [Sch.wf, Bool.and_eq_true, Bool.not_eq_true'] at h
    exact consField_sz (ig := ig) (primOps_sz x c v p d) (ih flex h.2 hs) h.1.1.1 (by simp [primOps])
  | arr c ig p rest ih =>
    simp only [Sch.wf, Bool.and_eq_true, Bool.not_eq_true'] at h
    exact consField_sz (ig := ig) (arrOps_sz c v p.zero (primOps x c v p .none) _ (primOps_sz x c v p .none).sz)
      (ih flex h.2 hs) h.1.1.1 (by simp [arrOps])
  | struct c ig flo fhi sub rest ihs ih =>
    have hw := h
    simp only [Sch.wf, Bool.and_eq_true, Bool.not_eq_true', Bool.or_eq_true] at h
    simp only [Sch.structsSupported, Bool.and_eq_true] at hs
    exact consField_sz (ig := ig)
      ⟨fun a e hOk hw => structSz (sub.rt x v _ h.1.1.2) (ihs _ h.1.1.2 hs.1.2) flo fhi v a hOk e hw,
        by intro h; exact absurd h (by simp [structOps])⟩
      (ih flex h.2 hs.2) h.1.1.1.1 (fun _ => hs.1.1)
  | arrS c ig flo fhi sub rest ihs ih =>
    simp only [Sch.wf, Bool.and_eq_true, Bool.not_eq_true'] at h
    simp only [Sch.structsSupported, Bool.and_eq_true] at hs
    exact consField_sz (ig := ig) (arrOps_sz c v _ (structOps flo fhi v (sub.ops x v)) _
      (fun a e hOk hw => structSz (sub.rt x v _ h.1.1.2) (ihs _ h.1.1.2 hs.1) flo fhi v a hOk e hw))
      (ih flex h.2 hs.2) h.1.1.1 (by simp [arrOps])

/-- SizeInBytes of a message is the number of bytes Write produces -/
theorem Msg.sz (m : Msg) (x : Ext) (v : Int) (hwf : m.wf v = true) (hs : m.fields.structsSupported v = true)
    (s : m.Val) (hOk : m.Ok (sizeCover x) x v s) (e : Bytes) (hw : m.write x v s = .ok e) :
    m.size x v s = .ok e.length :=
  structSz (m.fields.rt x v _ hwf) (m.fields.sz x v _ hwf hs) m.flo m.fhi v s hOk e hw

end Verif.Kafka
