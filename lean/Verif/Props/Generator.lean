import Verif.Kafka.GeneratorLemmas
/-
C75: the generator turns every specification into a codec with the specified layout.
C77: nullable fields.
-/
namespace Verif.Props
open Verif Verif.Kafka Verif.Kafka.Layout

theorem within_iff {lo hi v : Int} : Wire.within lo hi v = true ↔ lo ≤ v ∧ v ≤ hi := by
  simp [Wire.within]

structure CtxOf (pc : PC) (f : FInfo) (c : Ctx) : Prop where
  versions : versionRange f.versions = some (c.lo, c.hi)
  nullable : rangeOr f.nullable (pc.nlo, pc.nhi) = some (c.nlo, c.nhi)
  flex : flexOf f.flex (pc.flo, pc.fhi) = some (c.flo, c.fhi)
  tag : c.tag = f.tag
  tagged : ∀ n, f.tag = some n → rangeOr f.tagged (-1, -1) = some (c.tlo, c.thi)

theorem fieldCtx_of {pc : PC} {f : FInfo} {c : Ctx} (h : fieldCtx pc f = some c) : CtxOf pc f c := by
  unfold fieldCtx at h
  simp only [Option.pure_def, Option.bind_eq_bind, Option.bind_eq_some_iff] at h
  obtain ⟨⟨lo, hi⟩, h1, ⟨nlo, nhi⟩, h2, ⟨flo, fhi⟩, h3, ⟨tlo, thi⟩, h4, h5⟩ := h
  injection h5 with h5
  subst h5
  refine ⟨h1, h2, h3, rfl, ?_⟩
  intro n hn
  simp [hn, h4]

/-- the properties of a field the theorems use -/
structure Usual (f : FInfo) : Prop where
  versions : plusLast f.versions = true
  flex : plusLast f.flex = true
  nullable : plusLast f.nullable = true
  tagged : plusLast f.tagged = true
  typ : ' ' ∉ f.typ
  dflt : plainDefault f.typ f.dflt = true
  within : taggedWithin f = true

theorem usual_cons {f : FInfo} {sub rest : FS} (h : usual (.cons f sub rest) = true) :
    Usual f ∧ usual sub = true ∧ usual rest = true := by
  simp only [usual, Bool.and_eq_true] at h
  obtain ⟨⟨⟨⟨⟨⟨⟨⟨h1, h2⟩, h3⟩, h4⟩, h5⟩, h6⟩, h7⟩, h8⟩, h9⟩ := h
  exact ⟨⟨h1, h2, h3, h4, by simpa using h5, h6, h7⟩, h8, h9⟩

theorem tagged_within {pc : PC} {f : FInfo} {c : Ctx} {v : Int} (hu : Usual f) (hc : CtxOf pc f c) (h0 : 0 ≤ v)
    (ht : Wire.isTagged c v = true) : Wire.within c.lo c.hi v = true := by
  simp only [Wire.isTagged, Bool.and_eq_true, Option.isSome_iff_exists] at ht
  obtain ⟨⟨n, hn⟩, hw⟩ := ht
  rw [hc.tag] at hn
  have h1 := hc.tagged n hn
  rw [within_iff] at hw
  unfold rangeOr at h1
  split at h1
  · injection h1 with h1
    have : c.tlo = -1 ∧ c.thi = -1 := by
      injection h1 with a b; exact ⟨a.symm, b.symm⟩
    omega
  · rename_i hne
    have := hu.within
    simp only [taggedWithin, hc.versions, h1, hne, decide_false, Bool.false_or, decide_eq_true_eq] at this
    rw [within_iff]
    omega

theorem shown_within {pc : PC} {f : FInfo} {c : Ctx} {v : Int} (hu : Usual f) (hc : CtxOf pc f c) (h0 : 0 ≤ v) :
    shown c v = Wire.within c.lo c.hi v := by
  have := tagged_within (v := v) hu hc h0
  unfold shown Wire.inPlace
  cases ht : Wire.isTagged c v
  · simp
  · simp [this ht]

theorem present_of {pc : PC} {f : FInfo} {c : Ctx} {v : Int} (hu : Usual f) (hc : CtxOf pc f c) (h0 : 0 ≤ v)
    (h : shown c v = true) : Present f v := by
  rw [shown_within hu hc h0, within_iff] at h
  exact ⟨c.lo, c.hi, versionRange_denotes hu.versions hc.versions, h⟩

theorem absent_of {pc : PC} {f : FInfo} {c : Ctx} {v : Int} (hu : Usual f) (hc : CtxOf pc f c) (h0 : 0 ≤ v)
    (h : ¬ shown c v = true) : Absent f v := by
  rw [shown_within hu hc h0, within_iff] at h
  exact ⟨c.lo, c.hi, versionRange_denotes hu.versions hc.versions, h⟩

theorem place_of {pc : PC} {f : FInfo} {c : Ctx} {v : Int} (hu : Usual f) (hc : CtxOf pc f c) (h0 : 0 ≤ v) :
    Place f v (place c v) := by
  unfold place Wire.isTagged
  cases hn : f.tag with
  | none => rw [hc.tag, hn]; exact .untagged hn
  | some n =>
    rw [hc.tag, hn]
    simp only [Option.isSome_some, Bool.true_and]
    have h1 := hc.tagged n hn
    unfold rangeOr at h1
    split at h1
    · rename_i he
      injection h1 with h1
      injection h1 with a b
      have : ¬ Wire.within c.tlo c.thi v = true := by rw [within_iff]; omega
      rw [if_neg this]
      exact .never hn he
    · have hd := versionRange_denotes hu.tagged h1
      split
      · rename_i hw
        rw [within_iff] at hw
        exact .tagged hn hd hw.1 hw.2
      · rename_i hw
        rw [within_iff] at hw
        exact .notYet hn hd hw

theorem flexible_range {s : List Char} {lo hi v : Int} {o : Bool} (hp : plusLast s = true) (h : versionRange s = some (lo, hi)) :
    Flexible o v s (Wire.within lo hi v) :=
  .range (versionRange_denotes hp h) within_iff

theorem flexible_of {pc : PC} {f : FInfo} {c : Ctx} {v : Int} (hu : Usual f) (hc : CtxOf pc f c) (h1 : v < 32767) :
    Flexible (Wire.within pc.flo pc.fhi v) v f.flex (Wire.within c.flo c.fhi v) := by
  have hf := hc.flex
  unfold flexOf at hf
  split at hf
  · rename_i hn
    injection hf with hf
    injection hf with a b
    have : f.flex = "none".toList := by simpa [isNone] using hn
    rw [this]
    have : Wire.within c.flo c.fhi v = false := by
      rw [← Bool.not_eq_true, within_iff]; omega
    rw [this]
    exact .none
  · unfold rangeOr at hf
    split at hf
    · rename_i he
      injection hf with hf
      injection hf with a b
      rw [he, ← a, ← b]
      exact .inherited
    · exact flexible_range hu.flex hf

/-- what a lookup of common structures has to satisfy -/
def LookOk (cm : List (List Char × FS)) (top : Bool) (v : Int) (look : List Char → Option (Int × Int × Sch)) : Prop :=
  ∀ n flo fhi s, look n = some (flo, fhi, s) →
    ∃ fs, (cm.find? fun p => p.1 == n) = some (n, fs) ∧ Wire.within flo fhi v = top ∧ Fields [] top v top fs (ofSch v s)

theorem genFields_layout {cm : List (List Char × FS)} {top : Bool} {v : Int} {look : List Char → Option (Int × Int × Sch)}
    (h0 : 0 ≤ v) (h1 : v < 32767) (hl : LookOk cm top v look) :
    ∀ (fs : FS) (pc : PC) (s : Sch), usual fs = true → genFields look pc fs = some s →
      Fields cm top v (Wire.within pc.flo pc.fhi v) fs (ofSch v s) := by
  intro fs
  induction fs with
  | nil =>
    intro pc s _ h
    simp only [genFields] at h
    injection h with h; subst h
    exact .nil
  | cons f sub rest ihs ihr =>
    intro pc s hu h
    obtain ⟨uf, us, ur⟩ := usual_cons hu
    unfold genFields at h
    simp only [Option.bind_eq_bind, Option.bind_eq_some_iff, Option.map_eq_some_iff] at h
    obtain ⟨c, hc, ty, hty, d, hd, here, hh, r, hr, hs⟩ := h
    subst hs
    have cc := fieldCtx_of hc
    have ir := ihr pc r ur hr
    by_cases hsh : shown c v = true
    · have hp := present_of uf cc h0 hsh
      have hpl := place_of (v := v) uf cc h0
      have hfl := flexible_of (v := v) uf cc h1
      -- types
      have hdp : ∀ p, ty = .prim p → PrimName f.typ p → DefaultOf p f.dflt (codeDefault p d) := by
        intro p hp' hn
        cases hj : f.dflt with
        | none => rw [hj] at hd; simp only [dfltOf] at hd; injection hd with hd; subst hd; exact noDefault p
        | some j =>
          rw [hj] at hd
          rw [hp'] at hd
          simp only [dfltOf] at hd
          exact castDflt_prim hn (by rw [← hj]; exact uf.dflt) hd
      have hda : (∃ p, ty = .arr p) ∨ (∃ n, ty = .arrS n) → ArrayDefault f.dflt := by
        intro ha
        cases hj : f.dflt with
        | none => trivial
        | some j => rw [hj] at hd; exact castDflt_arr ha hd
      have hds : ∀ n, ty = .struct n → f.dflt = none := by
        intro n hn
        cases hj : f.dflt with
        | none => rfl
        | some j => rw [hj, hn] at hd; simp [dfltOf, castDflt] at hd
      have htys : (∀ p, ty = .prim p → PrimName f.typ p) ∧ (∀ n, ty = .struct n → f.typ = n ∧ StructName f.typ) ∧
          (∀ p, ty = .arr p → ∃ n, f.typ = '[' :: ']' :: n ∧ PrimName n p) ∧
          (∀ n, ty = .arrS n → f.typ = '[' :: ']' :: n ∧ StructName n) := by
        unfold parseTy at hty
        split at hty
        · rename_i t e
          have hsp : ' ' ∉ t := by have := uf.typ; rw [e] at this; simp at this; exact this
          rw [trimSp_id hsp] at hty
          simp only at hty
          split at hty
          · rename_i hst
            injection hty with hty; subst hty
            refine ⟨(by intro p h; cases h), (by intro n h; cases h), (by intro p h; cases h), ?_⟩
            intro n h; injection h with h; subst h
            exact ⟨e, structTy_name hst⟩
          · simp only [Option.map_eq_some_iff] at hty
            obtain ⟨p, h1, h2⟩ := hty
            subst h2
            refine ⟨(by intro p h; cases h), (by intro n h; cases h), ?_, (by intro n h; cases h)⟩
            intro q h; injection h with h; subst h
            exact ⟨t, e, primTy_name h1⟩
        · split at hty
          · rename_i p hpt
            injection hty with hty; subst hty
            refine ⟨?_, (by intro n h; cases h), (by intro p h; cases h), (by intro n h; cases h)⟩
            intro q h; injection h with h; subst h
            exact primTy_name hpt
          · split at hty
            · rename_i hst
              injection hty with hty; subst hty
              refine ⟨(by intro p h; cases h), ?_, (by intro p h; cases h), (by intro n h; cases h)⟩
              intro n h; injection h with h
              exact ⟨h, structTy_name hst⟩
            · cases hty
      cases ty with
      | prim p =>
        simp only at hh
        split at hh
        · rename_i hsub
          injection hh with hh; subst hh hsub
          simp only [ofSch, hsh, if_true]
          exact .prim hp hpl hfl (htys.1 p rfl) (hdp p rfl (htys.1 p rfl)) ir
        · cases hh
      | arr p =>
        simp only at hh
        split at hh
        · rename_i hsub
          injection hh with hh; subst hh hsub
          simp only [ofSch, hsh, if_true]
          obtain ⟨n, e, hn⟩ := htys.2.2.1 p rfl
          exact .arr hp hpl hfl e hn (hda (Or.inl ⟨p, rfl⟩)) ir
        · cases hh
      | struct n =>
        obtain ⟨e, hn⟩ := htys.2.1 n rfl
        simp only at hh
        cases sub with
        | nil =>
          simp only [Option.map_eq_some_iff] at hh
          obtain ⟨⟨flo, fhi, sc⟩, hx, hy⟩ := hh
          subst hy
          obtain ⟨fs, g1, g2, g3⟩ := hl n flo fhi sc hx
          simp only [ofSch, hsh, if_true, g2]
          subst e
          exact .structCommon hp hpl hfl hn (hds _ rfl) g1 g3 ir
        | cons g gs gr =>
          simp only [Option.map_eq_some_iff] at hh
          obtain ⟨sc, hx, hy⟩ := hh
          subst hy
          simp only [ofSch, hsh, if_true]
          exact .struct hp hpl hfl hn (hds _ rfl) (ihs _ sc us hx) ir
      | arrS n =>
        obtain ⟨e, hn⟩ := htys.2.2.2 n rfl
        simp only at hh
        cases sub with
        | nil =>
          simp only [Option.map_eq_some_iff] at hh
          obtain ⟨⟨flo, fhi, sc⟩, hx, hy⟩ := hh
          subst hy
          obtain ⟨fs, g1, g2, g3⟩ := hl n flo fhi sc hx
          simp only [ofSch, hsh, if_true, g2]
          exact .arrSCommon hp hpl hfl e hn (hda (Or.inr ⟨n, rfl⟩)) g1 g3 ir
        | cons g gs gr =>
          simp only [Option.map_eq_some_iff] at hh
          obtain ⟨sc, hx, hy⟩ := hh
          subst hy
          simp only [ofSch, hsh, if_true]
          exact .arrS hp hpl hfl e hn (hda (Or.inr ⟨n, rfl⟩)) (ihs _ sc us hx) ir
    · have ha := absent_of uf cc h0 hsh
      have : ofSch v (here r) = ofSch v r := by
        cases ty with
        | prim p =>
          simp only at hh
          split at hh
          · injection hh with hh; subst hh; simp only [ofSch, hsh]; simp
          · cases hh
        | arr p =>
          simp only at hh
          split at hh
          · injection hh with hh; subst hh; simp only [ofSch, hsh]; simp
          · cases hh
        | struct n =>
          cases sub with
          | nil =>
            simp only [Option.map_eq_some_iff] at hh
            obtain ⟨x, hx, hy⟩ := hh
            subst hy; simp only [ofSch, hsh]; simp
          | cons g gs gr =>
            simp only [Option.map_eq_some_iff] at hh
            obtain ⟨x, hx, hy⟩ := hh
            subst hy; simp only [ofSch, hsh]; simp
        | arrS n =>
          cases sub with
          | nil =>
            simp only [Option.map_eq_some_iff] at hh
            obtain ⟨x, hx, hy⟩ := hh
            subst hy; simp only [ofSch, hsh]; simp
          | cons g gs gr =>
            simp only [Option.map_eq_some_iff] at hh
            obtain ⟨x, hx, hy⟩ := hh
            subst hy; simp only [ofSch, hsh]; simp
      rw [this]
      exact .absent ha ir

theorem genCommon_find {pc : PC} {n : List Char} {s : Sch} : ∀ {cm : List (List Char × FS)} {l : List (List Char × Sch)} {k : List Char},
    genCommon pc cm = some l → (l.find? fun p => p.1 == n) = some (k, s) →
    k = n ∧ ∃ fs, (cm.find? fun p => p.1 == n) = some (n, fs) ∧ (n, fs) ∈ cm ∧ genFields (fun _ => none) pc fs = some s := by
  intro cm
  induction cm with
  | nil => intro l k h; simp only [genCommon] at h; injection h with h; subst h; simp
  | cons x r ih =>
    obtain ⟨m, fs⟩ := x
    intro l k h hf
    simp only [genCommon, Option.bind_eq_bind, Option.bind_eq_some_iff, Option.pure_def] at h
    obtain ⟨a, ha, b, hb, hx⟩ := h
    injection hx with hx; subst hx
    by_cases hm : m = n
    · subst hm
      simp only [List.find?_cons, beq_self_eq_true] at hf
      injection hf with hf; injection hf with hf1 hf2
      subst hf1 hf2
      exact ⟨rfl, fs, by simp, by simp, ha⟩
    · have : (m == n) = false := by simpa using hm
      simp only [List.find?_cons, this] at hf
      obtain ⟨h1, fs', h2, h3, h4⟩ := ih hb hf
      exact ⟨h1, fs', by simp [this, h2], by simp [h3], h4⟩

/-- **C75** For every message specification written in the usual form (version strings with a plus sign only at the end,
tagged versions among the versions …) that the generator accepts, and every version: the generated codec sends exactly the
specified fields, in the specified order, each with its specified type, default, tag and length format, and ends with a
tagged field section exactly if the specification makes the version flexible. -/
theorem C75_layout {m : MSpec} {g : GMsg} {v : Int} (hu : usualMessage m = true) (h : genMsg m = some g) (h0 : 0 ≤ v)
    (h1 : v < 32767) : Message m v (Wire.within g.msg.flo g.msg.fhi v) (ofSch v g.msg.fields) := by
  simp only [usualMessage, Bool.and_eq_true, List.all_eq_true] at hu
  obtain ⟨⟨⟨_, hpf⟩, hcu⟩, hfu⟩ := hu
  unfold genMsg at h
  simp only [Option.bind_eq_bind, Option.bind_eq_some_iff, Option.pure_def] at h
  obtain ⟨⟨lo, hi⟩, hv, ⟨flo, fhi⟩, hf, cs, hc, s, hs, hg⟩ := h
  injection hg with hg; subst hg
  simp only
  refine ⟨?_, ?_⟩
  · have no : (flo, fhi) = ((32767 : Int), (32767 : Int)) → Wire.within flo fhi v = false := by
      intro e
      injection e with a b
      rw [← Bool.not_eq_true, within_iff]; omega
    unfold flexOf at hf
    split at hf
    · rename_i hn
      injection hf with hf
      rw [no hf.symm]
      have : m.flex = "none".toList := by simpa [isNone] using hn
      rw [this]; exact .none
    · unfold rangeOr at hf
      split at hf
      · rename_i he
        injection hf with hf
        rw [no hf.symm, he]; exact .inherited
      · exact flexible_range hpf hf
  · refine genFields_layout h0 h1 ?_ m.fields ⟨flo, fhi, 0, 0⟩ s hfu hs
    intro n a b sc hl
    simp only [lookCommon, Option.map_eq_some_iff, Prod.mk.injEq] at hl
    obtain ⟨⟨k, sc'⟩, hk, rfl, rfl, rfl⟩ := hl
    obtain ⟨rfl, fs, e1, e2, e3⟩ := genCommon_find hc hk
    refine ⟨fs, e1, rfl, ?_⟩
    exact genFields_layout h0 h1 (by intro n a b s h; cases h) fs ⟨flo, fhi, 0, 0⟩ sc' (hcu _ e2) e3

/-- **C75** The supported versions are those of the specification. -/
theorem C75_versions {m : MSpec} {g : GMsg} (hu : usualMessage m = true) (h : genMsg m = some g) : Denotes m.valid g.lo g.hi := by
  simp only [usualMessage, Bool.and_eq_true] at hu
  unfold genMsg at h
  simp only [Option.bind_eq_bind, Option.bind_eq_some_iff, Option.pure_def] at h
  obtain ⟨⟨lo, hi⟩, hv, ⟨flo, fhi⟩, hf, cs, hc, s, hs, hg⟩ := h
  injection hg with hg; subst hg
  exact versionRange_denotes hu.1.1.1 hv

/-! ### the specification determines the layout -/

theorem flexible_unique {o : Bool} {v : Int} {s : List Char} {b b' : Bool} (h : Flexible o v s b) (h' : Flexible o v s b') :
    b = b' := by
  have nd : ∀ lo hi, ¬ Denotes [] lo hi := by
    intro lo hi h; have := C25_forms_parsed h
    rw [show versionRange [] = none by decide] at this; cases this
  have nn : ∀ lo hi, ¬ Denotes "none".toList lo hi := by
    intro lo hi h; have := C25_forms_parsed h
    rw [show versionRange "none".toList = none by decide] at this; cases this
  generalize hs : s = t at h'
  cases h with
  | inherited =>
    cases h' with
    | inherited => rfl
    | none => exact absurd hs (by decide)
    | range hd _ => subst hs; exact absurd hd (nd _ _)
  | none =>
    cases h' with
    | inherited => exact absurd hs (by decide)
    | none => rfl
    | range hd _ => subst hs; exact absurd hd (nn _ _)
  | range hd hb =>
    cases h' with
    | inherited => subst hs; exact absurd hd (nd _ _)
    | none => subst hs; exact absurd hd (nn _ _)
    | range hd' hb' =>
      subst hs
      obtain ⟨rfl, rfl⟩ := denotes_unique hd hd'
      exact Bool.eq_iff_iff.mpr (hb.trans hb'.symm)

theorem place_unique {f : FInfo} {v : Int} {t t' : Option Nat} (h : Place f v t) (h' : Place f v t') : t = t' := by
  have nd : ∀ lo hi, f.tagged = [] → ¬ Denotes f.tagged lo hi := by
    intro lo hi e h; rw [e] at h; have := C25_forms_parsed h
    rw [show versionRange [] = none by decide] at this; cases this
  cases h with
  | untagged e => cases h' with
    | untagged => rfl
    | never => rfl
    | tagged e' => rw [e] at e'; cases e'
    | notYet => rfl
  | never e e2 => cases h' with
    | untagged => rfl
    | never => rfl
    | tagged e' hd => exact absurd hd (nd _ _ e2)
    | notYet => rfl
  | tagged e hd h1 h2 => cases h' with
    | untagged e' => rw [e] at e'; cases e'
    | never e' e2 => exact absurd hd (nd _ _ e2)
    | tagged e' => rw [← e, ← e']
    | notYet e' hd' hn =>
      obtain ⟨rfl, rfl⟩ := denotes_unique hd hd'
      exact absurd ⟨h1, h2⟩ hn
  | notYet e hd hn => cases h' with
    | untagged => rfl
    | never => rfl
    | tagged e' hd' h1 h2 =>
      obtain ⟨rfl, rfl⟩ := denotes_unique hd hd'
      exact absurd ⟨h1, h2⟩ hn
    | notYet => rfl

theorem prim_unique {s : List Char} {p q : Prim} (h : PrimName s p) (h' : PrimName s q) : p = q := by
  have := name_primTy h
  rw [name_primTy h'] at this
  injection this with this
  exact this.symm

theorem prim_not_struct {s : List Char} {p : Prim} (h : PrimName s p) (h' : StructName s) : False := by
  obtain ⟨c, r, e, h1, h2⟩ := h'
  cases h <;> (injection e with e1 _; subst e1; revert h1 h2; decide)

theorem prim_not_arr {s : List Char} {p : Prim} (h : PrimName ('[' :: s) p) : False := by
  have := name_primTy h
  generalize hs : '[' :: s = t at h
  cases h <;> (injection hs with e _; revert e; decide)

theorem struct_not_arr {s : List Char} (h : StructName ('[' :: s)) : False := by
  obtain ⟨c, r, e, h1, h2⟩ := h
  injection e with e1 _; subst e1; revert h1 h2; decide

theorem present_absent {f : FInfo} {v : Int} (h : Present f v) (h' : Absent f v) : False := by
  obtain ⟨lo, hi, hd, h1⟩ := h
  obtain ⟨lo', hi', hd', h2⟩ := h'
  obtain ⟨rfl, rfl⟩ := denotes_unique hd hd'
  exact h2 h1

theorem lit_unique {s : List Char} {i j : Int} (h : IntLit s i) (h' : IntLit s j) : i = j := by
  have xd : ¬ IsDigit 'x' := by unfold IsDigit; decide
  induction h generalizing j with
  | dec hne hd =>
    cases h' with
    | dec => rfl
    | hex => exact absurd (hd 'x' (by simp)) xd
    | neg => exact absurd (hd '-' (by simp)) minus_not_digit
  | hex hne hh =>
    cases h' with
    | dec _ hd => exact absurd (hd 'x' (by simp)) xd
    | hex => rfl
  | neg hl h0 ih =>
    cases h' with
    | dec _ hd => exact absurd (hd '-' (by simp)) minus_not_digit
    | neg hl' => rw [ih hl']

theorem default_unique {p : Prim} {j : Option JVal} {d d' : Default} (h : DefaultOf p j d) (h' : DefaultOf p j d') : d = d' := by
  generalize hj : j = k at h'
  cases h <;> cases h' <;> first
    | rfl
    | (cases hj; done)
    | (injection hj with hj; injection hj with hj; subst hj; rfl)
    | (injection hj with hj; injection hj with hj; subst hj; rename_i a _ b; rw [lit_unique a b])
    | (injection hj with hj; injection hj with hj; exact absurd hj (by decide))
    | (injection hj with hj; injection hj with hj; subst hj; contradiction)

theorem fields_unique {cm : List (List Char × FS)} {top : Bool} {v : Int} {fl : Bool} {fs : FS} {l l' : Lay}
    (h : Fields cm top v fl fs l) (h' : Fields cm top v fl fs l') : l = l' := by
  induction h generalizing l' with
  | nil => cases h'; rfl
  | absent ha hr ih =>
    cases h' with
    | absent _ hr' => exact ih hr'
    | prim hp => exact (present_absent hp ha).elim
    | arr hp => exact (present_absent hp ha).elim
    | struct hp => exact (present_absent hp ha).elim
    | arrS hp => exact (present_absent hp ha).elim
    | structCommon hp => exact (present_absent hp ha).elim
    | arrSCommon hp => exact (present_absent hp ha).elim
  | prim hp hpl hfl hn hd hr ih =>
    cases h' with
    | absent ha => exact (present_absent hp ha).elim
    | prim _ hpl' hfl' hn' hd' hr' =>
      have := prim_unique hn hn'
      subst this
      rw [place_unique hpl hpl', flexible_unique hfl hfl', default_unique hd hd', ih hr']
    | arr _ _ _ e => rw [e] at hn; exact (prim_not_arr hn).elim
    | structCommon _ _ _ hs => exact (prim_not_struct hn hs).elim
    | arrSCommon _ _ _ e => rw [e] at hn; exact (prim_not_arr hn).elim
  | arr hp hpl hfl e hn hd hr ih =>
    cases h' with
    | absent ha => exact (present_absent hp ha).elim
    | prim _ _ _ hn' => rw [e] at hn'; exact (prim_not_arr hn').elim
    | arr _ hpl' hfl' e' hn' hd' hr' =>
      rw [e] at e'
      injection e' with _ e'; injection e' with _ e'; subst e'
      rw [prim_unique hn hn', place_unique hpl hpl', flexible_unique hfl hfl', ih hr']
    | structCommon _ _ _ hs => rw [e] at hs; exact (struct_not_arr hs).elim
    | arrSCommon _ _ _ e' hs =>
      rw [e] at e'
      injection e' with _ e'; injection e' with _ e'; subst e'
      exact (prim_not_struct hn hs).elim
  | struct hp hpl hfl hs hd hsub hr ihs ih =>
    cases h' with
    | absent ha => exact (present_absent hp ha).elim
    | struct _ hpl' hfl' hs' hd' hsub' hr' =>
      have := flexible_unique hfl hfl'
      subst this
      rw [place_unique hpl hpl', ihs hsub', ih hr']
    | arrS _ _ _ e => rw [e] at hs; exact (struct_not_arr hs).elim
  | arrS hp hpl hfl e hs hd hsub hr ihs ih =>
    cases h' with
    | absent ha => exact (present_absent hp ha).elim
    | struct _ _ _ hs' => rw [e] at hs'; exact (struct_not_arr hs').elim
    | arrS _ hpl' hfl' e' hs' hd' hsub' hr' =>
      have := flexible_unique hfl hfl'
      subst this
      rw [place_unique hpl hpl', ihs hsub', ih hr']
  | structCommon hp hpl hfl hs hd hc hsub hr ihs ih =>
    cases h' with
    | absent ha => exact (present_absent hp ha).elim
    | prim _ _ _ hn => exact (prim_not_struct hn hs).elim
    | arr _ _ _ e => rw [e] at hs; exact (struct_not_arr hs).elim
    | structCommon _ hpl' hfl' hs' hd' hc' hsub' hr' =>
      rw [hc] at hc'
      injection hc' with hc'; injection hc' with _ hc'; subst hc'
      rw [place_unique hpl hpl', ihs hsub', ih hr']
    | arrSCommon _ _ _ e => rw [e] at hs; exact (struct_not_arr hs).elim
  | arrSCommon hp hpl hfl e hs hd hc hsub hr ihs ih =>
    cases h' with
    | absent ha => exact (present_absent hp ha).elim
    | prim _ _ _ hn => rw [e] at hn; exact (prim_not_arr hn).elim
    | arr _ _ _ e' hn =>
      rw [e] at e'
      injection e' with _ e'; injection e' with _ e'; subst e'
      exact (prim_not_struct hn hs).elim
    | structCommon _ _ _ hs' => rw [e] at hs'; exact (struct_not_arr hs').elim
    | arrSCommon _ hpl' hfl' e' hs' hd' hc' hsub' hr' =>
      rw [e] at e'
      injection e' with _ e'; injection e' with _ e'; subst e'
      rw [hc] at hc'
      injection hc' with hc'; injection hc' with _ hc'; subst hc'
      rw [place_unique hpl hpl', flexible_unique hfl hfl', ihs hsub', ih hr']

/-- **C75** A specification determines the layout of a version uniquely, so the layout of the generated codec is *the*
layout specified. -/
theorem C75_unique {m : MSpec} {v : Int} {b b' : Bool} {l l' : Lay} (h : Message m v b l) (h' : Message m v b' l') :
    b = b' ∧ l = l' := by
  have := flexible_unique h.1 h'.1
  subst this
  exact ⟨rfl, fields_unique h.2 h'.2⟩

/-! ### nullable fields -/

theorem nullable_of {pc : PC} {f : FInfo} {c : Ctx} {v : Int} (hu : Usual f) (hc : CtxOf pc f c) :
    Nullable (Wire.within pc.nlo pc.nhi v) v f.nullable (Wire.within c.nlo c.nhi v) := by
  have hf := hc.nullable
  unfold rangeOr at hf
  split at hf
  · rename_i he
    injection hf with hf
    injection hf with a b
    rw [he, ← a, ← b]
    exact .unsaid
  · exact .range (versionRange_denotes hu.nullable hf) within_iff

theorem genFields_nulls {cm : List (List Char × FS)} {top : Bool} {v : Int} {look : List Char → Option (Int × Int × Sch)}
    (hl : ∀ n flo fhi s, look n = some (flo, fhi, s) → ∃ fs, (n, fs) ∈ cm ∧ Nulls id [] top v top fs s) :
    ∀ (fs : FS) (pc : PC) (s : Sch), usual fs = true → genFields look pc fs = some s →
      Nulls id cm top v (Wire.within pc.nlo pc.nhi v) fs s := by
  intro fs
  induction fs with
  | nil =>
    intro pc s _ h
    simp only [genFields] at h
    injection h with h; subst h
    exact .nil
  | cons f sub rest ihs ihr =>
    intro pc s hu h
    obtain ⟨uf, us, ur⟩ := usual_cons hu
    unfold genFields at h
    simp only [Option.bind_eq_bind, Option.bind_eq_some_iff, Option.map_eq_some_iff] at h
    obtain ⟨c, hc, ty, hty, d, hd, here, hh, r, hr, hs⟩ := h
    subst hs
    have cc := fieldCtx_of hc
    have ir := ihr pc r ur hr
    have hn := nullable_of (v := v) uf cc
    cases ty with
    | prim p =>
      simp only at hh
      split at hh
      · rename_i hsub
        injection hh with hh; subst hh hsub
        exact .prim hn ir
      · cases hh
    | arr p =>
      simp only at hh
      split at hh
      · rename_i hsub
        injection hh with hh; subst hh hsub
        exact .arr hn ir
      · cases hh
    | struct n =>
      simp only at hh
      cases sub with
      | nil =>
        simp only [Option.map_eq_some_iff] at hh
        obtain ⟨⟨flo, fhi, sc⟩, hx, hy⟩ := hh
        subst hy
        obtain ⟨fs, g1, g2⟩ := hl n flo fhi sc hx
        exact .structCommon hn g1 g2 ir
      | cons g gs gr =>
        simp only [Option.map_eq_some_iff] at hh
        obtain ⟨sc, hx, hy⟩ := hh
        subst hy
        exact .struct hn (ihs _ sc us hx) ir
    | arrS n =>
      simp only at hh
      cases sub with
      | nil =>
        simp only [Option.map_eq_some_iff] at hh
        obtain ⟨⟨flo, fhi, sc⟩, hx, hy⟩ := hh
        subst hy
        obtain ⟨fs, g1, g2⟩ := hl n flo fhi sc hx
        exact .arrSCommon hn g1 g2 ir
      | cons g gs gr =>
        simp only [Option.map_eq_some_iff] at hh
        obtain ⟨sc, hx, hy⟩ := hh
        subst hy
        exact .arrS hn (ihs _ sc us hx) ir

/-- **C77** What the generated codec does, for every specification and version: a field that says nothing about null takes
the answer of the closest enclosing field that does; where none does, null is allowed at version 0 only. -/
theorem C77_inherited {m : MSpec} {g : GMsg} {v : Int} (hu : usualMessage m = true) (h : genMsg m = some g) :
    Nulls id m.common (decide (v = 0)) v (decide (v = 0)) m.fields g.msg.fields := by
  simp only [usualMessage, Bool.and_eq_true, List.all_eq_true] at hu
  obtain ⟨⟨⟨_, _⟩, hcu⟩, hfu⟩ := hu
  unfold genMsg at h
  simp only [Option.bind_eq_bind, Option.bind_eq_some_iff, Option.pure_def] at h
  obtain ⟨⟨lo, hi⟩, hv, ⟨flo, fhi⟩, hf, cs, hc, s, hs, hg⟩ := h
  injection hg with hg; subst hg
  simp only
  have hz : Wire.within 0 0 v = decide (v = 0) := by
    unfold Wire.within; congr 1; exact propext ⟨fun h => by omega, fun h => by omega⟩
  have := genFields_nulls (cm := m.common) (top := decide (v = 0)) (v := v) (look := lookCommon ⟨flo, fhi, 0, 0⟩ cs) ?_ m.fields
    ⟨flo, fhi, 0, 0⟩ s hfu hs
  · simp only [hz] at this; exact this
  · intro n a b sc hl
    simp only [lookCommon, Option.map_eq_some_iff, Prod.mk.injEq] at hl
    obtain ⟨⟨k, sc'⟩, hk, rfl, rfl, rfl⟩ := hl
    obtain ⟨rfl, fs, e1, e2, e3⟩ := genCommon_find hc hk
    refine ⟨fs, e2, ?_⟩
    have := genFields_nulls (cm := []) (top := decide (v = 0)) (v := v) (look := fun _ => none) (by intro n a b s h; cases h)
      fs ⟨flo, fhi, 0, 0⟩ sc' (hcu _ e2) e3
    simp only [hz] at this; exact this

theorem nulls_flat {cm : List (List Char × FS)} {top o : Bool} {v : Int} {fs : FS} {s : Sch} (h : Nulls id cm top v o fs s)
    (ht : top = false) (ho : o = false) (hf : flatNulls fs = true) (hc : ∀ p ∈ cm, flatNulls p.2 = true) :
    Nulls (fun _ => false) cm false v false fs s := by
  induction h with
  | nil => exact .nil
  | prim hn hr ih =>
    simp only [flatNulls, Bool.and_eq_true] at hf
    subst ho; exact .prim hn (ih ht rfl hf.2 hc)
  | arr hn hr ih =>
    simp only [flatNulls, Bool.and_eq_true] at hf
    subst ho; exact .arr hn (ih ht rfl hf.2 hc)
  | struct hn hs hr ihs ih =>
    simp only [flatNulls, Bool.and_eq_true, Bool.or_eq_true, decide_eq_true_eq, reduceCtorEq, or_false] at hf
    subst ho
    have hw := hn
    rw [hf.1.1] at hw
    generalize hx : Wire.within _ _ _ = x at hw
    have : x = false := by
      cases hw with
      | unsaid => rfl
      | range hd => 
        have := C25_forms_parsed hd
        rw [show versionRange [] = none by decide] at this; cases this
    subst this
    exact .struct hn (ihs ht (by simpa using hx) (by simpa [flatNulls] using hf.1.2) hc) (ih ht rfl hf.2 hc)
  | arrS hn hs hr ihs ih =>
    simp only [flatNulls, Bool.and_eq_true, Bool.or_eq_true, decide_eq_true_eq, reduceCtorEq, or_false] at hf
    subst ho
    have hw := hn
    rw [hf.1.1] at hw
    generalize hx : Wire.within _ _ _ = x at hw
    have : x = false := by
      cases hw with
      | unsaid => rfl
      | range hd =>
        have := C25_forms_parsed hd
        rw [show versionRange [] = none by decide] at this; cases this
    subst this
    exact .arrS hn (ihs ht (by simpa using hx) (by simpa [flatNulls] using hf.1.2) hc) (ih ht rfl hf.2 hc)
  | structCommon hn hm hs hr ihs ih =>
    simp only [flatNulls, Bool.and_eq_true] at hf
    subst ho
    exact .structCommon hn hm (ihs ht ht (hc _ hm) (by simp)) (ih ht rfl hf.2 hc)
  | arrSCommon hn hm hs hr ihs ih =>
    simp only [flatNulls, Bool.and_eq_true] at hf
    subst ho
    exact .arrSCommon hn hm (ihs ht ht (hc _ hm) (by simp)) (ih ht rfl hf.2 hc)

/-- **C77** (partial) From version 1 on, if no structure is nullable: null is allowed exactly where the specification says. -/
theorem C77_as_specified_partial {m : MSpec} {g : GMsg} {v : Int} (hu : usualMessage m = true) (h : genMsg m = some g)
    (hf : flatNulls m.fields = true) (hc : ∀ p ∈ m.common, flatNulls p.2 = true) (h1 : 1 ≤ v) :
    NullsAsSpecified m v g.msg.fields :=
  nulls_flat (C77_inherited hu h) (by simp; omega) (by simp; omega) hf hc

end Verif.Props
