import Verif.Wasm.StatTags
/-
Property theorems C108 (the name of an Istio metric is taken apart into exactly its labels and base name) and C109 (the same for the
statistics of Envoy).
-/
namespace Verif.Props.StatTags
open Verif.Heimdall Verif.Wasm.StatTags

/-! ### the specification -/

/-- the form in which Istio's filter names a metric with labels -/
def render (l : List (Str × Str)) : Str := l.flatMap fun e => e.1 ++ "=.=".toList ++ e.2 ++ ";.;".toList

/-- a part of a name: no separator in it -/
def Plain (s : Str) : Prop := '.' ∉ s ∧ '=' ∉ s ∧ ';' ∉ s

/-- the labels known to the code -/
def known : List Str := "reporter".toList :: "response_code".toList :: istioLabels

/-- the labels of Istio's standard metrics -/
def metricLabels : List Str :=
  ["reporter", "source_workload", "source_canonical_service", "source_canonical_revision", "source_workload_namespace",
    "source_principal", "source_app", "source_version", "source_cluster", "source_namespace", "destination_workload",
    "destination_workload_namespace", "destination_principal", "destination_app", "destination_version", "destination_service",
    "destination_service_name", "destination_service_namespace", "destination_canonical_service", "destination_canonical_revision",
    "destination_port", "destination_cluster", "destination_namespace", "request_protocol", "request_operation", "request_host",
    "response_code", "response_flags", "grpc_response_status", "connection_security_policy"].map String.toList

/-- a label of a metric -/
structure GoodLabel (e : Str × Str) : Prop where
  label : e.1 ∈ metricLabels
  value : ∀ c ∈ e.2, c ≠ '=' ∧ c ≠ ';' ∧ c ≠ '\n'
  code : e.1 = "response_code".toList → e.2 ≠ []

/-! ### lemmas -/

theorem labels_known : ∀ k ∈ metricLabels, k ∈ known := by decide +kernel
theorem GoodLabel.key {e : Str × Str} (h : GoodLabel e) : e.1 ∈ known := labels_known _ h.label

theorem strip_some {w s r : Str} : strip w s = some r ↔ s = w ++ r := by
  induction w generalizing s with
  | nil => simp [strip, eq_comm]
  | cons a w ih =>
    cases s with
    | nil => simp [strip]
    | cons b s =>
      simp only [strip]
      split
      · rename_i h; subst h; rw [ih]; simp
      · rename_i h; simp; intro h'; exact absurd h'.symm h

theorem strip_app (w r : Str) : strip w (w ++ r) = some r := strip_some.mpr rfl

theorem lit_run (w s : Str) (c : Caps) (k : Str → Caps → Option Caps) :
    (lit w).run s c k = match strip w s with | none => none | some r => k r c := by
  induction w generalizing s with
  | nil => simp [lit, Re.run, strip]
  | cons a w ih =>
    simp only [lit, Re.run]
    cases s with
    | nil => simp [strip]
    | cons b s =>
      simp only [strip]
      by_cases h : a = b
      · subst h; simp [ih]
      · have : ¬ b = a := fun e => h e.symm
        simp [h, this]

theorem find_skip (re : Re) (x s : Str) (h : ∀ y z, x = y ++ z → z ≠ [] → re.at (z ++ s) = none) : find re (x ++ s) = find re s := by
  induction x with
  | nil => rfl
  | cons a x ih =>
    have h0 := h [] (a :: x) rfl (by simp)
    simp only [List.cons_append] at h0 ⊢
    rw [find, h0]
    exact ih fun y z e hz => h (a :: y) z (by rw [e]; rfl) hz

theorem find_none (re : Re) (x : Str) (h : ∀ y z, x = y ++ z → re.at z = none) : find re x = none := by
  induction x with
  | nil => exact h [] [] rfl
  | cons a x ih =>
    rw [find, h [] (a :: x) rfl]
    exact ih fun y z e => h (a :: y) z (by rw [e]; rfl)

def okc (c : Char) : Bool := c ≠ '=' && c ≠ ';'

theorem take_ok {x r : Str} {c : Char} (hx : ∀ a ∈ x, okc a = true) (hc : okc c = false) :
    (x ++ c :: r).takeWhile okc = x ∧ (x ++ c :: r).dropWhile okc = c :: r := by
  induction x with
  | nil => simp [hc]
  | cons a x ih =>
    have h1 := hx a (by simp)
    have h2 := ih fun b hb => hx b (by simp [hb])
    simp [h1, h2.1, h2.2]

/-- what a match of the pattern of a label needs -/
def Needs (re : Re) (k : Str) : Prop := ∀ s c, re.at s = some c → (∃ r, s = k ++ (sepV ++ r)) ∨ s = "_rq_.ddd".toList

/-- a key: one of the known ones -/
structure Key (k : Str) : Prop where
  ne : k ≠ []
  ok : ∀ a ∈ k, okc a = true
  dot : '.' ∉ k

theorem known_key : ∀ k ∈ known, Key k := by
  have : ∀ k ∈ known, k ≠ [] ∧ (∀ a ∈ k, okc a = true) ∧ '.' ∉ k := by decide +kernel
  exact fun k hk => ⟨(this k hk).1, (this k hk).2.1, (this k hk).2.2⟩

theorem known_suffix : ∀ a ∈ known, ∀ b ∈ known, a <:+ b → a = b := by decide +kernel

/-- a text whose first separator does not follow the key is no match -/
theorem no_at {re : Re} {k : Str} (hn : Needs re k) (hk : Key k) {x r : Str} {c : Char} (hx : ∀ a ∈ x, okc a = true) (hc : okc c = false)
    (hne : x ≠ k ∨ c ≠ '=') (hsemi : ';' ∈ x ++ c :: r) : re.at (x ++ c :: r) = none := by
  cases h : re.at (x ++ c :: r) with
  | none => rfl
  | some cs =>
    rcases hn _ _ h with ⟨r', hr⟩ | hr
    · have h1 := take_ok (r := r) hx hc
      have h2 := take_ok (x := k) (c := '=') (r := '.' :: '=' :: r') hk.ok rfl
      rw [hr] at h1
      have e1 : x = k := h1.1.symm.trans h2.1
      have e2 : c :: r = '=' :: '.' :: '=' :: r' := h1.2.symm.trans h2.2
      injection e2 with e2 _
      rcases hne with h | h
      · exact absurd e1 h
      · exact absurd e2 h
    · rw [hr] at hsemi; exact absurd hsemi (by decide)

theorem suffix_mem {α : Type} {x y z : List α} (h : x = y ++ z) {a : α} (ha : a ∈ z) : a ∈ x := by rw [h]; simp [ha]

/-- the end of a text -/
theorem find_end {re : Re} {k : Str} (hn : Needs re k) (x : Str) (hx : Plain x) : find re x = none := by
  refine find_none re x ?_
  intro y z e
  cases h : re.at z with
  | none => rfl
  | some c =>
    rcases hn _ _ h with ⟨r, hr⟩ | hr
    · exact absurd (suffix_mem e (a := '=') (by rw [hr]; simp [sepV])) hx.2.1
    · exact absurd (suffix_mem e (a := '.') (by rw [hr]; decide)) hx.1

/-- no match begins in `A` when `T` follows -/
def NoAt (re : Re) (A T : Str) : Prop := ∀ y z, A = y ++ z → z ≠ [] → re.at (z ++ T) = none

theorem noAt_nil (re : Re) (T : Str) : NoAt re [] T := by
  intro y z e hz
  have := congrArg List.length e
  simp at this; exact absurd (List.length_eq_zero_iff.mp (by omega)) hz

theorem noAt_append {re : Re} {A B T : Str} (h1 : NoAt re A (B ++ T)) (h2 : NoAt re B T) : NoAt re (A ++ B) T := by
  intro y z e hz
  rcases List.append_eq_append_iff.mp e with ⟨a, h3, h4⟩ | ⟨b, h3, h4⟩
  · exact h2 a z h4 hz
  · cases b with
    | nil => exact h2 [] z (by simpa using h4.symm) hz
    | cons c b => rw [h4, List.append_assoc]; exact h1 y (c :: b) h3 (by simp)

theorem noAt_cons {re : Re} {c : Char} {A T : Str} (h1 : re.at (c :: (A ++ T)) = none) (h2 : NoAt re A T) : NoAt re (c :: A) T := by
  refine noAt_append (A := [c]) ?_ h2
  intro y z e hz
  cases y with
  | nil => rw [← (show [c] = z from e)]; exact h1
  | cons a y => have := congrArg List.length e; simp at this; exact absurd this.2 hz

/-- a label with another key is passed over -/
theorem noAt_other {re : Re} {k : Str} (hn : Needs re k) (hk : Key k) (x v B : Str) (hx : ∀ a ∈ x, okc a = true) (hv : ∀ a ∈ v, okc a = true)
    (hs : ¬ k <:+ x) : NoAt re (x ++ (sepV ++ (v ++ sepF))) B := by
  have at0 : ∀ (c : Char) (r : Str), okc c = false → ';' ∈ c :: r → re.at (c :: r) = none := fun c r h1 h2 =>
    no_at (x := []) hn hk (by simp) h1 (Or.inl fun h => hk.ne h.symm) h2
  have atd : ∀ (c : Char) (r : Str), okc c = false → ';' ∈ '.' :: c :: r → re.at ('.' :: c :: r) = none := fun c r h1 h2 =>
    no_at (x := ['.']) hn hk (by decide) h1 (Or.inl fun h => hk.dot (h ▸ by simp)) h2
  refine noAt_append ?_ (noAt_append (A := sepV) ?_ (noAt_append ?_ ?_))
  · intro y z e _
    refine no_at (c := '=') hn hk (fun a ha => hx a (suffix_mem e ha)) rfl (Or.inl ?_) (by simp [sepF])
    intro h; exact hs ⟨y, by rw [e, h]⟩
  · show NoAt re ['=', '.', '='] _
    exact noAt_cons (at0 _ _ rfl (by simp [sepF])) (noAt_cons (atd _ _ rfl (by simp [sepF]))
      (noAt_cons (at0 _ _ rfl (by simp [sepF])) (noAt_nil _ _)))
  · intro y z e _
    exact no_at (c := ';') hn hk (fun a ha => hv a (suffix_mem e ha)) rfl (Or.inr (by decide)) (by simp)
  · show NoAt re [';', '.', ';'] _
    exact noAt_cons (at0 _ _ rfl (by simp)) (noAt_cons (atd _ _ rfl (by simp)) (noAt_cons (at0 _ _ rfl (by simp)) (noAt_nil _ _)))

theorem plain_ok {x : Str} (h : Plain x) : ∀ a ∈ x, okc a = true := by
  intro a ha
  have h1 : a ≠ '=' := fun e => h.2.1 (e ▸ ha)
  have h2 : a ≠ ';' := fun e => h.2.2 (e ▸ ha)
  simp [okc, h1, h2]

theorem plain_append {x y : Str} (h1 : Plain x) (h2 : Plain y) : Plain (x ++ y) := by
  refine ⟨?_, ?_, ?_⟩ <;> intro h <;> rcases List.mem_append.mp h with h | h
  · exact h1.1 h
  · exact h2.1 h
  · exact h1.2.1 h
  · exact h2.2.1 h
  · exact h1.2.2 h
  · exact h2.2.2 h

theorem plain_nil : Plain [] := ⟨by simp, by simp, by simp⟩

theorem value_ok {e : Str × Str} (h : GoodLabel e) : ∀ a ∈ e.2, okc a = true := by
  intro a ha
  have := h.value a ha
  simp [okc, this.1, this.2.1]

theorem not_suffix {k key pre : Str} (hk : k ∈ known) (hkey : key ∈ known) (hne : k ≠ key) : ¬ k <:+ pre ++ key := by
  rintro ⟨y, h⟩
  have h1 : k <:+ pre ++ key := ⟨y, h⟩
  have h2 : key <:+ pre ++ key := ⟨pre, rfl⟩
  rcases Nat.le_total k.length key.length with hl | hl
  · exact hne (known_suffix k hk key hkey (List.suffix_of_suffix_length_le h1 h2 hl))
  · exact hne (known_suffix key hkey k hk (List.suffix_of_suffix_length_le h2 h1 hl)).symm

theorem render_cons (e : Str × Str) (l : List (Str × Str)) : render (e :: l) = (e.1 ++ (sepV ++ (e.2 ++ sepF))) ++ render l := by
  simp [render, sepV, sepF]

theorem render_append (l1 l2 : List (Str × Str)) : render (l1 ++ l2) = render l1 ++ render l2 := by simp [render]

/-- no match begins in front of the labels with other keys -/
theorem noAt_render {re : Re} {k : Str} (hn : Needs re k) (hk : k ∈ known) (l : List (Str × Str)) (hl : ∀ e ∈ l, GoodLabel e)
    (ha : ∀ e ∈ l, e.1 ≠ k) (pre T : Str) (hp : Plain pre) (hT : l = [] → NoAt re pre T) : NoAt re (pre ++ render l) T := by
  induction l generalizing pre with
  | nil => simpa [render] using hT rfl
  | cons e l ih =>
    have he := hl e (by simp)
    rw [render_cons, ← List.append_assoc, ← List.append_assoc]
    refine noAt_append ?_ ?_
    · refine noAt_other hn (known_key k hk) _ _ _ ?_ (value_ok he) (not_suffix hk he.key fun h => ha e (by simp) h.symm)
      intro a ham
      rcases List.mem_append.mp ham with h | h
      · exact plain_ok hp a h
      · exact (known_key _ he.key).ok a h
    · have := ih (fun x hx => hl x (by simp [hx])) (fun x hx => ha x (by simp [hx])) [] plain_nil (fun _ => noAt_nil _ _)
      simpa using this

theorem find_absent {re : Re} {k : Str} (hn : Needs re k) (hk : k ∈ known) (l : List (Str × Str)) (hl : ∀ e ∈ l, GoodLabel e)
    (ha : ∀ e ∈ l, e.1 ≠ k) (pre name : Str) (hp : Plain pre) (hname : Plain name) : find re (pre ++ render l ++ name) = none := by
  by_cases hnil : l = []
  · subst hnil
    have : pre ++ render [] ++ name = pre ++ name := by simp [render]
    rw [this]
    exact find_end hn _ (plain_append hp hname)
  · rw [find_skip re _ name (noAt_render hn hk l hl ha pre name hp fun h => absurd h hnil)]
    exact find_end hn _ hname

/-- no match begins in front of the label with the key -/
theorem noAt_before {re : Re} {k : Str} (hn : Needs re k) (hk : k ∈ known) (l1 : List (Str × Str)) (hl : ∀ e ∈ l1, GoodLabel e)
    (ha : ∀ e ∈ l1, e.1 ≠ k) (pre v B : Str) (hp : Plain pre) : NoAt re (pre ++ render l1) (k ++ (sepV ++ (v ++ (sepF ++ B)))) := by
  refine noAt_render hn hk l1 hl ha pre _ hp fun _ => ?_
  have hkk := known_key k hk
  intro y z e hz
  rw [← List.append_assoc]
  refine no_at (c := '=') hn hkk ?_ rfl (Or.inl ?_) (by simp [sepF])
  · intro a ham
    rcases List.mem_append.mp ham with h | h
    · exact plain_ok hp a (suffix_mem e h)
    · exact hkk.ok a h
  · intro h
    have := congrArg List.length h
    simp at this; exact hz this

theorem find_here {re : Re} {c : Char} {s : Str} {m : Caps} (h : re.at (c :: s) = some m) : find re (c :: s) = some m := by rw [find, h]

/-- the first occurrence of a text is removed -/
theorem removeFirst_spec (w A B : Str) (hw : w ≠ []) (h : ∀ y z, A = y ++ z → z ≠ [] → strip w (z ++ (w ++ B)) = none) :
    removeFirst w (A ++ (w ++ B)) = A ++ B := by
  induction A with
  | nil =>
    cases w with
    | nil => exact absurd rfl hw
    | cons a w =>
      simp only [List.nil_append, List.cons_append]
      rw [removeFirst]
      have := strip_app (a :: w) B
      simp only [List.cons_append] at this
      rw [this]
  | cons a A ih =>
    have h0 := h [] (a :: A) rfl (by simp)
    simp only [List.cons_append] at h0 ⊢
    rw [removeFirst, h0]
    simp only
    rw [ih fun y z e hz => h (a :: y) z (by rw [e]; rfl) hz]

theorem lazy_value (v B : Str) (f : Str → Str → Caps) (hv : ∀ c ∈ v, c ≠ ';' ∧ c ≠ '\n') :
    lazyLoop dot (fun s3 => match strip sepF s3 with | none => none | some r => some (f s3 r)) (v ++ (sepF ++ B)) =
      some (f (sepF ++ B) B) := by
  induction v with
  | nil =>
    simp only [List.nil_append]
    show lazyLoop dot _ (';' :: '.' :: ';' :: B) = _
    rw [lazyLoop]
    have := strip_app sepF B
    rw [show sepF ++ B = ';' :: '.' :: ';' :: B from rfl] at this
    rw [this]; rfl
  | cons c v ih =>
    have hc := hv c (by simp)
    simp only [List.cons_append]
    rw [lazyLoop]
    have : strip sepF (c :: (v ++ (sepF ++ B))) = none := by
      have hne : ¬ ';' = c := fun h => hc.1 h.symm
      show (if ';' = c then _ else none) = none
      rw [if_neg hne]
    rw [this]
    simp only
    rw [if_pos (by simp [dot, hc.2])]
    exact ih fun x hx => hv x (by simp [hx])

theorem lazy_rest (p : Char → Bool) (k : Str → Option Caps) (s : Str) (c : Caps) (h : lazyLoop p k s = some c) :
    ∃ y z, s = y ++ z ∧ k z = some c := by
  induction s with
  | nil => exact ⟨[], [], rfl, h⟩
  | cons x s ih =>
    rw [lazyLoop] at h
    cases hk : k (x :: s) with
    | some r => rw [hk] at h; exact ⟨[], x :: s, rfl, by rw [hk]; exact h⟩
    | none =>
      rw [hk] at h
      simp only at h
      split at h
      · obtain ⟨y, z, e, hz⟩ := ih h
        exact ⟨x :: y, z, by rw [e]; rfl, hz⟩
      · cases h

/-- the pattern of a label: what it needs and what it finds -/
structure LabelLike (re : Re) (k : Str) : Prop where
  needs : Needs re k
  finds : ∀ v B, (∀ c ∈ v, c ≠ '=' ∧ c ≠ ';' ∧ c ≠ '\n') → (k = "response_code".toList → v ≠ []) →
    ∃ m, re.at (k ++ (sepV ++ (v ++ (sepF ++ B)))) = some m ∧ group m 1 = k ++ (sepV ++ (v ++ sepF)) ∧ group m 2 = v

theorem take_len {a b : Str} : (a ++ b).take ((a ++ b).length - b.length) = a := by
  have : (a ++ b).length - b.length = a.length := by simp
  rw [this]; simp

theorem label_like (k : Str) : LabelLike (labelRe k) k where
  needs := by
    intro s c h
    simp only [Re.at, labelRe, seqs, Re.run, lit_run] at h
    cases h1 : strip k s with
    | none => rw [h1] at h; cases h
    | some r =>
      rw [h1] at h; simp only at h
      cases h2 : strip sepV r with
      | none => rw [h2] at h; cases h
      | some r' => exact Or.inl ⟨r', by rw [strip_some.mp h1, strip_some.mp h2]⟩
  finds := by
    intro v B hv _
    refine ⟨[(1, k ++ (sepV ++ (v ++ sepF))), (2, v)], ?_, rfl, rfl⟩
    simp only [Re.at, labelRe, seqs, Re.run, lit_run, strip_app, any]
    rw [lazy_value v B (fun s3 r => [(1, (k ++ (sepV ++ (v ++ (sepF ++ B)))).take ((k ++ (sepV ++ (v ++ (sepF ++ B)))).length - r.length)),
      (2, (v ++ (sepF ++ B)).take ((v ++ (sepF ++ B)).length - s3.length))]) fun c hc => (hv c hc).2]
    have e : k ++ (sepV ++ (v ++ (sepF ++ B))) = (k ++ (sepV ++ (v ++ sepF))) ++ B := by simp
    rw [e, take_len, take_len]

theorem code_like : LabelLike responseCodeRe "response_code".toList where
  needs := by
    intro s c h
    simp only [Re.at, responseCodeRe, Re.run] at h
    split at h
    · rename_i r hr
      clear h
      simp only [seqs, Re.run, lit_run] at hr
      cases h1 : strip "response_code".toList s with
      | none => rw [h1] at hr; cases hr
      | some r =>
        rw [h1] at hr; simp only at hr
        cases h2 : strip sepV r with
        | none => rw [h2] at hr; cases hr
        | some r' => exact Or.inl ⟨r', by rw [strip_some.mp h1, strip_some.mp h2]⟩
    · right
      simp only [seqs, Re.run, lit_run] at h
      cases h1 : strip "_rq".toList s with
      | none => rw [h1] at h; cases h
      | some r =>
        rw [h1] at h; simp only at h
        cases h2 : strip "_".toList r with
        | none => rw [h2] at h; cases h
        | some r' =>
          rw [h2] at h; simp only at h
          cases h3 : strip ".ddd".toList r' with
          | none => rw [h3] at h; cases h
          | some r'' =>
            rw [h3] at h; simp only at h
            split at h
            · rename_i he; subst he
              rw [strip_some.mp h1, strip_some.mp h2, strip_some.mp h3]; rfl
            · cases h
  finds := by
    intro v B hv hne
    cases v with
    | nil => exact absurd rfl (hne rfl)
    | cons x v =>
      have hx := hv x (by simp)
      refine ⟨[(1, "response_code".toList ++ (sepV ++ (x :: v ++ sepF))), (2, x :: v)], ?_, rfl, rfl⟩
      have key : ∀ k : Str, (Re.cap 1 (seqs [lit k, lit sepV, .cap 2 some1, lit sepF])).run (k ++ (sepV ++ (x :: v ++ (sepF ++ B)))) [] (fun _ c => some c) =
          some [(1, k ++ (sepV ++ (x :: v ++ sepF))), (2, x :: v)] := by
        intro k
        simp only [seqs, Re.run, lit_run, strip_app, some1, List.cons_append]
        rw [if_pos (by simp [dot, hx.2.2])]
        rw [lazy_value v B (fun s3 r => [(1, (k ++ (sepV ++ (x :: (v ++ (sepF ++ B))))).take ((k ++ (sepV ++ (x :: (v ++ (sepF ++ B))))).length - r.length)),
          (2, (x :: (v ++ (sepF ++ B))).take ((x :: (v ++ (sepF ++ B))).length - s3.length))]) fun c hc => (hv c (by simp [hc])).2]
        have e : k ++ (sepV ++ (x :: (v ++ (sepF ++ B)))) = (k ++ (sepV ++ (x :: v ++ sepF))) ++ B := by simp
        have e2 : x :: (v ++ (sepF ++ B)) = (x :: v) ++ (sepF ++ B) := rfl
        rw [e, take_len, e2, take_len]
        rfl
      have k2 := key "response_code".toList
      unfold Re.at responseCodeRe
      rw [Re.run, k2]

/-- the text of a metric -/
def text (pre : Str) (l : List (Str × Str)) (name : Str) : Str := pre ++ render l ++ name

/-- one entry of the table for a label: the label is taken out -/
theorem apply_label {re : Re} {k : Str} (hL : LabelLike re k) (hk : k ∈ known) (pre name : Str) (hp : Plain pre) (hname : Plain name)
    (l : List (Str × Str)) (hl : ∀ e ∈ l, GoodLabel e) (hnd : (l.map (·.1)).Nodup) (vals : List (Str × Str)) :
    applyTag (text pre l name, vals) ⟨k, false, re⟩ = (text pre (l.filter fun e => e.1 ≠ k) name, vals ++ l.filter fun e => e.1 = k) := by
  unfold applyTag text
  simp only [Bool.false_eq_true, if_false]
  by_cases hmem : ∃ e ∈ l, e.1 = k
  · obtain ⟨e, he, hek⟩ := hmem
    obtain ⟨l1, l2, rfl⟩ := List.append_of_mem he
    obtain ⟨k', v⟩ := e
    simp only at hek; subst hek
    have hge := hl (k', v) he
    have hl1 : ∀ x ∈ l1, x.1 ≠ k' := by
      intro x hx hxk
      simp only [List.map_append, List.map_cons] at hnd
      have := (List.nodup_append.mp hnd).2.2 x.1 (List.mem_map_of_mem hx) k' (by simp)
      exact this hxk
    have hl2 : ∀ x ∈ l2, x.1 ≠ k' := by
      intro x hx hxk
      simp only [List.map_append, List.map_cons] at hnd
      have := (List.nodup_cons.mp (List.nodup_append.mp hnd).2.1).1
      exact this (hxk ▸ List.mem_map_of_mem hx)
    obtain ⟨m, hm, hm1, hm2⟩ := hL.finds v (render l2 ++ name) hge.value hge.code
    have hno := noAt_before hL.needs hk l1 (fun x hx => hl x (by simp [hx])) hl1 pre v (render l2 ++ name) hp
    have e0 : pre ++ render (l1 ++ (k', v) :: l2) ++ name = (pre ++ render l1) ++ (k' ++ (sepV ++ (v ++ (sepF ++ (render l2 ++ name))))) := by
      rw [render_append, render_cons]; simp
    rw [e0, find_skip re _ _ hno]
    have hf : find re (k' ++ (sepV ++ (v ++ (sepF ++ (render l2 ++ name))))) = some m := by
      have hkk := known_key k' hk
      clear hno e0 hl1 hl2
      cases k' with
      | nil => exact absurd rfl hkk.ne
      | cons a k => simp only [List.cons_append] at hm ⊢; rw [find, hm]
    rw [hf]
    simp only
    have f1 : l1.filter (fun e => decide (e.1 = k')) = [] := List.filter_eq_nil_iff.mpr fun x hx => by simpa using hl1 x hx
    have f2 : l2.filter (fun e => decide (e.1 = k')) = [] := List.filter_eq_nil_iff.mpr fun x hx => by simpa using hl2 x hx
    have g1 : l1.filter (fun e => decide (e.1 ≠ k')) = l1 := List.filter_eq_self.mpr fun x hx => by simpa using hl1 x hx
    have g2 : l2.filter (fun e => decide (e.1 ≠ k')) = l2 := List.filter_eq_self.mpr fun x hx => by simpa using hl2 x hx
    rw [List.filter_append, List.filter_append, List.filter_cons, List.filter_cons, f1, f2, g1, g2, hm2]
    rw [if_neg (by simp), if_pos (by simp)]
    refine Prod.ext ?_ (by simp)
    simp only
    rw [hm1]
    have e1 : (pre ++ render l1) ++ (k' ++ (sepV ++ (v ++ (sepF ++ (render l2 ++ name))))) =
        (pre ++ render l1) ++ ((k' ++ (sepV ++ (v ++ sepF))) ++ (render l2 ++ name)) := by simp
    rw [e1, removeFirst_spec]
    · rw [render_append]; simp
    · intro h
      have := congrArg List.length h
      simp [sepV] at this
    · intro y z ez hz
      cases hs : strip (k' ++ (sepV ++ (v ++ sepF))) (z ++ ((k' ++ (sepV ++ (v ++ sepF))) ++ (render l2 ++ name))) with
      | none => rfl
      | some r =>
        have hn := hno y z ez hz
        have e2 := strip_some.mp hs
        obtain ⟨m', hm', _⟩ := hL.finds v r hge.value hge.code
        have e3 : z ++ (k' ++ (sepV ++ (v ++ (sepF ++ (render l2 ++ name))))) = k' ++ (sepV ++ (v ++ (sepF ++ r))) := by
          simpa using e2
        rw [e3, hm'] at hn; cases hn
  · have hall : ∀ e ∈ l, e.1 ≠ k := fun e he h => hmem ⟨e, he, h⟩
    rw [find_absent hL.needs hk l hl hall pre name hp hname]
    have f1 : l.filter (fun e => decide (e.1 = k)) = [] := List.filter_eq_nil_iff.mpr fun x hx => by simpa using hall x hx
    have g1 : l.filter (fun e => decide (e.1 ≠ k)) = l := List.filter_eq_self.mpr fun x hx => by simpa using hall x hx
    rw [f1, g1]; simp

/-! ### the other entries of the table -/

/-- a match needs a character -/
inductive Wants (c : Char) : Re → Prop where
  | chr {p : Char → Bool} : (∀ x, p x = true → x = c) → Wants c (.chr p)
  | left {a b : Re} : Wants c a → Wants c (.seq a b)
  | right {a b : Re} : Wants c b → Wants c (.seq a b)
  | cap {i : Nat} {a : Re} : Wants c a → Wants c (.cap i a)
  | alt {a b : Re} : Wants c a → Wants c b → Wants c (.alt a b)

theorem lazy_none (p : Char → Bool) (k : Str → Option Caps) (s : Str) (h : ∀ y z, s = y ++ z → k z = none) : lazyLoop p k s = none := by
  cases hl : lazyLoop p k s with
  | none => rfl
  | some c => obtain ⟨y, z, e, hz⟩ := lazy_rest p k s c hl; rw [h y z e] at hz; cases hz

theorem greedy_none (p : Char → Bool) (k : Str → Option Caps) (s : Str) (h : ∀ y z, s = y ++ z → k z = none) : greedyLoop p k s = none := by
  induction s with
  | nil => exact h [] [] rfl
  | cons x s ih =>
    rw [greedyLoop, h [] (x :: s) rfl, ih fun y z e => h (x :: y) z (by rw [e]; rfl)]
    split <;> rfl

/-- the continuation is used with ends of the text only -/
theorem run_none (re : Re) (s : Str) (c : Caps) (k : Str → Caps → Option Caps) (h : ∀ y z, s = y ++ z → ∀ c', k z c' = none) :
    re.run s c k = none := by
  induction re generalizing s c k with
  | eps => exact h [] s rfl c
  | chr p =>
    cases s with
    | nil => rfl
    | cons x s => simp only [Re.run]; split; exact h [x] s rfl c; rfl
  | seq a b iha ihb =>
    refine iha s c _ ?_
    intro y z e c'
    exact ihb z c' k fun y' z' e' => h (y ++ y') z' (by rw [e, e', List.append_assoc])
  | alt a b iha ihb => simp only [Re.run]; rw [iha s c k h, ihb s c k h]
  | lazy p => exact lazy_none _ _ _ fun y z e => h y z e c
  | greedy p => exact greedy_none _ _ _ fun y z e => h y z e c
  | cap i a ih => exact ih s c _ fun y z e c' => h y z e _
  | eot => simp only [Re.run]; split; exact h [] s rfl c; rfl

theorem wants_none {ch : Char} {re : Re} (h : Wants ch re) (s : Str) (hs : ch ∉ s) (c : Caps) (k : Str → Caps → Option Caps) : re.run s c k = none := by
  induction h generalizing s c k with
  | chr hp =>
    cases s with
    | nil => rfl
    | cons x s =>
      simp only [Re.run]
      split
      · rename_i hx; exact absurd (by simp [hp x hx]) hs
      · rfl
  | left _ ih => exact ih s hs c _
  | right _ ih => simp only [Re.run]; exact run_none _ _ _ _ fun y z e c' => ih z (fun hm => hs (by rw [e]; simp [hm])) c' k
  | cap _ ih => exact ih s hs c _
  | alt _ _ ih1 ih2 => simp only [Re.run]; rw [ih1 s hs c k, ih2 s hs c k]

theorem wants_lit {ch : Char} {w : Str} (h : ch ∈ w) : Wants ch (lit w) := by
  induction w with
  | nil => cases h
  | cons a w ih =>
    simp only [lit]
    rcases List.mem_cons.mp h with rfl | h
    · exact .left (.chr fun x hx => by simpa using hx)
    · exact .right (ih h)

theorem wants_find {ch : Char} {re : Re} (h : Wants ch re) (s : Str) (hs : ch ∉ s) : find re s = none :=
  find_none re s fun _ z e => wants_none h z (fun hm => hs (by rw [e]; simp [hm])) _ _

theorem take_gen {q : Char → Bool} {x r : Str} {c : Char} (hx : ∀ a ∈ x, q a = true) (hc : q c = false) :
    (x ++ c :: r).dropWhile q = c :: r := by
  induction x with
  | nil => simp [hc]
  | cons a x ih => simp [hx a (by simp), ih fun b hb => hx b (by simp [hb])]

/-- the first dot of a metric's text is inside a separator -/
theorem no_dot_start (pre name : Str) (hp : Plain pre) (hname : Plain name) (l : List (Str × Str)) (hl : ∀ e ∈ l, GoodLabel e) (w r : Str)
    (hw : ∀ a ∈ w, a ≠ '.' ∧ a ≠ '=') : text pre l name ≠ w ++ '.' :: r := by
  intro h
  cases l with
  | nil =>
    have : '.' ∈ pre ++ name := by
      have e : text pre [] name = pre ++ name := by simp [text, render]
      rw [← e, h]; simp
    exact (plain_append hp hname).1 this
  | cons e l =>
    have he := hl e (by simp)
    have e0 : text pre (e :: l) name = (pre ++ e.1) ++ '=' :: ('.' :: '=' :: (e.2 ++ sepF ++ render l ++ name)) := by
      simp [text, render_cons, sepV]
    let q : Char → Bool := fun c => c ≠ '.' && c ≠ '='
    have h1 := take_gen (q := q) (x := pre ++ e.1) (c := '=') (r := '.' :: '=' :: (e.2 ++ sepF ++ render l ++ name)) ?_ rfl
    · have h2 := take_gen (q := q) (x := w) (c := '.') (r := r) (fun a ha => by have := hw a ha; simp [q, this.1, this.2]) rfl
      rw [← e0, h, h2] at h1
      injection h1 with h1 _
      exact absurd h1 (by decide)
    · intro a ha
      have hkk := known_key _ he.key
      rcases List.mem_append.mp ha with h' | h'
      · have h1 : a ≠ '.' := fun e => hp.1 (e ▸ h')
        have h2 : a ≠ '=' := fun e => hp.2.1 (e ▸ h')
        simp [q, h1, h2]
      · have h1 : a ≠ '.' := fun e => hkk.dot (e ▸ h')
        have h2 : a ≠ '=' := by intro e; have := hkk.ok a h'; rw [e] at this; cases this
        simp [q, h1, h2]

/-- an anchored pattern that begins with a word and a dot does not match -/
theorem anchored_none {s : Str} (hs : ∀ w r, (∀ a ∈ w, a ≠ '.' ∧ a ≠ '=') → s ≠ w ++ '.' :: r) (w : Str) (re : Re)
    (hw : ∀ a ∈ w, a ≠ '.' ∧ a ≠ '=') (k : Str → Caps → Option Caps) : (Re.seq (lit w) (.seq (lit ".".toList) re)).run s [] k = none := by
  simp only [Re.run, lit_run]
  cases h1 : strip w s with
  | none => rfl
  | some r =>
    simp only
    cases h2 : strip ".".toList r with
    | none => rfl
    | some r' => exact absurd (by rw [strip_some.mp h1, strip_some.mp h2]; rfl) (hs w r' hw)

theorem anchored_none' {s : Str} (hs : ∀ w r, (∀ a ∈ w, a ≠ '.' ∧ a ≠ '=') → s ≠ w ++ '.' :: r) (w : Str) (re : Re)
    (hw : ∀ a ∈ w, a ≠ '.' ∧ a ≠ '=') (k : Str → Caps → Option Caps) : (Re.seq (lit (w ++ ['.'])) re).run s [] k = none := by
  simp only [Re.run, lit_run]
  cases h1 : strip (w ++ ['.']) s with
  | none => rfl
  | some r => exact absurd (by rw [strip_some.mp h1]; simp) (hs w r hw)

theorem class_none (s : Str) (h : s.getLast? ≠ some 'x') : find classTag.re s = none := by
  refine find_none _ s ?_
  intro y z e
  cases hz : classTag.re.at z with
  | none => rfl
  | some c =>
    exfalso
    have hx : ∀ y : Str, (y ++ "xx".toList).getLast? = some 'x' := by
      intro y
      rw [show "xx".toList = ['x'] ++ ['x'] by decide +kernel, ← List.append_assoc, List.getLast?_append]; rfl
    unfold classTag at hz
    simp only [Re.at, seqs] at hz
    generalize "_rq".toList = a1 at hz
    generalize "_".toList = a2 at hz
    generalize "xx".toList = a3 at hz hx
    simp only [Re.run, lit_run] at hz
    cases h1 : strip a1 z with
    | none => rw [h1] at hz; cases hz
    | some r =>
      rw [h1] at hz; simp only at hz
      cases h2 : strip a2 r with
      | none => rw [h2] at hz; cases hz
      | some r2 =>
        rw [h2] at hz; simp only at hz
        cases r2 with
        | nil => cases hz
        | cons d r3 =>
          simp only at hz
          split at hz
          · cases h3 : strip a3 r3 with
            | none => rw [h3] at hz; cases hz
            | some r4 =>
              rw [h3] at hz; simp only at hz
              split at hz
              · rename_i he; subst he
                apply h
                rw [e, strip_some.mp h1, strip_some.mp h2, strip_some.mp h3]
                have := hx (y ++ (a1 ++ (a2 ++ [d])))
                rw [← this]; congr 1; simp
              · cases hz
          · cases hz

/-- the entries of the table that do not apply to Istio's metrics -/
theorem skip_tags (pre name : Str) (hp : Plain pre) (hname : Plain name) (hlast : ∃ c, name.getLast? = some c ∧ c ≠ 'x')
    (l : List (Str × Str)) (hl : ∀ e ∈ l, GoodLabel e) (vals : List (Str × Str)) :
    ([clusterTag, prefixTag "tcp_prefix" "tcp"].foldl applyTag (text pre l name, vals) = (text pre l name, vals)) ∧
    (envoyTags.foldl applyTag (text pre l name, vals) = (text pre l name, vals)) := by
  have hs := no_dot_start pre name hp hname l hl
  have A : ∀ (t : Tag) (w w' : Str) (re : Re), t.anchored = true → t.re = .seq (lit w') re → w' = w ++ ['.'] →
      (∀ a ∈ w, a ≠ '.' ∧ a ≠ '=') → applyTag (text pre l name, vals) t = (text pre l name, vals) := by
    intro t w w' re h1 h2 h3 h4
    unfold applyTag
    rw [if_pos h1, h2, h3, show (Re.seq (lit (w ++ ['.'])) re).at (text pre l name) = none from anchored_none' hs w re h4 _]
  have cl := A clusterTag "cluster".toList "cluster.".toList _ rfl rfl (by decide +kernel) (by decide +kernel)
  have li := A listenerTag "listener".toList "listener.".toList _ rfl rfl (by decide +kernel) (by decide +kernel)
  have mo := A mongoTag "mongo".toList "mongo.".toList _ rfl rfl (by decide +kernel) (by decide +kernel)
  have pf : ∀ n p : String, (∀ a ∈ p.toList, a ≠ '.' ∧ a ≠ '=') → applyTag (text pre l name, vals) (prefixTag n p) = (text pre l name, vals) := by
    intro n p hpp
    have : (prefixTag n p).re.at (text pre l name) = none := anchored_none hs p.toList _ hpp _
    unfold applyTag
    rw [if_pos (show (prefixTag n p).anchored = true from rfl), this]
  have cs : applyTag (text pre l name, vals) classTag = (text pre l name, vals) := by
    have : find classTag.re (text pre l name) = none := by
      refine class_none _ ?_
      obtain ⟨c, h1, h2⟩ := hlast
      have : (text pre l name).getLast? = some c := by simp [text, List.getLast?_append, h1]
      rw [this]; simpa using h2
    unfold applyTag
    rw [if_neg (by decide), this]
  refine ⟨?_, ?_⟩
  · simp only [List.foldl_cons, List.foldl_nil, cl, pf "tcp_prefix" "tcp" (by decide +kernel)]
  · simp only [envoyTags, List.foldl_cons, List.foldl_nil, cs, li, mo, pf "mysql_cluster" "mysql" (by decide +kernel),
      pf "postgres_cluster" "postgres" (by decide +kernel)]

theorem last_none (s : Str) (hs : '.' ∉ s) (vals : List (Str × Str)) : lastTags.foldl applyTag (s, vals) = (s, vals) := by
  have W : ∀ t ∈ lastTags, t.anchored = false ∧ Wants '.' t.re := by
    have hd : ∀ n p q : String, Wants '.' (dottedTag n p q).re := fun n p q =>
      .cap (.right (.left (wants_lit (by decide))))
    intro t ht
    simp only [lastTags, List.mem_cons, List.not_mem_nil, or_false] at ht
    rcases ht with rfl | rfl | rfl | rfl | rfl | rfl | rfl
    · exact ⟨rfl, hd _ _ _⟩
    · exact ⟨rfl, hd _ _ _⟩
    · exact ⟨rfl, hd _ _ _⟩
    · exact ⟨rfl, hd _ _ _⟩
    · exact ⟨rfl, .right (.cap (.left (wants_lit (by decide))))⟩
    · exact ⟨rfl, .cap (.left (wants_lit (by decide)))⟩
    · exact ⟨rfl, .cap (.left (wants_lit (by decide)))⟩
  generalize lastTags = ts at W
  induction ts with
  | nil => rfl
  | cons t ts ih =>
    obtain ⟨h1, h2⟩ := W t (by simp)
    rw [List.foldl_cons]
    have : applyTag (s, vals) t = (s, vals) := by
      simp only [applyTag, h1, Bool.false_eq_true, if_false]
      rw [wants_find h2 s hs]
    rw [this]
    exact ih fun t ht => W t (by simp [ht])

/-- the entries for labels one after the other -/
theorem fold_labels (ks : List Str) (hks : ∀ k ∈ ks, k ∈ known) (hnk : ks.Nodup) (pre name : Str) (hp : Plain pre) (hname : Plain name)
    (l : List (Str × Str)) (hl : ∀ e ∈ l, GoodLabel e) (hnd : (l.map (·.1)).Nodup) (vals : List (Str × Str)) :
    ∃ vals', (ks.map labelTag).foldl applyTag (text pre l name, vals) = (text pre (l.filter fun e => e.1 ∉ ks) name, vals ++ vals') ∧
      vals'.Perm (l.filter fun e => e.1 ∈ ks) := by
  induction ks generalizing l vals with
  | nil =>
    have e1 : (l.filter fun e => e.1 ∉ ([] : List Str)) = l := List.filter_eq_self.mpr fun _ _ => by simp
    exact ⟨[], by rw [e1]; simp, by simp⟩
  | cons k ks ih =>
    rw [List.map_cons, List.foldl_cons]
    have ha := apply_label (label_like k) (hks k (by simp)) pre name hp hname l hl hnd vals
    rw [show labelTag k = ⟨k, false, labelRe k⟩ from rfl, ha]
    obtain ⟨vals', h1, h2⟩ := ih (fun x hx => hks x (by simp [hx])) (List.nodup_cons.mp hnk).2 (l.filter fun e => e.1 ≠ k)
      (fun e he => hl e (List.mem_filter.mp he).1) (hnd.sublist (List.Sublist.map _ List.filter_sublist)) (vals ++ l.filter fun e => e.1 = k)
    refine ⟨(l.filter fun e => e.1 = k) ++ vals', ?_, ?_⟩
    · rw [h1, List.filter_filter, List.append_assoc]
      have : (fun e : Str × Str => decide (e.1 ∉ ks) && decide (e.1 ≠ k)) = fun e => decide (e.1 ∉ k :: ks) := by
        funext e; by_cases h3 : e.1 = k <;> by_cases h4 : e.1 ∈ ks <;> simp [h3, h4]
      rw [this]
    · rw [List.filter_filter] at h2
      have hperm := (List.filter_append_perm (fun e : Str × Str => decide (e.1 = k)) (l.filter fun e => e.1 ∈ k :: ks))
      refine List.Perm.trans ?_ hperm
      rw [List.filter_filter, List.filter_filter]
      refine List.Perm.append ?_ ?_
      · have : (fun e : Str × Str => decide (e.1 = k) && decide (e.1 ∈ k :: ks)) = fun e => decide (e.1 = k) := by
          funext e; by_cases h3 : e.1 = k <;> simp [h3]
        rw [this]
      · have : (fun e : Str × Str => !decide (e.1 = k) && decide (e.1 ∈ k :: ks)) = fun e => decide (e.1 ∈ ks) && decide (e.1 ≠ k) := by
          funext e; by_cases h3 : e.1 = k <;> by_cases h4 : e.1 ∈ ks <;> simp [h3, h4]
        rw [this]; exact h2

theorem known_nodup : known.Nodup := by decide +kernel

/-- **C108** The name of an Istio metric, with its labels in any order, any plain text around them and any values free of the characters
`=`, `;` and newline, is taken apart into exactly the base name and the labels. -/
theorem C108_labels (pre name : Str) (l : List (Str × Str)) (hp : Plain pre) (hname : Plain name)
    (hlast : ∃ c, name.getLast? = some c ∧ c ≠ 'x') (hl : ∀ e ∈ l, GoodLabel e) (hnd : (l.map (·.1)).Nodup) :
    (parse (pre ++ render l ++ name)).1 = pre ++ name ∧ (parse (pre ++ render l ++ name)).2.Perm l := by
  have F : ∀ q : (Str × Str) → Bool, (∀ e ∈ l.filter q, GoodLabel e) ∧ ((l.filter q).map (·.1)).Nodup := fun q =>
    ⟨fun e he => hl e (List.mem_filter.mp he).1, hnd.sublist (List.Sublist.map _ List.filter_sublist)⟩
  show (parse (text pre l name)).1 = _ ∧ (parse (text pre l name)).2.Perm l
  unfold parse statTags
  rw [List.foldl_append, List.foldl_append, List.foldl_append, List.foldl_append]
  have hrep : reporterTags.foldl applyTag (text pre l name, []) =
      (text pre (l.filter fun e => e.1 ≠ "reporter".toList) name, l.filter fun e => e.1 = "reporter".toList) := by
    have := apply_label (label_like "reporter".toList) (by simp [known]) pre name hp hname l hl hnd []
    rw [List.nil_append] at this; exact this
  rw [hrep]
  have h1 := F fun e => e.1 ≠ "reporter".toList
  have hskip := skip_tags pre name hp hname hlast _ h1.1 (l.filter fun e => e.1 = "reporter".toList)
  rw [show [clusterTag, prefixTag "tcp_prefix" "tcp", responseCodeTag] = [clusterTag, prefixTag "tcp_prefix" "tcp"] ++ [responseCodeTag] from rfl,
    List.foldl_append, hskip.1, List.foldl_cons, List.foldl_nil]
  have hcode := apply_label code_like (by simp [known]) pre name hp hname _ h1.1 h1.2 (l.filter fun e => e.1 = "reporter".toList)
  rw [show responseCodeTag = ⟨"response_code".toList, false, responseCodeRe⟩ from rfl, hcode]
  rw [List.filter_filter, List.filter_filter]
  have h2 := F fun e => decide (e.1 ≠ "response_code".toList) && decide (e.1 ≠ "reporter".toList)
  rw [(skip_tags pre name hp hname hlast _ h2.1 _).2]
  obtain ⟨vals', h3, h4⟩ := fold_labels istioLabels (fun k hk => by simp [known, hk])
    (List.nodup_cons.mp (List.nodup_cons.mp known_nodup).2).2 pre name hp hname _ h2.1 h2.2
    ((l.filter fun e => e.1 = "reporter".toList) ++ l.filter fun e => decide (e.1 = "response_code".toList) && decide (e.1 ≠ "reporter".toList))
  rw [h3]
  have hempty : (l.filter fun e => decide (e.1 ≠ "response_code".toList) && decide (e.1 ≠ "reporter".toList)).filter (fun e => e.1 ∉ istioLabels) = [] := by
    refine List.filter_eq_nil_iff.mpr ?_
    intro e he
    have h5 := List.mem_filter.mp he
    have h6 := (hl e h5.1).key
    rcases List.mem_cons.mp h6 with h | h
    · have := h5.2; rw [decide_eq_false (fun n : e.1 ≠ _ => n h), Bool.and_false] at this; cases this
    · rcases List.mem_cons.mp h with h | h
      · have := h5.2; rw [decide_eq_false (fun n : e.1 ≠ _ => n h), Bool.false_and] at this; cases this
      · rw [decide_eq_false (fun n : ¬ e.1 ∈ istioLabels => n h)]; decide
  rw [hempty]
  have e0 : text pre [] name = pre ++ name := by simp [text, render]
  rw [e0, last_none _ (plain_append hp hname).1]
  refine ⟨rfl, ?_⟩
  simp only
  have hmem : ∀ e ∈ l, (decide (e.1 ∈ istioLabels) && (decide (e.1 ≠ "response_code".toList) && decide (e.1 ≠ "reporter".toList))) =
      (decide (e.1 ≠ "response_code".toList) && decide (e.1 ≠ "reporter".toList)) := by
    intro e he
    have h6 := (hl e he).key
    rcases List.mem_cons.mp h6 with h | h
    · rw [decide_eq_false (fun n : e.1 ≠ _ => n h), Bool.and_false, Bool.and_false]
    · rcases List.mem_cons.mp h with h | h
      · rw [decide_eq_false (fun n : e.1 ≠ _ => n h), Bool.false_and, Bool.and_false]
      · rw [decide_eq_true h, Bool.true_and]
  rw [List.filter_filter, List.filter_congr hmem] at h4
  refine (List.Perm.append_left _ h4).trans ?_
  generalize "reporter".toList = a
  generalize "response_code".toList = b
  have P1 := List.filter_append_perm (fun e : Str × Str => decide (e.1 = a)) l
  have P2 := List.filter_append_perm (fun e : Str × Str => decide (e.1 = b)) (l.filter fun e => !decide (e.1 = a))
  rw [List.filter_filter, List.filter_filter] at P2
  refine List.Perm.trans ?_ P1
  rw [List.append_assoc]
  refine List.Perm.append_left _ (List.Perm.trans ?_ P2)
  simp

/-- two metrics with the same labels and base name have the same text up to the order of the labels: nothing else is lost -/
theorem C108_injective (pre name : Str) (l l' : List (Str × Str)) (hp : Plain pre) (hname : Plain name)
    (hlast : ∃ c, name.getLast? = some c ∧ c ≠ 'x') (hl : ∀ e ∈ l, GoodLabel e) (hnd : (l.map (·.1)).Nodup)
    (hl' : ∀ e ∈ l', GoodLabel e) (hnd' : (l'.map (·.1)).Nodup)
    (h : parse (pre ++ render l ++ name) = parse (pre ++ render l' ++ name)) : l.Perm l' := by
  have h1 := (C108_labels pre name l hp hname hlast hl hnd).2
  have h2 := (C108_labels pre name l' hp hname hlast hl' hnd').2
  rw [h] at h1
  exact h1.symm.trans h2

/-- a request metric with values as Istio produces them meets the hypotheses -/
example : Plain "istio_requests_total".toList ∧ (∃ c, "istio_requests_total".toList.getLast? = some c ∧ c ≠ 'x') ∧
    (∀ e ∈ [("response_code".toList, "200".toList), ("source_principal".toList, "spiffe://cluster.local/ns/a/sa/b".toList),
      ("reporter".toList, "source".toList), ("request_host".toList, [])], GoodLabel e) ∧
    parse (render [("response_code".toList, "200".toList), ("source_principal".toList, "spiffe://cluster.local/ns/a/sa/b".toList),
      ("reporter".toList, "source".toList), ("request_host".toList, [])] ++ "istio_requests_total".toList) =
      ("istio_requests_total".toList, [("reporter".toList, "source".toList), ("response_code".toList, "200".toList),
        ("source_principal".toList, "spiffe://cluster.local/ns/a/sa/b".toList), ("request_host".toList, [])]) := by
  have G : ∀ k v : Str, k ∈ metricLabels → (v.all fun c => c ≠ '=' && c ≠ ';' && c ≠ '\n') = true → (k = "response_code".toList → v ≠ []) → GoodLabel (k, v) := by
    intro k v h1 h2 h3
    refine ⟨h1, ?_, h3⟩
    intro c hc
    have := List.all_eq_true.mp h2 c hc
    simpa [and_assoc] using this
  refine ⟨⟨by decide +kernel, by decide +kernel, by decide +kernel⟩, ⟨'l', by decide +kernel, by decide⟩, ?_, by decide +kernel⟩
  intro e he
  simp only [List.mem_cons, List.not_mem_nil, or_false] at he
  rcases he with rfl | rfl | rfl | rfl
  · exact G _ _ (by decide +kernel) (by decide +kernel) (fun _ => by decide +kernel)
  · exact G _ _ (by decide +kernel) (by decide +kernel) (fun _ => by decide +kernel)
  · exact G _ _ (by decide +kernel) (by decide +kernel) (fun _ => by decide +kernel)
  · exact G _ _ (by decide +kernel) (by decide +kernel) (fun h => absurd h (by decide +kernel))

/-! ### C109 -/

/-- **C109 is false of the code**: an empty response code takes the following label with it, -/
theorem C109_empty_code_false : parse "reporter=.=source;.;response_code=.=;.;source_app=.=shop;.;istio_requests_total".toList =
    ("istio_requests_total".toList, [("reporter".toList, "source".toList), ("response_code".toList, ";.;source_app=.=shop".toList)]) := by
  decide +kernel

/-- a value with a separator in it is cut, -/
theorem C109_separator_false : parse "request_host=.=a;.;b;.;istio_requests_total".toList =
    ("b;.;istio_requests_total".toList, [("request_host".toList, "a".toList)]) := by decide +kernel

/-- the response code of a cluster's statistics is not found (the pattern asks for `.ddd` instead of three digits), -/
theorem C109_cluster_code_false : parse "cluster.outbound|80||shop.upstream_rq_200".toList =
    ("cluster.upstream_rq_200".toList, [("cluster_name".toList, "outbound|80||shop".toList)]) := by decide +kernel

/-- and of a MongoDB statistic the wrong text is reported and the first occurrence of the prefix, wherever it is, is removed. -/
theorem C109_mongo_false : parse "mongo.m.cmd.query".toList = ("ongo.m.cmd.query".toList, [("mongo_prefix".toList, "cmd".toList)]) := by
  decide +kernel

theorem at_lazy_host (a R : Str) (ha : '.' ∉ a) (hnl : '\n' ∉ a) (k : Str → Option Caps) (hk : ∀ c s, c ≠ '.' → k (c :: s) = none) :
    lazyLoop dot k (a ++ '.' :: R) = lazyLoop dot k ('.' :: R) := by
  induction a with
  | nil => rfl
  | cons x a ih =>
    have hx : x ≠ '.' := fun h => ha (by simp [h])
    have hn : x ≠ '\n' := fun h => hnl (by simp [h])
    simp only [List.cons_append]
    conv => lhs; rw [lazyLoop]
    rw [hk x _ hx]
    simp only
    rw [if_pos (by simp [dot, hn])]
    exact ih (fun h => ha (by simp [h])) (fun h => hnl (by simp [h]))

/-- the pattern of cluster names on the full name of a service followed by a statistic -/
theorem cluster_at (x y : Char) (a b w rest : Str) (hw : w = ".svc.cluster.local".toList) (hx : x ≠ '\n') (hy : y ≠ '\n') (ha : '.' ∉ a)
    (hb : '.' ∉ b) (hna : '\n' ∉ a) (hnb : '\n' ∉ b) :
    ∃ m, clusterTag.re.at ("cluster.".toList ++ (x :: (a ++ '.' :: y :: (b ++ (w ++ '.' :: rest))))) = some m ∧
      group m 1 = x :: (a ++ '.' :: y :: (b ++ (w ++ ['.']))) ∧ group m 2 = x :: (a ++ '.' :: y :: (b ++ w)) := by
  refine ⟨[(1, x :: (a ++ '.' :: y :: (b ++ (w ++ ['.'])))), (2, x :: (a ++ '.' :: y :: (b ++ w))), (3, '.' :: y :: (b ++ w))], ?_, rfl, rfl⟩
  have hw' : ∃ w', w = '.' :: w' := ⟨_, hw.trans (by decide +kernel : _ = '.' :: "svc.cluster.local".toList)⟩
  unfold clusterTag
  simp only [Re.at, seqs]
  rw [← hw]
  have hdot : ".".toList = ['.'] := by decide +kernel
  clear hw
  generalize "cluster.".toList = w1
  generalize ".".toList = w2 at *
  subst hdot
  have hstart : ∀ (c : Char) (s : Str), c ≠ '.' → strip ['.'] (c :: s) = none := by
    intro c s hc
    show (if '.' = c then _ else none) = none
    rw [if_neg fun h => hc h.symm]
  have hgo : ∀ s : Str, strip ['.'] ('.' :: s) = some s := fun s => strip_app ['.'] s
  simp only [Re.run, lit_run, strip_app, some1, List.cons_append]
  rw [if_pos (by simp [dot, hx])]
  obtain ⟨w', rfl⟩ := hw'
  rw [at_lazy_host a _ ha hna]
  · rw [lazyLoop, hgo]
    simp only
    rw [if_pos (by simp [dot, hy])]
    rw [show b ++ ('.' :: w' ++ '.' :: rest) = b ++ '.' :: (w' ++ '.' :: rest) by simp, at_lazy_host b _ hb hnb]
    · have h3 : strip ('.' :: w') ('.' :: (w' ++ '.' :: rest)) = some ('.' :: rest) := strip_app ('.' :: w') ('.' :: rest)
      rw [lazyLoop, h3]
      simp only [hgo]
      have t : ∀ u v z : Str, u = v ++ z → u.take (u.length - z.length) = v := by
        intro u v z e; rw [e]; exact take_len
      rw [t _ (x :: (a ++ '.' :: y :: (b ++ ('.' :: w' ++ ['.'])))) rest (by simp),
        t _ (x :: (a ++ '.' :: y :: (b ++ '.' :: w'))) ('.' :: rest) (by simp),
        t _ ('.' :: y :: (b ++ '.' :: w')) ('.' :: rest) (by simp)]
    · intro c s hc
      have : strip ('.' :: w') (c :: s) = none := by
        show (if '.' = c then _ else none) = none
        rw [if_neg fun h => hc h.symm]
      rw [this]
  · intro c s hc
    rw [hstart c s hc]

/-- **C109** (partial) The statistics of a cluster of a service (its name is `direction|port|subset|host`) are reported under the name of
the cluster: the name is taken out of the statistic and the rest stays. -/
theorem C109_cluster_partial (x y : Char) (a b rest : Str) (hx : x ≠ '\n') (hy : y ≠ '\n') (ha : '.' ∉ a)
    (hb : '.' ∉ b) (hna : '\n' ∉ a) (hnb : '\n' ∉ b) (hbar : '|' ∈ a) (vals : List (Str × Str)) :
    applyTag ("cluster.".toList ++ (x :: (a ++ '.' :: y :: (b ++ (".svc.cluster.local".toList ++ '.' :: rest)))), vals) clusterTag =
      ("cluster.".toList ++ rest, vals ++ [("cluster_name".toList, x :: (a ++ '.' :: y :: (b ++ ".svc.cluster.local".toList)))]) := by
  obtain ⟨m, h1, h2, h3⟩ := cluster_at x y a b _ rest rfl hx hy ha hb hna hnb
  have hbar0 : '|' ∉ "cluster.".toList := by decide +kernel
  unfold applyTag
  rw [if_pos (show clusterTag.anchored = true from rfl), h1]
  simp only
  rw [h2, h3, show clusterTag.name = "cluster_name".toList from rfl]
  generalize "cluster_name".toList = cn
  generalize ".svc.cluster.local".toList = w
  generalize "cluster.".toList = P at *
  refine Prod.ext ?_ rfl
  simp only
  have e : P ++ x :: (a ++ '.' :: y :: (b ++ (w ++ '.' :: rest))) = P ++ ((x :: (a ++ '.' :: y :: (b ++ (w ++ ['.'])))) ++ rest) := by simp
  rw [e, removeFirst_spec _ _ _ (by simp)]
  intro u z eu hz
  cases hs : strip (x :: (a ++ '.' :: y :: (b ++ (w ++ ['.'])))) (z ++ (x :: (a ++ '.' :: y :: (b ++ (w ++ ['.']))) ++ rest)) with
  | none => rfl
  | some r =>
    exfalso
    have es := strip_some.mp hs
    generalize hh : x :: (a ++ '.' :: y :: (b ++ (w ++ ['.']))) = h at es
    -- position of the first bar
    have hm : '|' ∈ h := by rw [← hh]; simp [hbar]
    have hidx : ∀ (z h r : Str), '|' ∉ z → '|' ∈ h → (z ++ (h ++ r)).idxOf '|' = z.length + h.idxOf '|' := by
      intro z h r hz hh
      rw [List.idxOf_append, if_neg hz, List.idxOf_append, if_pos hh, Nat.add_comm]
    have hz' : '|' ∉ z := fun hmem => hbar0 (suffix_mem eu hmem)
    have i1 := hidx z h rest hz' hm
    have i2 := hidx [] h r (by simp) hm
    rw [es, show h ++ r = [] ++ (h ++ r) from rfl, i2] at i1
    have : z.length = 0 := by have h0 : ([] : Str).length = 0 := rfl; omega
    exact hz (List.length_eq_zero_iff.mp this)

example : applyTag ("cluster.outbound|80||shop.prod.svc.cluster.local.upstream_cx_total".toList, []) clusterTag =
    ("cluster.upstream_cx_total".toList, [("cluster_name".toList, "outbound|80||shop.prod.svc.cluster.local".toList)]) := by decide +kernel

end Verif.Props.StatTags
