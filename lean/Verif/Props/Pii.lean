import Verif.Exp.Pii
/-
C78: DetectPII.
-/
namespace Verif.Props
open Verif Verif.Pii

/-! ### specification -/

/-- what a match `(a, b)` of a pattern in a text hides: its bytes, of an assignment (`KEY=value`) those after the first `=` -/
def Hides (t : Bytes) (m : Nat × Nat) (i : Nat) : Prop :=
  m.1 ≤ i ∧ i < m.2 ∧ ((∃ j, m.1 ≤ j ∧ j < m.2 ∧ t[j]? = some eqSign) → ∃ j, m.1 ≤ j ∧ j < i ∧ t[j]? = some eqSign)

/-- `t'` is `t` with exactly the positions in `S` replaced by `*` -/
structure MaskedAt (S : Nat → Prop) (t t' : Bytes) : Prop where
  len : t'.length = t.length
  hidden : ∀ i, i < t.length → S i → t'[i]? = some star
  shown : ∀ i, ¬ S i → t'[i]? = t[i]?

/-- what package regexp guarantees about `FindAllIndex`: nonempty matches within the text, in order, without overlap -/
def Engine {P : Type} (find : P → Bytes → List (Nat × Nat)) : Prop :=
  ∀ p t, (∀ m ∈ find p t, m.1 < m.2 ∧ m.2 ≤ t.length) ∧ (find p t).Pairwise fun m n => m.2 ≤ n.1

/-- the positions the matches of the patterns `ps` hide -/
def HiddenBy {P : Type} (find : P → Bytes → List (Nat × Nat)) (ps : List P) (t : Bytes) (i : Nat) : Prop :=
  ∃ p ∈ ps, ∃ m ∈ find p t, Hides t m i

/-- the patterns do not interfere on `t`: matches of different patterns do not overlap, and masking what other patterns hide
leaves the matches of a pattern as they are -/
structure NoInterference {P : Type} (find : P → Bytes → List (Nat × Nat)) (ps : List P) (t : Bytes) : Prop where
  apart : ∀ p ∈ ps, ∀ q ∈ ps, p ≠ q → ∀ m ∈ find p t, ∀ n ∈ find q t, m.2 ≤ n.1 ∨ n.2 ≤ m.1
  stable : ∀ p ∈ ps, ∀ l : List P, (∀ q ∈ l, q ∈ ps ∧ q ≠ p) → ∀ t', MaskedAt (HiddenBy find l t) t t' → find p t' = find p t

/-! ### the regexp model meets the engine laws -/

/-- `s'` is a later position of the same text -/
def Later (s s' : In) : Prop := ∃ pre, s.rest = pre ++ s'.rest ∧ s'.pos = s.pos + pre.length

theorem later_refl (s : In) : Later s s := ⟨[], by simp, by simp⟩
theorem later_trans {a b c : In} (h : Later a b) (h' : Later b c) : Later a c := by
  obtain ⟨p, e, n⟩ := h
  obtain ⟨q, e', n'⟩ := h'
  exact ⟨p ++ q, by rw [e, e']; simp, by rw [n', n]; simp; omega⟩

theorem star_later {m : In → Cont → Option Nat} (hm : ∀ s k e, m s k = some e → ∃ s', Later s s' ∧ k s' = some e) :
    ∀ n s k e, starLoop m n s k = some e → ∃ s', Later s s' ∧ k s' = some e := by
  intro n
  induction n with
  | zero => intro s k e h; exact ⟨s, later_refl s, h⟩
  | succ n ih =>
    intro s k e h
    unfold starLoop at h
    rw [Option.or_eq_some_iff] at h
    rcases h with h | ⟨_, h⟩
    · obtain ⟨s1, l1, h1⟩ := hm _ _ _ h
      split at h1
      · cases h1
      · obtain ⟨s2, l2, h2⟩ := ih _ _ _ h1
        exact ⟨s2, later_trans l1 l2, h2⟩
    · exact ⟨s, later_refl s, h⟩

theorem run_later (re : Re) : ∀ s k e, re.run s k = some e → ∃ s', Later s s' ∧ k s' = some e := by
  induction re with
  | cls f =>
    intro s k e h
    unfold Re.run at h
    split at h
    · rename_i c r hr
      split at h
      · exact ⟨_, ⟨[c], by simp [hr], by simp⟩, h⟩
      · cases h
    · cases h
  | eps => intro s k e h; exact ⟨s, later_refl s, h⟩
  | wb =>
    intro s k e h
    unfold Re.run at h
    split at h
    · exact ⟨s, later_refl s, h⟩
    · cases h
  | seq a b iha ihb =>
    intro s k e h
    obtain ⟨s1, l1, h1⟩ := iha _ _ _ h
    obtain ⟨s2, l2, h2⟩ := ihb _ _ _ h1
    exact ⟨s2, later_trans l1 l2, h2⟩
  | alt a b iha ihb =>
    intro s k e h
    unfold Re.run at h
    rw [Option.or_eq_some_iff] at h
    rcases h with h | ⟨_, h⟩
    · exact iha _ _ _ h
    · exact ihb _ _ _ h
  | star a ih => intro s k e h; exact star_later ih _ _ _ _ h

theorem skip_later : ∀ n (s : In), n ≤ s.rest.length → (s.skip n).pos = s.pos + n ∧ (s.skip n).rest.length + n = s.rest.length := by
  intro n
  induction n with
  | zero => intro s _; exact ⟨rfl, rfl⟩
  | succ n ih =>
    intro s h
    unfold In.skip
    split
    · rename_i c r hr
      rw [hr] at h ⊢
      simp only [List.length_cons] at h ⊢
      have := ih ⟨some c, r, s.pos + 1⟩ (by simp; omega)
      simp only at this
      omega
    · rename_i hr; rw [hr] at h; simp at h

theorem findFrom_ok (re : Re) : ∀ n (s : In),
    (∀ m ∈ findFrom re n s, s.pos ≤ m.1 ∧ m.1 < m.2 ∧ m.2 ≤ s.pos + s.rest.length) ∧
    (findFrom re n s).Pairwise fun m n => m.2 ≤ n.1 := by
  intro n
  induction n with
  | zero => intro s; simp [findFrom]
  | succ n ih =>
    intro s
    unfold findFrom
    split
    · rename_i e he
      obtain ⟨s', ⟨pre, hp, hq⟩, hk⟩ := run_later _ _ _ _ he
      split at hk
      · rename_i hlt
        injection hk with hk
        have hl : s'.rest.length + pre.length = s.rest.length := by rw [hp]; simp; omega
        have hsk := skip_later (e - s.pos) s (by omega)
        obtain ⟨i1, i2⟩ := ih (s.skip (e - s.pos))
        constructor
        · intro m hm
          rcases List.mem_cons.mp hm with rfl | hm
          · simp only; omega
          · have := i1 m hm; omega
        · rw [List.pairwise_cons]
          refine ⟨fun m hm => ?_, i2⟩
          have := i1 m hm
          simp only; omega
      · cases hk
    · split
      · simp
      · rename_i c r hr
        obtain ⟨i1, i2⟩ := ih ⟨some c, r, s.pos + 1⟩
        refine ⟨fun m hm => ?_, i2⟩
        have := i1 m hm
        simp only at this
        rw [hr]; simp only [List.length_cons]; omega

/-- a pattern of the map, by its place in the file -/
abbrev Pat := Fin 20
def findPat (p : Pat) (t : Bytes) : List (Nat × Nat) := findAll (patterns[p.val]'(by have := p.isLt; simp [patterns])) t

/-- **C78** The matches of the twenty patterns are nonempty, within the text, in order and without overlap. -/
theorem C78_engine : Engine findPat := by
  intro p t
  obtain ⟨h1, h2⟩ := findFrom_ok (patterns[p.val]'(by have := p.isLt; simp [patterns])) (t.length + 1) (.start t)
  exact ⟨fun m hm => by have := h1 m hm; simp [In.start] at this; omega, h2⟩

/-! ### masking -/

theorem maskRange_get (t : Bytes) (a b i : Nat) :
    (maskRange t a b)[i]? = if a ≤ i ∧ i < b ∧ i < t.length then some star else t[i]? := by
  unfold maskRange
  rw [List.getElem?_mapIdx]
  by_cases hi : i < t.length
  · rw [List.getElem?_eq_getElem hi]
    simp only [Option.map_some, hi, and_true]
    split <;> rfl
  · rw [List.getElem?_eq_none (by omega)]
    simp [hi]

theorem maskRange_len (t : Bytes) (a b : Nat) : (maskRange t a b).length = t.length := by simp [maskRange]

theorem eqPos_some {t : Bytes} {n : Nat} (h : eqPos t = some n) : t[n]? = some eqSign ∧ ∀ j, j < n → t[j]? ≠ some eqSign := by
  induction t generalizing n with
  | nil => cases h
  | cons c r ih =>
    unfold eqPos at h
    split at h
    · rename_i hc
      injection h with h; subst h hc
      exact ⟨rfl, fun j hj => absurd hj (by omega)⟩
    · rename_i hc
      simp only [Option.map_eq_some_iff] at h
      obtain ⟨k, hk, rfl⟩ := h
      obtain ⟨h1, h2⟩ := ih hk
      refine ⟨by simpa using h1, ?_⟩
      intro j hj
      cases j with
      | zero => simpa using hc
      | succ j => simpa using h2 j (by omega)

theorem eqPos_none {t : Bytes} (h : eqPos t = none) : ∀ j : Nat, t[j]? ≠ some eqSign := by
  induction t with
  | nil => simp
  | cons c r ih =>
    unfold eqPos at h
    split at h
    · cases h
    · rename_i hc
      simp only [Option.map_eq_none_iff] at h
      intro j
      cases j with
      | zero => simpa using hc
      | succ j => simpa using ih h j

theorem slice_get {t : Bytes} {a b j : Nat} (h : j < b - a) : ((t.drop a).take (b - a))[j]? = t[a + j]? := by
  rw [List.getElem?_take, if_pos h, List.getElem?_drop]

theorem maskStart_hides {t : Bytes} {m : Nat × Nat} {i : Nat} : (maskStart t m.1 m.2 ≤ i ∧ i < m.2) ↔ Hides t m i := by
  unfold maskStart Hides
  split
  · rename_i n hn
    obtain ⟨h1, h2⟩ := eqPos_some hn
    have hlt : n < m.2 - m.1 := by
      rcases Nat.lt_or_ge n (m.2 - m.1) with h | h
      · exact h
      · rw [List.getElem?_take, if_neg (by omega)] at h1; cases h1
    rw [slice_get hlt] at h1
    constructor
    · rintro ⟨a, b⟩
      exact ⟨by omega, b, fun _ => ⟨m.1 + n, by omega, by omega, h1⟩⟩
    · rintro ⟨a, b, c⟩
      obtain ⟨j, j1, j2, j3⟩ := c ⟨m.1 + n, by omega, by omega, h1⟩
      refine ⟨?_, b⟩
      rcases Nat.lt_or_ge (j - m.1) n with h | h
      · have := h2 (j - m.1) h
        rw [slice_get (by omega), show m.1 + (j - m.1) = j by omega] at this
        exact absurd j3 this
      · omega
  · rename_i hn
    have h2 := eqPos_none hn
    constructor
    · rintro ⟨a, b⟩
      refine ⟨a, b, ?_⟩
      rintro ⟨j, j1, j2, j3⟩
      have := h2 (j - m.1)
      rw [slice_get (by omega), show m.1 + (j - m.1) = j by omega] at this
      exact absurd j3 this
    · rintro ⟨a, b, _⟩; exact ⟨a, b⟩

theorem maskMatch_masked (t : Bytes) (m : Nat × Nat) : MaskedAt (Hides t m) t (maskMatch t m) where
  len := maskRange_len _ _ _
  hidden := by
    intro i hi h
    unfold maskMatch
    rw [maskRange_get, if_pos]
    have := maskStart_hides.mpr h
    exact ⟨this.1, this.2, hi⟩
  shown := by
    intro i h
    unfold maskMatch
    rw [maskRange_get, if_neg]
    rintro ⟨a, b, _⟩
    exact h (maskStart_hides.mp ⟨a, b⟩)

/-- what a match hides depends on the bytes of the match only -/
theorem hides_congr {t t' : Bytes} {m : Nat × Nat} (h : ∀ j, m.1 ≤ j → j < m.2 → t'[j]? = t[j]?) (i : Nat) :
    Hides t' m i ↔ Hides t m i := by
  unfold Hides
  constructor
  · rintro ⟨a, b, c⟩
    refine ⟨a, b, ?_⟩
    rintro ⟨j, j1, j2, j3⟩
    obtain ⟨k, k1, k2, k3⟩ := c ⟨j, j1, j2, by rw [h j j1 j2]; exact j3⟩
    exact ⟨k, k1, k2, by rw [← h k k1 (by omega)]; exact k3⟩
  · rintro ⟨a, b, c⟩
    refine ⟨a, b, ?_⟩
    rintro ⟨j, j1, j2, j3⟩
    obtain ⟨k, k1, k2, k3⟩ := c ⟨j, j1, j2, by rw [← h j j1 j2]; exact j3⟩
    exact ⟨k, k1, k2, by rw [h k k1 (by omega)]; exact k3⟩

theorem masked_comp {S T : Nat → Prop} {t t' t'' : Bytes} (h : MaskedAt S t t') (h' : MaskedAt T t' t'') :
    MaskedAt (fun i => S i ∨ T i) t t'' where
  len := h'.len.trans h.len
  hidden := by
    intro i hi hs
    by_cases hT : T i
    · exact h'.hidden i (by rw [h.len]; exact hi) hT
    · rw [h'.shown i hT]
      rcases hs with hs | hs
      · exact h.hidden i hi hs
      · exact absurd hs hT
  shown := by
    intro i hn
    rw [h'.shown i (fun x => hn (Or.inr x)), h.shown i (fun x => hn (Or.inl x))]

theorem masked_congr {S T : Nat → Prop} {t t' : Bytes} (h : MaskedAt S t t') (e : ∀ i, S i ↔ T i) : MaskedAt T t t' where
  len := h.len
  hidden := fun i hi ht => h.hidden i hi ((e i).mpr ht)
  shown := fun i hn => h.shown i (fun x => hn ((e i).mp x))

theorem masked_nil {t : Bytes} {S : Nat → Prop} (h : ∀ i, ¬ S i) : MaskedAt S t t :=
  ⟨rfl, fun i _ hs => absurd hs (h i), fun _ _ => rfl⟩

/-- several matches without overlap, masked one after the other -/
theorem fold_masked : ∀ (ms : List (Nat × Nat)) (t : Bytes), (ms.Pairwise fun m n => m.2 ≤ n.1) →
    (∀ m ∈ ms, m.1 < m.2) → MaskedAt (fun i => ∃ m ∈ ms, Hides t m i) t (ms.foldl maskMatch t) := by
  intro ms
  induction ms with
  | nil => intro t _ _; exact masked_nil (by simp)
  | cons m ms ih =>
    intro t hp hl
    rw [List.pairwise_cons] at hp
    have h1 := maskMatch_masked t m
    have h2 := ih (maskMatch t m) hp.2 (fun n hn => hl n (by simp [hn]))
    refine masked_congr (masked_comp h1 h2) (fun i => ?_)
    have hc : ∀ n ∈ ms, Hides (maskMatch t m) n i ↔ Hides t n i := by
      intro n hn
      refine hides_congr (fun j j1 j2 => h1.shown j (fun x => ?_)) i
      have := hp.1 n hn
      have := x.2.1
      omega
    constructor
    · rintro (h | ⟨n, hn, h⟩)
      · exact ⟨m, by simp, h⟩
      · exact ⟨n, by simp [hn], (hc n hn).mp h⟩
    · rintro ⟨n, hn, h⟩
      rcases List.mem_cons.mp hn with rfl | hn
      · exact Or.inl h
      · exact Or.inr ⟨n, hn, (hc n hn).mpr h⟩

theorem detect_masked {P : Type} {find : P → Bytes → List (Nat × Nat)} (he : Engine find) (p : P) (t : Bytes) :
    MaskedAt (fun i => ∃ m ∈ find p t, Hides t m i) t (detect find p t true).1 := by
  obtain ⟨h1, h2⟩ := he p t
  exact fold_masked _ _ h2 (fun m hm => (h1 m hm).1)

/-! ### C78 -/

/-- **C78** DetectPII reports PII exactly if one of the patterns matches the text, in whatever order the patterns are tried,
with and without obfuscation. -/
theorem C78_answer {P : Type} (find : P → Bytes → List (Nat × Nat)) (order : List P) (t : Bytes) (o : Bool) :
    (detectPII find order t o).2 = true ↔ ∃ p ∈ order, find p t ≠ [] := by
  induction order generalizing t with
  | nil => simp [detectPII]
  | cons p ps ih =>
    simp only [detectPII, Bool.or_eq_true]
    by_cases hp : find p t = []
    · have e : (detect find p t o).1 = t := by simp [detect, hp]
      rw [e, ih t]
      simp [detect, hp]
    · simp [detect, hp]

/-- **C78** If no PII is reported, or no obfuscation is asked for, the text is unchanged. -/
theorem C78_unchanged {P : Type} (find : P → Bytes → List (Nat × Nat)) (order : List P) (t : Bytes) (o : Bool)
    (h : (detectPII find order t o).2 = false ∨ o = false) : (detectPII find order t o).1 = t := by
  induction order generalizing t with
  | nil => rfl
  | cons p ps ih =>
    have e : (detect find p t o).1 = t := by
      rcases h with h | h
      · simp only [detectPII, Bool.or_eq_false_iff] at h
        have : find p t = [] := by simpa [detect] using h.1
        simp [detect, this]
      · simp [detect, h]
    simp only [detectPII, Bool.or_eq_false_iff] at h ⊢
    rw [e] at h ⊢
    exact ih t (h.imp (·.2) id)

/-- some positions are masked -/
theorem detectPII_masked {P : Type} {find : P → Bytes → List (Nat × Nat)} (he : Engine find) (order : List P) (t : Bytes)
    (o : Bool) : ∃ S, MaskedAt S t (detectPII find order t o).1 := by
  induction order generalizing t with
  | nil => exact ⟨fun _ => False, masked_nil (fun _ h => h)⟩
  | cons p ps ih =>
    cases o with
    | false => exact ⟨fun _ => False, by rw [C78_unchanged find _ t false (Or.inr rfl)]; exact masked_nil (fun _ h => h)⟩
    | true =>
      obtain ⟨S, hS⟩ := ih (detect find p t true).1
      exact ⟨_, masked_comp (detect_masked he p t) hS⟩

/-- **C78** DetectPII only replaces bytes by `*`: the length stays, and every byte is the old one or `*`. -/
theorem C78_only_stars {P : Type} {find : P → Bytes → List (Nat × Nat)} (he : Engine find) (order : List P) (t : Bytes)
    (o : Bool) : (detectPII find order t o).1.length = t.length ∧
      ∀ i : Nat, (detectPII find order t o).1[i]? = t[i]? ∨ (detectPII find order t o).1[i]? = some star := by
  obtain ⟨S, hS⟩ := detectPII_masked he order t o
  refine ⟨hS.len, fun i => ?_⟩
  by_cases h : S i
  · by_cases hi : i < t.length
    · exact Or.inr (hS.hidden i hi h)
    · left; rw [List.getElem?_eq_none (by rw [hS.len]; omega), List.getElem?_eq_none (by omega)]
  · exact Or.inl (hS.shown i h)

/-- **C78** If PII is reported and obfuscated, some pattern that matches the text has all its matches in the text hidden. -/
theorem C78_one_hidden {P : Type} {find : P → Bytes → List (Nat × Nat)} (he : Engine find) (order : List P) (t : Bytes)
    (h : (detectPII find order t true).2 = true) :
    ∃ p ∈ order, find p t ≠ [] ∧ ∀ m ∈ find p t, ∀ i, Hides t m i → (detectPII find order t true).1[i]? = some star := by
  induction order with
  | nil => simp [detectPII] at h
  | cons p ps ih =>
    by_cases hp : find p t = []
    · have e : detect find p t true = (t, false) := by simp [detect, hp]
      have e2 : detectPII find (p :: ps) t true = detectPII find ps t true := by simp [detectPII, e]
      rw [e2] at h ⊢
      obtain ⟨q, hq, g⟩ := ih h
      exact ⟨q, by simp [hq], g⟩
    · refine ⟨p, by simp, hp, fun m hm i hi => ?_⟩
      have hm1 := detect_masked he p t
      obtain ⟨S, hS⟩ := detectPII_masked he ps (detect find p t true).1 true
      have := masked_comp hm1 hS
      exact this.hidden i (by have := (he p t).1 m hm; have := hi.2.1; omega) (Or.inl ⟨m, hm, hi⟩)

/-- **C171** (partial) If the patterns do not interfere on the text: exactly what the matches of all the patterns hide is
replaced, whatever the order. -/
theorem C171_exact_partial {P : Type} {find : P → Bytes → List (Nat × Nat)} (he : Engine find) (ps : List P) (t : Bytes)
    (hn : NoInterference find ps t) (order : List P) (ho : order.Perm ps) (hd : order.Nodup) :
    MaskedAt (HiddenBy find ps t) t (detectPII find order t true).1 := by
  have key : ∀ (todo done : List P) (t' : Bytes), (∀ p ∈ todo, p ∈ ps ∧ p ∉ done) → (∀ q ∈ done, q ∈ ps) → todo.Nodup →
      MaskedAt (HiddenBy find done t) t t' →
      MaskedAt (HiddenBy find (done ++ todo) t) t (detectPII find todo t' true).1 := by
    intro todo
    induction todo with
    | nil => intro done t' _ _ _ h; simpa [detectPII] using h
    | cons p todo ih =>
      intro done t' h1 h2 h3 h4
      have hp := h1 p (by simp)
      rw [List.nodup_cons] at h3
      have hst := hn.stable p hp.1 done (fun q hq => ⟨h2 q hq, fun e => hp.2 (e ▸ hq)⟩) t' h4
      have hdm := detect_masked he p t'
      rw [hst] at hdm
      have hnext : MaskedAt (HiddenBy find (done ++ [p]) t) t (detect find p t' true).1 := by
        refine masked_congr (masked_comp h4 hdm) (fun i => ?_)
        have hc : ∀ m ∈ find p t, Hides t' m i ↔ Hides t m i := by
          intro m hm
          refine hides_congr (fun j j1 j2 => h4.shown j ?_) i
          rintro ⟨q, hq, n, hn', hh⟩
          have := hn.apart p hp.1 q (h2 q hq) (fun e => hp.2 (e ▸ hq)) m hm n hn'
          have := hh.1
          have := hh.2.1
          omega
        constructor
        · rintro (⟨q, hq, g⟩ | ⟨m, hm, g⟩)
          · exact ⟨q, by simp [hq], g⟩
          · exact ⟨p, by simp, m, hm, (hc m hm).mp g⟩
        · rintro ⟨q, hq, m, hm, g⟩
          rcases List.mem_append.mp hq with hq | hq
          · exact Or.inl ⟨q, hq, m, hm, g⟩
          · have : q = p := by simpa using hq
            subst this
            exact Or.inr ⟨m, hm, (hc m hm).mpr g⟩
      have := ih (done ++ [p]) (detect find p t' true).1 ?_ ?_ h3.2 hnext
      · simpa [detectPII] using this
      · intro q hq
        have := h1 q (by simp [hq])
        refine ⟨this.1, ?_⟩
        simp only [List.mem_append, List.mem_singleton, not_or]
        exact ⟨this.2, fun e => h3.1 (e ▸ hq)⟩
      · intro q hq
        rcases List.mem_append.mp hq with hq | hq
        · exact h2 q hq
        · have : q = p := by simpa using hq
          exact this ▸ hp.1
  have := key order [] t (fun p hp => ⟨ho.mem_iff.mp hp, by simp⟩) (by simp) hd (masked_nil (by simp [HiddenBy]))
  refine masked_congr this (fun i => ?_)
  simp only [List.nil_append]
  constructor
  · rintro ⟨p, hp, g⟩; exact ⟨p, ho.mem_iff.mp hp, g⟩
  · rintro ⟨p, hp, g⟩; exact ⟨p, ho.mem_iff.mpr hp, g⟩

theorem masked_unique {S : Nat → Prop} {t a b : Bytes} (h : MaskedAt S t a) (h' : MaskedAt S t b) : a = b := by
  apply List.ext_getElem?
  intro i
  by_cases hs : S i
  · by_cases hi : i < t.length
    · rw [h.hidden i hi hs, h'.hidden i hi hs]
    · rw [List.getElem?_eq_none (by rw [h.len]; omega), List.getElem?_eq_none (by rw [h'.len]; omega)]
  · rw [h.shown i hs, h'.shown i hs]

/-- **C171** (partial) … so the result does not depend on the order. -/
theorem C171_order_partial {P : Type} {find : P → Bytes → List (Nat × Nat)} (he : Engine find) (ps : List P) (t : Bytes)
    (hn : NoInterference find ps t) {o o' : List P} (ho : o.Perm ps) (hd : o.Nodup) (ho' : o'.Perm ps) (hd' : o'.Nodup) :
    detectPII find o t true = detectPII find o' t true := by
  have h1 := masked_unique (C171_exact_partial he ps t hn o ho hd) (C171_exact_partial he ps t hn o' ho' hd')
  have h2 : (detectPII find o t true).2 = (detectPII find o' t true).2 := by
    rw [Bool.eq_iff_iff, C78_answer, C78_answer]
    constructor
    · rintro ⟨p, hp, g⟩; exact ⟨p, ho'.mem_iff.mpr (ho.mem_iff.mp hp), g⟩
    · rintro ⟨p, hp, g⟩; exact ⟨p, ho.mem_iff.mpr (ho'.mem_iff.mp hp), g⟩
  exact Prod.ext h1 h2

/-- **C171** (partial) In particular if a single pattern matches, and masking its matches makes no other pattern match: the
result is the same for every order. -/
theorem C171_single_partial {P : Type} {find : P → Bytes → List (Nat × Nat)} (he : Engine find) (ps : List P) (t : Bytes) (p : P)
    (hp : p ∈ ps) (h1 : ∀ q ∈ ps, q ≠ p → find q t = []) (h2 : ∀ q ∈ ps, q ≠ p → find q (detect find p t true).1 = [])
    (order : List P) (ho : order.Perm ps) (hd : order.Nodup) :
    MaskedAt (fun i => ∃ m ∈ find p t, Hides t m i) t (detectPII find order t true).1 := by
  classical
  have hn : NoInterference find ps t := by
    constructor
    · intro a ha b hb hab m hm n hn
      rcases Classical.em (a = p) with e | e
      · have hb' := h1 b hb (fun e' => hab (e.trans e'.symm))
        rw [hb'] at hn; cases hn
      · rw [h1 a ha e] at hm; cases hm
    · intro a ha l hl t' ht'
      rcases Classical.em (p ∈ l) with e | e
      · have hap : a ≠ p := fun e' => (hl p e).2 e'.symm
        have : t' = (detect find p t true).1 := by
          refine masked_unique (masked_congr ht' (fun i => ?_)) (detect_masked he p t)
          constructor
          · rintro ⟨q, hq, m, hm, g⟩
            rcases Classical.em (q = p) with e2 | e2
            · subst e2; exact ⟨m, hm, g⟩
            · rw [h1 q (hl q hq).1 e2] at hm; cases hm
          · rintro ⟨m, hm, g⟩; exact ⟨p, e, m, hm, g⟩
        rw [this, h1 a ha hap, h2 a ha hap]
      · have : t' = t := by
          refine masked_unique (masked_congr ht' (T := fun _ => False) (fun i => ?_)) (masked_nil (fun _ h => h))
          refine ⟨?_, fun h => h.elim⟩
          rintro ⟨q, hq, m, hm, g⟩
          have e2 : q ≠ p := fun e2 => e (e2 ▸ hq)
          rw [h1 q (hl q hq).1 e2] at hm; cases hm
        rw [this]
  refine masked_congr (C171_exact_partial he ps t hn order ho hd) (fun i => ?_)
  constructor
  · rintro ⟨q, hq, m, hm, g⟩
    rcases Classical.em (q = p) with e | e
    · subst e; exact ⟨m, hm, g⟩
    · rw [h1 q hq e] at hm; cases hm
  · rintro ⟨m, hm, g⟩; exact ⟨p, hp, m, hm, g⟩

/-! ### the shipped patterns -/

/-- the patterns in the order of the file -/
def allPats : List Pat := List.finRange 20

/-- bytes of an ASCII text -/
def ascii (s : String) : Bytes := s.toList.map fun c => UInt8.ofNat c.toNat

theorem allPats_nodup : allPats.Nodup := by decide
theorem rev_perm : allPats.reverse.Perm allPats := List.reverse_perm _

/-- **C171** (negation) The outcome depends on the order in which the map is iterated: of the address
`123-456-7890@example.com` either everything is hidden, or, if the phone number pattern comes before the e-mail pattern, the
host stays readable. -/
theorem C171_order_false :
    (detectPII findPat allPats (ascii "123-456-7890@example.com") true).1 = ascii "************************" ∧
    (detectPII findPat allPats.reverse (ascii "123-456-7890@example.com") true).1 = ascii "************@example.com" ∧
    (0, 24) ∈ findPat 2 (ascii "123-456-7890@example.com") := by
  refine ⟨by decide +kernel, by decide +kernel, by decide +kernel⟩

/-- **C171** (negation) The obfuscated text may still contain PII: hiding the e-mail address frees the social security number
behind it, which is not found any more if its pattern came first. -/
theorem C171_left_over_false :
    ∃ order : List Pat, order.Perm allPats ∧ order.Nodup ∧
      (detectPII findPat order (ascii "x@y.com123-45-6789") true).1 = ascii "*******123-45-6789" ∧
      findPat 3 (ascii "*******123-45-6789") = [(7, 18)] := by
  refine ⟨3 :: allPats.erase 3, by decide, by decide, by decide +kernel, by decide +kernel⟩

/-! non-vacuity -/
example : detectPII findPat allPats (ascii "My IP is 192.168.1.1.") true = (ascii "My IP is ***********.", true) := by decide +kernel
example : detectPII findPat allPats (ascii "AWS_SECRET_ACCESS_KEY=myawssecret") true =
    (ascii "AWS_SECRET_ACCESS_KEY=***********", true) := by decide +kernel
example : detectPII findPat allPats (ascii "This is not.an.email and IP 299.299.299.") true =
    (ascii "This is not.an.email and IP 299.299.299.", false) := by decide +kernel
/-- the hypotheses of `C171_single_partial` on a real text -/
example : (∀ q ∈ allPats, q ≠ 2 → findPat q (ascii "mail me@x.org") = []) ∧
    (∀ q ∈ allPats, q ≠ 2 → findPat q (detect findPat 2 (ascii "mail me@x.org") true).1 = []) ∧
    findPat 2 (ascii "mail me@x.org") = [(5, 13)] := by decide +kernel

end Verif.Props
