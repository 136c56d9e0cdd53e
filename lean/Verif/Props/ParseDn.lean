import Verif.Sec.ParseDn
/-
Property C262: a distinguished name is taken apart into its attributes.
-/
namespace Verif.Dn

/-- the list begins with this element -/
def First {α : Type} (l : List α) (x : α) : Prop := ∃ r, l = x :: r

theorem First.flatMap {α β : Type} {l : List α} {x : α} {g : α → List β} {y : β} (h : First l x) (hg : First (g x) y) : First (l.flatMap g) y := by
  obtain ⟨r, rfl⟩ := h
  obtain ⟨s, hs⟩ := hg
  exact ⟨s ++ r.flatMap g, by simp [List.flatMap_cons, hs]⟩

theorem First.map {α β : Type} {l : List α} {x : α} (g : α → β) (h : First l x) : First (l.map g) (g x) := by
  obtain ⟨r, rfl⟩ := h
  exact ⟨r.map g, rfl⟩

theorem First.head {α : Type} {l : List α} {x : α} (h : First l x) : l.head? = some x := by
  obtain ⟨r, rfl⟩ := h
  rfl

/-- a text does not go on with such a character -/
def Stops (f : Char → Bool) (r : Text) : Prop := ∀ c s, r = c :: s → f c = false

theorem plus_stop {f : Char → Bool} {r : Text} (h : Stops f r) : plus f r = [] := by
  cases r with
  | nil => rfl
  | cons c s => simp [plus, h c s rfl]

theorem plus_first {f : Char → Bool} : ∀ {a : Text} {r : Text}, a ≠ [] → (∀ c ∈ a, f c = true) → Stops f r → First (plus f (a ++ r)) (a, r) := by
  intro a
  induction a with
  | nil => intro r h; exact absurd rfl h
  | cons c a ih =>
    intro r _ ha hr
    have hc := ha c (by simp)
    simp only [List.cons_append, plus, hc, if_true]
    cases a with
    | nil => exact ⟨[], by simp [plus_stop hr]⟩
    | cons d a =>
      obtain ⟨l, hl⟩ := ih (r := r) (by simp) (fun x hx => ha x (List.mem_cons_of_mem _ hx)) hr
      exact ⟨l.map (fun p => (c :: p.1, p.2)) ++ [([c], d :: a ++ r)], by rw [hl]; simp⟩

theorem opt_skip {f : Char → Bool} {c : Char} (r : Text) (h : f c = true) : First (opt f (c :: r)) r := ⟨[c :: r], by simp [opt, h]⟩

theorem opt_stay {f : Char → Bool} {r : Text} (h : Stops f r) : First (opt f r) r := by
  cases r with
  | nil => exact ⟨[], rfl⟩
  | cons c s => exact ⟨[], by simp [opt, h c s rfl]⟩

/-- an attribute as people write it: spaces before it, name, whether there is a space before and after the `=`, value (specification) -/
structure Attr where
  before : Nat := 0
  key : Text
  sp1 : Bool := false
  sp2 : Bool := false
  value : Text

/-- what an attribute looks like from its name on (specification) -/
def Attr.core (a : Attr) : Text := a.key ++ (if a.sp1 then [' '] else []) ++ ['='] ++ (if a.sp2 then [' '] else []) ++ a.value

/-- name and value are plain: not empty; no separator in them; no `=` or space in the name; no space at the beginning of the value (specification) -/
structure Attr.Plain (a : Attr) : Prop where
  key : a.key ≠ []
  keyCh : ∀ c ∈ a.key, c ≠ '=' ∧ c ≠ ' ' ∧ c ≠ ',' ∧ c ≠ ';' ∧ c ≠ '/'
  value : a.value ≠ []
  valCh : ∀ c ∈ a.value, c ≠ ',' ∧ c ≠ ';' ∧ c ≠ '/'
  noSp : ∀ c r, a.value = c :: r → c ≠ ' '

theorem isSep_iff (c : Char) : isSep c = true ↔ c = '/' ∨ c = ';' ∨ c = ',' := by simp [isSep, or_assoc]
theorem isKey_iff (c : Char) : isKey c = true ↔ c ≠ '=' ∧ c ≠ ' ' := by simp [isKey]

/-- the candidates behind the separator -/
def body (t1 : Text) : List ((Text × Text) × Text) :=
  (plus isKey t1).flatMap fun k => (opt isSp k.2).flatMap fun t3 => (eqs t3).flatMap fun t4 =>
    (opt isSp t4).flatMap fun t5 => (plus isVal t5).map fun v => ((k.1, v.1), v.2)

theorem body_first {a : Attr} (h : a.Plain) {rest : Text} (hr : Stops isVal rest) : First (body (a.core ++ rest)) ((a.key, a.value), rest) := by
  unfold body
  have hk : ∀ c ∈ a.key, isKey c = true := fun c hc => (isKey_iff c).2 ⟨(h.keyCh c hc).1, (h.keyCh c hc).2.1⟩
  have hv : ∀ c ∈ a.value, isVal c = true := by
    intro c hc
    obtain ⟨v1, v2, v3⟩ := h.valCh c hc
    simp [isVal, isSep, v1, v2, v3]
  have hval : First (plus isVal (a.value ++ rest)) (a.value, rest) := plus_first h.value hv hr
  have hsp2 : First (opt isSp ((if a.sp2 then [' '] else []) ++ (a.value ++ rest))) (a.value ++ rest) := by
    cases a.sp2
    · apply opt_stay
      intro c s he
      cases hvv : a.value with
      | nil => exact absurd hvv h.value
      | cons d v =>
        simp only [hvv] at he
        simp at he
        obtain ⟨rfl, _⟩ := he
        simpa [isSp] using h.noSp d v hvv
    · exact opt_skip _ rfl
  have heq : First (eqs ('=' :: ((if a.sp2 then [' '] else []) ++ (a.value ++ rest)))) ((if a.sp2 then [' '] else []) ++ (a.value ++ rest)) := ⟨[], by simp [eqs]⟩
  have hsp1 : First (opt isSp ((if a.sp1 then [' '] else []) ++ '=' :: ((if a.sp2 then [' '] else []) ++ (a.value ++ rest))))
      ('=' :: ((if a.sp2 then [' '] else []) ++ (a.value ++ rest))) := by
    cases a.sp1
    · apply opt_stay
      intro c s he
      simp at he
      rw [← he.1]; decide
    · exact opt_skip _ rfl
  have hkey : First (plus isKey (a.key ++ ((if a.sp1 then [' '] else []) ++ '=' :: ((if a.sp2 then [' '] else []) ++ (a.value ++ rest)))))
      (a.key, (if a.sp1 then [' '] else []) ++ '=' :: ((if a.sp2 then [' '] else []) ++ (a.value ++ rest))) := by
    apply plus_first h.key hk
    intro c s he
    cases hs : a.sp1 <;> simp [hs] at he <;> rw [← he.1] <;> decide
  have he : a.core ++ rest = a.key ++ ((if a.sp1 then [' '] else []) ++ '=' :: ((if a.sp2 then [' '] else []) ++ (a.value ++ rest))) := by
    simp [Attr.core, List.append_assoc]
  rw [he]
  exact hkey.flatMap (hsp1.flatMap (heq.flatMap (hsp2.flatMap (hval.map (fun v => ((a.key, v.1), v.2))))))

theorem cands_plain {a : Attr} (h : a.Plain) {rest : Text} (hr : Stops isVal rest) : First (cands (a.core ++ rest)) ((a.key, a.value), rest) := by
  refine First.flatMap (x := a.core ++ rest) (opt_stay ?_) (body_first h hr)
  intro c s he
  cases hk : a.key with
  | nil => exact absurd hk h.key
  | cons d k =>
    simp [Attr.core, hk] at he
    obtain ⟨rfl, _⟩ := he
    obtain ⟨_, _, k1, k2, k3⟩ := h.keyCh d (by rw [hk]; simp)
    simp [isSep, k1, k2, k3]

theorem cands_sep {a : Attr} (h : a.Plain) {rest : Text} (hr : Stops isVal rest) {s : Char} (hs : isSep s = true) :
    First (cands (s :: (a.core ++ rest))) ((a.key, a.value), rest) :=
  First.flatMap (x := a.core ++ rest) (opt_skip _ hs) (body_first h hr)

/-- a separator before spaces does not begin an attribute -/
theorem cands_sep_sp {s : Char} (hs : isSep s = true) {r : Text} (hr : ∀ c u, r = c :: u → c ≠ '=') : cands (s :: ' ' :: r) = [] := by
  have hk : isKey s = true := by
    rcases (isSep_iff s).1 hs with rfl | rfl | rfl <;> decide
  have he : eqs r = [] := by
    cases r with
    | nil => rfl
    | cons c u => simp [eqs, hr c u rfl]
  simp [cands, opt, hs, plus, hk, show isKey ' ' = false by decide, show isSp ' ' = true by decide, he, show eqs (' ' :: r) = [] by simp [eqs]]

theorem cands_sp (r : Text) : cands (' ' :: r) = [] := by
  simp [cands, opt, show isSep ' ' = false by decide, plus, show isKey ' ' = false by decide]

theorem findFrom_first {n : Nat} {t rest : Text} {m : Text × Text} (h : First (cands t) (m, rest)) : findFrom (n + 1) t = m :: findFrom n rest := by
  simp [findFrom, h.head]

theorem findFrom_none {n : Nat} {c : Char} {r : Text} (h : cands (c :: r) = []) : findFrom (n + 1) (c :: r) = findFrom n r := by
  simp [findFrom, h]

theorem core_ne {a : Attr} (h : a.Plain) (rest : Text) : ∃ c r, a.core ++ rest = c :: r ∧ c ≠ '=' ∧ c ≠ ' ' := by
  cases hk : a.key with
  | nil => exact absurd hk h.key
  | cons d k =>
    obtain ⟨k1, k2, _⟩ := h.keyCh d (by rw [hk]; simp)
    exact ⟨d, _, by simp [Attr.core, hk]; rfl, k1, k2⟩

theorem findFrom_spaces : ∀ (b n : Nat) (r : Text), b ≤ n → findFrom n (List.replicate b ' ' ++ r) = findFrom (n - b) r := by
  intro b
  induction b with
  | zero => intro n r _; simp
  | succ b ih =>
    intro n r h
    obtain ⟨n, rfl⟩ : ∃ m, n = m + 1 := ⟨n - 1, by omega⟩
    rw [List.replicate_succ, List.cons_append, findFrom_none (cands_sp _), ih n r (by omega)]
    congr 1; omega

/-- attributes with a separator before each (specification) -/
def renderSep : List (Char × Attr) → Text
  | [] => []
  | (s, a) :: r => s :: (List.replicate a.before ' ' ++ a.core ++ renderSep r)

/-- a distinguished name as people write it: attributes separated by commas, semicolons or slashes; `lead`: a separator before the first (specification) -/
def render (lead : Option Char) (a : Attr) (r : List (Char × Attr)) : Text :=
  (match lead with | some s => [s] | none => []) ++ List.replicate a.before ' ' ++ a.core ++ renderSep r

theorem renderSep_stops {r : List (Char × Attr)} (hs : ∀ p ∈ r, isSep p.1 = true) : Stops isVal (renderSep r) := by
  intro c s he
  cases r with
  | nil => simp [renderSep] at he
  | cons p r =>
    obtain ⟨x, a⟩ := p
    simp [renderSep] at he
    have := hs (x, a) (by simp)
    simp at this
    rw [← he.1]; simp [isVal, this]

theorem core_len (a : Attr) (h : a.Plain) : 3 ≤ a.core.length := by
  have h1 : 0 < a.key.length := List.length_pos_iff.2 h.key
  have h2 : 0 < a.value.length := List.length_pos_iff.2 h.value
  simp [Attr.core]; omega

theorem find_one {s : Char} (hs : isSep s = true) {a : Attr} (h : a.Plain) {rest : Text} (hr : Stops isVal rest) {n : Nat}
    (hn : a.before + 2 ≤ n) : ∃ m, n ≤ m + a.before + 2 ∧ findFrom n (s :: (List.replicate a.before ' ' ++ a.core ++ rest)) = (a.key, a.value) :: findFrom m rest := by
  obtain ⟨n, rfl⟩ : ∃ m, n = m + 1 := ⟨n - 1, by omega⟩
  cases hb : a.before with
  | zero =>
    refine ⟨n, by omega, ?_⟩
    rw [List.replicate_zero, List.nil_append, findFrom_first (cands_sep h hr hs)]
  | succ b =>
    refine ⟨n - (b + 1) - 1, by omega, ?_⟩
    have hnone : cands (s :: (List.replicate (b + 1) ' ' ++ a.core ++ rest)) = [] := by
      rw [List.replicate_succ, List.cons_append, List.cons_append]
      apply cands_sep_sp hs
      intro c u he
      cases b with
      | zero =>
        obtain ⟨c', r', e, e1, _⟩ := core_ne h rest
        simp only [List.replicate_zero, List.nil_append] at he
        rw [e] at he
        cases he; exact e1
      | succ b =>
        rw [List.replicate_succ] at he
        simp only [List.cons_append] at he
        cases he; decide
    rw [findFrom_none hnone, List.append_assoc, findFrom_spaces (b + 1) n _ (by omega)]
    obtain ⟨m, hm⟩ : ∃ m, n - (b + 1) = m + 1 := ⟨n - (b + 1) - 1, by omega⟩
    rw [hm, findFrom_first (cands_plain h hr), show m + 1 - 1 = m by omega]

theorem find_rest : ∀ (r : List (Char × Attr)) (n : Nat), (∀ p ∈ r, isSep p.1 = true ∧ p.2.Plain) → (renderSep r).length + 1 ≤ n →
    findFrom n (renderSep r) = r.map (fun p => (p.2.key, p.2.value)) := by
  intro r
  induction r with
  | nil =>
    intro n _ hn
    obtain ⟨n, rfl⟩ : ∃ m, n = m + 1 := ⟨n - 1, by simp [renderSep] at hn; omega⟩
    simp [renderSep, findFrom, cands, opt, plus]
  | cons p r ih =>
    intro n hr hn
    obtain ⟨s, a⟩ := p
    have hs : isSep s = true := (hr (s, a) (by simp)).1
    have ha : a.Plain := (hr (s, a) (by simp)).2
    have hr' := fun p hp => hr p (List.mem_cons_of_mem _ hp)
    have hl := core_len a ha
    simp only [renderSep, List.length_cons, List.length_append, List.length_replicate] at hn
    obtain ⟨m, hm, he⟩ := find_one hs ha (renderSep_stops fun p hp => (hr' p hp).1) (n := n) (by omega)
    rw [renderSep, he, ih m hr' (by omega)]
    rfl

/-- **C262**: of a name with plain attributes, however it is separated and spaced, all attributes are found, in their order -/
theorem C262_attributes (lead : Option Char) (hl : ∀ s, lead = some s → s = ',' ∨ s = ';' ∨ s = '/') (a : Attr) (ha : a.Plain) (r : List (Char × Attr))
    (hr : ∀ p ∈ r, (p.1 = ',' ∨ p.1 = ';' ∨ p.1 = '/') ∧ p.2.Plain) :
    findAll (render lead a r) = (a :: r.map (·.2)).map (fun b => (b.key, b.value)) := by
  have hr' : ∀ p ∈ r, isSep p.1 = true ∧ p.2.Plain := by
    intro p hp
    refine ⟨?_, (hr p hp).2⟩
    rcases (hr p hp).1 with h | h | h <;> rw [h] <;> decide
  have hst := renderSep_stops fun p hp => (hr' p hp).1
  have hlen := core_len a ha
  unfold findAll
  cases lead with
  | none =>
    simp only [render, List.nil_append]
    rw [List.append_assoc, findFrom_spaces _ _ _ (by simp; omega)]
    generalize hn : (List.replicate a.before ' ' ++ (a.core ++ renderSep r)).length + 1 - a.before = n
    simp only [List.length_append, List.length_replicate] at hn
    obtain ⟨n, rfl⟩ : ∃ m, n = m + 1 := ⟨n - 1, by omega⟩
    rw [findFrom_first (cands_plain ha hst), find_rest r n hr' (by omega)]
    simp
  | some s =>
    have hs : isSep s = true := by rcases hl s rfl with h | h | h <;> rw [h] <;> decide
    simp only [render, List.cons_append, List.nil_append]
    have hfuel : a.before + 2 ≤ (s :: (List.replicate a.before ' ' ++ a.core ++ renderSep r)).length + 1 := by
      simp only [List.length_cons, List.length_append, List.length_replicate]; omega
    obtain ⟨m, hm, he⟩ := find_one hs ha hst hfuel
    simp only [List.length_cons, List.length_append, List.length_replicate] at hm
    rw [he, find_rest r m hr' (by omega)]
    simp

/-- the values of the attributes with a name, in their order (specification) -/
def values (k : String) (as : List (Text × Text)) : List Text := (as.filter fun p => p.1 = k.toList).map (·.2)

theorem add_all : ∀ (as : List (Text × Text)) (n : Name), (∀ p ∈ as, p.2 ≠ []) →
    let m := as.foldl Name.add n
    m.country = n.country ++ values "C" as ∧ m.organization = n.organization ++ values "O" as ∧ m.unit = n.unit ++ values "OU" as ∧
    m.locality = n.locality ++ values "L" as ∧ m.province = n.province ++ values "ST" as ∧
    m.serial = (values "SN" as).getLast?.getD n.serial ∧ m.common = (values "CN" as).getLast?.getD n.common := by
  intro as
  induction as with
  | nil => intro n _; simp [values]
  | cons p as ih =>
    intro n h
    obtain ⟨k, v⟩ := p
    have hv : v ≠ [] := h (k, v) (by simp)
    have ih := ih (n.add (k, v)) (fun p hp => h p (List.mem_cons_of_mem _ hp))
    simp only [List.foldl_cons]
    obtain ⟨i1, i2, i3, i4, i5, i6, i7⟩ := ih
    have hcons : ∀ (s : String), values s ((k, v) :: as) = if k = s.toList then v :: values s as else values s as := by
      intro s
      unfold values
      by_cases h : k = s.toList
      · simp [h]
      · simp [h]
    rw [i1, i2, i3, i4, i5, i6, i7]
    simp only [hcons, Name.add, hv, if_false]
    have e1 : "C".toList = ['C'] := rfl
    have e2 : "O".toList = ['O'] := rfl
    have e3 : "OU".toList = ['O', 'U'] := rfl
    have e4 : "L".toList = ['L'] := rfl
    have e5 : "ST".toList = ['S', 'T'] := rfl
    have e6 : "SN".toList = ['S', 'N'] := rfl
    have e7 : "CN".toList = ['C', 'N'] := rfl
    simp only [e1, e2, e3, e4, e5, e6, e7]
    by_cases c1 : k = ['C']
    · subst c1; simp
    by_cases c2 : k = ['O']
    · subst c2; simp
    by_cases c3 : k = ['O', 'U']
    · subst c3; simp
    by_cases c4 : k = ['L']
    · subst c4; simp
    by_cases c5 : k = ['S', 'T']
    · subst c5; simp
    by_cases c6 : k = ['S', 'N']
    · subst c6; simp [List.getLast?_cons]
    by_cases c7 : k = ['C', 'N']
    · subst c7; simp [List.getLast?_cons]
    simp [c1, c2, c3, c4, c5, c6, c7]

/-- **C262**: the parsed name has the values of the attributes, for each of the seven kinds: all of them in their order, of serial number and common name the last -/
theorem C262_parse (lead : Option Char) (hl : ∀ s, lead = some s → s = ',' ∨ s = ';' ∨ s = '/') (a : Attr) (ha : a.Plain) (r : List (Char × Attr))
    (hr : ∀ p ∈ r, (p.1 = ',' ∨ p.1 = ';' ∨ p.1 = '/') ∧ p.2.Plain) :
    let xs := (a :: r.map (·.2)).map (fun b => (b.key, b.value))
    parseDN (render lead a r) =
      { country := values "C" xs
        organization := values "O" xs
        «unit» := values "OU" xs
        locality := values "L" xs
        province := values "ST" xs
        serial := (values "SN" xs).getLast?.getD []
        common := (values "CN" xs).getLast?.getD [] } := by
  intro xs
  have h := C262_attributes lead hl a ha r hr
  have hne : ∀ p ∈ xs, p.2 ≠ [] := by
    intro p hp
    simp only [xs, List.map_cons, List.map_map, List.mem_cons, List.mem_map] at hp
    rcases hp with rfl | ⟨q, hq, rfl⟩
    · exact ha.value
    · exact (hr q hq).2.value
  obtain ⟨i1, i2, i3, i4, i5, i6, i7⟩ := add_all xs {} hne
  unfold parseDN
  rw [h]
  generalize hg : List.foldl Name.add {} xs = m at i1 i2 i3 i4 i5 i6 i7
  cases m
  simp_all

/-! ### nothing is invented -/

theorem plus_mem {f : Char → Bool} : ∀ {t : Text} {p : Text × Text}, p ∈ plus f t → t = p.1 ++ p.2 ∧ p.1 ≠ [] ∧ ∀ c ∈ p.1, f c = true := by
  intro t
  induction t with
  | nil => intro p h; simp [plus] at h
  | cons c t ih =>
    intro p h
    simp only [plus] at h
    by_cases hc : f c = true
    · rw [if_pos hc] at h
      rcases List.mem_append.1 h with h | h
      · obtain ⟨q, hq, rfl⟩ := List.mem_map.1 h
        obtain ⟨a, b, d⟩ := ih hq
        refine ⟨by simp [← a], by simp, ?_⟩
        intro x hx
        rcases List.mem_cons.1 hx with rfl | hx
        · exact hc
        · exact d x hx
      · simp at h
        subst h
        exact ⟨rfl, by simp, by simp [hc]⟩
    · rw [if_neg hc] at h; simp at h

theorem opt_mem {f : Char → Bool} {t u : Text} (h : u ∈ opt f t) : u = t ∨ ∃ c, f c = true ∧ t = c :: u := by
  cases t with
  | nil => simp [opt] at h; exact Or.inl h
  | cons c r =>
    simp only [opt] at h
    by_cases hc : f c = true
    · rw [if_pos hc] at h
      simp at h
      rcases h with rfl | rfl
      · exact Or.inr ⟨c, hc, rfl⟩
      · exact Or.inl rfl
    · rw [if_neg hc] at h; simp at h; exact Or.inl h

/-- an attribute stands at some place of a text (specification) -/
def StandsIn (t : Text) (m : Text × Text) : Prop :=
  ∃ pre sp1 sp2 post, t = pre ++ m.1 ++ sp1 ++ ['='] ++ sp2 ++ m.2 ++ post ∧ (sp1 = [] ∨ sp1 = [' ']) ∧ (sp2 = [] ∨ sp2 = [' ']) ∧ m.1 ≠ [] ∧ m.2 ≠ [] ∧
    ('=' ∉ m.1 ∧ ' ' ∉ m.1) ∧ ',' ∉ m.2 ∧ ';' ∉ m.2 ∧ '/' ∉ m.2

theorem cands_mem {t : Text} {m : Text × Text} {rest : Text} (h : (m, rest) ∈ cands t) : StandsIn t m ∧ ∃ pre, t = pre ++ rest := by
  simp only [cands, List.mem_flatMap, List.mem_map] at h
  obtain ⟨t1, h1, k, h2, t3, h3, t4, h4, t5, h5, v, h6, he⟩ := h
  cases he
  obtain ⟨k1, k2, k3⟩ := plus_mem h2
  obtain ⟨v1, v2, v3⟩ := plus_mem h6
  have h4' : t3 = '=' :: t4 := by
    cases t3 with
    | nil => simp [eqs] at h4
    | cons c r =>
      simp only [eqs] at h4
      by_cases hc : c = '='
      · rw [if_pos hc] at h4; simp at h4; rw [hc, h4]
      · rw [if_neg hc] at h4; simp at h4
  have sp : ∀ {x y : Text}, y ∈ opt isSp x → ∃ s, x = s ++ y ∧ (s = [] ∨ s = [' ']) := by
    intro x y hy
    rcases opt_mem hy with rfl | ⟨c, hc, rfl⟩
    · exact ⟨[], rfl, Or.inl rfl⟩
    · refine ⟨[c], rfl, Or.inr ?_⟩
      simp [isSp] at hc; rw [hc]
  obtain ⟨s1, e1, o1⟩ := sp h3
  obtain ⟨s2, e2, o2⟩ := sp h5
  obtain ⟨pre, hp⟩ : ∃ pre, t = pre ++ t1 := by
    rcases opt_mem h1 with rfl | ⟨c, _, rfl⟩
    · exact ⟨[], rfl⟩
    · exact ⟨[c], rfl⟩
  have ht : t = pre ++ k.1 ++ s1 ++ ['='] ++ s2 ++ v.1 ++ v.2 := by
    rw [hp, k1, e1, h4', e2, v1]; simp
  refine ⟨⟨pre, s1, s2, v.2, ht, o1, o2, k2, v2, ⟨?_, ?_⟩, ?_, ?_, ?_⟩, ⟨pre ++ k.1 ++ s1 ++ ['='] ++ s2 ++ v.1, ht⟩⟩
  · intro hm; exact ((isKey_iff _).1 (k3 _ hm)).1 rfl
  · intro hm; exact ((isKey_iff _).1 (k3 _ hm)).2 rfl
  · intro hm; have := v3 _ hm; revert this; decide
  · intro hm; have := v3 _ hm; revert this; decide
  · intro hm; have := v3 _ hm; revert this; decide

theorem StandsIn.later {u : Text} {m : Text × Text} (h : StandsIn u m) (pre : Text) : StandsIn (pre ++ u) m := by
  obtain ⟨p, a, b, q, e, r⟩ := h
  exact ⟨pre ++ p, a, b, q, by rw [e]; simp, r⟩

theorem find_stands : ∀ (n : Nat) (t : Text) (m : Text × Text), m ∈ findFrom n t → StandsIn t m := by
  intro n
  induction n with
  | zero => intro t m h; simp [findFrom] at h
  | succ n ih =>
    intro t m h
    simp only [findFrom] at h
    cases hc : (cands t).head? with
    | some p =>
      obtain ⟨m', rest⟩ := p
      rw [hc] at h
      obtain ⟨s, pre, hpre⟩ := cands_mem (List.mem_of_mem_head? (Option.mem_def.2 hc))
      rcases List.mem_cons.1 h with rfl | h
      · exact s
      · rw [hpre]; exact (ih rest m h).later pre
    | none =>
      rw [hc] at h
      cases t with
      | nil => simp at h
      | cons c r => exact (ih r m h).later [c]

/-- **C262**: nothing is invented: of any text, every attribute that is found stands in it -/
theorem C262_sound (t : Text) (m : Text × Text) (h : m ∈ findAll t) : StandsIn t m := find_stands _ _ _ h

/-! ### names of certificates -/

/-- the text can be written without escapes, and has no slash (specification) -/
structure Simple (v : Text) : Prop where
  ne : v ≠ []
  ch : ∀ c ∈ v, c ∉ [',', '+', '"', '\\', '<', '>', ';', '/']
  first : ∀ c r, v = c :: r → c ≠ '#' ∧ c ≠ ' '
  last : v.getLast? ≠ some ' '

theorem esc_simple : ∀ {v : Text} (b : Bool), (∀ c ∈ v, c ∉ [',', '+', '"', '\\', '<', '>', ';', '/']) → (b = true → ∀ c r, v = c :: r → c ≠ '#' ∧ c ≠ ' ') →
    v.getLast? ≠ some ' ' → escFrom b v = v := by
  intro v
  induction v with
  | nil => intro b _ _ _; rfl
  | cons c v ih =>
    intro b h hb hl
    have hc := h c (by simp)
    simp only [List.mem_cons, List.not_mem_nil, or_false, not_or] at hc
    obtain ⟨a1, a2, a3, a4, a5, a6, a7, _⟩ := hc
    have ht : escFrom false v = v := by
      apply ih false (fun x hx => h x (List.mem_cons_of_mem _ hx)) (by simp)
      cases v with
      | nil => simp
      | cons d v => simpa [List.getLast?_cons_cons] using hl
    have h1 : ¬ (c = '#' ∧ b = true) := fun e => (hb e.2 c v rfl).1 e.1
    have h2 : ¬ (c = ' ' ∧ (b = true ∨ v = [])) := by
      rintro ⟨rfl, e | e⟩
      · exact (hb e ' ' v rfl).2 rfl
      · subst e; simp at hl
    have h1' : (decide (c = '#') && b) = false := by
      cases hx : (decide (c = '#') && b) with
      | false => rfl
      | true => simp at hx; exact absurd hx h1
    have h2' : (decide (c = ' ') && (b || decide (v = []))) = false := by
      cases hx : (decide (c = ' ') && (b || decide (v = []))) with
      | false => rfl
      | true => simp at hx; exact absurd hx h2
    simp only [escFrom, h1', h2', ht]
    simp [a1, a2, a3, a4, a5, a6, a7]

/-- the attributes of a name in the order of its text -/
def flat (ps : List (Text × List Text)) : List (Text × Text) := ps.flatMap fun p => p.2.map fun v => (p.1, v)

theorem rdn_flat : ∀ (ps : List (Text × List Text)), (∀ p ∈ ps, p.2.length ≤ 1) →
    ((ps.filter fun p => p.2 ≠ []).map fun p => rdn p.1 p.2) = (flat ps).map fun q => attrText q.1 q.2 := by
  intro ps
  induction ps with
  | nil => intro _; rfl
  | cons p ps ih =>
    intro h
    obtain ⟨k, vs⟩ := p
    have hl := h (k, vs) (by simp)
    have ih := ih fun p hp => h p (List.mem_cons_of_mem _ hp)
    cases vs with
    | nil =>
      rw [List.filter_cons_of_neg (by simp), ih]
      simp [flat]
    | cons v vs =>
      cases vs with
      | nil =>
        rw [List.filter_cons_of_pos (by simp), List.map_cons, ih]
        simp [flat, rdn, List.intercalate]
      | cons w vs => simp at hl

theorem text_render (qs : List (Text × Text)) (q : Text × Text) (h : ∀ p ∈ q :: qs, Simple p.2) :
    [','].intercalate ((q :: qs).map fun p => attrText p.1 p.2) = render none { key := q.1, value := q.2 } (qs.map fun p => (',', { key := p.1, value := p.2 })) := by
  have ha : ∀ p ∈ q :: qs, attrText p.1 p.2 = ({ key := p.1, value := p.2 } : Attr).core := by
    intro p hp
    simp [attrText, Attr.core, esc_simple true (h p hp).ch (fun _ => (h p hp).first) (h p hp).last]
  have hr : ∀ qs : List (Text × Text), (∀ p ∈ qs, attrText p.1 p.2 = ({ key := p.1, value := p.2 } : Attr).core) →
      ∀ x : Text, [','].intercalate (x :: qs.map fun p => attrText p.1 p.2) = x ++ renderSep (qs.map fun p => (',', { key := p.1, value := p.2 })) := by
    intro qs
    induction qs with
    | nil => intro _ x; simp [List.intercalate, renderSep]
    | cons p qs ih =>
      intro hq x
      have := ih (fun y hy => hq y (List.mem_cons_of_mem _ hy)) (attrText p.1 p.2)
      rw [List.map_cons, show [','].intercalate (x :: attrText p.1 p.2 :: qs.map fun p => attrText p.1 p.2) =
        x ++ ',' :: [','].intercalate (attrText p.1 p.2 :: qs.map fun p => attrText p.1 p.2) by simp [List.intercalate], this, hq p (by simp)]
      simp [renderSep]
  rw [List.map_cons, hr qs (fun p hp => ha p (List.mem_cons_of_mem _ hp)), ha q (by simp)]
  simp [render]

theorem values_append (k : String) (a b : List (Text × Text)) : values k (a ++ b) = values k a ++ values k b := by simp [values]

theorem values_map (k : String) (k' : Text) (l : List Text) : values k (l.map fun v => (k', v)) = if k' = k.toList then l else [] := by
  unfold values
  by_cases h : k' = k.toList
  · rw [if_pos h, List.filter_eq_self.2 (by simp [h])]
    simp [Function.comp_def]
  · rw [if_neg h, List.filter_eq_nil_iff.2 (by simp [h])]
    rfl

/-- **C262**: reading back the text Go makes of the subject of a certificate gives the subject, if it has at most one value of each kind, no serial number, and no value
with a slash or a character that has to be escaped -/
theorem C262_roundtrip_partial (n : Name) (hs : n.serial = []) (hc : n.common = [] ∨ Simple n.common)
    (hl : ∀ l ∈ [n.country, n.organization, n.unit, n.locality, n.province], l.length ≤ 1 ∧ ∀ v ∈ l, Simple v) : parseDN n.text = n := by
  have h1 : ∀ p ∈ n.rdns, p.2.length ≤ 1 := by
    intro p hp
    simp only [Name.rdns, List.mem_cons, List.not_mem_nil, or_false] at hp
    rcases hp with rfl | rfl | rfl | rfl | rfl | rfl | rfl
    · simp [hs]
    · simp only []; split <;> simp
    all_goals exact (hl _ (by simp)).1
  have hv : ∀ q ∈ flat n.rdns, Simple q.2 := by
    intro q hq
    obtain ⟨p, hp, hq⟩ := List.mem_flatMap.1 hq
    obtain ⟨v, hv, rfl⟩ := List.mem_map.1 hq
    simp only [Name.rdns, List.mem_cons, List.not_mem_nil, or_false] at hp
    rcases hp with rfl | rfl | rfl | rfl | rfl | rfl | rfl
    · simp [hs] at hv
    · rcases hc with hc | hc
      · simp [hc] at hv
      · simp only [hc.ne, if_false, List.mem_singleton] at hv; rw [hv]; exact hc
    all_goals exact (hl _ (by simp)).2 v hv
  have hk : ∀ q ∈ flat n.rdns, q.1 ≠ [] ∧ ∀ c ∈ q.1, c ≠ '=' ∧ c ≠ ' ' ∧ c ≠ ',' ∧ c ≠ ';' ∧ c ≠ '/' := by
    intro q hq
    obtain ⟨p, hp, hq⟩ := List.mem_flatMap.1 hq
    obtain ⟨v, hv, rfl⟩ := List.mem_map.1 hq
    simp only [Name.rdns, List.mem_cons, List.not_mem_nil, or_false] at hp
    rcases hp with rfl | rfl | rfl | rfl | rfl | rfl | rfl <;> simp
  have hvals : values "C" (flat n.rdns) = n.country ∧ values "O" (flat n.rdns) = n.organization ∧ values "OU" (flat n.rdns) = n.unit ∧
      values "L" (flat n.rdns) = n.locality ∧ values "ST" (flat n.rdns) = n.province ∧ values "SN" (flat n.rdns) = [] ∧
      values "CN" (flat n.rdns) = if n.common = [] then [] else [n.common] := by
    simp only [flat, Name.rdns, List.flatMap_cons, List.flatMap_nil, values_append, values_map]
    simp [show values "C" [] = [] from rfl, show values "O" [] = [] from rfl, show values "OU" [] = [] from rfl, show values "L" [] = [] from rfl,
      show values "ST" [] = [] from rfl, show values "SN" [] = [] from rfl, show values "CN" [] = [] from rfl]
  obtain ⟨v1, v2, v3, v4, v5, v6, v7⟩ := hvals
  have hcom : (values "CN" (flat n.rdns)).getLast?.getD [] = n.common := by
    rw [v7]
    by_cases h : n.common = []
    · simp [h]
    · simp [h]
  have htext : n.text = [','].intercalate ((flat n.rdns).map fun q => attrText q.1 q.2) := by
    rw [Name.text, rdn_flat _ h1]
  rw [htext]
  cases hf : flat n.rdns with
  | nil =>
    rw [hf] at v1 v2 v3 v4 v5 hcom
    have hn : n = {} := by
      cases n
      simp only [values, List.filter_nil, List.map_nil] at v1 v2 v3 v4 v5 hcom
      simp at hs hcom
      simp_all
    rw [hn]; decide
  | cons q qs =>
    rw [hf] at hv hk v1 v2 v3 v4 v5 v6 hcom
    rw [text_render qs q hv]
    have hplain : ∀ p ∈ q :: qs, ({ key := p.1, value := p.2 } : Attr).Plain := by
      intro p hp
      refine ⟨(hk p hp).1, (hk p hp).2, (hv p hp).ne, ?_, fun c r e => ((hv p hp).first c r e).2⟩
      intro c hc
      have := (hv p hp).ch c hc
      simp only [List.mem_cons, List.not_mem_nil, or_false, not_or] at this
      exact ⟨this.1, this.2.2.2.2.2.2.1, this.2.2.2.2.2.2.2⟩
    rw [C262_parse none (by simp) _ (hplain q (by simp)) _ (by
      intro p hp
      obtain ⟨x, hx, rfl⟩ := List.mem_map.1 hp
      exact ⟨Or.inl rfl, hplain x (List.mem_cons_of_mem _ hx)⟩)]
    have hxs : (({ key := q.1, value := q.2 } : Attr) :: (qs.map fun p => (',', ({ key := p.1, value := p.2 } : Attr))).map (·.2)).map (fun b => (b.key, b.value)) = q :: qs := by
      simp [Function.comp_def]
    simp only [hxs, v1, v2, v3, v4, v5, v6, hcom]
    cases n
    simp only [] at hs
    subst hs
    rfl

/-- **C262** is false of the code: a comma in a value, which Go escapes, cuts the value and makes the next attribute disappear -/
theorem C262_comma_false : parseDN ({ common := "x".toList, organization := ["Foo, Inc.".toList], country := ["US".toList] } : Name).text =
    { common := "x".toList, organization := ["Foo\\".toList] } := by decide +kernel

/-- **C262** is false of the code: a slash in a value does the same -/
theorem C262_slash_false : parseDN ({ organization := ["A/B".toList], country := ["US".toList] } : Name).text = { organization := ["A".toList] } := by
  decide +kernel

/-- **C262** is false of the code: of several values of one kind one is made -/
theorem C262_several_false : parseDN ({ «unit» := ["a".toList, "b".toList] } : Name).text = { «unit» := ["a+OU=b".toList] } := by decide +kernel

/-- **C262** is false of the code: serial numbers are not read back: Go writes `SERIALNUMBER`, the code expects `SN` -/
theorem C262_serial_false : parseDN ({ serial := "42".toList } : Name).text = {} := by decide +kernel

/-- the hypotheses are met -/
example : parseDN "CN=Sample Cert, OU = R&D;O=Company Ltd./L=Dublin,C=IE, S=bogus".toList =
    { common := "Sample Cert".toList, «unit» := ["R&D".toList], organization := ["Company Ltd.".toList], locality := ["Dublin".toList], country := ["IE".toList] } := by decide +kernel
example : parseDN ({ common := "a b".toList, country := ["US".toList], «unit» := ["x".toList] } : Name).text =
    { common := "a b".toList, country := ["US".toList], «unit» := ["x".toList] } := by decide +kernel
example : render none { key := "CN".toList, value := "Sample Cert".toList } [(',', { before := 1, key := "OU".toList, sp1 := true, sp2 := true, value := "R&D".toList })] =
    "CN=Sample Cert, OU = R&D".toList := by decide +kernel

end Verif.Dn
