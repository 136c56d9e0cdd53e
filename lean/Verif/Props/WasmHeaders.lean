import Verif.Wasm.Headers
/-
C242 (changes of headers by filters are exact), C243 (filters see every header).
-/
namespace Verif.Props.WasmHeaders
open Verif.Heimdall Verif.Wasm.Headers

/-! ### specification -/

/-- the text in small letters -/
def lower (s : Str) : Str := s.map toLower

/-- a header name as RFC 7230 allows it -/
def Token (s : Str) : Prop := ∀ c ∈ s, token c = true

/-- the values of the header with this name -/
def values (d : Kind) (m : Raw) (k : Str) : List Str := m.at (d.norm k)

/-- a map: every name once -/
def Wf (m : Raw) : Prop := (m.map (·.1)).Nodup

/-! ### names -/

theorem char_cases (c : Char) : (isUpper c = true ∧ isLower c = false) ∨ (isUpper c = false) := by
  cases h : isUpper c with
  | false => exact .inr rfl
  | true =>
    refine .inl ⟨rfl, ?_⟩
    simp only [isUpper, isLower, Bool.and_eq_true, decide_eq_true_eq, Bool.and_eq_false_iff, decide_eq_false_iff_not] at *
    left
    intro h'
    have h1 : c.toNat ≤ 90 := h.2
    have h2 : 97 ≤ c.toNat := h'
    omega

theorem upper_fin : ∀ n, 65 ≤ n → n ≤ 90 → toLower (Char.ofNat n) = Char.ofNat (n + 32) ∧ toUpper (Char.ofNat n) = Char.ofNat n ∧
    toUpper (Char.ofNat (n + 32)) = Char.ofNat n ∧ toLower (Char.ofNat (n + 32)) = Char.ofNat (n + 32) ∧ token (Char.ofNat n) = true ∧
    token (Char.ofNat (n + 32)) = true ∧ Char.ofNat n ≠ '-' ∧ Char.ofNat (n + 32) ≠ '-' := by
  intro n h1 h2
  have : ∀ k, k < 26 → toLower (Char.ofNat (65 + k)) = Char.ofNat (65 + k + 32) ∧ toUpper (Char.ofNat (65 + k)) = Char.ofNat (65 + k) ∧
    toUpper (Char.ofNat (65 + k + 32)) = Char.ofNat (65 + k) ∧ toLower (Char.ofNat (65 + k + 32)) = Char.ofNat (65 + k + 32) ∧ token (Char.ofNat (65 + k)) = true ∧
    token (Char.ofNat (65 + k + 32)) = true ∧ Char.ofNat (65 + k) ≠ '-' ∧ Char.ofNat (65 + k + 32) ≠ '-' := by decide
  have h := this (n - 65) (by omega)
  rw [show 65 + (n - 65) = n by omega] at h
  exact h

/-- a character is a capital letter, a small letter or has no case -/
theorem char_kinds (c : Char) : (∃ n, 65 ≤ n ∧ n ≤ 90 ∧ (c = Char.ofNat n ∨ c = Char.ofNat (n + 32))) ∨ (toLower c = c ∧ toUpper c = c) := by
  by_cases hu : isUpper c = true
  · left
    simp only [isUpper, Bool.and_eq_true, decide_eq_true_eq] at hu
    have h1 : 65 ≤ c.toNat := hu.1
    have h2 : c.toNat ≤ 90 := hu.2
    exact ⟨c.toNat, h1, h2, .inl (Char.ofNat_toNat c).symm⟩
  by_cases hl : isLower c = true
  · left
    simp only [isLower, Bool.and_eq_true, decide_eq_true_eq] at hl
    have h1 : 97 ≤ c.toNat := hl.1
    have h2 : c.toNat ≤ 122 := hl.2
    exact ⟨c.toNat - 32, by omega, by omega, .inr (by rw [show c.toNat - 32 + 32 = c.toNat by omega]; exact (Char.ofNat_toNat c).symm)⟩
  · exact .inr ⟨by simp [toLower, hu], by simp [toUpper, hl]⟩

/-- what changing the case of a letter does -/
theorem case_facts (c : Char) : toLower (toLower c) = toLower c ∧ toLower (toUpper c) = toLower c ∧ toUpper (toUpper c) = toUpper c ∧
    toUpper (toLower c) = toUpper c ∧ token (toLower c) = token c ∧ token (toUpper c) = token c ∧ (toLower c = '-' ↔ c = '-') ∧ (toUpper c = '-' ↔ c = '-') := by
  rcases char_kinds c with ⟨n, h1, h2, h⟩ | ⟨h1, h2⟩
  · obtain ⟨a1, a2, a3, a4, a5, a6, a7, a8⟩ := upper_fin n h1 h2
    rcases h with rfl | rfl
    · refine ⟨by rw [a1, a4], by rw [a2], by rw [a2, a2], by rw [a1, a2, a3], by rw [a1, a5, a6], by rw [a2], by rw [a1]; exact ⟨fun h => absurd h a8, fun h => absurd h a7⟩, by rw [a2]⟩
    · refine ⟨by rw [a4, a4], by rw [a3, a1, a4], by rw [a3, a2], by rw [a4], by rw [a4], by rw [a3, a5, a6], by rw [a4], by rw [a3]; exact ⟨fun h => absurd h a7, fun h => absurd h a8⟩⟩
  · rw [h1, h2]; simp [h1, h2]

theorem lower_eq_dash {c d : Char} (h : toLower c = toLower d) : (c = '-') = (d = '-') := by
  have h1 := (case_facts c).2.2.2.2.2.2.1
  have h2 := (case_facts d).2.2.2.2.2.2.1
  rw [h] at h1
  exact propext (h1.symm.trans h2)

theorem canonGo_congr : ∀ (s t : Str) (up : Bool), lower s = lower t → canonGo up s = canonGo up t := by
  intro s
  induction s with
  | nil =>
    intro t up h
    cases t with
    | nil => rfl
    | cons d t => cases h
  | cons c s ih =>
    intro t up h
    cases t with
    | nil => cases h
    | cons d t =>
      simp only [lower, List.map_cons, List.cons.injEq] at h
      have hd := lower_eq_dash h.1
      have hu : toUpper c = toUpper d := by rw [← (case_facts c).2.2.2.1, ← (case_facts d).2.2.2.1, h.1]
      simp only [canonGo, hu, h.1, hd, ih t _ h.2]

theorem lower_canonGo : ∀ (s : Str) (up : Bool), lower (canonGo up s) = lower s := by
  intro s
  induction s with
  | nil => intro up; rfl
  | cons c s ih =>
    intro up
    have hi := ih (c = '-')
    have hc := case_facts c
    simp only [lower] at hi ⊢
    simp only [canonGo, List.map_cons, hi]
    cases up <;> simp [hc.1, hc.2.1]

theorem token_lower {s : Str} : (lower s).all token = s.all token := by
  induction s with
  | nil => rfl
  | cons c s ih =>
    simp only [lower] at ih ⊢
    simp only [List.map_cons, List.all_cons, (case_facts c).2.2.2.2.1, ih]

theorem token_iff {s : Str} : s.all token = true ↔ Token s := List.all_eq_true

theorem lower_canon (s : Str) : lower (canon s) = lower s := by
  unfold canon
  split
  · exact lower_canonGo s true
  · rfl

/-- the stored name of a stored name is the same -/
theorem norm_norm (d : Kind) (k : Str) : d.norm (d.norm k) = d.norm k := by
  cases d with
  | grpc =>
    show lower (lower k) = lower k
    simp only [lower, List.map_map]
    apply List.map_congr_left
    intro c _
    exact (case_facts c).1
  | http =>
    show canon (canon k) = canon k
    by_cases h : k.all token = true
    · have e : canon k = canonGo true k := by rw [canon, if_pos h]
      have h' : (canon k).all token = true := by rw [← token_lower, lower_canon, token_lower]; exact h
      rw [canon, if_pos h', e]
      exact canonGo_congr _ _ _ (lower_canonGo k true)
    · have e : canon k = k := by rw [canon, if_neg h]
      rw [e, e]

/-- **C242** Names of headers do not depend on case: two names that differ in case only are the same header, and (for names with allowed
characters, or in gRPC) no others are. -/
theorem C242_names (d : Kind) {k k' : Str} (hk : d = .grpc ∨ Token k) (hk' : d = .grpc ∨ Token k') : d.norm k = d.norm k' ↔ lower k = lower k' := by
  cases d with
  | grpc => exact Iff.rfl
  | http =>
    have h1 := token_iff.2 (hk.resolve_left (by simp))
    have h2 := token_iff.2 (hk'.resolve_left (by simp))
    show canon k = canon k' ↔ _
    constructor
    · intro h; rw [← lower_canon k, ← lower_canon k', h]
    · intro h; rw [canon, canon, if_pos h1, if_pos h2]; exact canonGo_congr _ _ _ h

/-! ### maps -/

theorem at_erase (m : Raw) (k k' : Str) : (m.erase k).at k' = if k' = k then [] else m.at k' := by
  unfold Raw.at Raw.erase
  induction m with
  | nil => simp
  | cons e m ih =>
    by_cases he : e.1 = k
    · rw [List.filter_cons_of_neg (by simpa using he), ih]
      by_cases h : k' = k
      · rw [if_pos h, if_pos h]
      · rw [if_neg h, if_neg h, List.find?_cons_of_neg (by simpa [he] using fun x => h x.symm)]
    · rw [List.filter_cons_of_pos (by simpa using he)]
      by_cases h' : e.1 = k'
      · have hk : ¬ k' = k := fun x => he (h'.trans x)
        rw [if_neg hk, List.find?_cons_of_pos (by simpa using h'), List.find?_cons_of_pos (by simpa using h')]
      · rw [List.find?_cons_of_neg (by simpa using h'), List.find?_cons_of_neg (by simpa using h'), ih]

theorem at_put (m : Raw) (k k' : Str) (v : List Str) : (m.put k v).at k' = if k' = k then v else m.at k' := by
  have he := at_erase m k k'
  unfold Raw.put
  unfold Raw.at at he ⊢
  rw [List.find?_append]
  by_cases h : k' = k
  · rw [if_pos h] at he ⊢
    have : (m.erase k).find? (fun e => decide (e.1 = k')) = none := by
      rw [List.find?_eq_none]; intro e hm
      have := (List.mem_filter.1 hm).2
      subst h; simpa using this
    rw [this]; simp [h]
  · rw [if_neg h] at he ⊢
    have hk : ¬ k = k' := fun e => h e.symm
    have hn : List.find? (fun e : Str × List Str => decide (e.1 = k')) [(k, v)] = none := by simp [hk]
    rw [hn, Option.or_none, he]

theorem filterMap_congr' {α β : Type} {f g : α → Option β} : ∀ {l : List α}, (∀ a ∈ l, f a = g a) → l.filterMap f = l.filterMap g
  | [], _ => rfl
  | a :: l, h => by
    rw [List.filterMap_cons, List.filterMap_cons, h a (.head _), filterMap_congr' fun b hb => h b (.tail _ hb)]

/-- **C242**: the names whose case does not matter are the ones made of the characters HTTP allows in a name (RFC 9110, `tchar`), listed here -/
theorem C242_token (s : Str) : Token s ↔ ∀ c ∈ s, c ∈ "!#$%&'*+-.^_`|~0123456789ABCDEFGHIJKLMNOPQRSTUVWXYZabcdefghijklmnopqrstuvwxyz".toList := by
  have small : ∀ n, n < 128 → (token (Char.ofNat n) = true ↔
      Char.ofNat n ∈ "!#$%&'*+-.^_`|~0123456789ABCDEFGHIJKLMNOPQRSTUVWXYZabcdefghijklmnopqrstuvwxyz".toList) := by decide +kernel
  have one : ∀ c : Char, token c = true ↔ c ∈ "!#$%&'*+-.^_`|~0123456789ABCDEFGHIJKLMNOPQRSTUVWXYZabcdefghijklmnopqrstuvwxyz".toList := by
    intro c
    by_cases hc : c.toNat < 128
    · have := small _ hc
      rwa [Char.ofNat_toNat] at this
    · have h1 : ∀ d : Char, d.toNat < 128 → c ≠ d := by intro d hd he; subst he; exact hc hd
      have hlist : ∀ d ∈ "!#$%&'*+-.^_`|~0123456789ABCDEFGHIJKLMNOPQRSTUVWXYZabcdefghijklmnopqrstuvwxyz".toList, d.toNat < 128 := by decide +kernel
      have hs : ∀ d ∈ "!#$%&'*+-.^_`|~".toList, d.toNat < 128 := by decide +kernel
      constructor
      · intro ht
        exfalso
        have hle : ∀ d : Char, d.toNat < 128 → ¬ c ≤ d := by
          intro d hd hle
          have : c.toNat ≤ d.toNat := hle
          omega
        have hns : ("!#$%&'*+-.^_`|~".toList.contains c) = false := by
          rw [Bool.eq_false_iff]
          intro h
          exact h1 c (hs c (List.contains_iff_mem.1 h)) rfl
        unfold token at ht
        rw [hns] at ht
        simp only [isUpper, isLower, Bool.or_false, Bool.or_eq_true, Bool.and_eq_true, decide_eq_true_eq] at ht
        rcases ht with (h | h) | h
        · exact hle _ (by decide) h.2
        · exact hle _ (by decide) h.2
        · exact hle _ (by decide) h.2
      · intro hm
        exact absurd rfl (h1 c (hlist c hm))
  exact ⟨fun h c hc => (one c).1 (h c hc), fun h c hc => (one c).2 (h c hc)⟩


/-- **C242** Setting a header gives it this one value, adding appends a value to those it has, deleting removes all; every other header keeps its
values, in order. -/
theorem C242_change (d : Kind) (m : Raw) (k v k' : Str) :
    values d (set d m k v) k' = (if d.norm k' = d.norm k then [v] else values d m k') ∧
    values d (add d m k v) k' = (if d.norm k' = d.norm k then values d m k ++ [v] else values d m k') ∧
    values d (del d m k) k' = (if d.norm k' = d.norm k then [] else values d m k') :=
  ⟨at_put _ _ _ _, at_put _ _ _ _, at_erase _ _ _⟩

/-- **C242** What is read is the first value, by every spelling of the name; nothing is found if the header has no value (for HTTP also if the
value is empty). -/
theorem C242_read (d : Kind) (m : Raw) (k v : Str) : get d m k = some v ↔ (∃ r, values d m k = v :: r) ∧ (d = .http → v ≠ []) := by
  unfold Verif.Wasm.Headers.get values
  cases h : m.at (d.norm k) with
  | nil => simp
  | cons w r =>
    cases d with
    | grpc => simp
    | http =>
      by_cases hw : w = []
      · subst hw; simp
      · simp only [hw, if_false, Option.some.injEq, List.cons.injEq]
        constructor
        · rintro rfl; exact ⟨⟨r, rfl, rfl⟩, fun _ => hw⟩
        · rintro ⟨⟨_, h, _⟩, _⟩; exact h

/-- **C242** So what a filter sets, with whatever spelling, is what it and everyone after it reads. -/
theorem C242_set_get (d : Kind) (m : Raw) (k k' v : Str) (h : d.norm k' = d.norm k) (hv : v ≠ []) : get d (set d m k v) k' = some v := by
  rw [C242_read]
  refine ⟨⟨[], ?_⟩, fun _ => hv⟩
  rw [(C242_change d m k v k').1, if_pos h]

theorem wf_erase {m : Raw} (h : Wf m) (k : Str) : Wf (m.erase k) := (List.Sublist.map _ List.filter_sublist).nodup h

theorem wf_put {m : Raw} (h : Wf m) (k : Str) (v : List Str) : Wf (m.put k v) := by
  unfold Wf Raw.put
  rw [List.map_append, List.nodup_append]
  refine ⟨wf_erase h k, by simp, ?_⟩
  intro a ha b hb
  simp only [List.map_cons, List.map_nil, List.mem_singleton] at hb
  subst hb
  obtain ⟨e, he, rfl⟩ := List.mem_map.1 ha
  have := (List.mem_filter.1 he).2
  simpa using this

/-- the names stored are the ones headers are stored under -/
def Canonical (d : Kind) (m : Raw) : Prop := ∀ e ∈ m, d.norm e.1 = e.1

/-- **C242** The headers stay a map with normalised names, whatever a filter does. -/
theorem C242_map (d : Kind) (ops : List Op) (m : Raw) (h : Wf m) (hc : Canonical d m) : Wf (ops.foldl (Op.run d) m) ∧ Canonical d (ops.foldl (Op.run d) m) := by
  have hput : ∀ {m : Raw}, Canonical d m → ∀ k v, Canonical d (m.put (d.norm k) v) := by
    intro m hc k v e he
    rcases List.mem_append.1 he with he | he
    · exact hc e (List.mem_filter.1 he).1
    · simp only [List.mem_singleton] at he; subst he; exact norm_norm d k
  induction ops generalizing m with
  | nil => exact ⟨h, hc⟩
  | cons o ops ih =>
    refine ih (o.run d m) ?_ ?_
    · cases o with
      | set k v => exact wf_put h _ _
      | add k v => exact wf_put h _ _
      | del k => exact wf_erase h _
    · cases o with
      | set k v => exact hput hc _ _
      | add k v => exact hput hc _ _
      | del k => exact fun e he => hc e (List.mem_filter.1 he).1

/-- **C242** A filter's own response has the headers of the response so far and, after them, the filter's own. -/
theorem C242_reply (m : Raw) (l : List (Str × Str)) (k : Str) :
    values .http (addAll m l) k = values .http m k ++ (l.filter fun e => canon e.1 = canon k).map (·.2) := by
  induction l generalizing m with
  | nil => simp [addAll]
  | cons e l ih =>
    obtain ⟨a, v⟩ := e
    have hc := (C242_change .http m a v k).2.1
    rw [addAll, ih, hc, List.filter_cons]
    by_cases h : Kind.http.norm k = Kind.http.norm a
    · have h' : canon a = canon k := h.symm
      rw [if_pos h, if_pos (by simpa using h')]
      unfold values
      rw [h]; simp
    · have h' : ¬ canon a = canon k := fun e => h e.symm
      rw [if_neg h, if_neg (by simpa using h')]

/-! ### C243 -/

theorem at_of_mem {m : Raw} (h : Wf m) {e : Str × List Str} (he : e ∈ m) : m.at e.1 = e.2 := by
  induction m with
  | nil => cases he
  | cons x m ih =>
    unfold Wf at h
    rw [List.map_cons, List.nodup_cons] at h
    unfold Raw.at
    rcases List.mem_cons.1 he with rfl | he
    · simp
    · have hne : x.1 ≠ e.1 := fun hx => h.1 (hx ▸ List.mem_map_of_mem he)
      rw [List.find?_cons_of_neg (by simpa using hne)]
      exact ih h.2 he

/-- **C243** (partial: the names are stored in their normal form, as they are when they come from the network or were set by `Set` or `Add`) Going
through the headers visits every header that has a value (for HTTP: whose first value is not empty), once and in order, with its first
value. -/
theorem C243_range_partial (d : Kind) (m : Raw) (visit : Str → Str → Bool) (h : Wf m) (hc : Canonical d m) :
    range d m visit = m.filterMap fun e => match e.2 with
      | [] => none
      | v :: _ => if d = .http ∧ v = [] then none else some (e.1, v) := by
  unfold range keys
  rw [List.filterMap_map]
  have hg : ∀ e ∈ m, get d m e.1 = match e.2 with
      | [] => none
      | v :: _ => if d = .http ∧ v = [] then none else some v := by
    intro e he
    unfold Verif.Wasm.Headers.get
    rw [hc e he, at_of_mem h he]
    cases e.2 with
    | nil => rfl
    | cons v r => cases d <;> simp
  apply filterMap_congr'
  intro e he
  show (get d m e.1).map (fun v => (e.1, v)) = _
  rw [hg e he]
  cases e.2 with
  | nil => rfl
  | cons v r => by_cases hv : d = .http ∧ v = [] <;> simp [hv]

/-- **C243** (partial: every header has exactly one value, which is not empty) The visits are exactly the headers. -/
theorem C243_all_partial (d : Kind) (l : List (Str × Str)) (visit : Str → Str → Bool) (h : (l.map (·.1)).Nodup) (hn : ∀ e ∈ l, d.norm e.1 = e.1) (hv : ∀ e ∈ l, e.2 ≠ []) :
    range d (l.map fun e => (e.1, [e.2])) visit = l := by
  rw [C243_range_partial d _ visit]
  · rw [List.filterMap_map]
    conv => rhs; rw [← List.filterMap_some (l := l)]
    apply filterMap_congr'
    intro e he
    simp [hv e he]
  · unfold Wf; rw [List.map_map]; exact h
  · intro e he
    obtain ⟨x, hx, rfl⟩ := List.mem_map.1 he
    exact hn x hx

/-- **C243** Of a header with several values (such as Set-Cookie) a filter sees the first only. -/
theorem C243_several_false (d : Kind) (k v w : Str) (hk : d.norm k = k) (hv : v ≠ []) (visit : Str → Str → Bool) :
    range d [(k, [v, w])] visit = [(k, v)] ∧ get d [(k, [v, w])] k = some v := by
  refine ⟨?_, ?_⟩
  · rw [C243_range_partial d _ visit (by simp [Wf]) (by intro e he; simp at he; subst he; exact hk)]
    simp [hv]
  · rw [C242_read]
    refine ⟨⟨[w], ?_⟩, fun _ => hv⟩
    unfold values; rw [hk]; simp [Raw.at]

/-- **C243** An HTTP header with an empty value is not there for filters, while a gRPC one is. -/
theorem C243_empty_false (k : Str) (visit : Str → Str → Bool) : range .http [(canon k, [[]])] visit = [] ∧ get .http [(canon k, [[]])] k = none ∧
    get .grpc [(k.map toLower, [[]])] k = some [] := by
  refine ⟨?_, ?_, ?_⟩
  · rw [C243_range_partial .http _ visit (by simp [Wf]) (by intro e he; simp at he; subst he; exact norm_norm .http k)]
    rfl
  · simp [Verif.Wasm.Headers.get, Kind.norm, Raw.at]
  · simp [Verif.Wasm.Headers.get, Kind.norm, Raw.at]

/-- **C243** A header that the application stored under a name that is not canonical (directly in the map) is invisible for filters, and a filter
cannot remove it. -/
theorem C243_raw_false (k : Str) (v : List Str) (h : canon k ≠ k) (visit : Str → Str → Bool) :
    range .http [(k, v)] visit = [] ∧ get .http [(k, v)] k = none ∧ del .http [(k, v)] k = [(k, v)] := by
  have hne : k ≠ canon k := fun e => h e.symm
  have hat : Raw.at [(k, v)] (canon k) = [] := by simp [Raw.at, hne]
  refine ⟨?_, ?_, ?_⟩
  · simp [range, keys, Verif.Wasm.Headers.get, Kind.norm, hat]
  · simp [Verif.Wasm.Headers.get, Kind.norm, hat]
  · simp [del, Raw.erase, Kind.norm, hne]

/-- **C243** The visitor cannot stop the visits. -/
theorem C243_stop_false (d : Kind) (m : Raw) (visit visit' : Str → Str → Bool) : range d m visit = range d m visit' := rfl

/-! ### examples -/

example : canon "x-forwarded-FOR".toList = "X-Forwarded-For".toList := by decide
example : canon "a b".toList = "a b".toList := by decide
example : Token "x-forwarded-FOR".toList := token_iff.1 (by decide)
example : get .http (Verif.Wasm.Headers.set .http [("X-A".toList, ["1".toList, "2".toList])] "x-b".toList "3".toList) "X-B".toList = some "3".toList := by decide
example : values .http (Verif.Wasm.Headers.add .http [("X-A".toList, ["1".toList])] "x-a".toList "3".toList) "X-A".toList = ["1".toList, "3".toList] := by decide
example : canon "x-a".toList ≠ "x-a".toList := by decide
/-- a stop was asked for after the first header and both are visited -/
example : range .http [("A".toList, ["1".toList]), ("B".toList, ["2".toList])] (fun _ _ => false) = [("A".toList, "1".toList), ("B".toList, "2".toList)] := by decide

end Verif.Props.WasmHeaders
