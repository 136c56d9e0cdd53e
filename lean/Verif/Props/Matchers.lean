/-
C46: string matchers mean what they say.
-/
import Verif.Sec.Match

namespace Verif.Match

/-! ### Specification -/

/-- `a` and `b` are the same up to the case of letters, if case is ignored. -/
def Same (e : Env) (ic : Bool) (a b : Str) : Prop := if ic then a.map e.lower = b.map e.lower else a = b

/-- The documented meaning of each kind of matcher with pattern `p`, for an input `s`. The pattern of
a regular expression is lowercased, as is the input, before it is used. -/
def Accepts (e : Env) (ic : Bool) (k : Kind) (p s : Str) : Prop := match k with
  | .exact => Same e ic s p
  | .prefix => ∃ a b, s = a ++ b ∧ Same e ic a p
  | .suffix => ∃ a b, s = a ++ b ∧ Same e ic b p
  | .contains => ∃ a b c, s = a ++ b ++ c ∧ Same e ic b p
  | .hostname => e.host (fold e ic p) (fold e ic s) = true
  | .regex => ∃ rx, e.compile (fold e ic p) = some rx ∧ rx (fold e ic s) 0 s.length = true

/-! ### Proofs -/

theorem hasPrefix_iff : ∀ s p : Str, hasPrefix s p = true ↔ ∃ t, s = p ++ t
  | s, [] => by simp [hasPrefix]
  | [], b :: p => by simp [hasPrefix]
  | a :: s, b :: p => by
    simp only [hasPrefix, Bool.and_eq_true, beq_iff_eq, hasPrefix_iff s p, List.cons_append, List.cons.injEq]
    constructor
    · rintro ⟨rfl, t, rfl⟩; exact ⟨t, rfl, rfl⟩
    · rintro ⟨t, rfl, rfl⟩; exact ⟨rfl, t, rfl⟩

theorem hasSuffix_iff (s p : Str) : hasSuffix s p = true ↔ ∃ t, s = t ++ p := by
  unfold hasSuffix
  simp only [Bool.and_eq_true, decide_eq_true_eq, beq_iff_eq]
  constructor
  · rintro ⟨h, hd⟩
    exact ⟨s.take (s.length - p.length), by rw [← hd, List.length_drop, show s.length - (s.length - (s.length - p.length)) = s.length - p.length by omega, List.take_append_drop]⟩
  · rintro ⟨t, rfl⟩
    simp

theorem containsStr_iff : ∀ s p : Str, containsStr s p = true ↔ ∃ a b, s = a ++ p ++ b
  | [], p => by
    simp only [containsStr, hasPrefix_iff]
    constructor
    · rintro ⟨t, h⟩; exact ⟨[], t, by simpa using h⟩
    · rintro ⟨a, b, h⟩
      have : a = [] ∧ p = [] ∧ b = [] := by simpa using h
      exact ⟨b, by simp [this.2.1, this.2.2]⟩
  | c :: s, p => by
    simp only [containsStr, Bool.or_eq_true, hasPrefix_iff, containsStr_iff s p]
    constructor
    · rintro (⟨t, h⟩ | ⟨a, b, rfl⟩)
      · exact ⟨[], t, by simpa using h⟩
      · exact ⟨c :: a, b, rfl⟩
    · rintro ⟨a, b, h⟩
      cases a with
      | nil => exact Or.inl ⟨b, by simpa using h⟩
      | cons x a =>
        simp only [List.cons_append, List.cons.injEq] at h
        exact Or.inr ⟨a, b, h.2⟩

theorem find_range_rev (P : Nat → Bool) (n j : Nat) : (List.range n).reverse.find? P = some j ↔
    j < n ∧ P j = true ∧ ∀ k, j < k → k < n → P k = false := by
  induction n with
  | zero => simp
  | succ n ih =>
    rw [List.range_succ, List.reverse_append]
    simp only [List.reverse_cons, List.reverse_nil, List.nil_append, List.singleton_append, List.find?_cons]
    cases hp : P n with
    | true =>
      simp only [Option.some.injEq]
      constructor
      · rintro rfl; exact ⟨by omega, hp, fun k h1 h2 => by omega⟩
      · rintro ⟨h1, h2, h3⟩
        by_cases h : n = j
        · exact h
        · have := h3 n (by omega) (by omega); rw [hp] at this; cases this
    | false =>
      simp only [ih]
      constructor
      · rintro ⟨h1, h2, h3⟩
        refine ⟨by omega, h2, fun k h4 h5 => ?_⟩
        by_cases h : k = n
        · rw [h]; exact hp
        · exact h3 k h4 (by omega)
      · rintro ⟨h1, h2, h3⟩
        have hj : j ≠ n := by rintro rfl; rw [hp] at h2; cases h2
        exact ⟨by omega, h2, fun k h4 h5 => h3 k h4 (by omega)⟩

theorem longestFrom_spec {rx : Rx} {s : Str} {i j : Nat} (h : longestFrom rx s i = some j) : i ≤ j ∧ j ≤ s.length ∧ rx s i j = true := by
  obtain ⟨h1, h2, _⟩ := (find_range_rev _ _ _).mp h
  simp only [Bool.and_eq_true, decide_eq_true_eq] at h2
  exact ⟨h2.1, by omega, h2.2⟩

theorem longestFrom_whole {rx : Rx} {s : Str} (h : rx s 0 s.length = true) : longestFrom rx s 0 = some s.length :=
  (find_range_rev _ _ _).mpr ⟨by omega, by simp [h], fun k h1 h2 => by omega⟩

theorem findFrom_spec {rx : Rx} {s : Str} {is : List Nat} {i j : Nat} (h : findFrom rx s is = some (i, j)) :
    i ≤ j ∧ j ≤ s.length ∧ rx s i j = true := by
  induction is with
  | nil => cases h
  | cons x is ih =>
    unfold findFrom at h
    split at h
    · rename_i y hy
      cases h
      exact longestFrom_spec hy
    · exact ih h

theorem findLongest_whole {rx : Rx} {s : Str} (h : rx s 0 s.length = true) : findLongest rx s = some (0, s.length) := by
  unfold findLongest
  rw [List.range_succ_eq_map]
  simp only [findFrom, longestFrom_whole h]

/-- The way `Match` uses the leftmost-longest search accepts exactly full matches. -/
theorem regex_full (rx : Rx) (s : Str) :
    (if s.length = 0 then matchString rx s else foundLen rx s == s.length) = true ↔ rx s 0 s.length = true := by
  split
  · rename_i h0
    unfold matchString
    constructor
    · intro h
      obtain ⟨⟨i, j⟩, hij⟩ := Option.isSome_iff_exists.mp h
      obtain ⟨h1, h2, h3⟩ := findFrom_spec hij
      have : i = 0 ∧ j = 0 := by omega
      rw [this.1, this.2] at h3
      rw [h0]; exact h3
    · intro h; rw [findLongest_whole h]; rfl
  · rename_i h0
    unfold foundLen
    constructor
    · intro h
      split at h
      · rename_i i j hij
        obtain ⟨h1, h2, h3⟩ := findFrom_spec hij
        simp only [beq_iff_eq] at h
        have : i = 0 ∧ j = s.length := by omega
        rw [this.1, this.2] at h3
        exact h3
      · simp only [beq_iff_eq] at h; omega
    · intro h; rw [findLongest_whole h]; simp

theorem fold_length (e : Env) (ic : Bool) (s : Str) : (fold e ic s).length = s.length := by
  unfold fold; split <;> simp

theorem same_fold (e : Env) (ic : Bool) (a b : Str) : Same e ic a b ↔ fold e ic a = fold e ic b := by
  unfold Same fold; split <;> rfl

theorem fold_append (e : Env) (ic : Bool) (a b : Str) : fold e ic (a ++ b) = fold e ic a ++ fold e ic b := by
  unfold fold; split <;> simp

theorem fold_split {e : Env} {ic : Bool} {s x y : Str} (h : fold e ic s = x ++ y) :
    ∃ a b, s = a ++ b ∧ fold e ic a = x ∧ fold e ic b = y := by
  unfold fold at *
  split at h
  · rename_i hic
    simp only [hic, if_true]
    obtain ⟨a, b, rfl, h1, h2⟩ := List.map_eq_append_iff.mp h
    exact ⟨a, b, rfl, h1, h2⟩
  · rename_i hic
    subst h
    exact ⟨x, y, rfl, by simp [hic], by simp [hic]⟩

/-- **C46** For every kind of matcher, every pattern and every input, `Match` accepts exactly what the
kind documents, up to letter case if the matcher ignores case. -/
theorem C46_match (e : Env) (k : Kind) (p : Str) (ic : Bool) (m : Matcher) (h : newMatcher e k p ic = some m) (s : Str) :
    doMatch e m s = true ↔ Accepts e ic k p s := by
  unfold newMatcher setMatcher at h
  cases k with
  | exact =>
    cases h
    simp only [doMatch, beq_iff_eq, Accepts, same_fold]
  | «prefix» =>
    cases h
    simp only [doMatch, hasPrefix_iff, Accepts, same_fold]
    constructor
    · rintro ⟨t, ht⟩
      obtain ⟨a, b, h1, h2, h3⟩ := fold_split ht
      exact ⟨a, b, h1, h2⟩
    · rintro ⟨a, b, rfl, h2⟩
      exact ⟨fold e ic b, by rw [fold_append, h2]⟩
  | suffix =>
    cases h
    simp only [doMatch, hasSuffix_iff, Accepts, same_fold]
    constructor
    · rintro ⟨t, ht⟩
      obtain ⟨a, b, h1, h2, h3⟩ := fold_split ht
      exact ⟨a, b, h1, h3⟩
    · rintro ⟨a, b, rfl, h2⟩
      exact ⟨fold e ic a, by rw [fold_append, h2]⟩
  | contains =>
    cases h
    simp only [doMatch, containsStr_iff, Accepts, same_fold]
    constructor
    · rintro ⟨x, y, ht⟩
      obtain ⟨ab, c, h1, h2, h3⟩ := fold_split ht
      obtain ⟨a, b, h4, h5, h6⟩ := fold_split h2
      exact ⟨a, b, c, by rw [h1, h4], h6⟩
    · rintro ⟨a, b, c, rfl, h2⟩
      exact ⟨fold e ic a, fold e ic c, by rw [fold_append, fold_append, h2]⟩
  | hostname =>
    cases h
    simp only [doMatch, Accepts]
  | regex =>
    obtain ⟨rx, hrx, rfl⟩ := Option.map_eq_some_iff.mp h
    simp only [doMatch, Accepts]
    simp only at hrx
    rw [regex_full, fold_length]
    constructor
    · intro h; exact ⟨rx, hrx, h⟩
    · rintro ⟨rx', h1, h2⟩
      rw [hrx] at h1; cases h1; exact h2

/-- **C46** A matcher is refused only for a regular expression that does not compile. -/
theorem C46_refused (e : Env) (k : Kind) (p : Str) (ic : Bool) :
    newMatcher e k p ic = none ↔ k = .regex ∧ e.compile (fold e ic p) = none := by
  unfold newMatcher setMatcher
  cases k <;> simp

/-- **C46** A matcher that ignores case does not distinguish inputs that differ only in case. -/
theorem C46_case (e : Env) (k : Kind) (p : Str) (m : Matcher) (h : newMatcher e k p true = some m) (s t : Str)
    (hs : s.map e.lower = t.map e.lower) : doMatch e m s = doMatch e m t := by
  have : m.ignoreCase = true := by
    unfold newMatcher setMatcher at h
    cases k with
    | regex => obtain ⟨rx, _, rfl⟩ := Option.map_eq_some_iff.mp h; rfl
    | _ => cases h; rfl
  unfold doMatch fold
  simp only [this, if_true, hs]

/-- The kind and pattern of a protocol matcher. -/
def protoKind : Pattern → Option (Kind × Str)
  | .exact s => some (.exact, s)
  | .prefix s => some (.prefix, s)
  | .suffix s => some (.suffix, s)
  | .contains s => some (.contains, s)
  | .safeRegex s => some (.regex, s)
  | .other => none

/-- **C46** A matcher received from the control plane accepts what its kind documents. -/
theorem C46_proto (e : Env) (p : Proto) (m : Matcher) (h : fromProto e (some p) = some m) (s : Str) :
    ∃ k v, protoKind p.pattern = some (k, v) ∧ (doMatch e m s = true ↔ Accepts e p.ignoreCase k v s) := by
  unfold fromProto at h
  cases hp : p.pattern <;> simp only [hp, reduceCtorEq] at h <;>
    exact ⟨_, _, rfl, C46_match e _ _ _ m h s⟩

/-! ### The textual form -/

theorem name_nocolon (k : Kind) : ':' ∉ k.name := by cases k <;> decide +kernel

theorem parse_iff (s : Str) (k : Kind) : Kind.parse s = some k ↔ s = k.name := by
  constructor
  · intro h
    have := List.find?_some h
    simpa using this
  · rintro rfl
    cases k <;> decide +kernel

theorem cut_colon (a r : Str) (h : ':' ∉ a) :
    (a ++ ':' :: r).takeWhile (· != ':') = a ∧ (a ++ ':' :: r).dropWhile (· != ':') = ':' :: r := by
  induction a with
  | nil => simp
  | cons c a ih =>
    have hc : (c != ':') = true := by
      simp only [bne_iff_ne, ne_eq]; rintro rfl; exact h (by simp)
    obtain ⟨h1, h2⟩ := ih (fun hm => h (by simp [hm]))
    simp only [List.cons_append, List.takeWhile_cons, List.dropWhile_cons, hc, if_true, h1, h2, true_and]

theorem splitN_cons (n : Nat) (a r : Str) (h : ':' ∉ a) : splitN (n + 1) (a ++ ':' :: r) = a :: splitN n r := by
  simp only [splitN, (cut_colon a r h).1, (cut_colon a r h).2]

theorem cut_some {s r : Str} {c : Char} (h : s.dropWhile (· != ':') = c :: r) :
    s = s.takeWhile (· != ':') ++ ':' :: r ∧ ':' ∉ s.takeWhile (· != ':') := by
  have hc : c = ':' := by
    have := List.head?_dropWhile_not (p := fun x => x != ':') s
    rw [h] at this
    simpa using this
  refine ⟨?_, ?_⟩
  · rw [hc] at h
    rw [← h, List.takeWhile_append_dropWhile]
  · intro hm
    have := List.all_takeWhile (p := fun x => x != ':') (l := s)
    rw [List.all_eq_true] at this
    have := this _ hm
    simp at this

theorem splitN_three {s k flag v : Str} (h : splitN 2 s = [k, flag, v]) :
    s = k ++ ':' :: flag ++ ':' :: v ∧ ':' ∉ k ∧ ':' ∉ flag := by
  simp only [splitN] at h
  split at h
  · simp at h
  · rename_i c r h1
    obtain ⟨h2, h3⟩ := cut_some h1
    simp only [List.cons.injEq] at h
    obtain ⟨hk, h⟩ := h
    rw [hk] at h2 h3
    split at h
    · simp at h
    · rename_i c' r' h1'
      obtain ⟨h2', h3'⟩ := cut_some h1'
      simp only [List.cons.injEq, and_true] at h
      obtain ⟨hf, hv⟩ := h
      rw [hf] at h2' h3'
      subst hv
      exact ⟨by rw [h2, h2']; simp, h3, h3'⟩

/-- **C154** The textual form is `KIND:flag:pattern`: the kind is one of the six names, the pattern is
everything after the second colon, and case is ignored unless the flag is empty or `0`. -/
theorem C154_text (e : Env) (s : Str) (m : Matcher) : fromString e s = some m ↔
    ∃ (k : Kind) (flag v : Str), s = k.name ++ ':' :: flag ++ ':' :: v ∧ ':' ∉ flag ∧
      newMatcher e k v (flag != [] && flag != ['0']) = some m := by
  unfold fromString
  constructor
  · intro h
    split at h
    · rename_i k flag v hs
      obtain ⟨h1, h2, h3⟩ := splitN_three hs
      obtain ⟨kk, hk, hm⟩ := Option.bind_eq_some_iff.mp h
      rw [(parse_iff k kk).mp hk] at h1
      exact ⟨kk, flag, v, h1, h3, hm⟩
    · cases h
  · rintro ⟨k, flag, v, rfl, h2, h3⟩
    rw [List.append_assoc, List.cons_append, splitN_cons 1 _ _ (name_nocolon k), splitN_cons 0 _ _ h2]
    simp only [splitN, (parse_iff _ k).mpr rfl, Option.bind_some, h3]

/-! ### Cases, and what does not hold -/

/-- ASCII letters, and expressions that consist of one of `\d` and `\D`. -/
def demo : Env where
  lower c := c.toLower
  compile p :=
    if p = "\\d".toList then some fun s i j => decide (j = i + 1) && ((s[i]?).map (·.isDigit)).getD false
    else if p = "\\D".toList then some fun s i j => decide (j = i + 1) && ((s[i]?).map (fun c => !c.isDigit)).getD false
    else none
  host p s := decide (p = s)

example : ((newMatcher demo .prefix "Spiffe://".toList true).map fun m =>
    (doMatch demo m "sPIFFE://a".toList, doMatch demo m "spiffe".toList)) = some (true, false) := by decide +kernel
example : ((fromString demo "CONTAINS::b:c".toList).map fun m =>
    (doMatch demo m "ab:cd".toList, doMatch demo m "aB:cd".toList)) = some (true, false) := by decide +kernel
example : ((newMatcher demo .regex "\\d".toList false).map fun m =>
    (doMatch demo m "7".toList, doMatch demo m "77".toList, doMatch demo m [].toArray.toList)) = some (true, false, false) := by decide +kernel

/-- What ignoring case means for a regular expression: it accepts every input that differs only in
case from one that the expression, as written, matches in full. -/
def RegexIgnoresCase (e : Env) : Prop := ∀ p m rx, newMatcher e .regex p true = some m → e.compile p = some rx →
  ∀ s, rx s 0 s.length = true → doMatch e m s = true

/-- **C154** fails for regular expressions that ignore case: lowercasing the pattern turns the class
`\D` (not a digit) into `\d` (a digit). -/
theorem C154_regexCase_false : ¬ RegexIgnoresCase demo := by
  intro H
  have h := H "\\D".toList
  have hc : (demo.compile "\\D".toList).isSome = true := by decide +kernel
  have hm : (newMatcher demo .regex "\\D".toList true).isSome = true := by decide +kernel
  obtain ⟨rx, hrx⟩ := Option.isSome_iff_exists.mp hc
  obtain ⟨m, hm⟩ := Option.isSome_iff_exists.mp hm
  have h1 : (demo.compile "\\D".toList).map (fun rx => rx ['x'] 0 1) = some true := by decide +kernel
  have h2 : (newMatcher demo .regex "\\D".toList true).map (fun m => doMatch demo m ['x']) = some false := by decide +kernel
  rw [hrx] at h1
  rw [hm] at h2
  simp only [Option.map_some, Option.some.injEq] at h1 h2
  have := h m rx hm hrx ['x'] h1
  rw [h2] at this
  cases this

/-- **C154** fails for the printed form: what `String` prints is not what `NewStringMatcherFromString`
reads: `EXACT:a` is refused, and a printed pattern with a colon becomes another pattern. -/
theorem C154_string_false :
    ((newMatcher demo .exact "a".toList false).bind fun m => fromString demo (toStr m)).isNone = true ∧
    ((newMatcher demo .exact "a:b".toList false).bind fun m => fromString demo (toStr m)).map (fun m => (m.exact, m.ignoreCase)) =
      some (some "b".toList, true) := by decide +kernel

/-- **C154** fails for SAN matchers in textual form: a kind without a colon crashes the reader. -/
theorem C154_sanText_false : (match sanFromString demo "DNS".toList with | .panic => true | _ => false) = true := by decide +kernel

end Verif.Match
