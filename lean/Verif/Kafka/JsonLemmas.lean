import Verif.Kafka.Json
import Verif.Kafka.JsonSpec
/- Lemmas: texts put together as the code does are parsed as JSON. -/
namespace Verif.Kafka.Json
open Verif Verif.Kafka Verif.Json

/-- what may follow a value: nothing, or something that is no part of a number; (proof helper; models no code.) -/
def Stop (rest : Bytes) : Prop := ∀ c, rest.head? = some c → numChar c = false

/-- the first byte of a value: no blank, no closing bracket; (proof helper; models no code.) -/
def Starts (t : Bytes) : Prop := ∃ c r, t = c :: r ∧ ws c = false ∧ c ≠ 93 ∧ c ≠ 125

/-- Proof helper; models no code. -/
structure P (j : J) (t : Bytes) : Prop where
  starts : Starts t
  parses : ∀ n rest, t.length < n → Stop rest → value n (t ++ rest) = some (j, rest)

/-- bytes that stand for themselves in a string; (proof helper; models no code.) -/
def Plain (s : Bytes) : Prop := ∀ c ∈ s, c ≠ 34 ∧ c ≠ 92 ∧ ¬ c < 32

theorem strBody_plain (s : Bytes) (h : Plain s) (r : Bytes) : strBody (s ++ 34 :: r) = some (s, r) := by
  induction s with
  | nil => rw [List.nil_append]; unfold strBody; rw [if_pos rfl]
  | cons c s ih =>
    obtain ⟨h1, h2, h3⟩ := h c (by simp)
    have := ih (fun c hc => h c (by simp [hc]))
    rw [List.cons_append]
    unfold strBody
    rw [if_neg h1, if_neg h2, if_neg h3, this]
    rfl

theorem skip_cons {c : UInt8} (h : ws c = false) (r : Bytes) : skip (c :: r) = c :: r := by
  simp [skip, h]

theorem value_space (n : Nat) (b : Bytes) : value n (32 :: b) = value n b := by
  cases n with
  | zero => simp [value]
  | succ n => 
    have : skip (32 :: b) = skip b := by simp [skip, ws]
    simp only [value, this]

theorem elems_space (n : Nat) (b : Bytes) : elems n (32 :: b) = elems n b := by
  cases n with
  | zero => simp [elems]
  | succ n => simp only [elems, value_space]

theorem members_space (n : Nat) (b : Bytes) : members n (32 :: b) = members n b := by
  cases n with
  | zero => simp [members]
  | succ n =>
    have : skip (32 :: b) = skip b := by simp [skip, ws]
    simp only [members, this]

theorem P_null : P .null null := by
  refine ⟨⟨110, _, rfl, rfl, by decide, by decide⟩, ?_⟩
  intro n rest hn _
  cases n with
  | zero => omega
  | succ n =>
    have : skip (null ++ rest) = 110 :: 117 :: 108 :: 108 :: rest := skip_cons (by rfl) _
    simp only [value, this]
    rw [if_neg (by decide), if_neg (by decide), if_neg (by decide)]
    simp [scalar, litNull, List.isPrefixOf]

theorem P_bool (b : Bool) : P (.bool b) (boolText b) := by
  cases b
  · refine ⟨⟨102, _, rfl, rfl, by decide, by decide⟩, ?_⟩
    intro n rest hn _
    cases n with
    | zero => omega
    | succ n =>
      have : skip (boolText false ++ rest) = 102 :: 97 :: 108 :: 115 :: 101 :: rest := skip_cons (by rfl) _
      simp only [value, this]
      rw [if_neg (by decide), if_neg (by decide), if_neg (by decide)]
      simp [scalar, litNull, litTrue, litFalse, List.isPrefixOf]
  · refine ⟨⟨116, _, rfl, rfl, by decide, by decide⟩, ?_⟩
    intro n rest hn _
    cases n with
    | zero => omega
    | succ n =>
      have : skip (boolText true ++ rest) = 116 :: 114 :: 117 :: 101 :: rest := skip_cons (by rfl) _
      simp only [value, this]
      rw [if_neg (by decide), if_neg (by decide), if_neg (by decide)]
      simp [scalar, litNull, litTrue, List.isPrefixOf]

theorem P_str (s : Bytes) (h : Plain s) : P (.str s) (quoted s) := by
  refine ⟨⟨34, _, rfl, rfl, by decide, by decide⟩, ?_⟩
  intro n rest hn _
  cases n with
  | zero => omega
  | succ n =>
    have e : quoted s ++ rest = 34 :: (s ++ 34 :: rest) := by simp [quoted]
    have : skip (quoted s ++ rest) = 34 :: (s ++ 34 :: rest) := by rw [e]; exact skip_cons (by rfl) _
    simp only [value, this]
    rw [if_pos trivial, strBody_plain s h]
    rfl

/-! ### numbers -/

theorem takeWhile_stop (t rest : Bytes) (h : ∀ c ∈ t, numChar c = true) (hs : Stop rest) :
    (t ++ rest).takeWhile numChar = t ∧ (t ++ rest).dropWhile numChar = rest := by
  induction t with
  | nil =>
    cases rest with
    | nil => exact ⟨rfl, rfl⟩
    | cons c r => have := hs c rfl; simp [this]
  | cons c t ih =>
    obtain ⟨i1, i2⟩ := ih (fun c hc => h c (by simp [hc]))
    have hc := h c (by simp)
    simp [hc, i1, i2]

theorem P_number {j : J} {t : Bytes} (hne : t ≠ []) (hc : ∀ c ∈ t, numChar c = true) (hj : number t = some j) : P j t := by
  cases t with
  | nil => exact absurd rfl hne
  | cons c t =>
    have h0 := hc c (by simp)
    have nc : ∀ d : UInt8, numChar d = false → c ≠ d := by intro d hd e; rw [e] at h0; rw [h0] at hd; cases hd
    have hw : ws c = false := by
      cases h : ws c with
      | false => rfl
      | true =>
        simp only [ws, Bool.or_eq_true, beq_iff_eq] at h
        rcases h with ((h | h) | h) | h <;> (rw [h] at h0; revert h0; decide)
    refine ⟨⟨c, t, rfl, hw, nc _ (by decide), nc _ (by decide)⟩, ?_⟩
    intro n rest hn hs
    cases n with
    | zero => omega
    | succ n =>
      have : skip (c :: t ++ rest) = c :: (t ++ rest) := skip_cons hw _
      simp only [value, this]
      rw [if_neg (nc _ (by decide)), if_neg (nc _ (by decide)), if_neg (nc _ (by decide))]
      obtain ⟨t1, t2⟩ := takeWhile_stop (c :: t) rest hc hs
      have p1 : litNull.isPrefixOf (c :: (t ++ rest)) = false := by
        simp [litNull, List.isPrefixOf, (nc 110 (by decide)).symm]
      have p2 : litTrue.isPrefixOf (c :: (t ++ rest)) = false := by
        simp [litTrue, List.isPrefixOf, (nc 116 (by decide)).symm]
      have p3 : litFalse.isPrefixOf (c :: (t ++ rest)) = false := by
        simp [litFalse, List.isPrefixOf, (nc 102 (by decide)).symm]
      unfold scalar
      rw [List.cons_append] at t1 t2
      rw [p1, p2, p3, t1, t2, hj]
      rfl

/-- what `fmtNat` writes -/
theorem fmtNat_spec (n : Nat) : (∀ c ∈ fmtNat n, digit c = true) ∧ fmtNat n ≠ [] ∧ natVal (fmtNat n) = n ∧ (n ≠ 0 → (fmtNat n).head? ≠ some 48) ∧
    (n < 10 → (fmtNat n).length = 1) := by
  induction n using Nat.strongRecOn with
  | _ n ih =>
    have dig : ∀ k, k < 10 → digit (UInt8.ofNat (48 + k)) = true ∧ (UInt8.ofNat (48 + k)).toNat - 48 = k ∧ (k ≠ 0 → UInt8.ofNat (48 + k) ≠ 48) := by
      decide
    by_cases h : n < 10
    · have e : fmtNat n = [UInt8.ofNat (48 + n)] := by rw [fmtNat, if_pos h]
      obtain ⟨d1, d2, d3⟩ := dig n h
      rw [e]
      refine ⟨by simpa using d1, by simp, by simpa [natVal] using d2, ?_, fun _ => rfl⟩
      intro h0 hh
      rw [List.head?_cons] at hh
      exact d3 h0 (Option.some.inj hh)
    · have e : fmtNat n = fmtNat (n / 10) ++ [UInt8.ofNat (48 + n % 10)] := by rw [fmtNat, if_neg h]
      obtain ⟨d1, d2, d3⟩ := dig (n % 10) (Nat.mod_lt _ (by decide))
      obtain ⟨i1, i2, i3, i4, i5⟩ := ih (n / 10) (by omega)
      rw [e]
      refine ⟨?_, by simp, ?_, ?_, fun h' => absurd h' h⟩
      · intro c hc
        rcases List.mem_append.mp hc with hc | hc
        · exact i1 c hc
        · rw [List.mem_singleton] at hc; rw [hc]; exact d1
      · unfold natVal at i3 ⊢
        rw [List.foldl_append, i3]
        simp only [List.foldl_cons, List.foldl_nil, d2]
        omega
      · intro _ hh
        cases hf : fmtNat (n / 10) with
        | nil => exact i2 hf
        | cons c r =>
          rw [hf] at hh i4
          exact i4 (by omega) hh

theorem digit_numChar {c : UInt8} (h : digit c = true) : numChar c = true := by simp [numChar, h]

theorem natText_fmt (n : Nat) : natText (fmtNat n) = true := by
  obtain ⟨h1, h2, h3, h4, h5⟩ := fmtNat_spec n
  simp only [natText, Bool.and_eq_true, Bool.or_eq_true, List.all_eq_true, Bool.not_eq_true', beq_iff_eq, bne_iff_ne, ne_eq]
  refine ⟨⟨?_, h1⟩, ?_⟩
  · cases h : fmtNat n with
    | nil => exact absurd h h2
    | cons _ _ => rfl
  · by_cases h0 : n = 0
    · exact Or.inl (h5 (by omega))
    · exact Or.inr (h4 h0)

theorem number_fmtInt (i : Int) : number (fmtInt i) = some (.num i) ∧ fmtInt i ≠ [] ∧ ∀ c ∈ fmtInt i, numChar c = true := by
  obtain ⟨h1, h2, h3, -, -⟩ := fmtNat_spec i.natAbs
  unfold fmtInt
  by_cases hi : i < 0
  · rw [if_pos hi]
    refine ⟨?_, by simp, ?_⟩
    · simp only [number, List.head?_cons, if_true, List.tail_cons, natText_fmt, h3]
      congr 2; omega
    · intro c hc
      rcases List.mem_cons.mp hc with hc | hc
      · rw [hc]; rfl
      · exact digit_numChar (h1 c hc)
  · rw [if_neg hi]
    refine ⟨?_, h2, fun c hc => digit_numChar (h1 c hc)⟩
    have hd : (fmtNat i.natAbs).head? ≠ some 45 := by
      cases h : fmtNat i.natAbs with
      | nil => simp
      | cons c r =>
        rw [h] at h1
        have := h1 c (by simp)
        intro e
        simp at e
        rw [e] at this
        revert this; decide
    simp only [number, if_neg hd, natText_fmt, if_true, h3]
    congr 2; omega

theorem P_int (i : Int) : P (.num i) (fmtInt i) := by
  obtain ⟨h1, h2, h3⟩ := number_fmtInt i
  exact P_number h2 h3 h1

theorem P_nat (n : Nat) : P (.num n) (fmtNat n) := by
  have := P_int n
  have e : fmtInt (n : Int) = fmtNat n := by simp [fmtInt, show ¬ (n : Int) < 0 by omega]
  rwa [e] at this

/-! ### arrays and objects -/

theorem joinC_starts {ts : List Bytes} (hne : ts ≠ []) (h : ∀ t ∈ ts, Starts t) : Starts (joinC ts) := by
  cases ts with
  | nil => exact absurd rfl hne
  | cons a l =>
    obtain ⟨c, r, h1, h2⟩ := h a (by simp)
    cases l with
    | nil => exact ⟨c, r, h1, h2⟩
    | cons b l => exact ⟨c, _, by rw [joinC, h1]; rfl, h2⟩

/-- texts for values, one by one; (proof helper; models no code.) -/
inductive All2 {α : Type} (R : α → Bytes → Prop) : List α → List Bytes → Prop where
  | nil : All2 R [] []
  | cons {a t l ts} : R a t → All2 R l ts → All2 R (a :: l) (t :: ts)

theorem All2.map {α β : Type} {R : α → Bytes → Prop} (f : β → α) (g : β → Bytes) (l : List β) (h : ∀ b ∈ l, R (f b) (g b)) : All2 R (l.map f) (l.map g) := by
  induction l with
  | nil => exact .nil
  | cons b l ih => exact .cons (h b (by simp)) (ih fun b hb => h b (by simp [hb]))

theorem All2.append {α : Type} {R : α → Bytes → Prop} {l l' : List α} {t t' : List Bytes} (h : All2 R l t) (h' : All2 R l' t') : All2 R (l ++ l') (t ++ t') := by
  induction h with
  | nil => exact h'
  | cons a _ ih => exact .cons a ih

theorem elems_all {js : List J} {ts : List Bytes} (h : All2 P js ts) : js ≠ [] → ∀ n rest, (joinC ts).length + 1 < n → elems n (joinC ts ++ 93 :: rest) = some (js, rest) := by
  induction h with
  | nil => intro h; exact absurd rfl h
  | @cons j t js ts hp hs ih =>
    intro _ n rest hn
    cases n with
    | zero => omega
    | succ n =>
      cases hs with
      | nil =>
        have := hp.parses n (93 :: rest) (by simp only [joinC] at hn; omega) (by intro c hc; simp at hc; rw [← hc]; rfl)
        simp only [elems, joinC, this]
        rw [skip_cons (by rfl)]
        simp
      | @cons j' t' js' ts' hp' hs' =>
        have hl : (joinC (t :: t' :: ts')).length = t.length + 2 + (joinC (t' :: ts')).length := by simp [joinC]; omega
        rw [hl] at hn
        have e : joinC (t :: t' :: ts') ++ 93 :: rest = t ++ 44 :: 32 :: (joinC (t' :: ts') ++ 93 :: rest) := by simp [joinC]
        have := hp.parses n (44 :: 32 :: (joinC (t' :: ts') ++ 93 :: rest)) (by omega) (by intro c hc; simp at hc; rw [← hc]; rfl)
        simp only [elems]
        rw [e, this]
        simp only []
        rw [skip_cons (by rfl)]
        simp only [if_true]
        rw [elems_space, ih (by simp) n rest (by omega)]
        rfl

theorem P_array {js : List J} {ts : List Bytes} (h : All2 P js ts) : P (.arr js) (array ts) := by
  refine ⟨⟨91, _, rfl, rfl, by decide, by decide⟩, ?_⟩
  intro n rest hn _
  cases n with
  | zero => omega
  | succ n =>
    have e : array ts ++ rest = 91 :: (joinC ts ++ 93 :: rest) := by simp [array]
    rw [e]
    simp only [value]
    rw [skip_cons (by rfl)]
    simp only []
    rw [if_neg (by decide), if_pos trivial]
    cases h with
    | nil =>
      have : skip (joinC [] ++ 93 :: rest) = 93 :: rest := skip_cons (by rfl) _
      rw [this]; rfl
    | @cons j t js ts hp hs =>
      have hst : ∀ t' ∈ t :: ts, Starts t' := by
        have key : ∀ {l : List J} {ts : List Bytes}, All2 P l ts → ∀ t ∈ ts, Starts t := by
          intro l ts h
          induction h with
          | nil => intro t ht; cases ht
          | cons a _ ih =>
            intro t ht
            rcases List.mem_cons.mp ht with e | ht
            · rw [e]; exact a.starts
            · exact ih t ht
        exact key (.cons hp hs)
      obtain ⟨c, r, h1, h2, h3, h4⟩ := joinC_starts (by simp) hst
      have hsk : skip (joinC (t :: ts) ++ 93 :: rest) = joinC (t :: ts) ++ 93 :: rest := by rw [h1]; exact skip_cons h2 _
      have hh : (joinC (t :: ts) ++ 93 :: rest).head? ≠ some 93 := by rw [h1]; simpa using h3
      rw [hsk, if_neg hh, elems_all (.cons hp hs) (by simp) n rest (by simp [array] at hn; omega)]
      rfl

/-- a member of an object; (proof helper; models no code.) -/
def PM (m : Bytes × J) (t : Bytes) : Prop := Plain m.1 ∧ ∃ v, t = member m.1 v ∧ P m.2 v

theorem members_step {m : Bytes × J} {v : Bytes} (hk : Plain m.1) (hp : P m.2 v) (n : Nat) (c : UInt8) (r : Bytes) (hc : numChar c = false) (hw : ws c = false)
    (hn : v.length < n) :
    members (n + 1) (member m.1 v ++ c :: r) = if c = 44 then (members n r).map fun p => (m :: p.1, p.2) else if c = 125 then some ([m], r) else none := by
  have e : member m.1 v ++ c :: r = 34 :: (m.1 ++ 34 :: 58 :: 32 :: (v ++ c :: r)) := by simp [member, quoted]
  have := hp.parses n (c :: r) hn (by intro d hd; simp at hd; rw [← hd]; exact hc)
  rw [e]
  simp only [members]
  rw [skip_cons (by rfl)]
  simp only [if_true]
  rw [strBody_plain _ hk]
  simp only []
  rw [skip_cons (by rfl)]
  simp only [if_true]
  rw [value_space, this]
  simp only []
  rw [skip_cons hw]

theorem members_all {ms : List (Bytes × J)} {ts : List Bytes} (h : All2 PM ms ts) :
    ms ≠ [] → ∀ n rest, (joinC ts).length < n → members n (joinC ts ++ 125 :: rest) = some (ms, rest) := by
  induction h with
  | nil => intro h; exact absurd rfl h
  | @cons m t ms ts hp hs ih =>
    intro _ n rest hn
    obtain ⟨hk, v, hv, hpv⟩ := hp
    cases n with
    | zero => omega
    | succ n =>
      have hl : t.length = m.1.length + 4 + v.length := by rw [hv]; simp [member, quoted]; omega
      cases hs with
      | nil =>
        simp only [joinC] at hn ⊢
        rw [hv, members_step hk hpv n 125 rest (by rfl) (by rfl) (by omega)]
        rfl
      | @cons m' t' ms' ts' hp' hs' =>
        have hl2 : (joinC (t :: t' :: ts')).length = t.length + 2 + (joinC (t' :: ts')).length := by simp [joinC]; omega
        rw [hl2] at hn
        have e : joinC (t :: t' :: ts') ++ 125 :: rest = t ++ 44 :: (32 :: (joinC (t' :: ts') ++ 125 :: rest)) := by simp [joinC]
        rw [e, hv, members_step hk hpv n 44 _ (by rfl) (by rfl) (by omega), if_pos rfl, members_space, ih (by simp) n rest (by omega)]
        rfl

theorem P_object {ms : List (Bytes × J)} {ts : List Bytes} (h : All2 PM ms ts) : P (.obj ms) (object ts) := by
  refine ⟨⟨123, _, rfl, rfl, by decide, by decide⟩, ?_⟩
  intro n rest hn _
  cases n with
  | zero => omega
  | succ n =>
    have e : object ts ++ rest = 123 :: (joinC ts ++ 125 :: rest) := by simp [object]
    rw [e]
    simp only [value]
    rw [skip_cons (by rfl)]
    simp only []
    rw [if_neg (by decide), if_neg (by decide), if_pos trivial]
    cases h with
    | nil =>
      have : skip (joinC [] ++ 125 :: rest) = 125 :: rest := skip_cons (by rfl) _
      rw [this]; rfl
    | @cons m t ms ts hp hs =>
      have hst : ∀ t' ∈ t :: ts, Starts t' := by
        have key : ∀ {l : List (Bytes × J)} {ts : List Bytes}, All2 PM l ts → ∀ t ∈ ts, Starts t := by
          intro l ts h
          induction h with
          | nil => intro t ht; cases ht
          | cons a _ ih =>
            intro t ht
            rcases List.mem_cons.mp ht with e | ht
            · obtain ⟨_, v, hv, _⟩ := a
              rw [e, hv]; exact ⟨34, _, rfl, rfl, by decide, by decide⟩
            · exact ih t ht
        exact key (.cons hp hs)
      obtain ⟨c, r, h1, h2, h3, h4⟩ := joinC_starts (by simp) hst
      have hsk : skip (joinC (t :: ts) ++ 125 :: rest) = joinC (t :: ts) ++ 125 :: rest := by rw [h1]; exact skip_cons h2 _
      have hh : (joinC (t :: ts) ++ 125 :: rest).head? ≠ some 125 := by rw [h1]; simpa using h4
      rw [hsk, if_neg hh, members_all (.cons hp hs) (by simp) n rest (by simp [object] at hn; omega)]
      rfl

/-- a text that parses everywhere is a JSON text -/
theorem parse_of_P {j : J} {t : Bytes} (h : P j t) : parse t = some j := by
  have := h.parses (t.length + 1) [] (by omega) (by intro c hc; cases hc)
  rw [List.append_nil] at this
  simp [parse, this, skip]

/-! ### base64 -/

theorem b64_index : ∀ n, n < 64 → b64Index (b64Char n) = some n ∧ b64Char n ≠ 61 ∧ b64Char n ≠ 34 ∧ b64Char n ≠ 92 ∧ ¬ b64Char n < 32 := by decide

theorem unb64_b64 : ∀ b : Bytes, unb64 (b64 b) = some b
  | [] => rfl
  | [a] => by
    have ha := a.toNat_lt
    obtain ⟨a1, -⟩ := b64_index (a.toNat / 4) (by omega)
    obtain ⟨b1, -⟩ := b64_index (a.toNat % 4 * 16) (by omega)
    have e1 : a.toNat / 4 * 4 + a.toNat % 4 * 16 / 16 = a.toNat := by omega
    simp only [b64, unb64, a1, b1, e1, and_self, if_true, UInt8.ofNat_toNat]
  | [a, b] => by
    have ha := a.toNat_lt
    have hb := b.toNat_lt
    obtain ⟨a1, -⟩ := b64_index (a.toNat / 4) (by omega)
    obtain ⟨b1, -⟩ := b64_index (a.toNat % 4 * 16 + b.toNat / 16) (by omega)
    obtain ⟨c1, c2, -⟩ := b64_index (b.toNat % 16 * 4) (by omega)
    simp only [b64, unb64, a1, b1, c1, if_neg c2]
    have e1 : a.toNat / 4 * 4 + (a.toNat % 4 * 16 + b.toNat / 16) / 16 = a.toNat := by omega
    have e2 : (a.toNat % 4 * 16 + b.toNat / 16) % 16 * 16 + b.toNat % 16 * 4 / 4 = b.toNat := by omega
    simp only [e1, e2, and_self, if_true, UInt8.ofNat_toNat]
  | a :: b :: c :: r => by
    have ha := a.toNat_lt
    have hb := b.toNat_lt
    have hc := c.toNat_lt
    obtain ⟨a1, -⟩ := b64_index (a.toNat / 4) (by omega)
    obtain ⟨b1, -⟩ := b64_index (a.toNat % 4 * 16 + b.toNat / 16) (by omega)
    obtain ⟨c1, c2, -⟩ := b64_index (b.toNat % 16 * 4 + c.toNat / 64) (by omega)
    obtain ⟨d1, d2, -⟩ := b64_index (c.toNat % 64) (by omega)
    have e1 : a.toNat / 4 * 4 + (a.toNat % 4 * 16 + b.toNat / 16) / 16 = a.toNat := by omega
    have e2 : (a.toNat % 4 * 16 + b.toNat / 16) % 16 * 16 + (b.toNat % 16 * 4 + c.toNat / 64) / 4 = b.toNat := by omega
    have e3 : (b.toNat % 16 * 4 + c.toNat / 64) % 4 * 64 + c.toNat % 64 = c.toNat := by omega
    have ih := unb64_b64 r
    simp only [b64, unb64, a1, b1, c1, d1]
    rw [if_neg (fun h => d2 h.1), ih]
    simp only [e1, e2, e3, UInt8.ofNat_toNat, Option.map_some]

theorem b64_plain : ∀ b : Bytes, Plain (b64 b)
  | [] => by intro c hc; cases hc
  | [a] => by
    have ha := a.toNat_lt
    intro c hc
    simp only [b64, List.mem_cons, List.not_mem_nil, or_false] at hc
    rcases hc with rfl | rfl | rfl | rfl
    · exact (b64_index _ (by omega)).2.2
    · exact (b64_index _ (by omega)).2.2
    · decide
    · decide
  | [a, b] => by
    have ha := a.toNat_lt
    have hb := b.toNat_lt
    intro c hc
    simp only [b64, List.mem_cons, List.not_mem_nil, or_false] at hc
    rcases hc with rfl | rfl | rfl | rfl
    · exact (b64_index _ (by omega)).2.2
    · exact (b64_index _ (by omega)).2.2
    · exact (b64_index _ (by omega)).2.2
    · decide
  | a :: b :: c :: r => by
    have ha := a.toNat_lt
    have hb := b.toNat_lt
    have hc := c.toNat_lt
    intro x hx
    simp only [b64, List.mem_cons] at hx
    rcases hx with rfl | rfl | rfl | rfl | hx
    · exact (b64_index _ (by omega)).2.2
    · exact (b64_index _ (by omega)).2.2
    · exact (b64_index _ (by omega)).2.2
    · exact (b64_index _ (by omega)).2.2
    · exact b64_plain r x hx

end Verif.Kafka.Json
