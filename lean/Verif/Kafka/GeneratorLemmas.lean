import Verif.Kafka.LayoutSpec
/- Lemmas for C75: the parsing functions of the generator against the meaning of the strings. -/
namespace Verif.Kafka.Layout
open Verif Verif.Kafka Verif.Props

theorem parseInt16_signed {s : List Char} {i : Int} (h : parseInt16 s = some i) :
    (∀ c ∈ s.tail, IsDigit c) ∧ ∃ c r, s = c :: r ∧ (c = '+' ∨ c = '-' ∨ IsDigit c) := by
  have key : ∀ s : List Char, s ≠ [] → (∀ c ∈ s, IsDigit c) →
      (∀ c ∈ s.tail, IsDigit c) ∧ ∃ c r, s = c :: r ∧ (c = '+' ∨ c = '-' ∨ IsDigit c) := by
    intro s hne h1
    cases s with
    | nil => exact absurd rfl hne
    | cons c r => exact ⟨fun d hd => h1 d (by simp at hd; simp [hd]), c, r, rfl, Or.inr (Or.inr (h1 c (by simp)))⟩
  unfold parseInt16 at h
  simp only at h
  split at h
  all_goals
    split at h
    · cases h
    · rename_i hne
      split at h
      · cases h
      · rename_i hk
        obtain ⟨h1, _⟩ := parseDigits_some hk
        first
          | exact key _ hne h1
          | exact ⟨h1, _, _, rfl, by simp⟩

theorem splitOn_mem {c : Char} : ∀ {s : List Char}, c ∈ s → ∃ a b, s = a ++ c :: b ∧ c ∉ a
  | x :: s, h => by
    by_cases hx : x = c
    · exact ⟨[], s, by simp [hx], by simp⟩
    · have : c ∈ s := by
        rcases List.mem_cons.mp h with e | e
        · exact absurd e.symm hx
        · exact e
      obtain ⟨a, b, e, hn⟩ := splitOn_mem this
      refine ⟨x :: a, b, by simp [e], ?_⟩
      simp only [List.mem_cons, not_or]
      exact ⟨fun e => hx e.symm, hn⟩

/-- a version string with a plus sign only at its end means what the parser makes of it -/
theorem versionRange_denotes {s : List Char} {lo hi : Int} (hp : plusLast s = true) (h : versionRange s = some (lo, hi)) :
    Denotes s lo hi := by
  by_cases hin : '+' ∈ s
  · obtain ⟨a, rfl, ha⟩ : ∃ a, s = a ++ ['+'] ∧ '+' ∉ a := by
      have hne : s ≠ [] := by intro e; subst e; cases hin
      have hs : s = s.dropLast ++ [s.getLast hne] := (List.dropLast_concat_getLast hne).symm
      have hd : '+' ∉ s.dropLast := by simpa [plusLast] using hp
      refine ⟨s.dropLast, ?_, hd⟩
      rw [hs] at hin
      rcases List.mem_append.mp hin with e | e
      · exact absurd e (by simpa using hd)
      · have e : '+' = s.getLast hne := by simpa using e
        rw [e]; exact hs
    by_cases hm : '-' ∈ a
    · exfalso
      obtain ⟨x, y, e, hx⟩ := splitOn_mem hm
      have hs : splitOn '-' (a ++ ['+']) = x :: splitOn '-' (y ++ ['+']) := by
        rw [e, List.append_assoc, List.cons_append, splitOn_append '-' _ x hx]
      by_cases hy : '-' ∈ y
      · -- two minus signs
        have h3 : ∀ b, splitOn '-' (y ++ ['+']) ≠ [b] := by
          intro b hb
          obtain ⟨_, hn⟩ := splitOn_one hb
          exact hn (by simp [hy])
        unfold versionRange at h
        rw [hs] at h
        split at h
        · rename_i b hb
          injection hb with _ hb
          exact h3 _ hb
        · rw [splitOn_append '+' [] a ha, splitOn_none '+' [] (by simp)] at h
          simp only at h
          split at h
          · cases h
          · rename_i i hi
            obtain ⟨h1, c, r, he, _⟩ := parseInt16_signed hi
            have : '-' ∈ a.tail := by
              rw [e]
              cases x with
              | nil => simp [hy]
              | cons z zs => simp
            exact minus_not_digit (h1 _ this)
      · unfold versionRange at h
        rw [hs, splitOn_none '-' (y ++ ['+']) (by simp [hy])] at h
        simp only at h
        split at h
        · cases h
        · split at h
          · cases h
          · rename_i i hi
            obtain ⟨h1, c, r, he, hc⟩ := parseInt16_signed hi
            cases y with
            | nil => rw [show parseInt16 ([] ++ ['+']) = none by decide] at hi; cases hi
            | cons z zs => exact plus_not_digit (h1 '+' (by simp))
    · unfold versionRange at h
      rw [splitOn_none '-' _ (by simp [hm])] at h
      simp only at h
      rw [splitOn_append '+' [] a ha, splitOn_none '+' [] (by simp)] at h
      simp only at h
      split at h
      · cases h
      · rename_i i hi
        simp only [Option.some.injEq, Prod.mk.injEq] at h
        obtain ⟨rfl, rfl⟩ := h
        exact .from (numeral_of_parse hi ha hm)
  · exact C162_others_rejected_partial hin h

theorem denotes_unique {s : List Char} {lo hi lo' hi' : Int} (h : Denotes s lo hi) (h' : Denotes s lo' hi') :
    lo = lo' ∧ hi = hi' := by
  have := C25_forms_parsed h
  rw [C25_forms_parsed h'] at this
  injection this with this
  injection this with a b
  exact ⟨a.symm, b.symm⟩

/-! ### types -/

theorem primTy_name {t : List Char} {p : Prim} (h : primTy t = some p) : PrimName t p := by
  unfold primTy at h
  split at h
  · rename_i e; subst e; injection h with h; subst h; exact .bool
  split at h
  · rename_i e; subst e; injection h with h; subst h; exact .int8
  split at h
  · rename_i e; subst e; injection h with h; subst h; exact .int16
  split at h
  · rename_i e; subst e; injection h with h; subst h; exact .uint16
  split at h
  · rename_i e; subst e; injection h with h; subst h; exact .int32
  split at h
  · rename_i e; subst e; injection h with h; subst h; exact .int64
  split at h
  · rename_i e; subst e; injection h with h; subst h; exact .float64
  split at h
  · rename_i e; subst e; injection h with h; subst h; exact .string
  split at h
  · rename_i e; subst e; injection h with h; subst h; exact .uuid
  split at h
  · rename_i e; subst e; injection h with h; subst h; exact .bytes
  split at h
  · rename_i e; subst e; injection h with h; subst h; exact .records
  cases h

theorem name_primTy {t : List Char} {p : Prim} (h : PrimName t p) : primTy t = some p := by
  cases h <;> decide

theorem structTy_name {t : List Char} (h : isStructTy t = true) : StructName t := by
  cases t with
  | nil => cases h
  | cons c r =>
    simp only [isStructTy, decide_eq_true_eq] at h
    exact ⟨c, r, rfl, h⟩

theorem dropWhile_sp {s : List Char} (h : ' ' ∉ s) : s.dropWhile (· = ' ') = s := by
  cases s with
  | nil => rfl
  | cons c r =>
    have : c ≠ ' ' := fun e => h (by simp [e])
    simp [this]

theorem trimSp_id {s : List Char} (h : ' ' ∉ s) : trimSp s = s := by
  unfold trimSp
  rw [dropWhile_sp h, dropWhile_sp (by simpa using h), List.reverse_reverse]

/-! ### literals -/

theorem hexDigit_some {c : Char} {d : Nat} (h : hexDigit c = some d) : IsHex c ∧ d = hexOf c := by
  unfold hexDigit at h
  unfold IsHex hexOf
  split at h
  · rename_i hc
    injection h with h
    exact ⟨Or.inl hc, by rw [if_pos hc.2]; exact h.symm⟩
  · split at h
    · rename_i hc
      injection h with h
      refine ⟨Or.inr (Or.inl hc), ?_⟩
      have h1 : ¬ c ≤ '9' := by
        intro e; exact absurd (Char.le_trans hc.1 e) (by decide)
      have h2 : ¬ c ≤ 'F' := by
        intro e; exact absurd (Char.le_trans hc.1 e) (by decide)
      have h3 : 97 ≤ c.toNat := hc.1
      rw [if_neg h1, if_neg h2, ← h]
      simp only [show 'a'.toNat = 97 from rfl]
      omega
    · split at h
      · rename_i hc
        injection h with h
        refine ⟨Or.inr (Or.inr hc), ?_⟩
        have h1 : ¬ c ≤ '9' := by
          intro e; exact absurd (Char.le_trans hc.1 e) (by decide)
        have h3 : 65 ≤ c.toNat := hc.1
        rw [if_neg h1, if_pos hc.2, ← h]
        simp only [show 'A'.toNat = 65 from rfl]
        omega
      · cases h

theorem parseHex_some {s : List Char} : ∀ {acc n}, parseHex s acc = some n →
    (∀ c ∈ s, IsHex c) ∧ n = s.foldl (fun n c => n * 16 + hexOf c) acc := by
  induction s with
  | nil => intro acc n h; simp [parseHex] at h; simp [h]
  | cons c s ih =>
    intro acc n h
    unfold parseHex at h
    split at h
    · rename_i d hc
      obtain ⟨h1, h2⟩ := ih h
      obtain ⟨h3, h4⟩ := hexDigit_some hc
      refine ⟨?_, by rw [h2, h4]; rfl⟩
      intro d hd
      rcases List.mem_cons.mp hd with rfl | hd
      · exact h3
      · exact h1 d hd
    · cases h

theorem parseMag_lit {s : List Char} {n : Nat} (h : parseMag s = some n) : IntLit s (n : Int) := by
  unfold parseMag at h
  split at h
  · cases h
  · split at h
    · cases h
    · rename_i hne
      obtain ⟨h1, h2⟩ := parseHex_some h
      rw [h2]
      exact .hex hne h1
  · injection h with h; subst h
    exact .dec (s := ['0']) (by simp) (by intro c hc; simp at hc; subst hc; unfold IsDigit; decide)
  · cases h
  · rename_i hne _ _ _
    obtain ⟨h1, h2⟩ := parseDigits_some h
    rw [h2]
    exact .dec (fun e => hne e) h1

theorem parseIntBase0_lit {bits : Nat} {s : List Char} {i : Int} (hp : s.head? ≠ some '+')
    (h : parseIntBase0 bits s = some i) : IntLit s i := by
  unfold parseIntBase0 at h
  split at h
  · rw [Option.bind_eq_some_iff] at h
    obtain ⟨n, h1, h2⟩ := h
    unfold chkBits at h2
    split at h2
    · injection h2 with h2; subst h2
      exact .neg (parseMag_lit h1) (Int.natCast_nonneg n)
    · cases h2
  · simp at hp
  · rw [Option.bind_eq_some_iff] at h
    obtain ⟨n, h1, h2⟩ := h
    unfold chkBits at h2
    split at h2
    · injection h2 with h2; subst h2; exact parseMag_lit h1
    · cases h2

theorem castInt_lit {bits : Nat} {j : JVal} {i : Int} (hp : ∀ s, j = .str s → s.head? ≠ some '+')
    (h : castInt bits j = some i) : (∃ s, j = .str s ∧ IntLit s i) ∨ j = .num i := by
  cases j with
  | str s => exact Or.inl ⟨s, rfl, parseIntBase0_lit (hp s rfl) h⟩
  | num k =>
    simp only [castInt, chkBits] at h
    split at h
    · injection h with h; subst h; exact Or.inr rfl
    · cases h
  | bool b => cases h

theorem byte_char {c d : Char} (hc : c.toNat < 128) (hd : d.toNat < 128) (h : UInt8.ofNat c.toNat = UInt8.ofNat d.toNat) : c = d := by
  have h' := congrArg UInt8.toNat h
  simp only [UInt8.toNat_ofNat'] at h'
  rw [Nat.mod_eq_of_lt (by omega), Nat.mod_eq_of_lt (by omega)] at h'
  exact Char.toNat_inj.mp h'

theorem bytes_null {s : List Char} (h : ∀ c ∈ s, c.toNat < 128)
    (e : (s.map fun c => UInt8.ofNat c.toNat) = Wire.utf8Null) : s = "null".toList := by
  have e : s.map (fun c => UInt8.ofNat c.toNat) = "null".toList.map (fun c => UInt8.ofNat c.toNat) := by
    rw [e]; decide
  have hl : "null".toList.length = s.length := by simpa using (congrArg List.length e).symm
  have key : ∀ (s t : List Char), (∀ c ∈ s, c.toNat < 128) → (∀ c ∈ t, c.toNat < 128) →
      s.map (fun c => UInt8.ofNat c.toNat) = t.map (fun c => UInt8.ofNat c.toNat) → s = t := by
    intro s
    induction s with
    | nil => intro t _ _ e; cases t with
      | nil => rfl
      | cons => simp at e
    | cons c s ih => intro t h1 h2 e; cases t with
      | nil => simp at e
      | cons d t =>
        simp only [List.map_cons, List.cons.injEq] at e
        rw [byte_char (h1 c (by simp)) (h2 d (by simp)) e.1,
          ih t (fun x hx => h1 x (by simp [hx])) (fun x hx => h2 x (by simp [hx])) e.2]
  exact key _ _ h (by decide) e

/-- the default the generator emits is the default specified -/
theorem castDflt_prim {typ : List Char} {p : Prim} {j : JVal} {d : Dflt} (hn : PrimName typ p)
    (hp : plainDefault typ (some j) = true) (h : castDflt (.prim p) j = some d) :
    DefaultOf p (some j) (codeDefault p d) := by
  have hplus : p ≠ .bool → ∀ s, j = .str s → s.head? ≠ some '+' := by
    intro hb s hs
    subst hs
    have : typ ≠ "bool".toList := by
      intro e; subst e
      have := name_primTy hn
      rw [show primTy "bool".toList = some .bool by decide] at this
      injection this with this
      exact hb this.symm
    simp only [plainDefault, this, if_false] at hp
    simpa using hp
  cases p with
  | bool =>
    have ht : typ = "bool".toList := by cases hn; rfl
    cases j with
    | str s =>
      simp only [plainDefault, ht, if_true, List.mem_cons, List.not_mem_nil, or_false, decide_eq_true_eq] at hp
      rcases hp with e | e
      · subst e
        have : d = .bool true := by
          have : castDflt (.prim .bool) (.str "true".toList) = some (.bool true) := by decide
          rw [this] at h; injection h with h; exact h.symm
        subst this; exact .boolTrue
      · subst e
        have : d = .none := by
          have : castDflt (.prim .bool) (.str "false".toList) = some .none := by decide
          rw [this] at h; injection h with h; exact h.symm
        subst this; exact .boolFalse
    | num i => cases h
    | bool b =>
      simp only [castDflt] at h
      injection h with h; subst h
      cases b <;> exact .boolJson
  | int k =>
    simp only [castDflt, Option.map_eq_some_iff] at h
    obtain ⟨i, h1, h2⟩ := h
    have hd : codeDefault (.int k) d = .int i := by
      subst h2
      unfold emitInt
      split
      · rename_i e; subst e; rfl
      · rfl
    rw [hd]
    rcases castInt_lit (hplus (by simp)) h1 with ⟨s, e, hl⟩ | e
    · subst e; exact .intStr hl
    · subst e; exact .intJson
  | u16 =>
    simp only [castDflt, Option.bind_eq_some_iff] at h
    obtain ⟨i, h1, h2⟩ := h
    split at h2
    · rename_i hi
      injection h2 with h2
      have hd : codeDefault .u16 d = .int i := by
        subst h2
        unfold emitInt
        split
        · rename_i e; subst e; rfl
        · simp only [codeDefault, Wire.dflt]; congr 1; omega
      rw [hd]
      rcases castInt_lit (hplus (by simp)) h1 with ⟨s, e, hl⟩ | e
      · subst e; exact .u16Str hl
      · subst e; exact .u16Json
    · cases h2
  | f64 => simp [castDflt] at h
  | uuid => simp [castDflt] at h
  | records => simp [castDflt] at h
  | str =>
    cases j with
    | num i => simp [castDflt] at h
    | bool b => simp [castDflt] at h
    | str s =>
      simp only [castDflt] at h
      split at h
      · rename_i e
        injection h with h; subst h e
        exact .strStr (by decide) (by simp)
      · simp only [Option.map_eq_some_iff, toBytes] at h
        obtain ⟨b, h1, h2⟩ := h
        split at h1
        · rename_i hall
          injection h1 with h1
          have hall : ∀ c ∈ s, c.toNat < 128 := by simpa using hall
          subst h1 h2
          by_cases e : s = "null".toList
          · subst e
            have : codeDefault .str (.str ("null".toList.map fun c => UInt8.ofNat c.toNat)) = .null := by decide
            rw [this]
            exact .strNull
          · have : codeDefault .str (.str (s.map fun c => UInt8.ofNat c.toNat)) = .str (s.map fun c => UInt8.ofNat c.toNat) := by
              have hne : (s.map fun c => UInt8.ofNat c.toNat) ≠ Wire.utf8Null := fun h => e (bytes_null hall h)
              simp [codeDefault, Wire.dflt, hne]
            rw [this]
            exact .strStr e hall
        · cases h1
  | bytes =>
    cases j with
    | num i => simp [castDflt] at h
    | bool b => simp [castDflt] at h
    | str s =>
      simp only [castDflt] at h
      split at h
      · rename_i e
        injection h with h; subst h e
        exact .bytesNull
      · cases h

theorem noDefault (p : Prim) : DefaultOf p none (codeDefault p .none) := by
  cases p <;> constructor

theorem castDflt_arr {ty : Ty} {j : JVal} {d : Dflt} (ha : (∃ p, ty = .arr p) ∨ ∃ n, ty = .arrS n)
    (h : castDflt ty j = some d) : ArrayDefault (some j) := by
  rcases ha with ⟨p, rfl⟩ | ⟨n, rfl⟩
  all_goals
    cases j with
    | str s =>
      simp only [castDflt] at h
      split at h
      · rename_i e; exact e
      · cases h
    | num i => simp [castDflt] at h
    | bool b => simp [castDflt] at h

end Verif.Kafka.Layout
