import Verif.Net.Ip
/-
Properties C265 (addresses as text), C266 (ranges) and C267 (endpoints).
-/
namespace Verif.Ip

/-! ### specification: what addresses look like -/

/-- the number a text of digits stands for (specification) -/
def value (fig : Char → Option Nat) (base : Nat) (w : Str) : Nat := w.foldl (fun n c => n * base + (fig c).getD 0) 0

/-- one or more digits (specification) -/
def Digits (fig : Char → Option Nat) (w : Str) : Prop := w ≠ [] ∧ ∀ c ∈ w, (fig c).isSome

/-- the decimal number `n` without leading zeros (specification) -/
def IsDec (w : Str) (n : Nat) : Prop := Digits decFig w ∧ value decFig 10 w = n ∧ (w.head? = some '0' → w = ['0'])

/-- a dotted IPv4 address: four decimal numbers from 0 to 255 (specification) -/
def V4 (s : Str) (p : Bytes) : Prop :=
  ∃ wa wb wc wd, ∃ a b c d : UInt8, IsDec wa a.toNat ∧ IsDec wb b.toNat ∧ IsDec wc c.toNat ∧ IsDec wd d.toNat ∧
    p = [a, b, c, d] ∧ s = wa ++ '.' :: (wb ++ '.' :: (wc ++ '.' :: wd))

/-- the two bytes of a group (specification) -/
def two (n : Nat) : Bytes := [UInt8.ofNat (n / 256), UInt8.ofNat n]

/-- a group: a hexadecimal number of 16 bits (specification; Go 1.20 accepts leading zeros without limit) -/
def Group (w : Str) (n : Nat) : Prop := Digits hexFig w ∧ value hexFig 16 w = n ∧ n ≤ 0xFFFF

/-- groups with colons between them (specification) -/
inductive Groups : Str → Bytes → Prop
  | one {w n} : Group w n → Groups w (two n)
  | more {w n r bs} : Group w n → Groups r bs → Groups (w ++ ':' :: r) (two n ++ bs)

/-- groups with colons between them, where the last 32 bits may be dotted (specification) -/
inductive Tail : Str → Bytes → Prop
  | one {w n} : Group w n → Tail w (two n)
  | dotted {s p} : V4 s p → Tail s p
  | more {w n r bs} : Group w n → Tail r bs → Tail (w ++ ':' :: r) (two n ++ bs)

/-- an IPv6 address (RFC 4291, specification): all 16 bytes are there, or `::` stands for at least one group of zeros -/
def V6 (s : Str) (ip : Bytes) : Prop :=
  (Tail s ip ∧ ip.length = 16) ∨
  ∃ l r L R, s = l ++ ':' :: ':' :: r ∧ ((l = [] ∧ L = []) ∨ Groups l L) ∧ ((r = [] ∧ R = []) ∨ Tail r R) ∧ L.length + R.length ≤ 14 ∧
    ip = L ++ List.replicate (16 - (L.length + R.length)) 0 ++ R

/-! ### numbers -/

theorem value_cons_aux (fig : Char → Option Nat) (base : Nat) (w : Str) : ∀ n, n ≤ w.foldl (fun n c => n * base + (fig c).getD 0) n ∨ base = 0 := by
  induction w with
  | nil => intro n; simp
  | cons c w ih =>
    intro n
    rcases Nat.eq_zero_or_pos base with h | h
    · exact .inr h
    · left
      simp only [List.foldl_cons]
      have := (ih (n * base + (fig c).getD 0)).resolve_right (by omega)
      have h2 := Nat.le_mul_of_pos_right n h
      omega

theorem toi_munch {fig : Char → Option Nat} {base : Nat} (hb : 0 < base) (w r : Str) (hw : ∀ c ∈ w, (fig c).isSome) (hr : ∀ c, r.head? = some c → fig c = none) :
    ∀ n i, toi fig base n i (w ++ r) =
      if w ≠ [] ∧ 0xFFFFFF ≤ w.foldl (fun n c => n * base + (fig c).getD 0) n then none else some (w.foldl (fun n c => n * base + (fig c).getD 0) n, i + w.length) := by
  induction w with
  | nil =>
    intro n i
    simp only [List.nil_append, ne_eq, not_true_eq_false, false_and, if_false, List.foldl_nil, List.length_nil, Nat.add_zero]
    cases r with
    | nil => rfl
    | cons c r => rw [toi, hr c rfl]
  | cons c w ih =>
    intro n i
    have hc := hw c (by simp)
    cases hf : fig c with
    | none => rw [hf] at hc; simp at hc
    | some d =>
      have hmono := (value_cons_aux fig base w (n * base + d)).resolve_right (by omega)
      simp only [List.cons_append, toi, hf, List.foldl_cons, Option.getD_some, ne_eq, reduceCtorEq, not_false_eq_true, true_and, List.length_cons]
      by_cases hbig : 0xFFFFFF ≤ n * base + d
      · rw [if_pos hbig, if_pos (by omega)]
      · rw [if_neg hbig, ih (fun x hx => hw x (by simp [hx]))]
        by_cases hwn : w = []
        · subst hwn; simp only [List.foldl_nil, List.length_nil, ne_eq, not_true_eq_false, false_and, if_false, hbig, Nat.add_zero, Nat.zero_add]
        · simp only [ne_eq, hwn, not_false_eq_true, true_and]
          split
          · rfl
          · congr 2; omega

theorem toi_split (fig : Char → Option Nat) (s : Str) : ∃ w r, s = w ++ r ∧ (∀ c ∈ w, (fig c).isSome) ∧ ∀ c, r.head? = some c → fig c = none := by
  induction s with
  | nil => exact ⟨[], [], rfl, by simp, by simp⟩
  | cons c s ih =>
    cases hf : fig c with
    | none => exact ⟨[], c :: s, rfl, by simp, by intro d hd; simp only [List.head?_cons, Option.some.injEq] at hd; rw [← hd]; exact hf⟩
    | some d =>
      obtain ⟨w, r, he, hw, hr⟩ := ih
      refine ⟨c :: w, r, by rw [he]; rfl, ?_, hr⟩
      intro x hx
      rcases List.mem_cons.1 hx with rfl | hx
      · rw [hf]; rfl
      · exact hw x hx

theorem munch_unique {fig : Char → Option Nat} : ∀ {w w' r r' : Str}, w ++ r = w' ++ r' → (∀ c ∈ w, (fig c).isSome) → (∀ c ∈ w', (fig c).isSome) →
    (∀ c, r.head? = some c → fig c = none) → (∀ c, r'.head? = some c → fig c = none) → w = w' ∧ r = r' := by
  intro w
  induction w with
  | nil =>
    intro w' r r' he _ hw' hr _
    cases w' with
    | nil => exact ⟨rfl, he⟩
    | cons c w' =>
      have h1 := hw' c (by simp)
      rw [hr c (by rw [List.nil_append] at he; rw [he]; rfl)] at h1
      simp at h1
  | cons c w ih =>
    intro w' r r' he hw hw' hr hr'
    cases w' with
    | nil =>
      have h1 := hw c (by simp)
      rw [hr' c (by rw [List.nil_append] at he; rw [← he]; rfl)] at h1
      simp at h1
    | cons c' w' =>
      simp only [List.cons_append, List.cons.injEq] at he
      obtain ⟨rfl, he⟩ := he
      obtain ⟨rfl, rfl⟩ := ih he (fun x hx => hw x (by simp [hx])) (fun x hx => hw' x (by simp [hx])) hr hr'
      exact ⟨rfl, rfl⟩

theorem dtoi_munch (w r : Str) (hw : ∀ c ∈ w, (decFig c).isSome) (hr : ∀ c, r.head? = some c → decFig c = none) :
    dtoi (w ++ r) = if w = [] ∨ 0xFFFFFF ≤ value decFig 10 w then none else some (value decFig 10 w, w.length) := by
  unfold dtoi
  rw [toi_munch (by omega) w r hw hr]
  by_cases h1 : w = []
  · subst h1; simp
  · by_cases h2 : 0xFFFFFF ≤ value decFig 10 w
    · rw [if_pos ⟨h1, h2⟩, if_pos (.inr h2)]
    · rw [if_neg (by intro h; exact h2 h.2), if_neg (by rintro (h | h); exact h1 h; exact h2 h)]
      have := List.length_pos_iff.2 h1
      simp only [Nat.zero_add]
      rw [if_neg (by omega)]
      rfl

theorem xtoi_munch (w r : Str) (hw : ∀ c ∈ w, (hexFig c).isSome) (hr : ∀ c, r.head? = some c → hexFig c = none) :
    xtoi (w ++ r) = if w = [] ∨ 0xFFFFFF ≤ value hexFig 16 w then none else some (value hexFig 16 w, w.length) := by
  unfold xtoi
  rw [toi_munch (by omega) w r hw hr]
  by_cases h1 : w = []
  · subst h1; simp
  · by_cases h2 : 0xFFFFFF ≤ value hexFig 16 w
    · rw [if_pos ⟨h1, h2⟩, if_pos (.inr h2)]
    · rw [if_neg (by intro h; exact h2 h.2), if_neg (by rintro (h | h); exact h1 h; exact h2 h)]
      have := List.length_pos_iff.2 h1
      simp only [Nat.zero_add]
      rw [if_neg (by omega)]
      rfl

/-! ### IPv4 -/

theorem v4num_iff {s r : Str} {b : UInt8} : v4num s = some (b, r) ↔ ∃ w, s = w ++ r ∧ IsDec w b.toNat ∧ ∀ c, r.head? = some c → decFig c = none := by
  obtain ⟨w0, r0, rfl, hw, hr⟩ := toi_split decFig s
  unfold v4num
  rw [dtoi_munch w0 r0 hw hr]
  constructor
  · intro h
    by_cases h1 : w0 = [] ∨ 0xFFFFFF ≤ value decFig 10 w0
    · rw [if_pos h1] at h; simp at h
    · rw [if_neg h1] at h
      simp only [] at h
      by_cases h2 : 0xFF < value decFig 10 w0
      · rw [if_pos h2] at h; simp at h
      · rw [if_neg h2] at h
        by_cases h3 : 1 < w0.length ∧ (w0 ++ r0).head? = some '0'
        · rw [if_pos h3] at h; simp at h
        · rw [if_neg h3, List.drop_left] at h
          simp only [Option.some.injEq, Prod.mk.injEq] at h
          obtain ⟨rfl, rfl⟩ := h
          have hne : w0 ≠ [] := fun h => h1 (.inl h)
          refine ⟨w0, rfl, ⟨⟨hne, hw⟩, ?_, ?_⟩, hr⟩
          · rw [UInt8.toNat_ofNat']; omega
          · intro h0
            cases w0 with
            | nil => exact absurd rfl hne
            | cons c t =>
              simp only [List.head?_cons, Option.some.injEq] at h0
              subst h0
              cases t with
              | nil => rfl
              | cons c' t => exact absurd ⟨by simp, by simp⟩ h3
  · rintro ⟨w, he, ⟨⟨hne, hd⟩, hv, hz⟩, hr'⟩
    obtain ⟨rfl, rfl⟩ := munch_unique he hw hd hr hr'
    have hb := b.toNat_lt
    rw [if_neg (by rintro (h | h); exact hne h; omega)]
    simp only []
    rw [if_neg (by omega), if_neg, List.drop_left, hv, UInt8.ofNat_toNat]
    rintro ⟨h1, h2⟩
    cases w0 with
    | nil => exact hne rfl
    | cons c t =>
      have := hz (by simpa using h2)
      rw [this] at h1
      simp at h1

theorem dot_not_dec : ∀ (c : Char) (t : Str), ('.' :: t).head? = some c → decFig c = none := by
  intro c t h
  simp only [List.head?_cons, Option.some.injEq] at h
  subst h
  decide

theorem v4more_zero {s : Str} {p : Bytes} : v4more 0 s = some p ↔ s = [] ∧ p = [] := by
  rw [v4more]
  split
  · rename_i h; simp [h, eq_comm]
  · rename_i h; simp [h]

theorem v4more_succ {k : Nat} {s : Str} {p : Bytes} : v4more (k + 1) s = some p ↔
    ∃ w r b q, s = '.' :: (w ++ r) ∧ IsDec w b.toNat ∧ (∀ c, r.head? = some c → decFig c = none) ∧ v4more k r = some q ∧ p = b :: q := by
  constructor
  · intro h
    cases s with
    | nil => simp [v4more] at h
    | cons c s =>
      by_cases hc : c = '.'
      · subst hc
        rw [v4more] at h
        cases hn : v4num s with
        | none => rw [hn] at h; simp at h
        | some x =>
          obtain ⟨b, r⟩ := x
          rw [hn] at h
          simp only [Option.map_eq_some_iff] at h
          obtain ⟨q, hq, rfl⟩ := h
          obtain ⟨w, rfl, hd, hr⟩ := v4num_iff.1 hn
          exact ⟨w, r, b, q, rfl, hd, hr, hq, rfl⟩
      · rw [v4more] at h
        · simp at h
        · intro s' h'; simp only [List.cons.injEq] at h'; exact hc h'.1
  · rintro ⟨w, r, b, q, rfl, hd, hr, hq, rfl⟩
    rw [v4more, v4num_iff.2 ⟨w, rfl, hd, hr⟩]
    simp [hq]

theorem v4_iff {s : Str} {p : Bytes} : parseIPv4 s = some p ↔ V4 s p := by
  unfold parseIPv4
  constructor
  · intro h
    cases hn : v4num s with
    | none => rw [hn] at h; simp at h
    | some x =>
      obtain ⟨a, r⟩ := x
      rw [hn] at h
      simp only [Option.map_eq_some_iff] at h
      obtain ⟨q, hq, rfl⟩ := h
      obtain ⟨wa, rfl, ha, _⟩ := v4num_iff.1 hn
      obtain ⟨wb, r1, b, q1, rfl, hb, _, hq1, rfl⟩ := v4more_succ.1 hq
      obtain ⟨wc, r2, c, q2, rfl, hc, _, hq2, rfl⟩ := v4more_succ.1 hq1
      obtain ⟨wd, r3, d, q3, rfl, hd, _, hq3, rfl⟩ := v4more_succ.1 hq2
      obtain ⟨rfl, rfl⟩ := v4more_zero.1 hq3
      exact ⟨wa, wb, wc, wd, a, b, c, d, ha, hb, hc, hd, rfl, by simp⟩
  · rintro ⟨wa, wb, wc, wd, a, b, c, d, ha, hb, hc, hd, rfl, rfl⟩
    rw [v4num_iff.2 ⟨wa, rfl, ha, fun c h => dot_not_dec c _ h⟩]
    simp only [Option.map_eq_some_iff]
    refine ⟨_, v4more_succ.2 ⟨wb, _, b, _, rfl, hb, fun c h => dot_not_dec c _ h,
      v4more_succ.2 ⟨wc, _, c, _, rfl, hc, fun c h => dot_not_dec c _ h,
      v4more_succ.2 ⟨wd, [], d, _, by simp, hd, by simp, v4more_zero.2 ⟨rfl, rfl⟩, rfl⟩, rfl⟩, rfl⟩, rfl⟩

/-! ### IPv6 -/

theorem hex_of_dec {c : Char} (h : (decFig c).isSome) : (hexFig c).isSome := by
  unfold decFig at h
  unfold hexFig
  split at h
  · rename_i h1; rw [if_pos h1]; rfl
  · simp at h

theorem colon_not_hex (t : Str) : ∀ c, (':' :: t).head? = some c → hexFig c = none := by
  intro c h
  simp only [List.head?_cons, Option.some.injEq] at h
  subst h; decide

theorem dot_not_hex (t : Str) : ∀ c, ('.' :: t).head? = some c → hexFig c = none := by
  intro c h
  simp only [List.head?_cons, Option.some.injEq] at h
  subst h; decide

theorem foldl_lower {fig : Char → Option Nat} {base : Nat} : ∀ (w : Str) (n : Nat), n * base ^ w.length ≤ w.foldl (fun n c => n * base + (fig c).getD 0) n := by
  intro w
  induction w with
  | nil => intro n; simp
  | cons c w ih =>
    intro n
    refine Nat.le_trans ?_ (ih _)
    rw [List.length_cons, Nat.pow_succ', ← Nat.mul_assoc]
    exact Nat.mul_le_mul_right _ (Nat.le_add_right _ _)

theorem foldl_upper {fig : Char → Option Nat} {base : Nat} (hf : ∀ c d, fig c = some d → d < base) : ∀ (w : Str) (n : Nat), (∀ c ∈ w, (fig c).isSome) →
    w.foldl (fun n c => n * base + (fig c).getD 0) n < (n + 1) * base ^ w.length := by
  intro w
  induction w with
  | nil => intro n _; simp
  | cons c w ih =>
    intro n hw
    simp only [List.foldl_cons]
    have h := ih (n * base + (fig c).getD 0) (fun x hx => hw x (by simp [hx]))
    refine Nat.lt_of_lt_of_le h ?_
    rw [List.length_cons, Nat.pow_succ', ← Nat.mul_assoc]
    refine Nat.mul_le_mul_right _ ?_
    have hc := hw c (by simp)
    cases hd : fig c with
    | none => rw [hd] at hc; simp at hc
    | some d =>
      have := hf c d hd
      simp only [Option.getD_some]
      rw [Nat.add_mul]
      omega

theorem hexFig_lt : ∀ c d, hexFig c = some d → d < 16 := by
  intro c d h
  unfold hexFig at h
  repeat' split at h
  all_goals first | (simp only [Option.some.injEq] at h; omega) | simp at h

theorem decFig_lt : ∀ c d, decFig c = some d → d < 10 := by
  intro c d h
  unfold decFig at h
  split at h
  · simp only [Option.some.injEq] at h; omega
  · simp at h

theorem decFig_zero {c : Char} (h : decFig c = some 0) : c = '0' := by
  unfold decFig at h
  split at h
  · simp only [Option.some.injEq] at h
    have h48 : c.toNat = 48 := by omega
    exact Char.toNat_inj.1 h48
  · simp at h

theorem isDec_short {w : Str} {n : Nat} (h : IsDec w n) (hn : n ≤ 255) : w.length ≤ 3 := by
  obtain ⟨⟨hne, hd⟩, hv, hz⟩ := h
  cases w with
  | nil => exact absurd rfl hne
  | cons c t =>
    by_cases hc : c = '0'
    · have := hz (by rw [hc]; rfl)
      rw [this]; simp
    · have hcs := hd c (by simp)
      cases hf : decFig c with
      | none => rw [hf] at hcs; simp at hcs
      | some d =>
        have hd0 : d ≠ 0 := by intro h0; subst h0; exact hc (decFig_zero hf)
        unfold value at hv
        simp only [List.foldl_cons, hf, Option.getD_some, Nat.zero_mul, Nat.zero_add] at hv
        have hl := foldl_lower (fig := decFig) (base := 10) t d
        rw [hv] at hl
        simp only [List.length_cons]
        rcases Nat.lt_or_ge t.length 3 with h3 | h3
        · omega
        · have := Nat.pow_le_pow_right (n := 10) (by omega) h3
          have h10 : 10 ^ 3 = 1000 := by decide
          have := Nat.mul_le_mul (show 1 ≤ d by omega) this
          omega

theorem isDec_hex {w : Str} {n : Nat} (h : IsDec w n) (hn : n ≤ 255) : Digits hexFig w ∧ value hexFig 16 w ≤ 0xFFFF := by
  have hl := isDec_short h hn
  have hd : ∀ c ∈ w, (hexFig c).isSome := fun c hc => hex_of_dec (h.1.2 c hc)
  refine ⟨⟨h.1.1, hd⟩, ?_⟩
  have := foldl_upper hexFig_lt w 0 hd
  have h2 := Nat.pow_le_pow_right (n := 16) (by omega) hl
  have h3 : 16 ^ 3 = 4096 := by decide
  unfold value
  omega

theorem two_length (n : Nat) : (two n).length = 2 := rfl

theorem V4.length {s : Str} {p : Bytes} (h : V4 s p) : p.length = 4 := by
  obtain ⟨_, _, _, _, a, b, c, d, _, _, _, _, rfl, _⟩ := h
  rfl

theorem Tail.length {s : Str} {bs : Bytes} (h : Tail s bs) : 2 ≤ bs.length ∧ bs.length % 2 = 0 := by
  induction h with
  | one _ => exact ⟨by rw [two_length]; omega, by rw [two_length]⟩
  | dotted h => rw [h.length]; omega
  | more _ _ ih => rw [List.length_append, two_length]; omega

theorem Groups.length {s : Str} {bs : Bytes} (h : Groups s bs) : 2 ≤ bs.length ∧ bs.length % 2 = 0 := by
  induction h with
  | one _ => exact ⟨by rw [two_length]; omega, by rw [two_length]⟩
  | more _ _ ih => rw [List.length_append, two_length]; omega

theorem Groups.tail {s : Str} {bs : Bytes} (h : Groups s bs) : Tail s bs := by
  induction h with
  | one h => exact .one h
  | more h _ ih => exact .more h ih

theorem Group.fun {w : Str} {n : Nat} (h : Group w n) : n = value hexFig 16 w := h.2.1.symm

theorem V4.start {s : Str} {p : Bytes} (h : V4 s p) : ∃ w t, s = w ++ '.' :: t ∧ Digits hexFig w ∧ value hexFig 16 w ≤ 0xFFFF := by
  obtain ⟨wa, wb, wc, wd, a, b, c, d, ha, _, _, _, _, rfl⟩ := h
  have := a.toNat_lt
  obtain ⟨h1, h2⟩ := isDec_hex ha (by omega)
  exact ⟨wa, _, rfl, h1, h2⟩

theorem tail_inv {w r : Str} {bs : Bytes} (hw : ∀ c ∈ w, (hexFig c).isSome) (hr : ∀ c, r.head? = some c → hexFig c = none) (h : Tail (w ++ r) bs) :
    (w ≠ [] ∧ value hexFig 16 w ≤ 0xFFFF) ∧
    ((r = [] ∧ bs = two (value hexFig 16 w)) ∨ (∃ r' bs', r = ':' :: r' ∧ Tail r' bs' ∧ bs = two (value hexFig 16 w) ++ bs') ∨ (∃ t, r = '.' :: t ∧ V4 (w ++ r) bs)) := by
  generalize hs : w ++ r = s at h
  cases h with
  | @one w' n hg =>
    obtain ⟨rfl, rfl⟩ := munch_unique (r' := []) (by rw [hs, List.append_nil]) hw hg.1.2 hr (by simp)
    refine ⟨⟨hg.1.1, by rw [hg.2.1]; exact hg.2.2⟩, .inl ⟨rfl, by rw [hg.fun]⟩⟩
  | dotted hv =>
    obtain ⟨w', t, rfl, hd, hle⟩ := hv.start
    obtain ⟨rfl, rfl⟩ := munch_unique hs hw hd.2 hr (dot_not_hex t)
    exact ⟨⟨hd.1, hle⟩, .inr (.inr ⟨t, rfl, hv⟩)⟩
  | @more w' n r' bs' hg ht =>
    obtain ⟨rfl, rfl⟩ := munch_unique hs hw hg.1.2 hr (colon_not_hex r')
    refine ⟨⟨hg.1.1, by rw [hg.2.1]; exact hg.2.2⟩, .inr (.inl ⟨r', bs', rfl, ht, by rw [hg.fun]⟩)⟩

theorem groups_inv {w r : Str} {bs : Bytes} (hw : ∀ c ∈ w, (hexFig c).isSome) (hr : ∀ c, r.head? = some c → hexFig c = none) (h : Groups (w ++ r) bs) :
    (w ≠ [] ∧ value hexFig 16 w ≤ 0xFFFF) ∧
    ((r = [] ∧ bs = two (value hexFig 16 w)) ∨ (∃ r' bs', r = ':' :: r' ∧ Groups r' bs' ∧ bs = two (value hexFig 16 w) ++ bs')) := by
  generalize hs : w ++ r = s at h
  cases h with
  | @one w' n hg =>
    obtain ⟨rfl, rfl⟩ := munch_unique (r' := []) (by rw [hs, List.append_nil]) hw hg.1.2 hr (by simp)
    refine ⟨⟨hg.1.1, by rw [hg.2.1]; exact hg.2.2⟩, .inl ⟨rfl, by rw [hg.fun]⟩⟩
  | @more w' n r' bs' hg ht =>
    obtain ⟨rfl, rfl⟩ := munch_unique hs hw hg.1.2 hr (colon_not_hex r')
    refine ⟨⟨hg.1.1, by rw [hg.2.1]; exact hg.2.2⟩, .inr ⟨r', bs', rfl, ht, by rw [hg.fun]⟩⟩

theorem loop_bad {k : Nat} {acc : Bytes} {e : Option Nat} {w r : Str} (hw : ∀ c ∈ w, (hexFig c).isSome) (hr : ∀ c, r.head? = some c → hexFig c = none)
    (h : ¬ (w ≠ [] ∧ value hexFig 16 w ≤ 0xFFFF)) : v6loop (k + 1) acc e (w ++ r) = none := by
  rw [v6loop, xtoi_munch w r hw hr]
  by_cases h1 : w = [] ∨ 0xFFFFFF ≤ value hexFig 16 w
  · rw [if_pos h1]
  · rw [if_neg h1]
    simp only []
    rw [if_pos]
    rcases Nat.lt_or_ge 0xFFFF (value hexFig 16 w) with h2 | h2
    · exact h2
    · exact absurd ⟨fun h3 => h1 (.inl h3), h2⟩ h

/-- a step of the loop behind a group (proof aid) -/
def loopNext (k : Nat) (acc : Bytes) (e : Option Nat) (s : Str) (n : Nat) (r : Str) : Option (Bytes × Option Nat × Str) :=
  if r.head? = some '.' then
    if e = none ∧ acc.length ≠ 12 then none
    else if 16 < acc.length + 4 then none
    else match parseIPv4 s with
      | none => none
      | some p => some (acc ++ p, e, [])
  else match r with
    | [] => some (acc ++ two n, e, [])
    | [_] => none
    | ':' :: ':' :: r =>
      if e ≠ none then none
      else if r = [] then some (acc ++ two n, some (acc ++ two n).length, [])
      else v6loop k (acc ++ two n) (some (acc ++ two n).length) r
    | ':' :: r => v6loop k (acc ++ two n) e r
    | _ => none

theorem loop_good {k : Nat} {acc : Bytes} {e : Option Nat} {w r : Str} (hw : ∀ c ∈ w, (hexFig c).isSome) (hr : ∀ c, r.head? = some c → hexFig c = none)
    (h : w ≠ [] ∧ value hexFig 16 w ≤ 0xFFFF) : v6loop (k + 1) acc e (w ++ r) = loopNext k acc e (w ++ r) (value hexFig 16 w) r := by
  rw [v6loop, xtoi_munch w r hw hr, if_neg (by rintro (h1 | h1); exact h.1 h1; omega)]
  simp only []
  rw [if_neg (by omega), List.drop_left]
  rfl

theorem group_of {w : Str} (hw : ∀ c ∈ w, (hexFig c).isSome) (h : w ≠ [] ∧ value hexFig 16 w ≤ 0xFFFF) : Group w (value hexFig 16 w) := ⟨⟨h.1, hw⟩, rfl, h.2⟩

theorem tail_ne {s : Str} {bs : Bytes} (h : Tail s bs) : s ≠ [] := by
  rintro rfl
  have := (tail_inv (w := []) (r := []) (by simp) (by simp) h).1.1
  exact this rfl

theorem tail_not_colon {s : Str} {bs : Bytes} (h : Tail (':' :: s) bs) : False :=
  (tail_inv (w := []) (r := ':' :: s) (by simp) (colon_not_hex s) h).1.1 rfl

theorem groups_ne {s : Str} {bs : Bytes} (h : Groups s bs) : s ≠ [] := tail_ne h.tail

theorem next_nil {k : Nat} {acc : Bytes} {e : Option Nat} {s : Str} {n : Nat} : loopNext k acc e s n [] = some (acc ++ two n, e, []) := rfl

theorem next_dot {k : Nat} {acc : Bytes} {e : Option Nat} {s : Str} {n : Nat} {t : Str} : loopNext k acc e s n ('.' :: t) =
    if e = none ∧ acc.length ≠ 12 then none else if 16 < acc.length + 4 then none else (parseIPv4 s).map fun p => (acc ++ p, e, []) := by
  unfold loopNext
  rw [if_pos (by rfl)]
  cases parseIPv4 s <;> rfl

theorem next_single {k : Nat} {acc : Bytes} {e : Option Nat} {s : Str} {n : Nat} : loopNext k acc e s n [':'] = none := rfl

theorem next_ellipsis {k : Nat} {acc : Bytes} {e : Option Nat} {s : Str} {n : Nat} {r : Str} : loopNext k acc e s n (':' :: ':' :: r) =
    if e ≠ none then none else if r = [] then some (acc ++ two n, some (acc ++ two n).length, []) else v6loop k (acc ++ two n) (some (acc ++ two n).length) r := rfl

theorem next_colon {k : Nat} {acc : Bytes} {e : Option Nat} {s : Str} {n : Nat} {c : Char} {t : Str} (hc : c ≠ ':') :
    loopNext k acc e s n (':' :: c :: t) = v6loop k (acc ++ two n) e (c :: t) := by
  unfold loopNext
  rw [if_neg (by simp)]
  split
  · rename_i h; simp at h
  · rename_i h; simp at h
  · rename_i h; simp only [List.cons.injEq, true_and] at h; exact absurd h.1 hc
  · rename_i h; simp only [List.cons.injEq, true_and] at h; rw [← h]
  · rename_i h1 h2 h3 h4; exact absurd rfl (h4 _)

theorem next_other {k : Nat} {acc : Bytes} {e : Option Nat} {s : Str} {n : Nat} {c : Char} {t : Str} (h1 : c ≠ '.') (h2 : c ≠ ':') :
    loopNext k acc e s n (c :: t) = none := by
  unfold loopNext
  rw [if_neg (by simpa using h1)]
  split
  · rename_i h; simp at h
  · rfl
  · rename_i h; simp only [List.cons.injEq] at h; exact absurd h.1 h2
  · rename_i h; simp only [List.cons.injEq] at h; exact absurd h.1 h2
  · rfl

/-- the shapes of what follows a group (proof aid) -/
theorem shapes (r : Str) : r = [] ∨ (∃ t, r = '.' :: t) ∨ r = [':'] ∨ (∃ t, r = ':' :: ':' :: t) ∨ (∃ c t, c ≠ ':' ∧ r = ':' :: c :: t) ∨ ∃ c t, c ≠ '.' ∧ c ≠ ':' ∧ r = c :: t := by
  match r with
  | [] => exact .inl rfl
  | c :: t =>
    by_cases h1 : c = '.'
    · subst h1; exact .inr (.inl ⟨t, rfl⟩)
    · by_cases h2 : c = ':'
      · subst h2
        match t with
        | [] => exact .inr (.inr (.inl rfl))
        | c' :: t' =>
          by_cases h3 : c' = ':'
          · subst h3; exact .inr (.inr (.inr (.inl ⟨t', rfl⟩)))
          · exact .inr (.inr (.inr (.inr (.inl ⟨c', t', h3, rfl⟩))))
      · exact .inr (.inr (.inr (.inr (.inr ⟨c, t, h1, h2, rfl⟩))))

theorem tail_shape {w r : Str} {bs : Bytes} (hw : ∀ c ∈ w, (hexFig c).isSome) (hr : ∀ c, r.head? = some c → hexFig c = none) (h : Tail (w ++ r) bs) :
    (r = [] ∧ bs = two (value hexFig 16 w)) ∨ (∃ t, r = '.' :: t ∧ V4 (w ++ r) bs) ∨ ∃ c t bs', c ≠ ':' ∧ r = ':' :: c :: t ∧ Tail (c :: t) bs' ∧ bs = two (value hexFig 16 w) ++ bs' := by
  rcases (tail_inv hw hr h).2 with h | ⟨r', bs', rfl, ht, rfl⟩ | h
  · exact .inl h
  · right; right
    cases r' with
    | nil => exact absurd rfl (tail_ne ht)
    | cons c t => exact ⟨c, t, bs', (fun hc => by subst hc; exact tail_not_colon ht), rfl, ht, rfl⟩
  · exact .inr (.inl h)

theorem groups_shape {w r : Str} {bs : Bytes} (hw : ∀ c ∈ w, (hexFig c).isSome) (hr : ∀ c, r.head? = some c → hexFig c = none) (h : Groups (w ++ r) bs) :
    (r = [] ∧ bs = two (value hexFig 16 w)) ∨ ∃ c t bs', c ≠ ':' ∧ r = ':' :: c :: t ∧ Groups (c :: t) bs' ∧ bs = two (value hexFig 16 w) ++ bs' := by
  rcases (groups_inv hw hr h).2 with h | ⟨r', bs', rfl, ht, rfl⟩
  · exact .inl h
  · right
    cases r' with
    | nil => exact absurd rfl (groups_ne ht)
    | cons c t => exact ⟨c, t, bs', (fun hc => by subst hc; exact tail_not_colon ht.tail), rfl, ht, rfl⟩

theorem loop_some {p : Nat} : ∀ (k : Nat) (acc : Bytes) (s : Str), s ≠ [] → acc.length + 2 * k = 16 → ∀ acc' e',
    v6loop k acc (some p) s = some (acc', e', []) ↔ e' = some p ∧ ∃ bs, Tail s bs ∧ acc' = acc ++ bs ∧ bs.length ≤ 2 * k := by
  intro k
  induction k with
  | zero =>
    intro acc s hs hl acc' e'
    rw [v6loop]
    simp only [Option.some.injEq, Prod.mk.injEq]
    constructor
    · rintro ⟨_, _, h⟩; exact absurd h hs
    · rintro ⟨_, bs, ht, _, h⟩; have := ht.length; omega
  | succ k ih =>
    intro acc s hs hl acc' e'
    obtain ⟨w, r, rfl, hw, hr⟩ := toi_split hexFig s
    by_cases hg : w ≠ [] ∧ value hexFig 16 w ≤ 0xFFFF
    · rw [loop_good hw hr hg]
      constructor
      · intro h
        rcases shapes r with rfl | ⟨t, rfl⟩ | rfl | ⟨t, rfl⟩ | ⟨c, t, hc, rfl⟩ | ⟨c, t, h1, h2, rfl⟩
        · rw [next_nil] at h
          simp only [Option.some.injEq, Prod.mk.injEq, and_true] at h
          obtain ⟨rfl, rfl⟩ := h
          refine ⟨rfl, _, ?_, rfl, by rw [two_length]; omega⟩
          rw [List.append_nil]; exact .one (group_of hw hg)
        · rw [next_dot, if_neg (by simp)] at h
          by_cases h16 : 16 < acc.length + 4
          · rw [if_pos h16] at h; simp at h
          · rw [if_neg h16] at h
            simp only [Option.map_eq_some_iff, Prod.mk.injEq, and_true] at h
            obtain ⟨q, hq, rfl, rfl⟩ := h
            have hv := v4_iff.1 hq
            refine ⟨rfl, q, .dotted hv, rfl, ?_⟩
            rw [hv.length]; omega
        · rw [next_single] at h; simp at h
        · rw [next_ellipsis, if_pos (by simp)] at h; simp at h
        · rw [next_colon hc, ih _ _ (by simp) (by rw [List.length_append, two_length]; omega)] at h
          obtain ⟨rfl, bs, ht, rfl, hle⟩ := h
          exact ⟨rfl, _, .more (group_of hw hg) ht, by simp, by rw [List.length_append, two_length]; omega⟩
        · rw [next_other h1 h2] at h; simp at h
      · rintro ⟨rfl, bs, ht, rfl, hle⟩
        rcases tail_shape hw hr ht with ⟨rfl, rfl⟩ | ⟨t, rfl, hv⟩ | ⟨c, t, bs', hc, rfl, ht', rfl⟩
        · rw [next_nil]
        · have := hv.length
          rw [next_dot, if_neg (by simp), if_neg (by omega), v4_iff.2 hv]; rfl
        · rw [List.length_append, two_length] at hle
          rw [next_colon hc, ih _ _ (by simp) (by rw [List.length_append, two_length]; omega)]
          exact ⟨rfl, bs', ht', by simp, by omega⟩
    · rw [loop_bad hw hr hg]
      simp only [reduceCtorEq, false_iff]
      rintro ⟨_, bs, ht, _, _⟩
      exact hg (tail_inv hw hr ht).1

theorem loop_full : ∀ (k : Nat) (acc : Bytes) (s : Str), s ≠ [] → acc.length + 2 * k = 16 → ∀ acc',
    (v6loop k acc none s = some (acc', none, []) ∧ 16 ≤ acc'.length) ↔ ∃ bs, Tail s bs ∧ acc' = acc ++ bs ∧ bs.length = 2 * k := by
  intro k
  induction k with
  | zero =>
    intro acc s hs hl acc'
    rw [v6loop]
    simp only [Option.some.injEq, Prod.mk.injEq]
    constructor
    · rintro ⟨⟨_, _, h⟩, _⟩; exact absurd h hs
    · rintro ⟨bs, ht, _, h⟩; have := ht.length; omega
  | succ k ih =>
    intro acc s hs hl acc'
    obtain ⟨w, r, rfl, hw, hr⟩ := toi_split hexFig s
    by_cases hg : w ≠ [] ∧ value hexFig 16 w ≤ 0xFFFF
    · rw [loop_good hw hr hg]
      constructor
      · rintro ⟨h, hlen⟩
        rcases shapes r with rfl | ⟨t, rfl⟩ | rfl | ⟨t, rfl⟩ | ⟨c, t, hc, rfl⟩ | ⟨c, t, h1, h2, rfl⟩
        · rw [next_nil] at h
          simp only [Option.some.injEq, Prod.mk.injEq, and_true] at h
          subst h
          refine ⟨_, ?_, rfl, by rw [List.length_append, two_length] at hlen; rw [two_length]; omega⟩
          rw [List.append_nil]; exact .one (group_of hw hg)
        · rw [next_dot] at h
          by_cases h12 : (none : Option Nat) = none ∧ acc.length ≠ 12
          · rw [if_pos h12] at h; simp at h
          · rw [if_neg h12] at h
            by_cases h16 : 16 < acc.length + 4
            · rw [if_pos h16] at h; simp at h
            · rw [if_neg h16] at h
              simp only [Option.map_eq_some_iff, Prod.mk.injEq, and_true] at h
              obtain ⟨q, hq, rfl⟩ := h
              have hv := v4_iff.1 hq
              exact ⟨q, .dotted hv, rfl, by rw [List.length_append] at hlen; have := hv.length; omega⟩
        · rw [next_single] at h; simp at h
        · rw [next_ellipsis, if_neg (by simp)] at h
          by_cases ht : t = []
          · rw [if_pos ht] at h; simp at h
          · rw [if_neg ht, loop_some _ _ _ ht (by rw [List.length_append, two_length]; omega)] at h
            simp at h
        · obtain ⟨bs, ht, rfl, hle⟩ := (ih (acc ++ two (value hexFig 16 w)) (c :: t) (by simp) (by rw [List.length_append, two_length]; omega) _).1 ⟨by rw [next_colon hc] at h; exact h, hlen⟩
          exact ⟨_, .more (group_of hw hg) ht, by simp, by rw [List.length_append, two_length]; omega⟩
        · rw [next_other h1 h2] at h; simp at h
      · rintro ⟨bs, ht, rfl, hle⟩
        refine ⟨?_, by rw [List.length_append]; omega⟩
        rcases tail_shape hw hr ht with ⟨rfl, rfl⟩ | ⟨t, rfl, hv⟩ | ⟨c, t, bs', hc, rfl, ht', rfl⟩
        · rw [next_nil]
        · have := hv.length
          rw [next_dot, if_neg (by omega), if_neg (by omega), v4_iff.2 hv]; rfl
        · rw [List.length_append, two_length] at hle
          rw [next_colon hc]
          exact ((ih (acc ++ two (value hexFig 16 w)) (c :: t) (by simp) (by rw [List.length_append, two_length]; omega) _).2 ⟨bs', ht', by simp, by omega⟩).1
    · rw [loop_bad hw hr hg]
      simp only [reduceCtorEq, false_and, false_iff]
      rintro ⟨bs, ht, _, _⟩
      exact hg (tail_inv hw hr ht).1

theorem append_colons {w r l t : Str} (hw : ∀ c ∈ w, (hexFig c).isSome) (hr : ∀ c, r.head? = some c → hexFig c = none) {L : Bytes} (h : w ++ r = l ++ ':' :: ':' :: t) (hl : Groups l L) :
    ∃ r0, l = w ++ r0 ∧ r = r0 ++ ':' :: ':' :: t := by
  obtain ⟨w', r', rfl, hw', hr'⟩ := toi_split hexFig l
  rw [List.append_assoc] at h
  obtain ⟨rfl, rfl⟩ := munch_unique h hw hw' hr (by
    cases r' with
    | nil => exact colon_not_hex _
    | cons c r' => intro x hx; exact hr' x (by simpa using hx))
  exact ⟨r', rfl, rfl⟩

theorem loop_ellipsis {p : Nat} : ∀ (k : Nat) (acc : Bytes) (s : Str), s ≠ [] → acc.length + 2 * k = 16 → ∀ acc',
    v6loop k acc none s = some (acc', some p, []) ↔ ∃ l r L R, s = l ++ ':' :: ':' :: r ∧ Groups l L ∧ ((r = [] ∧ R = []) ∨ Tail r R) ∧
      L.length + R.length ≤ 2 * k ∧ p = acc.length + L.length ∧ acc' = acc ++ L ++ R := by
  intro k
  induction k with
  | zero =>
    intro acc s hs hl acc'
    rw [v6loop]
    simp only [Option.some.injEq, Prod.mk.injEq]
    constructor
    · rintro ⟨_, h, _⟩; simp at h
    · rintro ⟨l, r, L, R, _, hL, _, h, _⟩; have := hL.length; omega
  | succ k ih =>
    intro acc s hs hl acc'
    obtain ⟨w, r, rfl, hw, hr⟩ := toi_split hexFig s
    by_cases hg : w ≠ [] ∧ value hexFig 16 w ≤ 0xFFFF
    · rw [loop_good hw hr hg]
      constructor
      · intro h
        rcases shapes r with rfl | ⟨t, rfl⟩ | rfl | ⟨t, rfl⟩ | ⟨c, t, hc, rfl⟩ | ⟨c, t, h1, h2, rfl⟩
        · rw [next_nil] at h; simp at h
        · rw [next_dot] at h
          by_cases h12 : (none : Option Nat) = none ∧ acc.length ≠ 12
          · rw [if_pos h12] at h; simp at h
          · rw [if_neg h12] at h
            by_cases h16 : 16 < acc.length + 4
            · rw [if_pos h16] at h; simp at h
            · rw [if_neg h16] at h
              simp at h
        · rw [next_single] at h; simp at h
        · rw [next_ellipsis, if_neg (by simp)] at h
          by_cases ht : t = []
          · rw [if_pos ht] at h
            simp only [Option.some.injEq, Prod.mk.injEq, and_true] at h
            obtain ⟨rfl, rfl⟩ := h
            subst ht
            exact ⟨w, [], _, [], rfl, .one (group_of hw hg), .inl ⟨rfl, rfl⟩, by rw [two_length, List.length_nil]; omega, by rw [List.length_append], by simp⟩
          · rw [if_neg ht, loop_some _ _ _ ht (by rw [List.length_append, two_length]; omega)] at h
            obtain ⟨h1, bs, ht', rfl, hle⟩ := h
            simp only [Option.some.injEq] at h1
            subst h1
            exact ⟨w, t, _, bs, rfl, .one (group_of hw hg), .inr ht', by rw [two_length]; omega, by rw [List.length_append], rfl⟩
        · rw [next_colon hc, ih _ _ (by simp) (by rw [List.length_append, two_length]; omega)] at h
          obtain ⟨l, r, L, R, he, hL, hR, hle, rfl, rfl⟩ := h
          refine ⟨w ++ ':' :: l, r, two (value hexFig 16 w) ++ L, R, by rw [he]; simp, .more (group_of hw hg) hL, hR, ?_, ?_, by simp⟩
          · rw [List.length_append, two_length]; omega
          · rw [List.length_append, List.length_append]; omega
        · rw [next_other h1 h2] at h; simp at h
      · rintro ⟨l, r', L, R, he, hL, hR, hle, rfl, rfl⟩
        obtain ⟨r0, rfl, rfl⟩ := append_colons hw hr he hL
        rcases groups_shape hw (by
            cases r0 with
            | nil => simp
            | cons c t => intro x hx; exact hr x (by simpa using hx)) hL with ⟨rfl, rfl⟩ | ⟨c, t, bs', hc, rfl, ht', rfl⟩
        · rw [List.nil_append, next_ellipsis, if_neg (by simp)]
          rw [two_length] at hle
          rcases hR with ⟨rfl, rfl⟩ | hR
          · rw [if_pos rfl]; simp
          · rw [if_neg (tail_ne hR), loop_some _ _ _ (tail_ne hR) (by rw [List.length_append, two_length]; omega)]
            exact ⟨by simp, R, hR, rfl, by omega⟩
        · rw [List.length_append, two_length] at hle
          rw [List.cons_append, List.cons_append, next_colon hc, ih _ _ (by simp) (by rw [List.length_append, two_length]; omega)]
          exact ⟨c :: t, r', bs', R, rfl, ht', hR, by omega, by simp only [List.length_append]; omega, by simp⟩
    · rw [loop_bad hw hr hg]
      simp only [reduceCtorEq, false_iff]
      rintro ⟨l, r', L, R, he, hL, _⟩
      obtain ⟨r0, rfl, rfl⟩ := append_colons hw hr he hL
      exact hg (groups_inv hw (by
            cases r0 with
            | nil => simp
            | cons c t => intro x hx; exact hr x (by simpa using hx)) hL).1

theorem v6end_iff {x : Option (Bytes × Option Nat × Str)} {ip : Bytes} : v6end x = some ip ↔
    (x = some (ip, none, []) ∧ 16 ≤ ip.length) ∨ ∃ acc p, x = some (acc, some p, []) ∧ acc.length < 16 ∧ ip = acc.take p ++ List.replicate (16 - acc.length) 0 ++ acc.drop p := by
  match x with
  | none => simp [v6end]
  | some (acc, e, s) =>
    simp only [v6end]
    by_cases hs : s = []
    · subst hs
      simp only [ne_eq, not_true_eq_false, if_false, Option.some.injEq, Prod.mk.injEq, and_true]
      by_cases hl : acc.length < 16
      · rw [if_pos hl]
        cases e with
        | none =>
          simp only [reduceCtorEq, and_false, false_and, exists_false, or_false, false_iff, and_true]
          rintro ⟨rfl, h⟩; omega
        | some q =>
          simp only [Option.some.injEq, reduceCtorEq, and_false, false_and, false_or]
          constructor
          · intro h; exact ⟨acc, q, ⟨rfl, rfl⟩, hl, h.symm⟩
          · rintro ⟨_, _, ⟨rfl, rfl⟩, _, h⟩; exact h.symm
      · rw [if_neg hl]
        cases e with
        | none =>
          simp only [not_true_eq_false, if_false, Option.some.injEq, and_true, reduceCtorEq, and_false, false_and, exists_false, or_false]
          constructor
          · rintro rfl; exact ⟨rfl, by omega⟩
          · rintro ⟨rfl, _⟩; rfl
        | some q =>
          simp only [reduceCtorEq, not_false_eq_true, if_true, and_false, false_and, Option.some.injEq, false_or, false_iff]
          rintro ⟨_, _, ⟨rfl, rfl⟩, h, _⟩
          exact hl h
    · simp [hs]

theorem v6_iff {s : Str} {ip : Bytes} : parseIPv6 s = some ip ↔ V6 s ip := by
  by_cases hlead : ∃ r, s = ':' :: ':' :: r
  · obtain ⟨r, rfl⟩ := hlead
    rw [parseIPv6]
    by_cases hr : r = []
    · subst hr
      rw [if_pos rfl]
      constructor
      · intro h
        simp only [Option.some.injEq] at h
        exact .inr ⟨[], [], [], [], rfl, .inl ⟨rfl, rfl⟩, .inl ⟨rfl, rfl⟩, by simp, by rw [← h]; rfl⟩
      · rintro (⟨ht, _⟩ | ⟨l, r, L, R, he, hL, hR, hle, rfl⟩)
        · exact absurd ht (fun h => tail_not_colon h)
        · rcases hL with ⟨rfl, rfl⟩ | hL
          · simp only [List.nil_append, List.cons.injEq, true_and] at he
            subst he
            rcases hR with ⟨_, rfl⟩ | hR
            · rfl
            · exact absurd rfl (tail_ne hR)
          · cases l with
            | nil => exact absurd rfl (groups_ne hL)
            | cons c t =>
              simp only [List.cons_append, List.cons.injEq] at he
              obtain ⟨rfl, _⟩ := he
              exact absurd hL.tail (fun h => tail_not_colon h)
    · rw [if_neg hr, v6end_iff]
      constructor
      · rintro (⟨h, _⟩ | ⟨acc, p, h, hl, rfl⟩)
        · have := (loop_some 8 [] r hr rfl _ _).1 h
          simp at this
        · obtain ⟨h1, bs, ht, rfl, hle⟩ := (loop_some 8 [] r hr rfl _ _).1 h
          simp only [Option.some.injEq] at h1
          subst h1
          have := ht.length
          refine .inr ⟨[], r, [], acc, rfl, .inl ⟨rfl, rfl⟩, .inr ht, by simp only [List.length_nil]; omega, by simp⟩
      · rintro (⟨ht, _⟩ | ⟨l, r', L, R, he, hL, hR, hle, rfl⟩)
        · exact absurd ht (fun h => tail_not_colon h)
        · rcases hL with ⟨rfl, rfl⟩ | hL
          · simp only [List.nil_append, List.cons.injEq, true_and] at he
            subst he
            rcases hR with ⟨h, _⟩ | hR
            · exact absurd h hr
            · simp only [List.length_nil, Nat.zero_add] at hle ⊢
              exact .inr ⟨R, 0, (loop_some 8 [] r hr rfl _ _).2 ⟨rfl, R, hR, rfl, by omega⟩, by omega, by simp⟩
          · cases l with
            | nil => exact absurd rfl (groups_ne hL)
            | cons c t =>
              simp only [List.cons_append, List.cons.injEq] at he
              obtain ⟨rfl, _⟩ := he
              exact absurd hL.tail (fun h => tail_not_colon h)
  · have hp : parseIPv6 s = v6end (v6loop 8 [] none s) := by
      rw [parseIPv6]
      intro r hr; exact hlead ⟨r, hr⟩
    rw [hp, v6end_iff]
    by_cases hs : s = []
    · subst hs
      constructor
      · rintro (⟨h, _⟩ | ⟨_, _, h, _⟩) <;> simp [v6loop, xtoi, toi] at h
      · rintro (⟨ht, _⟩ | ⟨l, r, L, R, he, _⟩)
        · exact absurd rfl (tail_ne ht)
        · simp at he
    · constructor
      · rintro (⟨h, hl⟩ | ⟨acc, p, h, hl, rfl⟩)
        · left
          obtain ⟨bs, ht, rfl, hle⟩ := (loop_full 8 [] s hs rfl _).1 ⟨h, hl⟩
          exact ⟨ht, hle⟩
        · obtain ⟨l, r, L, R, he, hL, hR, hle, rfl, rfl⟩ := (loop_ellipsis 8 [] s hs rfl _).1 h
          right
          simp only [List.nil_append, List.length_append, List.length_nil, Nat.zero_add] at hl ⊢
          have h1 := hL.length
          have h2 : R.length % 2 = 0 := by
            rcases hR with ⟨_, rfl⟩ | hR
            · rfl
            · exact hR.length.2
          refine ⟨l, r, L, R, he, .inr hL, hR, by omega, ?_⟩
          rw [List.take_left, List.drop_left]
      · rintro (⟨ht, hl⟩ | ⟨l, r, L, R, he, hL, hR, hle, rfl⟩)
        · left
          obtain ⟨h, _⟩ := (loop_full 8 [] s hs rfl ip).2 ⟨ip, ht, rfl, hl⟩
          exact ⟨h, by omega⟩
        · right
          rcases hL with ⟨rfl, rfl⟩ | hL
          · exact absurd ⟨r, he⟩ hlead
          · refine ⟨L ++ R, L.length, (loop_ellipsis 8 [] s hs rfl _).2 ⟨l, r, L, R, he, hL, hR, by omega, by simp, rfl⟩, by rw [List.length_append]; omega, ?_⟩
            rw [List.take_left, List.drop_left, List.length_append]

/-! ### C265: reading -/

theorem hex_plain {c : Char} (h : (hexFig c).isSome) : c ≠ '.' ∧ c ≠ ':' := by
  constructor <;> (rintro rfl; revert h; decide)

theorem parseFrom_hex (all r : Str) : ∀ w : Str, (∀ c ∈ w, (hexFig c).isSome) → parseFrom all (w ++ r) = parseFrom all r := by
  intro w
  induction w with
  | nil => intro _; rfl
  | cons c w ih =>
    intro h
    have := hex_plain (h c (by simp))
    rw [List.cons_append, parseFrom, if_neg this.1, if_neg this.2]
    exact ih fun x hx => h x (by simp [hx])

theorem V6.start {s : Str} {ip : Bytes} (h : V6 s ip) : ∃ w t, s = w ++ ':' :: t ∧ ∀ c ∈ w, (hexFig c).isSome := by
  rcases h with ⟨ht, hl⟩ | ⟨l, r, L, R, rfl, hL, _⟩
  · cases ht with
    | one _ => rw [two_length] at hl; omega
    | dotted hv => rw [hv.length] at hl; omega
    | @more w n r bs hg _ => exact ⟨w, r, rfl, hg.1.2⟩
  · rcases hL with ⟨rfl, _⟩ | hL
    · exact ⟨[], _, rfl, by simp⟩
    · cases hL with
      | @one w n hg => exact ⟨_, _, rfl, hg.1.2⟩
      | @more w n r' bs hg _ => exact ⟨w, _, by rw [List.append_assoc]; rfl, hg.1.2⟩

/-- **C265**: a text is read as an address exactly if it is a dotted IPv4 address or an IPv6 address -/
theorem C265_read (s : Str) (ip : Bytes) : parseIP s = some ip ↔ (∃ p, V4 s p ∧ ip = to16 p) ∨ V6 s ip := by
  constructor
  · intro h
    have key : ∀ t : Str, parseFrom s t = some ip → (parseIPv4 s).map to16 = some ip ∨ parseIPv6 s = some ip := by
      intro t
      induction t with
      | nil => intro h; simp [parseFrom] at h
      | cons c t ih =>
        intro h
        rw [parseFrom] at h
        by_cases h1 : c = '.'
        · rw [if_pos h1] at h; exact .inl h
        · rw [if_neg h1] at h
          by_cases h2 : c = ':'
          · rw [if_pos h2] at h; exact .inr h
          · rw [if_neg h2] at h; exact ih h
    rcases key s h with h | h
    · rw [Option.map_eq_some_iff] at h
      obtain ⟨p, hp, rfl⟩ := h
      exact .inl ⟨p, v4_iff.1 hp, rfl⟩
    · exact .inr (v6_iff.1 h)
  · rintro (⟨p, hv, rfl⟩ | hv)
    · obtain ⟨w, t, rfl, hd, _⟩ := hv.start
      unfold parseIP
      rw [parseFrom_hex _ _ w hd.2, parseFrom, if_pos rfl, v4_iff.2 hv]
      rfl
    · obtain ⟨w, t, he, hd⟩ := hv.start
      unfold parseIP
      rw [show parseFrom s s = parseFrom s (w ++ ':' :: t) from by rw [← he], parseFrom_hex _ _ w hd, parseFrom, if_neg (by decide), if_pos rfl]
      exact v6_iff.2 hv

theorem V6.length {s : Str} {ip : Bytes} (h : V6 s ip) : ip.length = 16 := by
  rcases h with ⟨_, hl⟩ | ⟨l, r, L, R, _, _, _, hle, rfl⟩
  · exact hl
  · simp only [List.length_append, List.length_replicate]; omega

theorem parseIP_length {s : Str} {ip : Bytes} (h : parseIP s = some ip) : ip.length = 16 := by
  rcases (C265_read s ip).1 h with ⟨p, hv, rfl⟩ | h
  · have := hv.length
    simp only [to16, List.length_append, List.length_replicate, List.length_cons, List.length_nil]; omega
  · exact h.length

/-- the characters of addresses (specification) -/
def AddrChar (c : Char) : Prop := (hexFig c).isSome ∨ c = '.' ∨ c = ':'

theorem IsDec.chars {w : Str} {n : Nat} (h : IsDec w n) : ∀ c ∈ w, AddrChar c := fun c hc => .inl (hex_of_dec (h.1.2 c hc))

theorem V4.chars {s : Str} {p : Bytes} (h : V4 s p) : ∀ c ∈ s, AddrChar c := by
  obtain ⟨wa, wb, wc, wd, a, b, c, d, ha, hb, hc, hd, _, rfl⟩ := h
  intro x hx
  simp only [List.mem_append, List.mem_cons] at hx
  rcases hx with h | rfl | h | rfl | h | rfl | h
  · exact ha.chars x h
  · exact .inr (.inl rfl)
  · exact hb.chars x h
  · exact .inr (.inl rfl)
  · exact hc.chars x h
  · exact .inr (.inl rfl)
  · exact hd.chars x h

theorem Tail.chars {s : Str} {bs : Bytes} (h : Tail s bs) : ∀ c ∈ s, AddrChar c := by
  induction h with
  | one hg => exact fun c hc => .inl (hg.1.2 c hc)
  | dotted hv => exact hv.chars
  | more hg _ ih =>
    intro x hx
    simp only [List.mem_append, List.mem_cons] at hx
    rcases hx with h | rfl | h
    · exact .inl (hg.1.2 x h)
    · exact .inr (.inr rfl)
    · exact ih x h

/-- **C265**: a name with any other character (a letter from g to z, a hyphen, …) is no address -/
theorem C265_names (s : Str) (c : Char) (hc : c ∈ s) (h : ¬ AddrChar c) : parseIP s = none := by
  cases hp : parseIP s with
  | none => rfl
  | some ip =>
    exfalso
    apply h
    rcases (C265_read s ip).1 hp with ⟨p, hv, _⟩ | hv
    · exact hv.chars c hc
    · rcases hv with ⟨ht, _⟩ | ⟨l, r, L, R, rfl, hL, hR, _⟩
      · exact ht.chars c hc
      · simp only [List.mem_append, List.mem_cons] at hc
        rcases hc with h | rfl | rfl | h
        · rcases hL with ⟨rfl, _⟩ | hL
          · simp at h
          · exact hL.tail.chars c h
        · exact .inr (.inr rfl)
        · exact .inr (.inr rfl)
        · rcases hR with ⟨rfl, _⟩ | hR
          · simp at h
          · exact hR.chars c h

/-! ### C265: writing -/

theorem fig_fin : ∀ d, d < 16 → hexFig (figOf d) = some d ∧ (d < 10 → decFig (figOf d) = some d) ∧ (figOf d = '0' → d = 0) := by decide

theorem numText_spec {fig : Char → Option Nat} {base : Nat} (hb : 2 ≤ base) (h16 : base ≤ 16) (hf : ∀ d, d < base → fig (figOf d) = some d) :
    ∀ fuel n, n < base ^ (fuel + 1) → Digits fig (numText base fuel n) ∧ value fig base (numText base fuel n) = n ∧ ((numText base fuel n).head? = some '0' → numText base fuel n = ['0']) := by
  have small : ∀ n, n < base → Digits fig [figOf n] ∧ value fig base [figOf n] = n ∧ ([figOf n].head? = some '0' → [figOf n] = ['0']) := by
    intro n h
    refine ⟨⟨by simp, ?_⟩, ?_, ?_⟩
    · intro c hc
      rw [List.mem_singleton.1 hc, hf n h]; rfl
    · simp [value, hf n h]
    · intro h0; simp only [List.head?_cons, Option.some.injEq] at h0; rw [h0]
  intro fuel
  induction fuel with
  | zero =>
    intro n h
    rw [Nat.zero_add, Nat.pow_one] at h
    rw [numText, Nat.mod_eq_of_lt h]
    exact small n h
  | succ fuel ih =>
    intro n h
    rw [numText]
    by_cases hn : n < base
    · rw [if_pos hn]; exact small n hn
    · rw [if_neg hn]
      have hq : n / base < base ^ (fuel + 1) := by
        rw [Nat.div_lt_iff_lt_mul (by omega)]
        rw [Nat.pow_succ] at h
        exact h
      obtain ⟨⟨hne, hd⟩, hv, hz⟩ := ih (n / base) hq
      have hm : n % base < base := Nat.mod_lt _ (by omega)
      refine ⟨⟨by simp, ?_⟩, ?_, ?_⟩
      · intro c hc
        rcases List.mem_append.1 hc with h | h
        · exact hd c h
        · rw [List.mem_singleton.1 h, hf _ hm]; rfl
      · unfold value at hv ⊢
        rw [List.foldl_append, hv]
        simp only [List.foldl_cons, List.foldl_nil, hf _ hm, Option.getD_some]
        exact Nat.div_add_mod' n base
      · intro h0
        rw [List.head?_append, List.head?_eq_some_head hne, Option.some_or, ← List.head?_eq_some_head hne] at h0
        have := hz h0
        rw [this] at hv
        exfalso
        have h00 : fig '0' = some 0 := hf 0 (by omega)
        simp only [value, List.foldl_cons, List.foldl_nil, h00, Option.getD_some, Nat.zero_mul, Nat.add_zero] at hv
        have := Nat.div_pos (by omega : base ≤ n) (by omega)
        omega

theorem dec_isDec {n : Nat} (h : n < 10 ^ 21) : IsDec (dec n) n :=
  numText_spec (fig := decFig) (by omega) (by omega) (fun d hd => (fig_fin d (by omega)).2.1 hd) 20 n h

theorem hex_group {n : Nat} (h : n ≤ 0xFFFF) : Group (hexText n) n := by
  have h8 : n < 16 ^ 8 := Nat.lt_of_le_of_lt h (by decide)
  obtain ⟨h1, h2, _⟩ := numText_spec (fig := hexFig) (by omega) (by omega) (fun d hd => (fig_fin d hd).1) 7 n h8
  exact ⟨h1, h2, h⟩

theorem groups_join : ∀ gs : List Nat, gs ≠ [] → (∀ g ∈ gs, g ≤ 0xFFFF) → Groups (join ':' (gs.map hexText)) (gs.flatMap two) := by
  intro gs
  induction gs with
  | nil => intro h; exact absurd rfl h
  | cons g gs ih =>
    intro _ h
    have hg := hex_group (h g (by simp))
    cases gs with
    | nil => simpa [join] using Groups.one hg
    | cons g' gs =>
      have := ih (by simp) (fun x hx => h x (by simp [hx]))
      simpa [join] using Groups.more hg this

theorem groups_two : ∀ (n : Nat) (bs : Bytes), bs.length = 2 * n → (groups bs).flatMap two = bs ∧ (groups bs).length = n ∧ ∀ g ∈ groups bs, g ≤ 0xFFFF := by
  intro n
  induction n with
  | zero =>
    intro bs h
    have : bs = [] := List.length_eq_zero_iff.1 (by omega)
    subst this
    simp [groups]
  | succ n ih =>
    intro bs h
    match bs with
    | [] => simp at h
    | [_] => simp at h; omega
    | a :: b :: r =>
      simp only [List.length_cons] at h
      obtain ⟨h1, h2, h3⟩ := ih r (by omega)
      have ha := a.toNat_lt
      have hb := b.toNat_lt
      refine ⟨?_, by simp [groups, h2], ?_⟩
      · simp only [groups, List.flatMap_cons, h1, two]
        have e1 : (a.toNat * 256 + b.toNat) / 256 = a.toNat := by omega
        have e2 : UInt8.ofNat (a.toNat * 256 + b.toNat) = b := by
          apply UInt8.toNat_inj.1
          rw [UInt8.toNat_ofNat']
          omega
        rw [e1, e2, UInt8.ofNat_toNat]
        rfl
      · intro g hg
        simp only [groups, List.mem_cons] at hg
        rcases hg with rfl | hg
        · omega
        · exact h3 g hg

theorem zeros_eq : ∀ l : List Nat, l = List.replicate (zeros l) 0 ++ l.drop (zeros l) ∧ zeros l ≤ l.length := by
  intro l
  induction l with
  | nil => simp [zeros]
  | cons g t ih =>
    match g with
    | 0 =>
      rw [zeros]
      refine ⟨?_, by simp only [List.length_cons]; omega⟩
      rw [List.replicate_succ, List.drop_succ_cons, List.cons_append]
      exact congrArg _ ih.1
    | g + 1 => simp [zeros]

/-- a run of zeros (proof aid) -/
def Run (full : List Nat) (b : Nat × Nat) : Prop :=
  b.1 ≤ b.2 ∧ b.2 ≤ full.length ∧ full = full.take b.1 ++ List.replicate (b.2 - b.1) 0 ++ full.drop b.2

theorem findRun_run (full : List Nat) : ∀ (l : List Nat) (k i : Nat) (b : Nat × Nat), full.drop i = l → Run full b → Run full (findRun k i l b) := by
  intro l
  induction l with
  | nil => intro k i b _ hb; cases k <;> exact hb
  | cons g t ih =>
    intro k i b hd hb
    have ht : full.drop (i + 1) = t := by rw [← List.drop_drop, hd]; rfl
    cases k with
    | succ k => rw [findRun]; exact ih _ _ _ ht hb
    | zero =>
      rw [findRun]
      split
      · apply ih _ _ _ ht
        obtain ⟨hz, hl⟩ := zeros_eq (g :: t)
        have hlen := congrArg List.length hd
        rw [List.length_drop] at hlen
        have hpos : 0 < (g :: t).length := by simp
        refine ⟨by simp only []; omega, by simp only []; omega, ?_⟩
        simp only [Nat.add_sub_cancel_left]
        rw [← List.drop_drop, hd, List.append_assoc, ← hz, ← hd, List.take_append_drop]
      · exact ih _ _ _ ht hb

theorem two_zeros (n : Nat) : (List.replicate n 0).flatMap two = List.replicate (2 * n) 0 := by
  induction n with
  | zero => rfl
  | succ n ih =>
    rw [List.replicate_succ, List.flatMap_cons, ih, show 2 * (n + 1) = 2 * n + 1 + 1 by omega, List.replicate_succ, List.replicate_succ]
    rfl

theorem two_flat_length (l : List Nat) : (l.flatMap two).length = 2 * l.length := by
  induction l with
  | nil => rfl
  | cons g l ih => rw [List.flatMap_cons, List.length_append, ih, two_length, List.length_cons]; omega

theorem text6_v6 (ip : Bytes) (h : ip.length = 16) : V6 (text6 (groups ip)) ip := by
  obtain ⟨h1, h2, h3⟩ := groups_two 8 ip (by omega)
  have hrun := findRun_run (groups ip) (groups ip) 0 0 (0, 0) rfl ⟨by simp, by simp, by simp⟩
  unfold text6
  simp only []
  generalize findRun 0 0 (groups ip) (0, 0) = b at hrun
  obtain ⟨hle, hlen, heq⟩ := hrun
  split
  · left
    refine ⟨?_, h⟩
    have := groups_join (groups ip) (by intro h0; rw [h0] at h2; simp at h2) h3
    rw [h1] at this
    exact this.tail
  · rename_i hb
    right
    refine ⟨_, _, ((groups ip).take b.1).flatMap two, ((groups ip).drop b.2).flatMap two, rfl, ?_, ?_, ?_, ?_⟩
    · by_cases h0 : (groups ip).take b.1 = []
      · left; rw [h0]; exact ⟨rfl, rfl⟩
      · exact .inr (groups_join _ h0 fun g hg => h3 g (List.mem_of_mem_take hg))
    · by_cases h0 : (groups ip).drop b.2 = []
      · left; rw [h0]; exact ⟨rfl, rfl⟩
      · exact .inr (groups_join _ h0 fun g hg => h3 g (List.mem_of_mem_drop hg)).tail
    · rw [two_flat_length, two_flat_length, List.length_take, List.length_drop]; omega
    · rw [two_flat_length, two_flat_length, List.length_take, List.length_drop]
      have hrep : 16 - (2 * min b.1 (groups ip).length + 2 * ((groups ip).length - b.2)) = 2 * (b.2 - b.1) := by omega
      rw [hrep, ← two_zeros, ← List.flatMap_append, ← List.flatMap_append, ← heq, h1]

theorem dotted_v4 (a b c d : UInt8) : V4 (join '.' ([a, b, c, d].map fun x => dec x.toNat)) [a, b, c, d] := by
  have hd : ∀ x : UInt8, IsDec (dec x.toNat) x.toNat := fun x => dec_isDec (Nat.lt_of_lt_of_le x.toNat_lt (by decide))
  exact ⟨_, _, _, _, a, b, c, d, hd a, hd b, hd c, hd d, rfl, rfl⟩

theorem four {p : Bytes} (h : p.length = 4) : ∃ a b c d, p = [a, b, c, d] := by
  match p, h with
  | [a, b, c, d], _ => exact ⟨a, b, c, d, rfl⟩

theorem to4_some {ip p : Bytes} (h : ip.length = 16) (h4 : to4 ip = some p) : p.length = 4 ∧ ip = to16 p := by
  unfold to4 at h4
  rw [if_neg (by omega)] at h4
  split at h4
  · rename_i hc
    simp only [Option.some.injEq] at h4
    subst h4
    refine ⟨by rw [List.length_drop]; omega, ?_⟩
    unfold to16
    rw [← hc.2, List.take_append_drop]
  · simp at h4

theorem to4_to16 {p : Bytes} (h : p.length = 4) : to4 (to16 p) = some p := by
  obtain ⟨a, b, c, d, rfl⟩ := four h
  rfl

/-- **C265**: the text of an address is read as that address -/
theorem C265_write (ip : Bytes) (h : ip.length = 16) : parseIP (ipText (some ip)) = some ip := by
  rw [C265_read]
  simp only [ipText]
  cases h4 : to4 ip with
  | none => exact .inr (text6_v6 ip h)
  | some p =>
    obtain ⟨hp, he⟩ := to4_some h h4
    obtain ⟨a, b, c, d, rfl⟩ := four hp
    exact .inl ⟨_, dotted_v4 a b c d, he⟩

/-! ### C265: host and port -/

/-- an address as the mesh and the program use it: an IP address of 16 bytes or none, and a port (specification) -/
def Addr.Valid (a : Addr) : Prop := (∀ ip, a.ip = some ip → ip.length = 16) ∧ a.port ≤ 65535

theorem splitLast_none : ∀ p : Str, ':' ∉ p → splitLast p = none := by
  intro p
  induction p with
  | nil => intro _; rfl
  | cons c p ih =>
    intro h
    simp only [List.mem_cons, not_or] at h
    rw [splitLast, ih h.2]
    simp only []
    rw [if_neg (fun hc => h.1 hc.symm)]

theorem splitLast_eq (p : Str) (hp : ':' ∉ p) : ∀ x : Str, splitLast (x ++ ':' :: p) = some (x, p) := by
  intro x
  induction x with
  | nil => rw [List.nil_append, splitLast, splitLast_none p hp]; rfl
  | cons c x ih => rw [List.cons_append, splitLast, ih]

theorem takeWhile_stop (h t : Str) (hn : ']' ∉ h) : (h ++ ']' :: t).takeWhile (· ≠ ']') = h := by
  induction h with
  | nil => simp
  | cons c h ih =>
    simp only [List.mem_cons, not_or] at hn
    rw [List.cons_append, List.takeWhile_cons_of_pos (by simpa using fun hc => hn.1 hc.symm), ih hn.2]

theorem split_join {h p : Str} (hh : ∀ c ∈ h, AddrChar c) (hp : ∀ c ∈ p, (decFig c).isSome) : splitHostPort (joinHostPort h p) = some (h, p) := by
  have no : ∀ x : Char, ¬ AddrChar x → x ∉ h := fun x hx hm => hx (hh x hm)
  have nb : ¬ AddrChar '[' ∧ ¬ AddrChar ']' := by
    constructor <;> (rintro (h | h | h) <;> revert h <;> decide)
  have nd : ∀ x : Char, (decFig x).isSome = false → x ∉ p := fun x hx hm => by have := hp x hm; rw [hx] at this; simp at this
  have hp1 : ':' ∉ p := nd _ (by decide)
  have hp2 : '[' ∉ p := nd _ (by decide)
  have hp3 : ']' ∉ p := nd _ (by decide)
  have hh1 := no _ nb.1
  have hh2 := no _ nb.2
  by_cases hc : ':' ∈ h
  · rw [joinHostPort, if_pos hc]
    unfold splitHostPort
    have : splitLast ('[' :: h ++ ']' :: ':' :: p) = some ('[' :: h ++ [']'], p) := by
      have := splitLast_eq p hp1 ('[' :: h ++ [']'])
      simpa using this
    rw [this]
    simp only [List.cons_append]
    rw [takeWhile_stop h _ hh2, if_pos rfl, if_neg]
    rintro (hm | hm)
    · simp only [List.mem_append, List.mem_cons] at hm
      rcases hm with hm | hm | hm | hm
      · exact hh1 hm
      · revert hm; decide
      · revert hm; decide
      · exact hp2 hm
    · exact hp3 hm
  · rw [joinHostPort, if_neg hc]
    unfold splitHostPort
    rw [splitLast_eq p hp1 h]
    simp only []
    split
    · rename_i inner he
      exfalso
      cases h with
      | nil => rw [List.nil_append, List.cons.injEq] at he; exact absurd he.1 (by decide)
      | cons c h =>
        rw [List.cons_append, List.cons.injEq] at he
        exact hh1 (by rw [he.1]; simp)
    · rw [if_neg]
      rintro (hm | hm | hm)
      · exact hc hm
      · simp only [List.mem_append, List.mem_cons] at hm
        rcases hm with hm | hm | hm
        · exact hh1 hm
        · revert hm; decide
        · exact hp2 hm
      · simp only [List.mem_append, List.mem_cons] at hm
        rcases hm with hm | hm | hm
        · exact hh2 hm
        · revert hm; decide
        · exact hp3 hm

theorem ipText_chars (ip : Option Bytes) (h : ∀ i, ip = some i → i.length = 16) : ∀ c ∈ ipText ip, AddrChar c := by
  intro c hc
  cases ip with
  | none => simp [ipText] at hc
  | some i =>
    refine Classical.byContradiction fun hn => ?_
    have h1 := C265_names _ c hc hn
    rw [C265_write i (h i rfl)] at h1
    simp at h1

/-- where the text of an address leads (specification) -/
def Addr.target (a : Addr) : Target := match a.ip with
  | some ip => .ip ip a.port
  | none => .here a.port

/-- **C265**: a dialer reads the text of an address as that address -/
theorem C265_dial (a : Addr) (h : a.Valid) : dialTarget a.text = some a.target := by
  obtain ⟨hip, hport⟩ := h
  have hd := dec_isDec (n := a.port) (Nat.lt_of_le_of_lt hport (by decide))
  unfold dialTarget Addr.text
  rw [split_join (ipText_chars a.ip hip) hd.1.2]
  have hdt := dtoi_munch (dec a.port) [] hd.1.2 (by simp)
  rw [List.append_nil, hd.2.1, if_neg (by rintro (h | h); exact hd.1.1 h; omega)] at hdt
  simp only [hdt]
  rw [if_neg (by rintro (h | h); exact h rfl; omega)]
  unfold Addr.target
  cases ha : a.ip with
  | none => rfl
  | some ip =>
    have hw := C265_write ip (hip ip ha)
    rw [if_neg, hw]
    intro h0
    rw [h0] at hw
    simp [parseIP, parseFrom] at hw

/-- **C265**: different addresses have different texts -/
theorem C265_same (a b : Addr) (ha : a.Valid) (hb : b.Valid) : a.text = b.text ↔ a = b := by
  constructor
  · intro h
    have h1 := C265_dial a ha
    rw [h, C265_dial b hb] at h1
    simp only [Option.some.injEq] at h1
    obtain ⟨ia, pa⟩ := a
    obtain ⟨ib, pb⟩ := b
    unfold Addr.target at h1
    cases ia <;> cases ib <;> simp_all
  · rintro rfl; rfl

theorem getAddress_valid {host : Str} {port : Nat} (h : port ≤ 65535) : (getAddress host port).Valid := ⟨fun _ h => parseIP_length h, h⟩

/-- **C265**: a listener is found under an address exactly if the mesh configured that address for it, however it is written -/
theorem C265_listener (host : Str) (port : Nat) (hp : port ≤ 65535) (a : Addr) (ha : a.Valid) : listeningOn host port a = true ↔ parseIP host = a.ip ∧ port = a.port := by
  unfold listeningOn
  rw [decide_eq_true_eq, C265_same _ _ (getAddress_valid hp) ha]
  obtain ⟨ip, p⟩ := a
  simp [getAddress]

/-! ### C267: endpoints -/

/-- **C267**: connections to an endpoint the mesh gives by its address, in any notation, go to that address and port -/
theorem C267_reach_partial (host : Str) (port : Nat) (hp : port ≤ 65535) (ip : Bytes) (h : (∃ p, V4 host p ∧ ip = to16 p) ∨ V6 host ip) :
    dialTarget (getAddress host port).text = some (.ip ip port) := by
  rw [C265_dial _ (getAddress_valid hp)]
  unfold Addr.target getAddress
  rw [(C265_read host ip).2 h]

/-- **C267**: endpoints share counters, and are found by a filter, exactly if address and port agree -/
theorem C267_keys (h1 h2 : Str) (p1 p2 : Nat) (hp1 : p1 ≤ 65535) (hp2 : p2 ≤ 65535) :
    ((getAddress h1 p1).text = (getAddress h2 p2).text ↔ parseIP h1 = parseIP h2 ∧ p1 = p2) ∧
    (withSocketAddress h1 p1 (some (getAddress h2 p2)) = true ↔ parseIP h1 = parseIP h2 ∧ p1 = p2) ∧ withSocketAddress h1 p1 none = true := by
  have key : (getAddress h1 p1).text = (getAddress h2 p2).text ↔ parseIP h1 = parseIP h2 ∧ p1 = p2 := by
    rw [C265_same _ _ (getAddress_valid hp1) (getAddress_valid hp2)]
    simp [getAddress]
  refine ⟨key, ?_, rfl⟩
  rw [withSocketAddress, decide_eq_true_eq, eq_comm]
  exact key

/-- **C267** is false of the code: a connection to an endpoint the mesh gives by name goes to the machine of the program, whatever the name; all names with the same port
share one set of counters -/
theorem C267_name_false (name : Str) (port : Nat) (hp : port ≤ 65535) (c : Char) (hc : c ∈ name) (hn : ¬ AddrChar c) :
    dialTarget (getAddress name port).text = some (.here port) ∧ (getAddress name port).text = ':' :: dec port ∧
    ∀ (name' : Str) (c' : Char), c' ∈ name' → ¬ AddrChar c' → (getAddress name' port).text = (getAddress name port).text := by
  have h := C265_names name c hc hn
  refine ⟨?_, ?_, ?_⟩
  · rw [C265_dial _ (getAddress_valid hp)]
    unfold Addr.target getAddress
    rw [h]
  · unfold getAddress Addr.text
    rw [h]; rfl
  · intro name' c' hc' hn'
    unfold getAddress
    rw [h, C265_names name' c' hc' hn']

/-! ### C266: ranges -/

/-- the number an address is (specification) -/
def number : Bytes → Nat
  | [] => 0
  | b :: r => b.toNat * 2 ^ (8 * r.length) + number r

/-- the first `n` bits of two addresses of `w` bits agree (specification) -/
def Agree (w n : Nat) (a b : Bytes) : Prop := number a / 2 ^ (w - n) = number b / 2 ^ (w - n)

theorem number_lt : ∀ b : Bytes, number b < 2 ^ (8 * b.length) := by
  intro b
  induction b with
  | nil => simp [number]
  | cons x r ih =>
    have hx := x.toNat_lt
    rw [number, List.length_cons, show 8 * (r.length + 1) = 8 + 8 * r.length by omega, Nat.pow_add]
    have : (x.toNat + 1) * 2 ^ (8 * r.length) ≤ 2 ^ 8 * 2 ^ (8 * r.length) := Nat.mul_le_mul_right _ (by omega)
    rw [Nat.add_mul] at this
    omega

theorem mask_eq_iff {k : Nat} {a b : UInt8} : maskByte k a = maskByte k b ↔ a.toNat / 2 ^ (8 - k) = b.toNat / 2 ^ (8 - k) := by
  unfold maskByte
  constructor
  · intro h; exact Nat.eq_of_mul_eq_mul_right (Nat.two_pow_pos _) h
  · intro h; rw [h]

theorem agree_zero : ∀ (a b : Bytes), agree 0 a b = true := by
  intro a
  induction a with
  | nil => intro b; simp [agree]
  | cons x r ih =>
    intro b
    cases b with
    | nil => rfl
    | cons y t =>
      rw [agree, ih]
      simp only [Nat.zero_min, Bool.and_true, decide_eq_true_eq]
      rw [mask_eq_iff]
      have := x.toNat_lt
      have := y.toNat_lt
      rw [Nat.div_eq_of_lt (by simpa using x.toNat_lt), Nat.div_eq_of_lt (by simpa using y.toNat_lt)]

theorem div_short {x n : Nat} {r : Bytes} (hn : n ≤ 8) : (x * 2 ^ (8 * r.length) + number r) / 2 ^ (8 * (r.length + 1) - n) = x / 2 ^ (8 - n) := by
  rw [show 8 * (r.length + 1) - n = 8 * r.length + (8 - n) by omega, Nat.pow_add, ← Nat.div_div_eq_div_mul, Nat.mul_comm x, Nat.mul_add_div (Nat.two_pow_pos _),
    Nat.div_eq_of_lt (number_lt r), Nat.add_zero]

theorem div_long {x n : Nat} {r : Bytes} (hn : 8 < n) (hl : n ≤ 8 * (r.length + 1)) :
    (x * 2 ^ (8 * r.length) + number r) / 2 ^ (8 * (r.length + 1) - n) = x * 2 ^ (n - 8) + number r / 2 ^ (8 * r.length - (n - 8)) ∧
    number r / 2 ^ (8 * r.length - (n - 8)) < 2 ^ (n - 8) := by
  have e1 : 8 * (r.length + 1) - n = 8 * r.length - (n - 8) := by omega
  have e2 : 2 ^ (8 * r.length) = 2 ^ (8 * r.length - (n - 8)) * 2 ^ (n - 8) := by rw [← Nat.pow_add]; congr 1; omega
  constructor
  · rw [e1, e2, Nat.mul_left_comm, Nat.mul_add_div (Nat.two_pow_pos _)]
  · rw [Nat.div_lt_iff_lt_mul (Nat.two_pow_pos _), Nat.mul_comm, ← e2]
    exact number_lt r

theorem pair_eq {x y u v m : Nat} (hu : u < m) (hv : v < m) : x * m + u = y * m + v ↔ x = y ∧ u = v := by
  constructor
  · intro h
    have h1 : (x * m + u) / m = x := by rw [Nat.mul_comm, Nat.mul_add_div (by omega), Nat.div_eq_of_lt hu, Nat.add_zero]
    have h2 : (y * m + v) / m = y := by rw [Nat.mul_comm, Nat.mul_add_div (by omega), Nat.div_eq_of_lt hv, Nat.add_zero]
    have : x = y := by rw [← h1, ← h2, h]
    subst this
    omega
  · rintro ⟨rfl, rfl⟩; rfl

theorem agree_iff : ∀ (a b : Bytes) (n : Nat), a.length = b.length → n ≤ 8 * a.length → (agree n a b = true ↔ Agree (8 * a.length) n a b) := by
  intro a
  induction a with
  | nil => intro b n hl _; cases b with
    | nil => simp [agree, Agree]
    | cons _ _ => simp at hl
  | cons x r ih =>
    intro b n hl hn
    cases b with
    | nil => simp at hl
    | cons y t =>
      simp only [List.length_cons, Nat.add_right_cancel_iff] at hl
      simp only [List.length_cons] at hn
      rw [agree, Bool.and_eq_true, decide_eq_true_eq, mask_eq_iff]
      unfold Agree
      simp only [number, List.length_cons]
      rcases Nat.lt_or_ge 8 n with h8 | h8
      · have hx := div_long (x := x.toNat) (r := r) h8 (by omega)
        have hy := div_long (x := y.toNat) (r := t) h8 (by omega)
        rw [← hl] at hy
        rw [hl] at hx ⊢
        rw [hl] at hy
        rw [hx.1, hy.1, pair_eq hx.2 hy.2, ih t (n - 8) hl (by omega)]
        unfold Agree
        rw [Nat.min_eq_right (by omega), hl]
        simp
      · have hx := div_short (x := x.toNat) (r := r) h8
        have hy := div_short (x := y.toNat) (r := t) h8
        rw [hl] at hx ⊢
        rw [hx, hy, Nat.min_eq_left h8, show n - 8 = 0 by omega, agree_zero]
        simp

theorem mask_length : ∀ (p : Bytes) (n : Nat), (mask n p).length = p.length := by
  intro p
  induction p with
  | nil => intro n; rfl
  | cons b r ih => intro n; simp [mask, ih]

theorem maskByte_le (k : Nat) (b : UInt8) : maskByte k b < 256 := by
  have := Nat.div_mul_le_self b.toNat (2 ^ (8 - k))
  have := b.toNat_lt
  unfold maskByte; omega

theorem number_mask : ∀ (p : Bytes) (n : Nat), n ≤ 8 * p.length → number (mask n p) = number p / 2 ^ (8 * p.length - n) * 2 ^ (8 * p.length - n) := by
  intro p
  induction p with
  | nil => intro n h; simp at h; simp [mask, number]
  | cons b r ih =>
    intro n hn
    simp only [List.length_cons] at hn
    have hb : (UInt8.ofNat (maskByte (min n 8) b)).toNat = maskByte (min n 8) b := by
      rw [UInt8.toNat_ofNat']; exact Nat.mod_eq_of_lt (maskByte_le _ _)
    simp only [mask, number, mask_length, List.length_cons, hb]
    rcases Nat.lt_or_ge 8 n with h8 | h8
    · rw [ih (n - 8) (by omega), (div_long (x := b.toNat) (r := r) h8 hn).1, Nat.min_eq_right (by omega)]
      have e1 : 8 * (r.length + 1) - n = 8 * r.length - (n - 8) := by omega
      have e2 : 2 ^ (8 * r.length) = 2 ^ (n - 8) * 2 ^ (8 * r.length - (n - 8)) := by rw [← Nat.pow_add]; congr 1; omega
      rw [e1, Nat.add_mul, e2]
      simp [maskByte, Nat.mul_assoc]
    · rw [div_short h8, Nat.min_eq_left h8, show n - 8 = 0 by omega, ih 0 (by omega), Nat.sub_zero, Nat.div_eq_of_lt (number_lt r), Nat.zero_mul, Nat.add_zero, maskByte,
        show 8 * (r.length + 1) - n = (8 - n) + 8 * r.length by omega, Nat.pow_add, Nat.mul_assoc]

theorem number_append : ∀ a b : Bytes, number (a ++ b) = number a * 2 ^ (8 * b.length) + number b := by
  intro a
  induction a with
  | nil => intro b; simp [number]
  | cons x r ih =>
    intro b
    simp only [List.cons_append, number, ih, List.length_append]
    rw [Nat.add_mul, Nat.mul_add, Nat.pow_add, Nat.mul_assoc, Nat.add_assoc]

theorem number_inj : ∀ a b : Bytes, a.length = b.length → number a = number b → a = b := by
  intro a
  induction a with
  | nil => intro b h _; cases b with
    | nil => rfl
    | cons _ _ => simp at h
  | cons x r ih =>
    intro b h hn
    cases b with
    | nil => simp at h
    | cons y t =>
      simp only [List.length_cons, Nat.add_right_cancel_iff] at h
      simp only [number, h] at hn
      have h1 := number_lt r
      rw [h] at h1
      obtain ⟨e1, e2⟩ := (pair_eq h1 (number_lt t)).1 hn
      rw [UInt8.toNat_inj.1 e1, ih t h e2]

theorem to4_iff {ip : Bytes} (h : ip.length = 16) : (to4 ip).isSome = true ↔ number ip / 2 ^ 32 = 0xFFFF := by
  have hsplit := number_append (ip.take 12) (ip.drop 12)
  rw [List.take_append_drop, List.length_drop, h] at hsplit
  have hlt := number_lt (ip.drop 12)
  rw [List.length_drop, h] at hlt
  have hq : number ip / 2 ^ 32 = number (ip.take 12) := by
    rw [hsplit, show 8 * (16 - 12) = 32 by omega, Nat.mul_comm, Nat.mul_add_div (Nat.two_pow_pos _), Nat.div_eq_of_lt hlt, Nat.add_zero]
  rw [hq]
  unfold to4
  rw [if_neg (by omega)]
  constructor
  · intro h1
    split at h1
    · rename_i hc; rw [hc.2]; decide
    · simp at h1
  · intro hn
    have ht : ip.take 12 = List.replicate 10 0 ++ [0xFF, 0xFF] := by
      apply number_inj
      · rw [List.length_take, h]; decide
      · rw [hn]; decide
    simp [h, ht]

theorem to4_drop {ip p : Bytes} (h : ip.length = 16) (h4 : to4 ip = some p) : p.length = 4 ∧ number ip = 0xFFFF * 2 ^ 32 + number p := by
  obtain ⟨hp, rfl⟩ := to4_some h h4
  refine ⟨hp, ?_⟩
  unfold to16
  rw [number_append, hp]
  have : number (List.replicate 10 0 ++ [0xFF, 0xFF]) = 0xFFFF := by decide
  rw [this]

theorem agree_masked {w n : Nat} {p q a : Bytes} (hw : w = 8 * p.length) (hn : n ≤ w) (hm : number q = number p / 2 ^ (w - n) * 2 ^ (w - n)) :
    Agree w n q a ↔ Agree w n p a := by
  unfold Agree
  rw [hm, Nat.mul_div_cancel _ (Nat.two_pow_pos _)]

theorem cidr_parts (pre t : Str) (hslash : '/' ∉ pre) : (pre ++ '/' :: t).takeWhile (· ≠ '/') = pre ∧ (pre ++ '/' :: t).dropWhile (· ≠ '/') = '/' :: t := by
  induction pre with
  | nil => simp
  | cons c r ih =>
    simp only [List.mem_cons, not_or] at hslash
    have hc : c ≠ '/' := fun hc => hslash.1 hc.symm
    rw [List.cons_append, List.takeWhile_cons_of_pos (by simpa using hc), List.dropWhile_cons_of_pos (by simpa using hc), (ih hslash.2).1, (ih hslash.2).2]
    exact ⟨rfl, rfl⟩

/-- **C266**: the range of a dotted prefix contains exactly the IPv4 addresses whose first bits are those of the prefix -/
theorem C266_v4 (pre : Str) (p : Bytes) (h : V4 pre p) (n : Nat) (hn : n < 10 ^ 21) :
    if n ≤ 32 then ∃ c, parseCIDR (pre ++ '/' :: dec n) = some c ∧ c.contains none = false ∧
        ∀ ip, ip.length = 16 → (c.contains (some ip) = true ↔ ∃ q, q.length = 4 ∧ ip = to16 q ∧ Agree 32 n p q)
    else parseCIDR (pre ++ '/' :: dec n) = none := by
  have hd := dec_isDec hn
  have hslash : '/' ∉ pre := by
    intro hm
    rcases h.chars _ hm with h | h | h <;> revert h <;> decide
  obtain ⟨htake, hdrop⟩ := cidr_parts pre (dec n) hslash
  have hp : parseCIDR (pre ++ '/' :: dec n) = match dtoi (dec n) with
      | some (m, i) => if i ≠ (dec n).length ∨ 32 < m then none else some ⟨mask m p, m⟩
      | none => none := by
    unfold parseCIDR
    rw [if_pos (by simp)]
    simp only [htake, hdrop, List.drop_succ_cons, List.drop_zero, v4_iff.2 h]
    cases dtoi (dec n) <;> rfl
  have hdt := dtoi_munch (dec n) [] hd.1.2 (by simp)
  rw [List.append_nil, hd.2.1] at hdt
  rw [hp]
  have hpl := h.length
  split
  · rename_i hle
    rw [hdt, if_neg (by rintro (h | h); exact hd.1.1 h; omega)]
    simp only [ne_eq, not_true_eq_false, false_or]
    rw [if_neg (by omega)]
    refine ⟨_, rfl, rfl, ?_⟩
    intro ip hip
    have hm4 : to4 (mask n p) = some (mask n p) := by unfold to4; rw [if_pos (by rw [mask_length, hpl])]
    have hml : (mask n p).length = 4 := by rw [mask_length, hpl]
    unfold Net.contains
    simp only [hm4, Option.getD_some, Nat.lt_irrefl, if_false, Bool.and_eq_true, decide_eq_true_eq]
    rw [hml]
    cases h4 : to4 ip with
    | none =>
      simp only [Option.getD_none, hip]
      constructor
      · rintro ⟨h, _⟩; omega
      · rintro ⟨q, hq, rfl, _⟩
        rw [to4_to16 hq] at h4; simp at h4
    | some q =>
      obtain ⟨hq, he⟩ := to4_some hip h4
      simp only [Option.getD_some, hq, true_and]
      have ha := agree_iff (mask n p) q n (by rw [hml, hq]) (by rw [hml]; omega)
      rw [hml] at ha
      rw [ha, agree_masked (p := p) (by omega) (by omega) (by rw [number_mask p n (by omega), hpl])]
      constructor
      · intro hag; exact ⟨q, hq, he, hag⟩
      · rintro ⟨q', hq', he', hag⟩
        rw [he'] at h4
        rw [to4_to16 hq'] at h4
        simp only [Option.some.injEq] at h4
        rw [← h4]; exact hag
  · rename_i hgt
    rw [hdt]
    by_cases hb : dec n = [] ∨ 0xFFFFFF ≤ n
    · rw [if_pos hb]
    · rw [if_neg hb]
      simp only []
      rw [if_pos (.inr (by omega))]

theorem V6.chars {s : Str} {ip : Bytes} (h : V6 s ip) : ∀ c ∈ s, AddrChar c := by
  intro c hc
  apply Classical.byContradiction
  intro hn
  have h1 := C265_names s c hc hn
  rw [(C265_read s ip).2 (.inr h)] at h1
  simp at h1

theorem v4_not_v6 {s : Str} {p ip : Bytes} (h4 : V4 s p) (h6 : V6 s ip) : False := by
  obtain ⟨wa, wb, wc, wd, a, b, c, d, ha, hb, hc, hd, _, hs⟩ := h4
  have key : ∀ t : Str, parseFrom s (wa ++ '.' :: t) = (parseIPv4 s).map to16 := by
    intro t
    have hw : ∀ c ∈ wa, c ≠ '.' ∧ c ≠ ':' := by
      intro x hx
      have := ha.1.2 x hx
      constructor <;> (rintro rfl; revert this; decide)
    clear ha hs
    induction wa with
    | nil => rw [List.nil_append, parseFrom, if_pos rfl]
    | cons x w ih =>
      have h := hw x (by simp)
      rw [List.cons_append, parseFrom, if_neg h.1, if_neg h.2, ih (fun y hy => hw y (by simp [hy]))]
  have hcol : ∀ t : Str, ':' ∈ t → ':' ∈ t := fun _ h => h
  have h0 : ':' ∉ s := by
    intro hm
    rw [hs] at hm
    simp only [List.mem_append, List.mem_cons] at hm
    have hno : ∀ {w : Str} {n : Nat}, IsDec w n → ':' ∉ w := by
      intro w n hw hm
      have := hw.1.2 _ hm
      revert this; decide
    rcases hm with h | h | h | h | h | h | h
    · exact hno ha h
    · revert h; decide
    · exact hno hb h
    · revert h; decide
    · exact hno hc h
    · revert h; decide
    · exact hno hd h
  rcases h6 with ⟨ht, hl⟩ | ⟨l, r, L, R, hs', _⟩
  · cases ht with
    | one => simp [two] at hl
    | dotted hv => have := hv.length; omega
    | more => exact h0 (by simp)
  · exact h0 (by rw [hs']; simp)

theorem cidr_eq {pre : Str} (hslash : '/' ∉ pre) {n : Nat} (hn : n < 10 ^ 21) : parseCIDR (pre ++ '/' :: dec n) =
    match parseIPv4 pre with
    | some p => if n ≤ 32 then some ⟨mask n p, n⟩ else none
    | none => match parseIPv6 pre with
      | some p => if n ≤ 128 then some ⟨mask n p, n⟩ else none
      | none => none := by
  obtain ⟨htake, hdrop⟩ := cidr_parts pre (dec n) hslash
  have hd := dec_isDec hn
  have hdt := dtoi_munch (dec n) [] hd.1.2 (by simp)
  rw [List.append_nil, hd.2.1] at hdt
  unfold parseCIDR
  rw [if_pos (by simp)]
  simp only [htake, hdrop, List.drop_succ_cons, List.drop_zero, hdt]
  by_cases hb : dec n = [] ∨ 0xFFFFFF ≤ n
  · rw [if_pos hb]
    have h2 : 0xFFFFFF ≤ n := hb.resolve_left hd.1.1
    cases parseIPv4 pre with
    | some p => simp only []; rw [if_neg (by omega)]
    | none => cases parseIPv6 pre with
      | some p => simp only []; rw [if_neg (by omega)]
      | none => rfl
  · rw [if_neg hb]
    cases parseIPv4 pre with
    | some p =>
      simp only [ne_eq, not_true_eq_false, false_or]
      by_cases h : n ≤ 32
      · rw [if_pos h, if_neg (by omega)]
      · rw [if_neg h, if_pos (by omega)]
    | none => cases parseIPv6 pre with
      | some p =>
        simp only [ne_eq, not_true_eq_false, false_or]
        by_cases h : n ≤ 128
        · rw [if_pos h, if_neg (by omega)]
        · rw [if_neg h, if_pos (by omega)]
      | none => rfl

/-- an IPv4 address in its 16 byte form (specification) -/
def Mapped (ip : Bytes) : Prop := ∃ q, q.length = 4 ∧ ip = to16 q

theorem mapped_iff {ip : Bytes} (h : ip.length = 16) : Mapped ip ↔ (to4 ip).isSome = true := by
  constructor
  · rintro ⟨q, hq, rfl⟩; rw [to4_to16 hq]; rfl
  · intro h4
    obtain ⟨q, hq⟩ := Option.isSome_iff_exists.1 h4
    exact ⟨q, to4_some h hq⟩

theorem div32 {a : Nat} {n : Nat} (hn : n ≤ 128) (hn' : 96 ≤ n) : a / 2 ^ (128 - n) / 2 ^ (n - 96) = a / 2 ^ 32 := by
  rw [Nat.div_div_eq_div_mul, ← Nat.pow_add, show 128 - n + (n - 96) = 32 by omega]

theorem agree_tail {n a b : Nat} (hn : n ≤ 128) (hn' : 96 ≤ n) (ha : a < 2 ^ 32) (hb : b < 2 ^ 32) :
    (0xFFFF * 2 ^ 32 + a) / 2 ^ (128 - n) = (0xFFFF * 2 ^ 32 + b) / 2 ^ (128 - n) ↔ a / 2 ^ (128 - n) = b / 2 ^ (128 - n) := by
  have e : 0xFFFF * 2 ^ 32 = 2 ^ (128 - n) * (0xFFFF * 2 ^ (n - 96)) := by
    rw [Nat.mul_left_comm, ← Nat.pow_add, show 128 - n + (n - 96) = 32 by omega]
  rw [e, Nat.mul_add_div (Nat.two_pow_pos _), Nat.mul_add_div (Nat.two_pow_pos _)]
  omega

/-- **C266**: the range of an IPv6 prefix contains exactly the addresses whose first bits are those of the prefix; IPv4 addresses only when the prefix says so up to bit 96 -/
theorem C266_v6 (pre : Str) (p : Bytes) (h : V6 pre p) (n : Nat) (hn : n < 10 ^ 21) :
    if n ≤ 128 then ∃ c, parseCIDR (pre ++ '/' :: dec n) = some c ∧ c.contains none = false ∧
        ∀ ip, ip.length = 16 → (c.contains (some ip) = true ↔ Agree 128 n p ip ∧ (Mapped ip → 96 ≤ n))
    else parseCIDR (pre ++ '/' :: dec n) = none := by
  have hslash : '/' ∉ pre := by
    intro hm
    rcases h.chars _ hm with h | h | h <;> revert h <;> decide
  have h4 : parseIPv4 pre = none := by
    cases h4 : parseIPv4 pre with
    | none => rfl
    | some q => exact absurd h (fun h => v4_not_v6 (v4_iff.1 h4) h)
  have hpl := h.length
  rw [cidr_eq hslash hn, h4, v6_iff.2 h]
  simp only []
  split
  · rename_i hle
    refine ⟨_, rfl, rfl, ?_⟩
    intro ip hip
    rw [mapped_iff hip]
    have hml : (mask n p).length = 16 := by rw [mask_length, hpl]
    have hmn := number_mask p n (by omega)
    rw [hpl] at hmn
    simp only [show 8 * 16 = 128 by omega] at hmn
    have hmi := to4_iff hml
    have hii := to4_iff hip
    unfold Net.contains
    simp only [Bool.and_eq_true, decide_eq_true_eq]
    cases hm : to4 (mask n p) with
    | none =>
      rw [hm] at hmi
      simp only [Option.isSome_none, Bool.false_eq_true, false_iff] at hmi
      simp only [Option.getD_none, Nat.lt_irrefl, if_false, hml]
      cases hi : to4 ip with
      | none =>
        simp only [Option.getD_none, hip, true_and, Option.isSome_none, Bool.false_eq_true, false_implies, and_true]
        have ha := agree_iff (mask n p) ip n (by rw [hml, hip]) (by rw [hml]; omega)
        rw [hml] at ha
        rw [ha]
        exact agree_masked (p := p) (by omega) (by omega) (by rw [hmn])
      | some q =>
        obtain ⟨hq, _⟩ := to4_some hip hi
        simp only [Option.getD_some, hq]
        rw [hi] at hii
        have hii := hii.1 rfl
        constructor
        · rintro ⟨h, _⟩; omega
        · rintro ⟨hag, hge⟩
          have hge := hge rfl
          exfalso
          apply hmi
          rw [← hii, ← div32 hle hge, hmn, Nat.mul_div_cancel _ (Nat.two_pow_pos _), hag, div32 hle hge]
    | some m =>
      rw [hm] at hmi
      have hmi := hmi.1 rfl
      obtain ⟨hm4, hmnum⟩ := to4_drop hml hm
      have hge : 96 ≤ n := by
        apply Classical.byContradiction
        intro hlt
        have e : 2 ^ (128 - n) = 2 ^ (95 - n) * 2 * 2 ^ 32 := by
          rw [Nat.mul_assoc, show 2 * 2 ^ 32 = 2 ^ 33 by decide, ← Nat.pow_add]; congr 1; omega
        rw [hmn, e, ← Nat.mul_assoc, Nat.mul_div_cancel _ (Nat.two_pow_pos _), ← Nat.mul_assoc] at hmi
        omega
      simp only [Option.getD_some, hm4, hml, show (4 < 16) = True by simp, if_true]
      cases hi : to4 ip with
      | none =>
        rw [hi] at hii
        simp only [Option.isSome_none, Bool.false_eq_true, false_iff] at hii
        simp only [Option.getD_none, hip]
        constructor
        · rintro ⟨h, _⟩; omega
        · rintro ⟨hag, _⟩
          exfalso
          apply hii
          rw [← hmi, ← div32 hle hge, ← hag, hmn]
          rw [← div32 (a := _ * _) hle hge, Nat.mul_div_cancel _ (Nat.two_pow_pos _)]
      | some q =>
        obtain ⟨hq, hqn⟩ := to4_drop hip hi
        simp only [Option.getD_some, hq, true_and, Option.isSome_some, true_implies, hge, and_true]
        have ha := agree_iff m q (n - 96) (by rw [hm4, hq]) (by rw [hm4]; omega)
        rw [hm4] at ha
        rw [ha, ← agree_masked (p := p) (q := mask n p) (by omega) hle hmn]
        unfold Agree
        have b1 := number_lt m
        have b2 := number_lt q
        rw [hm4] at b1
        rw [hq] at b2
        rw [hmnum, hqn, agree_tail hle hge b1 b2, show 8 * 4 - (n - 96) = 128 - n by omega]
  · rfl

/-- **C266**: any other prefix makes the range an error, whatever its length -/
theorem C266_other (pre : Str) (h4 : ∀ p, ¬ V4 pre p) (h6 : ∀ p, ¬ V6 pre p) (hs : '/' ∉ pre) (n : Nat) (hn : n < 10 ^ 21) :
    parseCIDR (pre ++ '/' :: dec n) = none := by
  have e4 : parseIPv4 pre = none := by
    cases h : parseIPv4 pre with
    | none => rfl
    | some p => exact absurd (v4_iff.1 h) (h4 p)
  have e6 : parseIPv6 pre = none := by
    cases h : parseIPv6 pre with
    | none => rfl
    | some p => exact absurd (v6_iff.1 h) (h6 p)
  rw [cidr_eq hs hn, e4, e6]

/-- what a range of a filter chain stands for: a set of addresses, nothing when it is malformed (specification) -/
inductive Range.Means (r : Range) : (Bytes → Prop) → Prop
  | v4 {p} : V4 r.pre p → r.len ≤ 32 → Means r fun ip => ∃ q, q.length = 4 ∧ ip = to16 q ∧ Agree 32 r.len p q
  | v6 {p} : V6 r.pre p → r.len ≤ 128 → Means r fun ip => Agree 128 r.len p ip ∧ (Mapped ip → 96 ≤ r.len)

theorem range_means {r : Range} {set : Bytes → Prop} (h : r.Means set) (hl : r.len < 10 ^ 21) : r.pre ≠ [] ∧
    ∃ c, parseCIDR (r.pre ++ '/' :: dec r.len) = some c ∧ c.contains none = false ∧ ∀ ip, ip.length = 16 → (c.contains (some ip) = true ↔ set ip) := by
  cases h with
  | v4 hv hle =>
    refine ⟨?_, ?_⟩
    · obtain ⟨wa, wb, wc, wd, a, b, c, d, _, _, _, _, _, hs⟩ := hv
      rw [hs]; simp
    · have := C266_v4 r.pre _ hv r.len hl
      rw [if_pos hle] at this
      exact this
  | v6 hv hle =>
    refine ⟨?_, ?_⟩
    · intro he
      have h1 := v6_iff.2 hv
      rw [he] at h1
      revert h1
      simp [parseIPv6, v6loop, xtoi, toi, v6end]
    · have := C266_v6 r.pre _ hv r.len hl
      rw [if_pos hle] at this
      exact this

theorem range_malformed {r : Range} (hne : r.pre ≠ []) (hs : '/' ∉ r.pre) (h : ∀ set, ¬ r.Means set) (hl : r.len < 10 ^ 21) :
    parseCIDR (r.pre ++ '/' :: dec r.len) = none := by
  by_cases h4 : ∃ p, V4 r.pre p
  · obtain ⟨p, hp⟩ := h4
    have := C266_v4 r.pre p hp r.len hl
    by_cases hle : r.len ≤ 32
    · exact absurd (.v4 hp hle) (h _)
    · rw [if_neg hle] at this; exact this
  · by_cases h6 : ∃ p, V6 r.pre p
    · obtain ⟨p, hp⟩ := h6
      have := C266_v6 r.pre p hp r.len hl
      by_cases hle : r.len ≤ 128
      · exact absurd (.v6 hp hle) (h _)
      · rw [if_neg hle] at this; exact this
    · exact C266_other r.pre (fun p hp => h4 ⟨p, hp⟩) (fun p hp => h6 ⟨p, hp⟩) hs r.len hl

/-- **C266**: when no range is malformed, an address matches exactly when it lies in one of the ranges; ranges without a prefix are left out, and so is a missing address -/
theorem C266_match (rs : List Range) (sets : Range → Bytes → Prop) (hm : ∀ r ∈ rs, r.pre ≠ [] → r.Means (sets r) ∧ r.len < 10 ^ 21) :
    matchPrefixRanges rs none = some false ∧
    ∀ ip, ip.length = 16 → ∃ b, matchPrefixRanges rs (some ip) = some b ∧ (b = true ↔ ∃ r ∈ rs, r.pre ≠ [] ∧ sets r ip) := by
  induction rs with
  | nil => exact ⟨rfl, fun ip _ => ⟨false, rfl, by simp⟩⟩
  | cons r rs ih =>
    have ih := ih (fun x hx => hm x (by simp [hx]))
    by_cases hp : r.pre = []
    · simp only [matchPrefixRanges, hp, if_true]
      refine ⟨ih.1, fun ip hip => ?_⟩
      obtain ⟨b, hb, hiff⟩ := ih.2 ip hip
      refine ⟨b, hb, hiff.trans ?_⟩
      constructor
      · rintro ⟨x, hx, h⟩; exact ⟨x, by simp [hx], h⟩
      · rintro ⟨x, hx, h1, h2⟩
        rcases List.mem_cons.1 hx with rfl | hx
        · exact absurd hp h1
        · exact ⟨x, hx, h1, h2⟩
    · obtain ⟨hmean, hl⟩ := hm r (by simp) hp
      obtain ⟨_, c, hc, hn, hiff⟩ := range_means hmean hl
      simp only [matchPrefixRanges, if_neg hp, hc, hn]
      refine ⟨by simpa using ih.1, fun ip hip => ?_⟩
      cases hcon : c.contains (some ip) with
      | true => exact ⟨true, rfl, iff_of_true rfl ⟨r, by simp, hp, (hiff ip hip).1 hcon⟩⟩
      | false =>
        obtain ⟨b, hb, hb'⟩ := ih.2 ip hip
        refine ⟨b, by simpa using hb, hb'.trans ?_⟩
        constructor
        · rintro ⟨x, hx, h⟩; exact ⟨x, by simp [hx], h⟩
        · rintro ⟨x, hx, h1, h2⟩
          rcases List.mem_cons.1 hx with rfl | hx
          · rw [← hiff ip hip, hcon] at h2; simp at h2
          · exact ⟨x, hx, h1, h2⟩

/-- **C266**: a malformed range is an error for every address that lies in none of the ranges before it -/
theorem C266_malformed (before after : List Range) (bad : Range) (sets : Range → Bytes → Prop)
    (hm : ∀ r ∈ before, r.pre ≠ [] → r.Means (sets r) ∧ r.len < 10 ^ 21)
    (hb : bad.pre ≠ []) (hs : '/' ∉ bad.pre) (hbad : ∀ set, ¬ bad.Means set) (hl : bad.len < 10 ^ 21) (ip : Bytes) (hip : ip.length = 16) :
    (matchPrefixRanges (before ++ bad :: after) (some ip) = none ↔ ∀ r ∈ before, r.pre ≠ [] → ¬ sets r ip) := by
  induction before with
  | nil => simp [matchPrefixRanges, hb, range_malformed hb hs hbad hl]
  | cons r rs ih =>
    have ih := ih (fun x hx => hm x (by simp [hx]))
    by_cases hp : r.pre = []
    · simp only [List.cons_append, matchPrefixRanges, hp, if_true, ih]
      constructor
      · intro h x hx h1
        rcases List.mem_cons.1 hx with rfl | hx
        · exact absurd hp h1
        · exact h x hx h1
      · intro h x hx; exact h x (by simp [hx])
    · obtain ⟨hmean, hlen⟩ := hm r (by simp) hp
      obtain ⟨_, c, hc, _, hiff⟩ := range_means hmean hlen
      simp only [List.cons_append, matchPrefixRanges, if_neg hp, hc]
      cases hcon : c.contains (some ip) with
      | true =>
        simp only [if_true, reduceCtorEq, false_iff]
        exact fun h => h r (by simp) hp ((hiff ip hip).1 hcon)
      | false =>
        simp only [Bool.false_eq_true, if_false, ih]
        constructor
        · intro h x hx h1 h2
          rcases List.mem_cons.1 hx with rfl | hx
          · rw [← hiff ip hip, hcon] at h2; simp at h2
          · exact h x hx h1 h2
        · intro h x hx; exact h x (by simp [hx])

/-! ### the theorems are about something -/

example : parseIP "10.0.0.1".toList = some [0, 0, 0, 0, 0, 0, 0, 0, 0, 0, 255, 255, 10, 0, 0, 1] := by decide +kernel
example : parseIP "::ffff:10.0.0.1".toList = parseIP "10.0.0.1".toList := by decide +kernel
example : parseIP "fe80::1".toList = some [254, 128, 0, 0, 0, 0, 0, 0, 0, 0, 0, 0, 0, 0, 0, 1] := by decide +kernel
example : parseIP "010.0.0.1".toList = none ∧ parseIP "1::2::3".toList = none ∧ parseIP "256.0.0.1".toList = none := by decide +kernel
example : (getAddress "fe80:0:0:1:0:0:0:1".toList 443).text = "[fe80:0:0:1::1]:443".toList := by decide +kernel
example : (getAddress "db.example.com".toList 5432).text = ":5432".toList := by decide +kernel
example : dialTarget (getAddress "db.example.com".toList 5432).text = some (.here 5432) := by decide +kernel
example : dialTarget "db.example.com:5432".toList = some (.name "db.example.com".toList 5432) := by decide +kernel
example : 'd' ∈ "db.example.com".toList ∧ 'm' ∈ "db.example.com".toList ∧ ¬ AddrChar 'm' := by
  refine ⟨by decide, by decide, ?_⟩
  rintro (h | h | h) <;> revert h <;> decide
example : matchPrefixRanges [⟨[], 8⟩, ⟨"10.1.0.0".toList, 16⟩, ⟨"fd00::".toList, 8⟩] (parseIP "10.1.2.3".toList) = some true := by decide +kernel
example : matchPrefixRanges [⟨"10.1.0.0".toList, 15⟩, ⟨"fd00::".toList, 8⟩] (parseIP "10.2.0.1".toList) = some false := by decide +kernel
example : matchPrefixRanges [⟨"::".toList, 0⟩] (parseIP "10.2.0.1".toList) = some false := by decide +kernel
example : matchPrefixRanges [⟨"10.1.0.0".toList, 33⟩] (parseIP "10.2.0.1".toList) = none := by decide +kernel
example : Range.Means ⟨"10.1.0.0".toList, 16⟩ fun ip => ∃ q, q.length = 4 ∧ ip = to16 q ∧ Agree 32 16 [10, 1, 0, 0] q :=
  .v4 (v4_iff.1 (by decide +kernel)) (by decide)
example : Range.Means ⟨"fd00::".toList, 8⟩ fun ip => Agree 128 8 [0xfd, 0, 0, 0, 0, 0, 0, 0, 0, 0, 0, 0, 0, 0, 0, 0] ip ∧ (Mapped ip → 96 ≤ 8) :=
  .v6 (v6_iff.1 (by decide +kernel)) (by decide)

end Verif.Ip
