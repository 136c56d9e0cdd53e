import Verif.Props.StatTags
/-
Property C109, further: the names of TCP, MySQL and Postgres statistics and of listeners are taken apart; the characters of a word.
-/
namespace Verif.Props.StatTags
open Verif.Heimdall Verif.Wasm.StatTags

/-- **C109**. The characters of a word (the last part of a name). -/
theorem C109_word (c : Char) : word c = true ↔ c ∈ "0123456789abcdefghijklmnopqrstuvwxyzABCDEFGHIJKLMNOPQRSTUVWXYZ_".toList := by
  by_cases hn : c.toNat < 128
  · have : ∀ n, n < 128 → (word (Char.ofNat n) = true ↔ Char.ofNat n ∈ "0123456789abcdefghijklmnopqrstuvwxyzABCDEFGHIJKLMNOPQRSTUVWXYZ_".toList) := by
      decide +kernel
    have h := this c.toNat hn
    rwa [Char.ofNat_toNat] at h
  · have h2 : ∀ d ∈ "0123456789abcdefghijklmnopqrstuvwxyzABCDEFGHIJKLMNOPQRSTUVWXYZ_".toList, d.toNat < 128 := by decide +kernel
    constructor
    · intro h
      exfalso
      simp only [word, digit, Bool.or_eq_true, Bool.and_eq_true, decide_eq_true_eq, Char.le_def, UInt32.le_iff_toNat_le] at h
      have e : c.val.toNat = c.toNat := rfl
      rw [e] at h
      have e9 : ('9' : Char).val.toNat = 57 := rfl
      have ez : ('z' : Char).val.toNat = 122 := rfl
      have eZ : ('Z' : Char).val.toNat = 90 := rfl
      rw [e9, ez, eZ] at h
      rcases h with ((h | h) | h) | h
      · omega
      · omega
      · omega
      · rw [h] at hn; exact hn (by decide)
    · intro h
      exact absurd (h2 c h) hn

theorem word_dot {c : Char} (h : word c = true) : c ≠ '.' := by
  rintro rfl
  exact absurd h (by decide +kernel)

/-! ### removing the first occurrence -/

/-- a text that ends with the only dot of another one, and begins the two of them: they can be swapped -/
theorem dot_swap (p : Str) (hp : '.' ∉ p) : ∀ (n : Nat) (x B r : Str), x.length ≤ n → (p ++ ['.']) ++ ((x ++ ['.']) ++ B) = (x ++ ['.']) ++ r → r = (p ++ ['.']) ++ B
  | n, x, B, r, hn, h => by
    rcases List.append_eq_append_iff.1 h with ⟨a, h1, h2⟩ | ⟨a, h1, h2⟩
    · -- the word begins with `p.`
      cases a with
      | nil =>
        rw [List.append_nil] at h1
        rw [List.nil_append] at h2
        rw [← h2, h1]
      | cons c a =>
        -- the rest of the word ends with a dot, too
        have hlast : ∃ y, c :: a = y ++ ['.'] := by
          refine ⟨(c :: a).dropLast, ?_⟩
          have e := congrArg List.getLast? h1
          rw [List.getLast?_append, List.getLast?_append] at e
          have e2 : (c :: a).getLast? = some ((c :: a).getLast (by simp)) := List.getLast?_eq_some_getLast (by simp)
          rw [e2] at e
          simp only [List.getLast?_singleton, Option.some_or, Option.some.injEq] at e
          have := List.dropLast_concat_getLast (l := c :: a) (by simp)
          rw [← e] at this
          exact this.symm
        obtain ⟨y, hy⟩ := hlast
        rw [hy] at h1 h2
        have hx : x = p ++ ['.'] ++ y := by
          have : x ++ ['.'] = (p ++ ['.'] ++ y) ++ ['.'] := by rw [h1]; simp
          exact List.append_cancel_right this
        have hlen : y.length < x.length := by rw [hx]; simp only [List.length_append, List.length_cons, List.length_nil]; omega
        cases n with
        | zero => omega
        | succ n =>
          refine dot_swap p hp n y B r (by omega) ?_
          rw [hx] at h2
          -- `h2` has `y.` in front of `r`
          rw [← h2]; simp
    · -- `p.` begins with the word: it is the word
      cases x with
      | nil =>
        cases p with
        | nil => simpa using h.symm
        | cons d p =>
          have : d = '.' := by simpa using congrArg List.head? h
          exact absurd (by simp [this]) hp
      | cons d x =>
        cases a with
        | nil =>
          rw [List.append_nil] at h1
          rw [List.nil_append] at h2
          rw [h2, h1]
        | cons c a =>
          exfalso
          apply hp
          have hlast : ∃ y, c :: a = y ++ ['.'] := by
            refine ⟨(c :: a).dropLast, ?_⟩
            have e := congrArg List.getLast? h1
            rw [List.getLast?_append, List.getLast?_append] at e
            have e2 : (c :: a).getLast? = some ((c :: a).getLast (by simp)) := List.getLast?_eq_some_getLast (by simp)
            rw [e2] at e
            simp only [List.getLast?_singleton, Option.some_or, Option.some.injEq] at e
            have := List.dropLast_concat_getLast (l := c :: a) (by simp)
            rw [← e] at this
            exact this.symm
          obtain ⟨y, hy⟩ := hlast
          rw [hy] at h1
          have : p ++ ['.'] = (d :: x ++ ['.'] ++ y) ++ ['.'] := by rw [h1]; simp
          rw [List.append_cancel_right this]
          simp

/-- the first occurrence of `x.` after `p.` is removed, or one before it that is as good -/
theorem removeFirst_dot (x B : Str) : ∀ (p : Str), '.' ∉ p → removeFirst (x ++ ['.']) ((p ++ ['.']) ++ ((x ++ ['.']) ++ B)) = (p ++ ['.']) ++ B
  | [], hp => by
    simp only [List.nil_append, List.cons_append]
    rw [removeFirst]
    cases hs : strip (x ++ ['.']) ('.' :: (x ++ ['.'] ++ B)) with
    | some r =>
      have := dot_swap [] hp x.length x B r (Nat.le_refl _) (strip_some.1 hs)
      simpa using this
    | none =>
      simp only
      have := removeFirst_spec (x ++ ['.']) [] B (by simp) (fun y z e hz => by
        have : z = [] := (List.append_eq_nil_iff.1 e.symm).2
        exact absurd this hz)
      rw [List.nil_append, List.nil_append] at this
      rw [this]
  | c :: p, hp => by
    simp only [List.cons_append]
    rw [removeFirst]
    cases hs : strip (x ++ ['.']) (c :: (p ++ ['.'] ++ (x ++ ['.'] ++ B))) with
    | some r => exact dot_swap (c :: p) hp x.length x B r (Nat.le_refl _) (strip_some.1 hs)
    | none =>
      simp only
      rw [removeFirst_dot x B p fun h => hp (by simp [h])]

/-! ### prefixes -/

theorem lazy_word_none (K : Caps → Option Caps) (c : Caps) : ∀ s : Str, '.' ∈ s → lazyLoop word (fun s' => if s' = [] then K c else none) s = none
  | [], h => by cases h
  | x :: s, h => by
    rw [lazyLoop]
    simp only [if_neg (List.cons_ne_nil x s)]
    by_cases hw : word x = true
    · rw [if_pos hw]
      refine lazy_word_none K c s ?_
      rcases List.mem_cons.1 h with h | h
      · exact absurd h.symm (word_dot hw)
      · exact h
    · rw [if_neg hw]

theorem lazy_word_some (K : Caps → Option Caps) (c : Caps) : ∀ s : Str, (∀ x ∈ s, word x = true) → lazyLoop word (fun s' => if s' = [] then K c else none) s = K c
  | [], _ => by simp [lazyLoop]
  | x :: s, h => by
    rw [lazyLoop]
    simp only [if_neg (List.cons_ne_nil x s)]
    rw [if_pos (h x (by simp))]
    exact lazy_word_some K c s fun y hy => h y (by simp [hy])

theorem lazy_until (F : Str → Option Caps) (t : Str) : ∀ x : Str, '\n' ∉ x → (∀ y, y ≠ [] → y <:+ x → F (y ++ t) = none) → ∀ r, F t = some r → lazyLoop dot F (x ++ t) = some r
  | [], _, _, r, hr => by
    cases t with
    | nil => exact hr
    | cons a t => rw [List.nil_append, lazyLoop, hr]
  | a :: x, hn, h, r, hr => by
    rw [List.cons_append, lazyLoop]
    have h1 := h (a :: x) (by simp) (List.suffix_refl _)
    rw [List.cons_append] at h1
    rw [h1]
    have ha : a ≠ '\n' := fun e => hn (by simp [e])
    rw [if_pos (by simp [dot, ha])]
    exact lazy_until F t x (fun e => hn (by simp [e])) (fun y hy hs => h y hy (hs.trans (List.suffix_cons a x))) r hr

theorem strip_dot_none {c : Char} {s : Str} (h : c ≠ '.') : strip ['.'] (c :: s) = none := by
  show (if '.' = c then _ else none) = none
  rw [if_neg fun e => h e.symm]

theorem strip_dot (s : Str) : strip ['.'] ('.' :: s) = some s := strip_app ['.'] s

/-- **C109**. The statistics `p.x.w` of a prefix (`tcp`, `mysql`, `postgres`): whatever `x` is, with dots or without, it is taken out of the name and becomes the tag;
the last part, a word, stays. -/
theorem C109_prefix (name p : String) (x w : Str) (hp : '.' ∉ p.toList) (hx : '\n' ∉ x) (hw : w ≠ []) (hword : ∀ c ∈ w, word c = true) (vals : List (Str × Str)) :
    applyTag (p.toList ++ '.' :: (x ++ '.' :: w), vals) (prefixTag name p) = (p.toList ++ '.' :: w, vals ++ [(name.toList, x)]) := by
  have hat : (prefixTag name p).re.at (p.toList ++ '.' :: (x ++ '.' :: w)) = some [(1, x ++ ['.']), (2, x)] := by
    have hd : ".".toList = ['.'] := by decide +kernel
    unfold prefixTag
    simp only [Re.at, seqs, any, hd, Re.run, lit_run, strip_app, strip_dot]
    refine lazy_until _ ('.' :: w) x hx ?_ _ ?_
    · intro y hy hs
      obtain ⟨a, y, rfl⟩ := List.exists_cons_of_ne_nil hy
      rw [List.cons_append]
      by_cases ha : a = '.'
      · subst ha
        rw [strip_dot]
        simp only
        cases y with
        | nil => rfl
        | cons b y =>
          rw [List.cons_append]
          simp only
          by_cases hb : word b = true
          · rw [if_pos hb]
            exact lazy_word_none some _ _ (by simp)
          · rw [if_neg hb]
      · rw [strip_dot_none ha]
    · rw [strip_dot]
      obtain ⟨a, w, rfl⟩ := List.exists_cons_of_ne_nil hw
      simp only
      rw [if_pos (hword a (by simp)), lazy_word_some some _ _ fun c hc => hword c (by simp [hc])]
      have t : ∀ u v z : Str, u = v ++ z → u.take (u.length - z.length) = v := by
        intro u v z e; rw [e]; exact take_len
      rw [t _ (x ++ ['.']) (a :: w) (by simp), t _ x ('.' :: a :: w) rfl]
  unfold applyTag
  rw [if_pos (show (prefixTag name p).anchored = true from rfl), hat]
  simp only
  refine Prod.ext ?_ rfl
  show removeFirst (x ++ ['.']) _ = _
  have := removeFirst_dot x w p.toList hp
  rw [show p.toList ++ ['.'] ++ (x ++ ['.'] ++ w) = p.toList ++ '.' :: (x ++ '.' :: w) by simp, show p.toList ++ ['.'] ++ w = p.toList ++ '.' :: w by simp] at this
  exact this

example : applyTag ("tcp.mongo.local.downstream_cx".toList, []) (prefixTag "tcp_prefix" "tcp") = ("tcp.downstream_cx".toList, [("tcp_prefix".toList, "mongo.local".toList)]) :=
  C109_prefix "tcp_prefix" "tcp" "mongo.local".toList "downstream_cx".toList (by decide +kernel) (by decide +kernel) (by decide +kernel) (by decide +kernel) []

/-! ### listeners -/

/-- the characters of an IPv4 address with a port in the names of listeners (specification) -/
def addrChar (c : Char) : Bool := c ∈ "0123456789_.".toList

theorem digit_iff (c : Char) : digit c = true ↔ c ∈ "0123456789".toList := by
  by_cases hn : c.toNat < 128
  · have : ∀ n, n < 128 → (digit (Char.ofNat n) = true ↔ Char.ofNat n ∈ "0123456789".toList) := by decide +kernel
    have h := this c.toNat hn
    rwa [Char.ofNat_toNat] at h
  · have h2 : ∀ d ∈ "0123456789".toList, d.toNat < 128 := by decide +kernel
    constructor
    · intro h
      exfalso
      simp only [digit, Bool.and_eq_true, decide_eq_true_eq, Char.le_def, UInt32.le_iff_toNat_le] at h
      have e : c.val.toNat = c.toNat := rfl
      have e9 : ('9' : Char).val.toNat = 57 := rfl
      rw [e, e9] at h
      omega
    · intro h
      exact absurd (h2 c h) hn

theorem greedy_addr (p : Char → Bool) (F : Str → Option Caps) (t : Str) (r : Caps) : ∀ a : Str, (∀ c ∈ a, p c = true) → p '.' = true →
    greedyLoop p F ('.' :: t) = some r → greedyLoop p F (a ++ '.' :: t) = some r
  | [], _, _, h => h
  | c :: a, ha, hd, h => by
    rw [List.cons_append, greedyLoop, if_pos (ha c (by simp)), greedy_addr p F t r a (fun x hx => ha x (by simp [hx])) hd h]

/-- **C109**. The statistics `listener.a.rest` of a listener with the IPv4 address `a` (digits, dots and an underscore before the port), where the rest begins with
another character: the address is taken out of the name and becomes the tag. -/
theorem C109_listener (a t : Str) (c : Char) (ha : ∀ x ∈ a, addrChar x = true) (hc : addrChar c = false) (vals : List (Str × Str)) :
    applyTag ("listener.".toList ++ (a ++ '.' :: c :: t), vals) listenerTag = ("listener.".toList ++ c :: t, vals ++ [("listener_address".toList, a)]) := by
  have hp : ∀ x, (decide (x = '_') || decide (x = '.') || digit x) = addrChar x := by
    intro x
    rw [Bool.eq_iff_iff]
    simp only [Bool.or_eq_true, decide_eq_true_eq, digit_iff, addrChar]
    rw [show "0123456789_.".toList = "0123456789".toList ++ ['_', '.'] by decide +kernel, List.mem_append]
    simp only [List.mem_cons, List.not_mem_nil, or_false]
    constructor
    · rintro ((h | h) | h)
      · exact Or.inr (Or.inl h)
      · exact Or.inr (Or.inr h)
      · exact Or.inl h
    · rintro (h | h | h)
      · exact Or.inr h
      · exact Or.inl (Or.inl h)
      · exact Or.inl (Or.inr h)
  have hl : ∃ l, "listener.".toList = l ++ ['.'] ∧ '.' ∉ l := ⟨"listener".toList, by decide +kernel⟩
  have hcd : c ≠ '.' := by rintro rfl; exact absurd hc (by decide +kernel)
  have hat : listenerTag.re.at ("listener.".toList ++ (a ++ '.' :: c :: t)) = some [(1, a ++ ['.']), (2, a)] := by
    have hd : ".".toList = ['.'] := by decide +kernel
    unfold listenerTag
    simp only [Re.at, seqs, hd, Re.run, lit_run, strip_app, hp]
    rw [greedy_addr _ _ (c :: t) [(1, a ++ ['.']), (2, a)] a ha (by decide +kernel)]
    rw [greedyLoop, if_pos (by decide +kernel), greedyLoop]
    simp only [hc, Bool.false_eq_true, if_false, strip_dot_none hcd, strip_dot]
    have t : ∀ u v z : Str, u = v ++ z → u.take (u.length - z.length) = v := by
      intro u v z e; rw [e]; exact take_len
    rw [t _ (a ++ ['.']) (c :: _) (by simp), t _ a ('.' :: c :: _) rfl]
  unfold applyTag
  rw [if_pos (show listenerTag.anchored = true from rfl), hat]
  simp only
  refine Prod.ext ?_ rfl
  show removeFirst (a ++ ['.']) _ = _
  obtain ⟨l, hl, hn⟩ := hl
  rw [hl]
  have := removeFirst_dot a (c :: t) l hn
  simpa using this

example : applyTag ("listener.127.0.0.1_15006.downstream_cx_total".toList, []) listenerTag =
    ("listener.downstream_cx_total".toList, [("listener_address".toList, "127.0.0.1_15006".toList)]) :=
  C109_listener "127.0.0.1_15006".toList "ownstream_cx_total".toList 'd' (by decide +kernel) (by decide +kernel) []

/-! ### classes of response codes -/

theorem class_at (z : Str) (c : Caps) : classTag.re.at z = some c ↔
    ∃ d, digit d = true ∧ z = ['_', 'r', 'q', '_', d, 'x', 'x'] ∧ c = [(1, ['_', d, 'x', 'x']), (2, [d, 'x', 'x'])] := by
  have e1 : "_rq".toList = ['_', 'r', 'q'] := by decide +kernel
  have e2 : "_".toList = ['_'] := by decide +kernel
  have e3 : "xx".toList = ['x', 'x'] := by decide +kernel
  have ht : ∀ u v z : Str, u = v ++ z → u.take (u.length - z.length) = v := by
    intro u v z e; rw [e]; exact take_len
  unfold classTag
  simp only [Re.at, seqs, Re.run, lit_run, e1, e2, e3]
  cases h1 : strip ['_', 'r', 'q'] z with
  | none =>
    simp only [reduceCtorEq, false_iff]
    rintro ⟨d, _, hz, _⟩
    have := strip_app ['_', 'r', 'q'] ['_', d, 'x', 'x']
    rw [hz] at h1
    rw [show ['_', 'r', 'q', '_', d, 'x', 'x'] = ['_', 'r', 'q'] ++ ['_', d, 'x', 'x'] from rfl, this] at h1
    cases h1
  | some r =>
    have hz := strip_some.mp h1
    simp only
    cases h2 : strip ['_'] r with
    | none =>
      simp only [reduceCtorEq, false_iff]
      rintro ⟨d, _, hz', _⟩
      rw [hz] at hz'
      have : r = ['_'] ++ [d, 'x', 'x'] := by simpa using hz'
      rw [this, strip_app] at h2
      cases h2
    | some r2 =>
      have hr := strip_some.mp h2
      simp only
      cases r2 with
      | nil =>
        simp only [reduceCtorEq, false_iff]
        rintro ⟨d, _, hz', _⟩
        rw [hz, hr] at hz'
        simp at hz'
      | cons d r3 =>
        simp only
        by_cases hd : digit d = true
        · rw [if_pos hd]
          cases h3 : strip ['x', 'x'] r3 with
          | none =>
            simp only [reduceCtorEq, false_iff]
            rintro ⟨d', _, hz', _⟩
            rw [hz, hr] at hz'
            have : r3 = ['x', 'x'] ++ [] := by
              simp only [List.cons_append, List.nil_append, List.cons.injEq, true_and] at hz'
              simpa using hz'.2
            rw [this, strip_app] at h3
            cases h3
          | some r4 =>
            have hr3 := strip_some.mp h3
            simp only
            by_cases h4 : r4 = []
            · rw [if_pos h4]
              subst h4
              rw [List.append_nil] at hr3
              subst hr3
              rw [ht r ['_', d, 'x', 'x'] [] (by rw [hr]; rfl), ht (d :: ['x', 'x']) [d, 'x', 'x'] [] rfl]
              simp only [Option.some.injEq]
              constructor
              · intro h; exact ⟨d, hd, by rw [hz, hr]; rfl, h.symm⟩
              · rintro ⟨d', _, hz', hc⟩
                rw [hz, hr] at hz'
                simp only [List.cons_append, List.nil_append, List.cons.injEq, true_and, and_true] at hz'
                rw [hc, hz']
            · rw [if_neg h4]
              simp only [reduceCtorEq, false_iff]
              rintro ⟨d', _, hz', _⟩
              rw [hz, hr, hr3] at hz'
              simp only [List.cons_append, List.nil_append, List.cons.injEq, true_and] at hz'
              exact h4 hz'.2
        · rw [if_neg hd]
          simp only [reduceCtorEq, false_iff]
          rintro ⟨d', hd', hz', _⟩
          rw [hz, hr] at hz'
          simp only [List.cons_append, List.nil_append, List.cons.injEq, true_and] at hz'
          rw [hz'.1] at hd
          exact hd hd'

/-- **C109**. The statistics `p_rq_Nxx` of a class of response codes: `_Nxx` is taken out of the name and `Nxx` becomes the tag, if it is not somewhere else
in the name, too. -/
theorem C109_class (p : Str) (d : Char) (hd : d ∈ "0123456789".toList) (vals : List (Str × Str))
    (h : ∀ y r, p ++ ['_', 'r', 'q', '_', d, 'x', 'x'] = y ++ ['_', d, 'x', 'x'] ++ r → r = []) :
    applyTag (p ++ "_rq_".toList ++ [d, 'x', 'x'], vals) classTag = (p ++ "_rq".toList, vals ++ [("response_code_class".toList, [d, 'x', 'x'])]) := by
  have e4 : "_rq_".toList = ['_', 'r', 'q', '_'] := by decide +kernel
  have e3 : "_rq".toList = ['_', 'r', 'q'] := by decide +kernel
  rw [e4, e3]
  have hf : find classTag.re (p ++ ['_', 'r', 'q', '_', d, 'x', 'x']) = some [(1, ['_', d, 'x', 'x']), (2, [d, 'x', 'x'])] := by
    rw [find_skip _ p _ ?_]
    · exact find_here ((class_at _ _).mpr ⟨d, (digit_iff d).mpr hd, rfl, rfl⟩)
    · intro y z _ hz
      cases hc : classTag.re.at (z ++ ['_', 'r', 'q', '_', d, 'x', 'x']) with
      | none => rfl
      | some c =>
        obtain ⟨d', _, he, _⟩ := (class_at _ _).mp hc
        have := congrArg List.length he
        rw [List.length_append] at this
        simp only [List.length_cons, List.length_nil] at this
        exact absurd (List.length_eq_zero_iff.mp (by omega)) hz
  unfold applyTag
  rw [if_neg (show ¬ classTag.anchored = true from by decide +kernel)]
  simp only [List.append_assoc, List.cons_append, List.nil_append]
  rw [hf]
  simp only
  refine Prod.ext ?_ rfl
  show removeFirst ['_', d, 'x', 'x'] _ = _
  have := removeFirst_spec ['_', d, 'x', 'x'] (p ++ ['_', 'r', 'q']) [] (by simp) (by
    intro y z e hz
    cases hs : strip ['_', d, 'x', 'x'] (z ++ (['_', d, 'x', 'x'] ++ [])) with
    | none => rfl
    | some r =>
      have e2 := strip_some.mp hs
      have hr := h y r (by
        have : p ++ ['_', 'r', 'q', '_', d, 'x', 'x'] = (p ++ ['_', 'r', 'q']) ++ ['_', d, 'x', 'x'] := by simp
        rw [this, e, List.append_assoc, List.append_assoc]
        rw [List.append_nil] at e2
        rw [e2])
      have := congrArg List.length e2
      rw [hr] at this
      simp only [List.length_append, List.length_cons, List.length_nil] at this
      exact absurd (List.length_eq_zero_iff.mp (by omega)) hz)
  simpa using this

example : parse "cluster.outbound|80||shop.prod.svc.cluster.local.upstream_rq_5xx".toList =
    ("cluster.upstream_rq".toList, [("cluster_name".toList, "outbound|80||shop.prod.svc.cluster.local".toList), ("response_code_class".toList, "5xx".toList)]) := by
  decide +kernel

/-- **C109**. The result of an authorization: for any name before it without an r, `rbac.allowed` and `rbac.denied` become the tag and leave `rbac`. -/
theorem C109_authz (p : Str) (v : String) (hv : v = "allowed" ∨ v = "denied") (hp : 'r' ∉ p) (hdot : '.' ∉ p) (vals : List (Str × Str)) :
    ∃ t ∈ lastTags, t.name = "authz_enforce_result".toList ∧
      applyTag (p ++ "rbac.".toList ++ v.toList, vals) t = (p ++ "rbac".toList, vals ++ [("authz_enforce_result".toList, v.toList)]) := by
  refine ⟨⟨"authz_enforce_result".toList, false, seqs [lit "rbac".toList, .cap 1 (seqs [lit ".".toList,
      .cap 2 (.alt (lit "allowed".toList) (lit "denied".toList))])]⟩, by unfold lastTags; simp only [List.mem_cons, true_or, or_true], rfl, ?_⟩
  generalize hw : (⟨"authz_enforce_result".toList, false, seqs [lit "rbac".toList, .cap 1 (seqs [lit ".".toList,
      .cap 2 (.alt (lit "allowed".toList) (lit "denied".toList))])]⟩ : Tag) = t
  have hn : t.name = "authz_enforce_result".toList := by rw [← hw]
  have hf : find t.re (p ++ ("rbac.".toList ++ v.toList)) = some [(1, '.' :: v.toList), (2, v.toList)] := by
    rw [find_skip _ p _ ?_]
    · rw [← hw]
      rcases hv with rfl | rfl <;> decide +kernel
    · intro y z e hz
      rw [← hw]
      obtain ⟨c, z, rfl⟩ := List.exists_cons_of_ne_nil hz
      have hc : c ≠ 'r' := by rintro rfl; exact hp (by rw [e]; simp)
      have e4 : "rbac".toList = ['r', 'b', 'a', 'c'] := by decide +kernel
      simp only [Re.at, seqs, Re.run, lit_run, e4]
      rw [List.cons_append, strip, if_neg fun h => hc h.symm]
  unfold applyTag
  have ha : t.anchored = false := by rw [← hw]
  rw [ha]
  simp only [Bool.false_eq_true, if_false, List.append_assoc]
  rw [hf]
  simp only
  rw [hn]
  refine Prod.ext ?_ rfl
  show removeFirst ('.' :: v.toList) _ = _
  have := removeFirst_spec ('.' :: v.toList) (p ++ "rbac".toList) [] (by simp) (by
    intro y z e hz
    obtain ⟨c, z, rfl⟩ := List.exists_cons_of_ne_nil hz
    have hc : c ≠ '.' := by
      rintro rfl
      have : '.' ∈ p ++ "rbac".toList := by rw [e]; simp
      rcases List.mem_append.mp this with h | h
      · exact hdot h
      · exact absurd h (by decide +kernel)
    rw [List.cons_append, strip, if_neg fun h => hc h.symm])
  have e5 : "rbac.".toList = "rbac".toList ++ ['.'] := by decide +kernel
  rw [e5]
  simpa using this

end Verif.Props.StatTags
