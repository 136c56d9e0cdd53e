import Verif.Bifrost.ClientCmd
import Verif.Props.ParseDn
/-
Property C264: the tunnel client exposes the addresses it is given, and every connection is proxied.
-/
namespace Verif.Bifrost.Cmd
open Verif.Dn (Text plus plus_mem)

theorem plus_of {f : Char → Bool} : ∀ {a r : Text}, a ≠ [] → (∀ c ∈ a, f c = true) → (a, r) ∈ plus f (a ++ r) := by
  intro a
  induction a with
  | nil => intro r h; exact absurd rfl h
  | cons c a ih =>
    intro r _ h
    simp only [List.cons_append, plus, h c (by simp), if_true]
    cases a with
    | nil => exact List.mem_append_right _ (by simp)
    | cons d a =>
      apply List.mem_append_left
      exact List.mem_map.2 ⟨(d :: a, r), ih (by simp) (fun x hx => h x (List.mem_cons_of_mem _ hx)), rfl⟩

theorem plus_iff {f : Char → Bool} {t a r : Text} : (a, r) ∈ plus f t ↔ t = a ++ r ∧ a ≠ [] ∧ ∀ c ∈ a, f c = true := by
  constructor
  · intro h; exact plus_mem h
  · rintro ⟨rfl, h1, h2⟩; exact plus_of h1 h2

theorem star_iff {f : Char → Bool} {t a r : Text} : (a, r) ∈ star f t ↔ t = a ++ r ∧ ∀ c ∈ a, f c = true := by
  unfold star
  rw [List.mem_append, plus_iff]
  constructor
  · rintro (⟨h1, _, h3⟩ | h)
    · exact ⟨h1, h3⟩
    · simp at h; obtain ⟨rfl, rfl⟩ := h; simp
  · rintro ⟨h1, h2⟩
    by_cases ha : a = []
    · subst ha; right; simp at h1; simp [h1]
    · left; exact ⟨h1, ha, h2⟩

theorem lit_iff {x : Char} {t r : Text} : r ∈ lit x t ↔ t = x :: r := by
  cases t with
  | nil => simp [lit]
  | cons c u =>
    simp only [lit]
    by_cases h : c = x
    · rw [if_pos h, h]; simp; exact eq_comm
    · rw [if_neg h]; simp [h]

/-- digits, at least one (specification) -/
def Digits (p : Text) : Prop := p ≠ [] ∧ ∀ c ∈ p, '0' ≤ c ∧ c ≤ '9'

/-- a text on one line (specification) -/
def OneLine (h : Text) : Prop := '\n' ∉ h

theorem isDigit_iff (c : Char) : isDigit c = true ↔ '0' ≤ c ∧ c ≤ '9' := by
  simp only [isDigit, Bool.and_eq_true, decide_eq_true_eq, Char.le_def]
  exact Iff.rfl

theorem digits_iff (p : Text) : Digits p ↔ p ≠ [] ∧ ∀ c ∈ p, isDigit c = true := by
  simp only [Digits, isDigit_iff]

theorem dots_iff (h : Text) : OneLine h ↔ ∀ c ∈ h, isDot c = true := by
  simp only [OneLine, isDot, ne_eq, decide_not, Bool.not_eq_eq_eq_not, Bool.not_true, decide_eq_false_iff_not]
  constructor
  · intro hn c hc he; exact hn (he ▸ hc)
  · intro hn hc; exact hn _ hc rfl

theorem Digits.noColon {p : Text} (h : Digits p) : ':' ∉ p := fun hm => by
  have := h.2 _ hm
  revert this; decide

theorem hostPort_iff {t h p : Text} : (h, p) ∈ hostPort t ↔ t = h ++ ':' :: p ∧ OneLine h ∧ Digits p := by
  simp only [hostPort, List.mem_flatMap]
  constructor
  · rintro ⟨⟨h', r⟩, hs, t1, hl, ⟨p', r'⟩, hp, hm⟩
    rw [star_iff] at hs
    rw [lit_iff] at hl
    rw [plus_iff] at hp
    simp only at hl hm
    by_cases hr : r' = []
    · rw [if_pos hr] at hm
      simp at hm
      obtain ⟨rfl, rfl⟩ := hm
      subst hr
      refine ⟨?_, (dots_iff _).2 hs.2, (digits_iff _).2 ⟨hp.2.1, hp.2.2⟩⟩
      rw [hs.1, hl, hp.1]; simp
    · rw [if_neg hr] at hm; simp at hm
  · rintro ⟨rfl, ho, hd⟩
    refine ⟨(h, ':' :: p), star_iff.2 ⟨rfl, (dots_iff _).1 ho⟩, p, lit_iff.2 rfl, (p, []), ?_, by simp⟩
    rw [plus_iff]
    exact ⟨by simp, ((digits_iff _).1 hd).1, ((digits_iff _).1 hd).2⟩

theorem split_first : ∀ {a b x y : Text}, ':' ∉ a → ':' ∉ b → a ++ ':' :: x = b ++ ':' :: y → a = b ∧ x = y := by
  intro a
  induction a with
  | nil =>
    intro b x y _ hb h
    cases b with
    | nil => simp at h; exact ⟨rfl, h⟩
    | cons c b => simp at h; exact absurd (h.1 ▸ List.mem_cons_self) hb
  | cons c a ih =>
    intro b x y ha hb h
    cases b with
    | nil => simp at h; exact absurd (h.1 ▸ List.mem_cons_self) ha
    | cons d b =>
      simp at h
      obtain ⟨rfl, h⟩ := h
      obtain ⟨rfl, rfl⟩ := ih (fun hm => ha (List.mem_cons_of_mem _ hm)) (fun hm => hb (List.mem_cons_of_mem _ hm)) h
      exact ⟨rfl, rfl⟩

theorem split_last {a b x y : Text} (hx : ':' ∉ x) (hy : ':' ∉ y) (h : a ++ ':' :: x = b ++ ':' :: y) : a = b ∧ x = y := by
  have h' := congrArg List.reverse h
  simp only [List.reverse_append, List.reverse_cons, List.append_assoc, List.singleton_append] at h'
  obtain ⟨h1, h2⟩ := split_first (by simpa using hx) (by simpa using hy) h'
  exact ⟨List.reverse_inj.1 h2, List.reverse_inj.1 h1⟩

theorem head_unique {α : Type} {l : List α} {x : α} (hm : x ∈ l) (hu : ∀ y ∈ l, y = x) : l.head? = some x := by
  cases l with
  | nil => simp at hm
  | cons y l => simp [hu y (by simp)]

theorem withPort_iff {t d h p : Text} :
    (d, h, p) ∈ ((plus isDigit t).flatMap fun d => (lit ':' d.2).flatMap fun t1 => (hostPort t1).map fun hp => (d.1, hp.1, hp.2)) ↔
      t = d ++ ':' :: (h ++ ':' :: p) ∧ Digits d ∧ OneLine h ∧ Digits p := by
  simp only [List.mem_flatMap, List.mem_map]
  constructor
  · rintro ⟨⟨d', r⟩, hd, t1, hl, ⟨h', p'⟩, hp, he⟩
    cases he
    rw [plus_iff] at hd
    rw [lit_iff] at hl
    rw [hostPort_iff] at hp
    simp only at hl
    exact ⟨by rw [hd.1, hl, hp.1], (digits_iff _).2 ⟨hd.2.1, hd.2.2⟩, hp.2.1, hp.2.2⟩
  · rintro ⟨rfl, hd, ho, hp⟩
    exact ⟨(d, ':' :: (h ++ ':' :: p)), plus_iff.2 ⟨rfl, ((digits_iff _).1 hd).1, ((digits_iff _).1 hd).2⟩, h ++ ':' :: p, lit_iff.2 rfl, (h, p),
      hostPort_iff.2 ⟨rfl, ho, hp⟩, rfl⟩

/-- **C264**: an address with a port to ask for is understood as written, whatever the host looks like -/
theorem C264_parse_port {d h p : Text} (hd : Digits d) (ho : OneLine h) (hp : Digits p) : parse (d ++ ':' :: (h ++ ':' :: p)) = some (d, h, p) := by
  unfold parse cands
  rw [List.head?_append]
  rw [head_unique (x := (d, h, p)) (withPort_iff.2 ⟨rfl, hd, ho, hp⟩)]
  · rfl
  · rintro ⟨d', h', p'⟩ hm
    obtain ⟨he, hd', _, hp'⟩ := withPort_iff.1 hm
    obtain ⟨rfl, he2⟩ := split_first hd.noColon hd'.noColon he
    obtain ⟨rfl, rfl⟩ := split_last hp.noColon hp'.noColon he2
    rfl

/-- **C264**: an address without one is understood as written, unless the host itself begins with digits and a colon -/
theorem C264_parse_plain {h p : Text} (ho : OneLine h) (hp : Digits p) (hn : ∀ d r, Digits d → h ≠ d ++ ':' :: r) : parse (h ++ ':' :: p) = some ([], h, p) := by
  unfold parse cands
  have h1 : ((plus isDigit (h ++ ':' :: p)).flatMap fun d => (lit ':' d.2).flatMap fun t1 => (hostPort t1).map fun hp => (d.1, hp.1, hp.2)) = [] := by
    rw [List.eq_nil_iff_forall_not_mem]
    rintro ⟨d', h', p'⟩ hm
    obtain ⟨he, hd', _, hp'⟩ := withPort_iff.1 hm
    rw [show d' ++ ':' :: (h' ++ ':' :: p') = (d' ++ ':' :: h') ++ ':' :: p' by simp] at he
    exact hn d' h' hd' (split_last hp.noColon hp'.noColon he).1
  rw [h1, List.nil_append, List.head?_map, head_unique (x := (h, p)) (hostPort_iff.2 ⟨rfl, ho, hp⟩)]
  · rfl
  · rintro ⟨h', p'⟩ hm
    obtain ⟨he, _, hp'⟩ := hostPort_iff.1 hm
    obtain ⟨rfl, rfl⟩ := split_last hp.noColon hp'.noColon he
    rfl

/-- **C264**: exactly the texts that end with a colon and digits are addresses -/
theorem C264_parse_none (t : Text) : parse t = none ↔ ¬ ∃ h p, t = h ++ ':' :: p ∧ OneLine h ∧ Digits p := by
  unfold parse cands
  rw [List.head?_eq_none_iff, List.append_eq_nil_iff]
  constructor
  · rintro ⟨_, h2⟩ ⟨h, p, he, ho, hp⟩
    have := hostPort_iff.2 ⟨he, ho, hp⟩
    rw [List.map_eq_nil_iff] at h2
    rw [h2] at this; simp at this
  · intro hn
    refine ⟨?_, ?_⟩
    · rw [List.eq_nil_iff_forall_not_mem]
      rintro ⟨d, h, p⟩ hm
      obtain ⟨he, hd, ho, hp⟩ := withPort_iff.1 hm
      refine hn ⟨d ++ ':' :: h, p, by rw [he]; simp, ?_, hp⟩
      intro hmm
      rcases List.mem_append.1 hmm with hmm | hmm
      · have := hd.2 _ hmm; revert this; decide
      · rcases List.mem_cons.1 hmm with e | hmm
        · revert e; decide
        · exact ho hmm
    · rw [List.map_eq_nil_iff, List.eq_nil_iff_forall_not_mem]
      rintro ⟨h, p⟩ hm
      exact hn ⟨h, p, hostPort_iff.1 hm⟩

/-! ### numbers -/

/-- the digits of a number (specification): the last is the number of units -/
inductive Dec : Text → Nat → Prop where
  | one (k : Nat) : k < 10 → Dec [Char.ofNat (48 + k)] k
  | more {t : Text} {n : Nat} (k : Nat) : Dec t n → k < 10 → Dec (t ++ [Char.ofNat (48 + k)]) (10 * n + k)

theorem digit_ofNat {k : Nat} (h : k < 10) : digit (Char.ofNat (48 + k)) = k ∧ '0' ≤ Char.ofNat (48 + k) ∧ Char.ofNat (48 + k) ≤ '9' := by
  have : ∀ k : Fin 10, digit (Char.ofNat (48 + k.val)) = k.val ∧ '0' ≤ Char.ofNat (48 + k.val) ∧ Char.ofNat (48 + k.val) ≤ '9' := by decide
  exact this ⟨k, h⟩

theorem Dec.number {t : Text} {n : Nat} (h : Dec t n) : number t = n := by
  induction h with
  | one k hk => simp [Cmd.number, (digit_ofNat hk).1]
  | more k _ hk ih =>
    simp only [Cmd.number, List.foldl_append, List.foldl_cons, List.foldl_nil, (digit_ofNat hk).1] at ih ⊢
    rw [ih]

theorem Dec.digits {t : Text} {n : Nat} (h : Dec t n) : Digits t := by
  induction h with
  | one k hk => exact ⟨by simp, by intro c hc; simp at hc; rw [hc]; exact (digit_ofNat hk).2⟩
  | more k _ hk ih =>
    refine ⟨by simp, ?_⟩
    intro c hc
    rcases List.mem_append.1 hc with hc | hc
    · exact ih.2 c hc
    · simp at hc; rw [hc]; exact (digit_ofNat hk).2

theorem Dec.atoi {t : Text} {n : Nat} (h : Dec t n) (hn : n < 2 ^ 63) : atoi t = n := by
  unfold Cmd.atoi
  rw [if_neg h.digits.1, h.number, if_pos hn]

/-! ### the command -/

/-- an address to expose (specification): a port to ask for or none, a host, the port of the service -/
structure Addr where
  ask : Option Nat
  host : Text
  port : Nat

/-- how it is written (specification) -/
inductive Addr.Text : Addr → Verif.Dn.Text → Prop where
  | plain {h p : Verif.Dn.Text} {n : Nat} : OneLine h → Dec p n → (∀ d r, Digits d → h ≠ d ++ ':' :: r) → Addr.Text ⟨none, h, n⟩ (h ++ ':' :: p)
  | asking {d h p : Verif.Dn.Text} {k n : Nat} : Dec d k → OneLine h → Dec p n → Addr.Text ⟨some k, h, n⟩ (d ++ ':' :: (h ++ ':' :: p))

/-- what should come of addresses (specification): for the `k`-th a listener for the port asked for, or any (0), named after its position, whose connections go to the
service. `at_`: the service a host and a port are -/
def wanted {A : Type} (at_ : Text → Nat → A) : Nat → List Addr → List (Proxy A)
  | _, [] => []
  | k, a :: r => ⟨a.ask.getD 0, a.port, k + 1, at_ a.host a.port⟩ :: wanted at_ (k + 1) r

/-- the addresses and how they are written -/
inductive Written : List Addr → List Text → Prop where
  | nil : Written [] []
  | cons {a : Addr} {t : Text} {as : List Addr} {ts : List Text} : a.Text t → Written as ts → Written (a :: as) (t :: ts)

/-- **C264**: if all addresses can be resolved and all ports given are available, every address is exposed, on the port asked for, and leads to its service. The numbers must
fit into 64 bits -/
theorem C264_exposed {A : Type} (resolve : Text → Option A) (listen : Nat → Nat → Nat → Bool) (at_ : Text → Nat → A) {as : List Addr} {ts : List Text}
    (hw : Written as ts) (hb : ∀ a ∈ as, a.ask.getD 0 < 2 ^ 63 ∧ a.port < 2 ^ 63) (hr : ∀ a ∈ as, ∀ p, Dec p a.port → resolve (a.host ++ ':' :: p) = some (at_ a.host a.port))
    (hl : ∀ x y z, listen x y z = true) : runProxies resolve listen ts = some (wanted at_ 0 as) := by
  have main : ∀ {as : List Addr} {ts : List Text}, Written as ts → (∀ a ∈ as, a.ask.getD 0 < 2 ^ 63 ∧ a.port < 2 ^ 63) →
      (∀ a ∈ as, ∀ p, Dec p a.port → resolve (a.host ++ ':' :: p) = some (at_ a.host a.port)) → ∀ k, runFrom resolve listen k ts = (wanted at_ k as, true) := by
    intro as ts hw
    induction hw with
    | nil => intro _ _ k; rfl
    | @cons a t as ts ha _ ih =>
      intro hb hr k
      have ih := ih (fun a h => hb a (List.mem_cons_of_mem _ h)) (fun a h => hr a (List.mem_cons_of_mem _ h)) (k + 1)
      have hb := hb a (by simp)
      have hr := hr a (by simp)
      cases ha with
      | @plain h p n ho hp hn =>
        simp only [runFrom, C264_parse_plain ho hp.digits hn, hr p hp, hl, if_true, ih, hp.atoi hb.2, wanted]
        simp [atoi]
      | @asking d h p j n hd ho hp =>
        simp only [runFrom, C264_parse_port hd.digits ho hp.digits, hr p hp, hl, if_true, ih, hp.atoi hb.2, hd.atoi hb.1, wanted]
        simp
  simp [runProxies, main hw hb hr 0]

/-- **C264**: what is no address is passed over and does not change what comes of the others, except for their names -/
theorem C264_invalid {A : Type} (resolve : Text → Option A) (listen : Nat → Nat → Nat → Bool) (k : Nat) (t : Text) (ts : List Text)
    (h : ¬ ∃ h p, t = h ++ ':' :: p ∧ OneLine h ∧ Digits p) : runFrom resolve listen k (t :: ts) = runFrom resolve listen (k + 1) ts := by
  simp [runFrom, (C264_parse_none t).2 h]

/-- **C264** is false of the code: a command with nothing but mistyped addresses succeeds and exposes nothing -/
theorem C264_silent_false {A : Type} (resolve : Text → Option A) (listen : Nat → Nat → Nat → Bool) : runProxies resolve listen ["localhost".toList, "8080".toList] = some [] := by
  have h1 : parse "localhost".toList = none := by decide +kernel
  have h2 : parse "8080".toList = none := by decide +kernel
  simp only [runProxies, runFrom, h1, h2, if_true]

/-- **C264** is false of the code: a port to ask for that is too large is not refused: any port is used -/
theorem C264_port_false {A : Type} (resolve : Text → Option A) (listen : Nat → Nat → Nat → Bool) (a : A) (hr : resolve "localhost:80".toList = some a)
    (hl : ∀ x y z, listen x y z = true) : runProxies resolve listen ["9223372036854775808:localhost:80".toList] = some [⟨0, 80, 1, a⟩] := by
  have h1 : parse "9223372036854775808:localhost:80".toList = some ("9223372036854775808".toList, "localhost".toList, "80".toList) := by decide +kernel
  have h2 : atoi "9223372036854775808".toList = 0 := by decide +kernel
  have h3 : atoi "80".toList = 80 := by decide +kernel
  have h4 : "localhost".toList ++ ':' :: "80".toList = "localhost:80".toList := by decide +kernel
  simp only [runProxies, runFrom, h1, h2, h3, h4, hr, hl, if_true]

/-- **C264** is false of the code: one address that cannot be resolved ends the command, also for all the others -/
theorem C264_unresolved_false {A : Type} (resolve : Text → Option A) (listen : Nat → Nat → Nat → Bool) (t : Text) (d h p : Text) (hp : parse t = some (d, h, p))
    (hr : resolve (h ++ ':' :: p) = none) (before after : List Text) : runProxies resolve listen (before ++ t :: after) = none := by
  have main : ∀ (before : List Text) (k : Nat), (runFrom resolve listen k (before ++ t :: after)).2 = false := by
    intro before
    induction before with
    | nil => intro k; simp only [List.nil_append, runFrom, hp, hr]
    | cons b bs ih =>
      intro k
      simp only [List.cons_append, runFrom]
      cases parse b with
      | none => exact ih (k + 1)
      | some x =>
        obtain ⟨d', h', p'⟩ := x
        simp only
        cases resolve (h' ++ ':' :: p') with
        | none => rfl
        | some a =>
          simp only
          split
          · exact ih (k + 1)
          · rfl
  simp [runProxies, main before 0]

/-! ### connections -/

/-- the connections of a list of results, up to the stop (specification) -/
def conns : List Acc → List (Nat × Bool)
  | [] => []
  | .stopped :: _ => []
  | .err :: r => conns r
  | .conn i up :: r => (i, up) :: conns r

/-- **C264**: every connection that is accepted is dealt with once and in order: given to the service if it can be reached, closed otherwise; errors do not end this, and it
ends exactly if the listener is stopped -/
theorem C264_connections (as : List Acc) : (run as).1 = (conns as).map (fun p => if p.2 then .proxied p.1 else .closed p.1) ∧
    ((run as).2 = true ↔ .stopped ∈ as) := by
  induction as with
  | nil => simp [run, conns]
  | cons a as ih =>
    obtain ⟨h1, h2⟩ := ih
    cases a with
    | stopped => simp [run, conns]
    | err => simp [run, conns, h1, h2]
    | conn i up => cases up <;> simp [run, conns, h1, h2]

/-- **C264** is false of the code: one connection whose service does not answer delays the next ones, here by ten seconds, although theirs would answer at once -/
theorem C264_delay_false (n : Nat) : times 0 ((0, 10000) :: List.replicate n (1, 0)) = List.replicate (n + 1) 10000 := by
  have h : ∀ n, times 10000 (List.replicate n (1, 0)) = List.replicate n 10000 := by
    intro n
    induction n with
    | zero => rfl
    | succ n ih =>
      rw [List.replicate_succ, List.replicate_succ]
      show (max 10000 1 + 0) :: times (max 10000 1 + 0) (List.replicate n (1, 0)) = 10000 :: List.replicate n 10000
      rw [show max 10000 1 + 0 = 10000 by decide, ih]
  show (max 0 0 + 10000) :: times (max 0 0 + 10000) (List.replicate n (1, 0)) = List.replicate (n + 1) 10000
  rw [show max 0 0 + 10000 = 10000 by decide, h n, List.replicate_succ]

/-- **C264**: if all services answer at once, no connection waits for another -/
theorem C264_prompt_partial : ∀ (l : List Nat) (now : Nat), (∀ t ∈ l, now ≤ t) → l.Pairwise (· ≤ ·) → times now (l.map fun t => (t, 0)) = l := by
  intro l
  induction l with
  | nil => intro _ _ _; rfl
  | cons t l ih =>
    intro now h hs
    have ht := h t (by simp)
    rw [List.pairwise_cons] at hs
    simp only [List.map_cons, times]
    rw [show max now t + 0 = t by omega, ih t hs.1 hs.2]

/-- the hypotheses are met -/
example : Written [⟨some 12, "[::1]".toList, 80⟩, ⟨none, "localhost".toList, 7⟩] ["12:[::1]:80".toList, "localhost:7".toList] := by
  have h12 : Dec "12".toList 12 := Dec.more (t := ['1']) 2 (Dec.one 1 (by decide)) (by decide)
  have h80 : Dec "80".toList 80 := Dec.more (t := ['8']) 0 (Dec.one 8 (by decide)) (by decide)
  have h7 : Dec "7".toList 7 := Dec.one 7 (by decide)
  refine .cons (Addr.Text.asking (d := "12".toList) (h := "[::1]".toList) (p := "80".toList) h12 ?_ h80)
    (.cons (Addr.Text.plain (h := "localhost".toList) (p := "7".toList) ?_ h7 ?_) .nil)
  · show '\n' ∉ "[::1]".toList; decide
  · show '\n' ∉ "localhost".toList; decide
  · intro d r hd he
    have hm : ':' ∈ "localhost".toList := by rw [he]; simp
    revert hm; decide
example : run [.conn 1 true, .err, .conn 2 false, .stopped, .conn 3 true] = ([.proxied 1, .closed 2], true) := rfl

end Verif.Bifrost.Cmd
