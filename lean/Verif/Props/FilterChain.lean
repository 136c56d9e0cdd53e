/-
C33: filter chain selection. C53: listener properties.
-/
import Verif.Ads.Route

namespace Verif.Route

/-! ### Specification -/

/-- The first `len` bits of the address are those of the network, in the same family. -/
def InRange (c : Cidr) (ip : Ip) : Prop :=
  c.v6 = ip.v6 ∧ ∀ i, width c.v6 - c.len ≤ i → i < width c.v6 → c.net.testBit i = ip.val.testBit i

/-- A value that fits its family. -/
def Ip.Valid (ip : Ip) : Prop := ip.val < 2 ^ width ip.v6
def Cidr.Valid (c : Cidr) : Prop := c.net < 2 ^ width c.v6

/-- The chain declares this destination port; port 0 is "no port". -/
def DeclaresPort (fc : FilterChain) (port : Nat) : Prop := fc.port = some port ∨ (port = 0 ∧ fc.port = none)

/-- Exact port if some chain of the list declares it, otherwise no port. -/
def PortOk (fcs : List FilterChain) (port : Nat) (fc : FilterChain) : Prop :=
  DeclaresPort fc port ∨ ((∀ f ∈ fcs, ¬ DeclaresPort f port) ∧ DeclaresPort fc 0)

/-- One of the chain's ranges contains the address. -/
def RangeOk (ip : Option Ip) (fc : FilterChain) : Prop :=
  ∃ r ∈ fc.ranges, r.addr ≠ "" ∧ ∃ c, r.parsed = some c ∧ ∃ a, ip = some a ∧ InRange c a

/-- The documented choice. -/
def Chosen (fcs : List FilterChain) (port : Nat) (ip : Option Ip) (fc : FilterChain) : Prop :=
  PortOk fcs port fc ∧
    (RangeOk ip fc ∨ (fc.ranges = [] ∧ ∀ f ∈ fcs, PortOk fcs port f → ¬ RangeOk ip f))

/-- Every address that occurs is a real address. -/
def ValidChains (fcs : List FilterChain) : Prop :=
  ∀ fc ∈ fcs, ∀ r ∈ fc.ranges, ∀ c, r.parsed = some c → c.Valid

def ValidIp (ip : Option Ip) : Prop := ∀ a, ip = some a → a.Valid

/-! ### Proofs -/

theorem contains_iff (c : Cidr) (ip : Option Ip) (hc : c.Valid) (hip : ValidIp ip) :
    c.contains ip = true ↔ ∃ a, ip = some a ∧ InRange c a := by
  cases ip with
  | none => simp [Cidr.contains]
  | some a =>
    have ha := hip a rfl
    unfold Ip.Valid at ha
    unfold Cidr.Valid at hc
    simp only [Cidr.contains, Bool.and_eq_true, decide_eq_true_eq, Option.some.injEq, exists_eq_left', InRange]
    refine and_congr_right fun hv => ?_
    rw [← hv] at ha
    constructor
    · intro h i h1 h2
      have := congrArg (fun n => n.testBit (i - (width c.v6 - c.len))) h
      simp only [Nat.testBit_div_two_pow] at this
      rw [show i - (width c.v6 - c.len) + (width c.v6 - c.len) = i by omega] at this
      exact this
    · intro h
      apply Nat.eq_of_testBit_eq
      intro i
      rw [Nat.testBit_div_two_pow, Nat.testBit_div_two_pow]
      by_cases hi : i + (width c.v6 - c.len) < width c.v6
      · exact h _ (by omega) hi
      · have hp : 2 ^ width c.v6 ≤ 2 ^ (i + (width c.v6 - c.len)) := Nat.pow_le_pow_right (by omega) (by omega)
        rw [Nat.testBit_lt_two_pow (by omega), Nat.testBit_lt_two_pow (by omega)]

theorem declares_iff (fc : FilterChain) (p : Nat) : fc.port.getD 0 = p ↔ DeclaresPort fc p := by
  unfold DeclaresPort
  cases fc.port <;> simp
  omega

theorem mem_matchPort {fcs : List FilterChain} {port : Nat} {fc : FilterChain} :
    fc ∈ matchPort fcs port ↔ fc ∈ fcs ∧ PortOk fcs port fc := by
  unfold matchPort PortOk
  dsimp only
  split
  · rename_i h
    rw [List.mem_filter, decide_eq_true_eq, declares_iff]
    obtain ⟨x, hx⟩ := List.exists_mem_of_length_pos h
    rw [List.mem_filter, decide_eq_true_eq, declares_iff] at hx
    refine and_congr_right fun _ => ⟨Or.inl, ?_⟩
    rintro (h | ⟨h, _⟩)
    · exact h
    · exact absurd hx.2 (h x hx.1)
  · rename_i h
    have hn : ∀ f ∈ fcs, ¬ DeclaresPort f port := by
      intro f hf hd
      apply h
      exact List.length_pos_of_mem (List.mem_filter.mpr ⟨hf, decide_eq_true ((declares_iff f port).mpr hd)⟩)
    rw [List.mem_filter, decide_eq_true_eq, declares_iff]
    refine and_congr_right fun hf => ⟨fun h => Or.inr ⟨hn, h⟩, ?_⟩
    rintro (h | ⟨_, h⟩)
    · exact absurd h (hn fc hf)
    · exact h

theorem matchPort_sublist (fcs : List FilterChain) (port : Nat) : (matchPort fcs port).Sublist fcs := by
  unfold matchPort
  dsimp only
  split <;> exact List.filter_sublist

theorem matchPrefixRanges_iff (ip : Option Ip) (hip : ValidIp ip) : ∀ (rs : List CidrRange) (b : Bool),
    (∀ r ∈ rs, ∀ c, r.parsed = some c → c.Valid) →
    matchPrefixRanges rs ip = some b →
    (b = true ↔ ∃ r ∈ rs, r.addr ≠ "" ∧ ∃ c, r.parsed = some c ∧ ∃ a, ip = some a ∧ InRange c a) := by
  intro rs
  induction rs with
  | nil => intro b _ h; cases h; simp
  | cons r rs ih =>
    intro b hv h
    unfold matchPrefixRanges at h
    have hv' : ∀ r ∈ rs, ∀ c, r.parsed = some c → c.Valid := fun r hr => hv r (List.mem_cons_of_mem _ hr)
    simp only [List.mem_cons, exists_eq_or_imp]
    split at h
    · rename_i ha
      rw [ih b hv' h]
      simp [ha]
    · rename_i ha
      split at h
      · cases h
      · rename_i c hc
        have hci := contains_iff c ip (hv r (by simp) c hc) hip
        split at h
        · rename_i hcon
          cases h
          simp only [true_iff]
          exact Or.inl ⟨ha, c, hc, hci.mp hcon⟩
        · rename_i hcon
          rw [ih b hv' h]
          constructor
          · exact Or.inr
          · rintro (⟨_, c', hc', hh⟩ | hh)
            · rw [hc] at hc'; cases hc'
              exact absurd (hci.mpr hh) hcon
            · exact hh

theorem matchIp_spec (ip : Option Ip) (hip : ValidIp ip) : ∀ (fcs l : List FilterChain), ValidChains fcs →
    matchIp ip fcs = some l → l.Sublist fcs ∧ ∀ fc, fc ∈ l ↔ fc ∈ fcs ∧ RangeOk ip fc := by
  intro fcs
  induction fcs with
  | nil => intro l _ h; cases h; simp
  | cons f fcs ih =>
    intro l hv h
    have hv' : ValidChains fcs := fun x hx => hv x (List.mem_cons_of_mem _ hx)
    unfold matchIp at h
    split at h
    · rename_i hr
      obtain ⟨h1, h2⟩ := ih l hv' h
      refine ⟨h1.cons _, fun fc => ?_⟩
      rw [h2, List.mem_cons]
      constructor
      · rintro ⟨a, b⟩; exact ⟨Or.inr a, b⟩
      · rintro ⟨rfl | a, b⟩
        · obtain ⟨r, hr', _⟩ := b
          rw [hr] at hr'; cases hr'
        · exact ⟨a, b⟩
    · split at h
      · cases h
      · rename_i b hb
        have hbi := matchPrefixRanges_iff ip hip _ b (hv f (by simp)) hb
        obtain ⟨l', hl', rfl⟩ := Option.map_eq_some_iff.mp h
        obtain ⟨h1, h2⟩ := ih l' hv' hl'
        cases b with
        | true =>
          refine ⟨h1.cons_cons _, fun fc => ?_⟩
          simp only [if_true, List.mem_cons, h2]
          constructor
          · rintro (rfl | ⟨a, c⟩)
            · exact ⟨Or.inl rfl, hbi.mp rfl⟩
            · exact ⟨Or.inr a, c⟩
          · rintro ⟨rfl | a, c⟩
            · exact Or.inl rfl
            · exact Or.inr ⟨a, c⟩
        | false =>
          refine ⟨h1.cons _, fun fc => ?_⟩
          simp only [List.mem_cons]
          show fc ∈ l' ↔ _
          rw [h2]
          constructor
          · rintro ⟨a, c⟩; exact ⟨Or.inr a, c⟩
          · rintro ⟨rfl | a, c⟩
            · exact absurd (hbi.mpr c) (by simp)
            · exact ⟨a, c⟩

/-- **C33** The chains found are exactly the chosen ones, in the order of the configuration: exact
port before no port, then a range that contains the address before no range. In particular none is
found iff none is chosen. -/
theorem C33_select (fcs : List FilterChain) (port : Nat) (ip : Option Ip) (l : List FilterChain)
    (hv : ValidChains fcs) (hip : ValidIp ip) (h : findFilterChain fcs port ip = some l) :
    l.Sublist fcs ∧ ∀ fc, fc ∈ l ↔ fc ∈ fcs ∧ Chosen fcs port ip fc := by
  unfold findFilterChain at h
  dsimp only at h
  obtain ⟨m, hm, rfl⟩ := Option.map_eq_some_iff.mp h
  have hvp : ValidChains (matchPort fcs port) := fun fc hfc => hv fc (mem_matchPort.mp hfc).1
  obtain ⟨h1, h2⟩ := matchIp_spec ip hip _ m hvp hm
  unfold Chosen
  split
  · rename_i hl
    have hm0 : m = [] := List.length_eq_zero_iff.mp hl
    refine ⟨List.filter_sublist.trans (matchPort_sublist _ _), fun fc => ?_⟩
    have hno : ∀ f ∈ fcs, PortOk fcs port f → ¬ RangeOk ip f := by
      intro f hf hp hr
      have := (h2 f).mpr ⟨mem_matchPort.mpr ⟨hf, hp⟩, hr⟩
      rw [hm0] at this; cases this
    rw [List.mem_filter, mem_matchPort, decide_eq_true_eq]
    constructor
    · rintro ⟨⟨a, b⟩, c⟩; exact ⟨a, b, Or.inr ⟨c, hno⟩⟩
    · rintro ⟨a, b, c | ⟨c, _⟩⟩
      · exact absurd c (hno fc a b)
      · exact ⟨⟨a, b⟩, c⟩
  · rename_i hl
    obtain ⟨x, hx⟩ := List.exists_mem_of_length_pos (Nat.pos_of_ne_zero hl)
    obtain ⟨hx1, hx2⟩ := (h2 x).mp hx
    refine ⟨h1.trans (matchPort_sublist _ _), fun fc => ?_⟩
    rw [h2, mem_matchPort]
    constructor
    · rintro ⟨⟨a, b⟩, c⟩; exact ⟨a, b, Or.inl c⟩
    · rintro ⟨a, b, c | ⟨_, c⟩⟩
      · exact ⟨⟨a, b⟩, c⟩
      · exact absurd hx2 (c x (mem_matchPort.mp hx1).1 (mem_matchPort.mp hx1).2)

theorem matchPrefixRanges_total (ip : Option Ip) : ∀ rs : List CidrRange,
    (∀ r ∈ rs, r.addr ≠ "" → r.parsed.isSome = true) → (matchPrefixRanges rs ip).isSome = true := by
  intro rs
  induction rs with
  | nil => intro _; rfl
  | cons r rs ih =>
    intro h
    have ih' := ih fun x hx => h x (List.mem_cons_of_mem _ hx)
    unfold matchPrefixRanges
    split
    · exact ih'
    · rename_i ha
      have := h r (by simp) ha
      split
      · rename_i hn; rw [hn] at this; cases this
      · split
        · rfl
        · exact ih'

/-- **C33** A lookup fails only because of a malformed range in a chain of the right port. -/
theorem C33_error (fcs : List FilterChain) (port : Nat) (ip : Option Ip)
    (h : findFilterChain fcs port ip = none) :
    ∃ fc ∈ fcs, PortOk fcs port fc ∧ ∃ r ∈ fc.ranges, r.addr ≠ "" ∧ r.parsed = none := by
  unfold findFilterChain at h
  dsimp only at h
  rw [Option.map_eq_none_iff] at h
  have key : ∀ l : List FilterChain, matchIp ip l = none →
      ∃ fc ∈ l, ∃ r ∈ fc.ranges, r.addr ≠ "" ∧ r.parsed = none := by
    intro l
    induction l with
    | nil => intro h; cases h
    | cons f l ih =>
      intro h
      unfold matchIp at h
      split at h
      · obtain ⟨fc, a, b⟩ := ih h
        exact ⟨fc, List.mem_cons_of_mem _ a, b⟩
      · split at h
        · rename_i hn
          refine ⟨f, by simp, ?_⟩
          apply Classical.byContradiction
          intro hc
          have := matchPrefixRanges_total ip f.ranges (by
            intro r hr ha
            cases hp : r.parsed with
            | some _ => rfl
            | none => exact absurd ⟨r, hr, ha, hp⟩ hc)
          rw [hn] at this; cases this
        · rw [Option.map_eq_none_iff] at h
          obtain ⟨fc, a, b⟩ := ih h
          exact ⟨fc, List.mem_cons_of_mem _ a, b⟩
  obtain ⟨fc, a, b⟩ := key _ h
  exact ⟨fc, (mem_matchPort.mp a).1, (mem_matchPort.mp a).2, b⟩

/-! ### A concrete configuration -/

def net10 : Cidr := ⟨false, 10 * 2 ^ 24, 8⟩
def net10_1 : Cidr := ⟨false, 10 * 2 ^ 24 + 2 ^ 16, 16⟩
def ip10_1_2_3 : Ip := ⟨false, 10 * 2 ^ 24 + 2 ^ 16 + 2 * 2 ^ 8 + 3⟩

def demo : List FilterChain :=
  [{ port := some 8080, ranges := [⟨"10.0.0.0", some net10⟩], proto := "tls", tls := some ⟨true, some 1⟩ },
   { port := some 8080, proto := "raw_buffer" },
   { proto := "raw_buffer" },
   { port := some 9090, ranges := [⟨"bad", none⟩] }]

example : findFilterChain demo 8080 (some ip10_1_2_3) = some [demo[0]] := by decide +kernel
example : findFilterChain demo 8080 none = some [demo[1]] := by decide +kernel
example : findFilterChain demo 1234 (some ip10_1_2_3) = some [demo[2]] := by decide +kernel
example : findFilterChain demo 9090 (some ip10_1_2_3) = none := by decide +kernel
example : ValidChains demo := by
  intro fc hfc r hr c hc
  simp only [demo, List.mem_cons, List.not_mem_nil, or_false] at hfc
  rcases hfc with rfl | rfl | rfl | rfl
  · simp only [List.mem_cons, List.not_mem_nil, or_false] at hr
    subst hr; cases hc
    unfold Cidr.Valid; decide
  · cases hr
  · cases hr
  · simp only [List.mem_cons, List.not_mem_nil, or_false] at hr
    subst hr; cases hc

/-- The documented rules select the chain of the longest containing prefix. -/
def LongestRule (sel : List FilterChain → Nat → Option Ip → Option (List FilterChain)) : Prop :=
  ∀ fcs port a l fc, ValidChains fcs → a.Valid → sel fcs port (some a) = some l → fc ∈ l →
    ∀ r ∈ fc.ranges, ∀ c, r.parsed = some c → InRange c a →
      ∀ f ∈ fcs, PortOk fcs port f → ∀ r' ∈ f.ranges, r'.addr ≠ "" → ∀ c', r'.parsed = some c' → InRange c' a →
        c'.len ≤ c.len

/-- Two chains for the same port, a wider plaintext range and a narrower TLS-only one. -/
def nested : List FilterChain :=
  [{ port := some 80, ranges := [⟨"10.0.0.0", some net10⟩], proto := "raw_buffer" },
   { port := some 80, ranges := [⟨"10.1.0.0", some net10_1⟩], proto := "tls" }]

/-- **C153 (fails)** The documented rules prefer the longest prefix; the code keeps every chain with
a containing range, so a narrower TLS-only range is reported together with the wider one. -/
theorem C153_longest_false : ¬ LongestRule findFilterChain := by
  intro h
  have hin : ∀ c : Cidr, c.Valid → c.contains (some ip10_1_2_3) = true → InRange c ip10_1_2_3 := by
    intro c hc hh
    obtain ⟨a, ha, hr⟩ := (contains_iff c (some ip10_1_2_3) hc (by intro a ha; cases ha; unfold Ip.Valid; decide)).mp hh
    cases ha; exact hr
  have hb : net10_1.len ≤ net10.len :=
    h nested 80 ip10_1_2_3 nested nested[0]
      (by
        intro fc hfc r hr c hc
        simp only [nested, List.mem_cons, List.not_mem_nil, or_false] at hfc
        rcases hfc with rfl | rfl <;>
          (simp only [List.mem_cons, List.not_mem_nil, or_false] at hr; subst hr; cases hc; unfold Cidr.Valid; decide))
      (by unfold Ip.Valid; decide) (by decide +kernel) (by simp [nested])
      ⟨"10.0.0.0", some net10⟩ (by simp [nested]) net10 rfl
      (hin _ (by unfold Cidr.Valid; decide) (by decide +kernel))
      nested[1] (by simp [nested]) (Or.inl (Or.inl rfl))
      ⟨"10.1.0.0", some net10_1⟩ (by simp [nested]) (by decide) net10_1 rfl
      (hin _ (by unfold Cidr.Valid; decide) (by decide +kernel))
  exact absurd hb (by decide)

/-! ### C53: listener properties -/

/-- The chains a listener uses for the destination: the chosen ones, or its default chain. -/
def Uses (l : Listener) (port : Nat) (ip : Option Ip) (fcs : List FilterChain) : Prop :=
  ∃ m, findFilterChain l.chains port ip = some m ∧
    ((m ≠ [] ∧ fcs = m) ∨ (m = [] ∧ ∃ d, l.dflt = some d ∧ fcs = [d]))

/-- The listener matches the destination. -/
def Matches (l : Listener) (port : Nat) (ip : Option Ip) : Prop := ∃ fcs, Uses l port ip fcs

theorem uses_iff {l : Listener} {port : Nat} {ip : Option Ip} {fcs : List FilterChain} :
    Uses l port ip fcs ↔ listenerChains l port ip = some fcs ∧ fcs ≠ [] := by
  unfold Uses listenerChains
  constructor
  · rintro ⟨m, hm, ⟨hne, rfl⟩ | ⟨rfl, d, hd, rfl⟩⟩
    · refine ⟨?_, hne⟩
      rw [hm]
      cases fcs with
      | nil => exact absurd rfl hne
      | cons a b => rfl
    · refine ⟨?_, by simp⟩
      rw [hm, hd]; rfl
  · rintro ⟨h, hne⟩
    obtain ⟨m, hm, h⟩ := Option.map_eq_some_iff.mp h
    refine ⟨m, hm, ?_⟩
    split at h
    · rename_i d hd
      exact Or.inr ⟨rfl, d, hd, h.symm⟩
    · subst h
      exact Or.inl ⟨hne, rfl⟩

theorem listenerLoop_some (port : Nat) (ip : Option Ip) : ∀ (ls : List Listener) (lp lp' : ListenerProps),
    listenerLoop port ip ls (some lp) = .ok (some lp') ↔
      lp = lp' ∧ ∀ l ∈ ls, listenerChains l port ip = some [] := by
  intro ls
  induction ls with
  | nil => intro lp lp'; simp [listenerLoop]
  | cons l ls ih =>
    intro lp lp'
    unfold listenerLoop
    split
    · rename_i h; simp [h]
    · rename_i h; rw [ih]; simp [h]
    · rename_i fcs hne h
      simp only [Option.isSome_some, if_true, List.mem_cons, forall_eq_or_imp, h]
      simp
      intro _ hh
      exact absurd hh hne

theorem listenerLoop_some_none (port : Nat) (ip : Option Ip) : ∀ (ls : List Listener) (lp : ListenerProps),
    listenerLoop port ip ls (some lp) ≠ .ok none := by
  intro ls
  induction ls with
  | nil => intro lp h; cases h
  | cons l ls ih =>
    intro lp h
    unfold listenerLoop at h
    split at h
    · cases h
    · exact ih lp h
    · simp at h

/-- The loop succeeds iff exactly one listener matches and no listener is malformed. -/
theorem listenerLoop_none (port : Nat) (ip : Option Ip) : ∀ (ls : List Listener) (lp : ListenerProps),
    listenerLoop port ip ls none = .ok (some lp) ↔
      ∃ pre l post fcs, ls = pre ++ l :: post ∧ listenerChains l port ip = some fcs ∧ fcs ≠ [] ∧ lp = chainProps l fcs ∧
        (∀ x ∈ pre, listenerChains x port ip = some []) ∧ ∀ x ∈ post, listenerChains x port ip = some [] := by
  intro ls
  induction ls with
  | nil => intro lp; simp [listenerLoop]
  | cons l ls ih =>
    intro lp
    constructor
    · intro h
      unfold listenerLoop at h
      split at h
      · cases h
      · rename_i hc
        obtain ⟨pre, l', post, fcs, rfl, h1, h2, h3, h4, h5⟩ := (ih lp).mp h
        refine ⟨l :: pre, l', post, fcs, rfl, h1, h2, h3, ?_, h5⟩
        intro x hx
        rcases List.mem_cons.mp hx with rfl | hx
        · exact hc
        · exact h4 x hx
      · rename_i fcs hne hc
        simp only [Option.isSome_none, Bool.false_eq_true, if_false] at h
        rw [listenerLoop_some] at h
        exact ⟨[], l, ls, fcs, rfl, hc, hne, h.1.symm, by simp, h.2⟩
    · rintro ⟨pre, l', post, fcs, he, h1, h2, h3, h4, h5⟩
      cases pre with
      | nil =>
        simp only [List.nil_append, List.cons.injEq] at he
        obtain ⟨rfl, rfl⟩ := he
        unfold listenerLoop
        rw [h1]
        cases fcs with
        | nil => exact absurd rfl h2
        | cons a b =>
          simp only [Option.isSome_none, Bool.false_eq_true, if_false]
          rw [listenerLoop_some]
          exact ⟨h3.symm, h5⟩
      | cons p pre =>
        simp only [List.cons_append, List.cons.injEq] at he
        obtain ⟨rfl, rfl⟩ := he
        unfold listenerLoop
        rw [h4 _ (by simp)]
        simp only
        exact (ih lp).mpr ⟨pre, l', post, fcs, rfl, h1, h2, h3, fun x hx => h4 x (by simp [hx]), h5⟩

/-- Whether the last TLS chain with a decodable TLS context requires a client certificate. -/
def lastRequires (fcs : List FilterChain) : Bool :=
  (((fcs.filter fun fc => fc.proto = "tls").filterMap (·.tls)).getLast?.map (·.requireClientCert)).getD false

theorem chainFold (fcs : List FilterChain) : ∀ (p : ListenerProps × Bool),
    let r := fcs.foldl chainStep p
    (r.1.useTLS = true ↔ p.1.useTLS = true ∨ ∃ fc ∈ fcs, fc.proto = "tls") ∧
    (r.2 = true ↔ p.2 = true ∨ ∃ fc ∈ fcs, fc.proto = "raw_buffer") ∧
    r.1.listener = p.1.listener ∧
    r.1.requireClientCert =
      (((fcs.filter fun fc => fc.proto = "tls").filterMap (·.tls)).getLast?.map (·.requireClientCert)).getD p.1.requireClientCert ∧
    (∀ v, r.1.validation = some v → p.1.validation = some v ∨ ∃ fc ∈ fcs, fc.proto = "tls" ∧ ∃ t, fc.tls = some t ∧ t.validation = some v) := by
  induction fcs with
  | nil => intro p; simp
  | cons fc fcs ih =>
    intro p
    simp only [List.foldl_cons, List.mem_cons, exists_eq_or_imp]
    obtain ⟨i1, i2, i3, i4, i5⟩ := ih (chainStep p fc)
    rw [i1, i2, i3, i4]
    unfold chainStep at i5 ⊢
    by_cases ht : fc.proto = "tls"
    · have hr : ¬ fc.proto = "raw_buffer" := by rw [ht]; decide
      simp only [ht, if_true] at i5 ⊢
      cases hc : fc.tls with
      | none =>
        rw [hc] at i5
        simp only [hc] at i5 ⊢
        refine ⟨by simp, ?_, trivial, ?_, ?_⟩
        · simp
        · simp [ht, hc]
        · intro v hv
          rcases i5 v hv with h | h
          · exact Or.inl h
          · exact Or.inr (Or.inr h)
      | some ts =>
        rw [hc] at i5
        simp only [hc] at i5 ⊢
        refine ⟨by simp, ?_, trivial, ?_, ?_⟩
        · simp
        · simp only [ht, hc, List.filter_cons, decide_true, if_true, List.filterMap_cons, List.getLast?_cons]
          cases (List.filterMap (fun x => x.tls) (List.filter (fun fc => decide (fc.proto = "tls")) fcs)).getLast? <;> rfl
        · intro v hv
          rcases i5 v hv with h | h
          · cases hval : ts.validation with
            | none => rw [hval] at h; exact Or.inl h
            | some w =>
              rw [hval] at h
              exact Or.inr (Or.inl ⟨trivial, ts, rfl, by rw [hval]; exact h⟩)
          · exact Or.inr (Or.inr h)
    · simp only [ht, if_false] at i5 ⊢
      by_cases hr : fc.proto = "raw_buffer"
      · simp only [hr, if_true] at i5 ⊢
        refine ⟨by simp, by simp, trivial, by simp [hr], ?_⟩
        intro v hv
        rcases i5 v hv with h | h
        · exact Or.inl h
        · exact Or.inr (Or.inr h)
      · simp only [hr, if_false] at i5 ⊢
        refine ⟨by simp, by simp, trivial, by simp [ht], ?_⟩
        intro v hv
        rcases i5 v hv with h | h
        · exact Or.inl h
        · exact Or.inr (Or.inr h)

/-- **C53** Properties are reported only if exactly one inbound listener matches the destination;
they are TLS iff a used chain of it takes TLS, permissive iff one takes TLS and one plaintext, and
a verifier configuration comes from a TLS chain in use. -/
theorem C53_properties (ls : List Listener) (port : Nat) (ip : Option Ip) (lp : ListenerProps)
    (h : listenerProperties ls port ip = .ok lp) :
    ∃ l ∈ ls, l.dir = .inbound ∧ ∃ fcs, Uses l port ip fcs ∧ lp.listener = l.name ∧
      (∀ x ∈ ls, x.dir = .inbound → Matches x port ip → x = l) ∧
      (ls.filter (fun x => x.dir = .inbound)).count l = 1 ∧
      (lp.useTLS = true ↔ ∃ fc ∈ fcs, fc.proto = "tls") ∧
      (lp.permissive = true ↔ (∃ fc ∈ fcs, fc.proto = "tls") ∧ ∃ fc ∈ fcs, fc.proto = "raw_buffer") ∧
      (lp.requireClientCert = lastRequires fcs) ∧
      (∀ v, lp.validation = some v → ∃ fc ∈ fcs, fc.proto = "tls" ∧ ∃ t, fc.tls = some t ∧ t.validation = some v) := by
  unfold listenerProperties at h
  split at h
  · cases h
  · cases h
  · rename_i x hx
    cases h
    obtain ⟨pre, l, post, fcs, he, h1, h2, rfl, h4, h5⟩ := (listenerLoop_none port ip _ _).mp hx
    have hml : l ∈ ls.filter (fun x => decide (x.dir = .inbound)) := by rw [he]; simp
    obtain ⟨hl, hd⟩ := List.mem_filter.mp hml
    have hne : ∀ x, listenerChains x port ip = some [] → x ≠ l := by
      rintro x hx hxl
      rw [hxl, h1] at hx
      cases hx
      exact h2 rfl
    obtain ⟨f1, f2, f3, f4, f5⟩ := chainFold fcs ({ useTLS := false, permissive := false, requireClientCert := false, validation := none, listener := l.name }, false)
    dsimp only at f1 f2 f3 f4 f5
    refine ⟨l, hl, of_decide_eq_true hd, fcs, uses_iff.mpr ⟨h1, h2⟩, f3, ?_, ?_, ?_, ?_, f4, ?_⟩
    · rintro x hx hxd ⟨g, hg⟩
      have hmx : x ∈ ls.filter (fun x => decide (x.dir = .inbound)) := List.mem_filter.mpr ⟨hx, decide_eq_true hxd⟩
      rw [he] at hmx
      obtain ⟨g1, g2⟩ := uses_iff.mp hg
      rcases List.mem_append.mp hmx with hm | hm
      · rw [h4 x hm] at g1; cases g1; exact absurd rfl g2
      · rcases List.mem_cons.mp hm with rfl | hm
        · rfl
        · rw [h5 x hm] at g1; cases g1; exact absurd rfl g2
    · rw [he, List.count_append, List.count_cons_self, List.count_eq_zero.mpr, List.count_eq_zero.mpr]
      · intro hm; exact hne l (h5 l hm) rfl
      · intro hm; exact hne l (h4 l hm) rfl
    · have f1' : (chainProps l fcs).useTLS = true ↔ _ := f1
      rw [f1']; simp
    · show (_ && _) = true ↔ _
      rw [Bool.and_eq_true, f1, f2]
      simp
    · intro v hv
      rcases f5 v hv with h | h
      · cases h
      · exact h

theorem perm_middle {α : Type} {pre post l' : List α} {a : α} (h : (pre ++ a :: post).Perm l') :
    ∃ pre' post', l' = pre' ++ a :: post' ∧ (pre ++ post).Perm (pre' ++ post') := by
  have ha : a ∈ l' := h.mem_iff.mp (by simp)
  obtain ⟨p', q', rfl⟩ := List.append_of_mem ha
  refine ⟨p', q', rfl, ?_⟩
  have h2 : (a :: (pre ++ post)).Perm (a :: (p' ++ q')) :=
    (List.perm_middle.symm.trans h).trans List.perm_middle
  exact List.Perm.cons_inv h2

/-- **C53** The answer does not depend on the order in which the listeners are visited. -/
theorem C53_order (ls ls' : List Listener) (port : Nat) (ip : Option Ip) (lp : ListenerProps) (hp : ls.Perm ls')
    (h : listenerProperties ls port ip = .ok lp) : listenerProperties ls' port ip = .ok lp := by
  unfold listenerProperties at h
  split at h
  · cases h
  · cases h
  · rename_i x hx
    cases h
    obtain ⟨pre, l, post, fcs, he, h1, h2, h3, h4, h5⟩ := (listenerLoop_none port ip _ _).mp hx
    have hp2 := hp.filter (fun l : Listener => decide (l.dir = .inbound))
    rw [he] at hp2
    obtain ⟨pre', post', he', hp3⟩ := perm_middle hp2
    have hall : ∀ x ∈ pre' ++ post', listenerChains x port ip = some [] := by
      intro x hx
      rcases List.mem_append.mp (hp3.mem_iff.mpr hx) with h | h
      · exact h4 x h
      · exact h5 x h
    have := (listenerLoop_none port ip (ls'.filter (fun l => decide (l.dir = .inbound))) lp).mpr
      ⟨pre', l, post', fcs, he', h1, h2, h3, fun x hx => hall x (by simp [hx]), fun x hx => hall x (by simp [hx])⟩
    unfold listenerProperties
    rw [this]

def demoListener : Listener := { name := "virtualInbound", dir := .inbound, addr := "0.0.0.0:15006", chains := demo }

example : listenerProperties [{ demoListener with dir := .outbound, name := "x" }, demoListener] 8080 (some ip10_1_2_3) =
    .ok ⟨true, false, true, some 1, "virtualInbound"⟩ := by decide +kernel
example : listenerProperties [demoListener] 8080 none = .ok ⟨false, false, false, none, "virtualInbound"⟩ := by decide +kernel
example : listenerProperties [demoListener, demoListener] 8080 none = .error .ambiguous := by decide +kernel

/-- Two TLS chains; only one of them requires a client certificate. -/
def twoTls (a b : Bool) : List Listener :=
  [{ name := "in", dir := .inbound, addr := "0.0.0.0:80",
     chains := [{ port := some 80, proto := "tls", tls := some ⟨a, none⟩ }, { port := some 80, proto := "tls", tls := some ⟨b, none⟩ }] }]

/-- **C155 (fails)** Whether a client certificate is reported as required depends on the order of the
TLS chains: the last one decides, so a listener with a chain that requires one can be reported as
not requiring it. -/
theorem C155_clientCert_false :
    listenerProperties (twoTls true false) 80 none = .ok ⟨true, false, false, none, "in"⟩ ∧
    listenerProperties (twoTls false true) 80 none = .ok ⟨true, false, true, none, "in"⟩ := by
  constructor <;> decide +kernel

end Verif.Route
