import Verif.Exp.JavaAddr
import Verif.Props.Ip
import Verif.Props.Middleware

/-! # C286: Java sockets tell their addresses; C287: Java programs connect to and listen on the addresses they give -/

namespace Verif.JavaAddr

/-! ### Specification -/

/-- The host of an address as Java gets it: in brackets if it has colons. -/
def shown (h : Str) : Str := if ':' ∈ h then '[' :: h ++ [']'] else h

/-! ### Proofs -/

theorem splitLast_none (b : Str) (h : ':' ∉ b) : Ip.splitLast b = none := by
  induction b with
  | nil => rfl
  | cons c r ih =>
    rw [List.mem_cons, not_or] at h
    unfold Ip.splitLast
    rw [ih h.2]
    simp only
    rw [if_neg (fun h' => h.1 h'.symm)]

theorem splitLast_append (a b : Str) (h : ':' ∉ b) : Ip.splitLast (a ++ ':' :: b) = some (a, b) := by
  induction a with
  | nil =>
    show Ip.splitLast (':' :: b) = _
    unfold Ip.splitLast
    rw [splitLast_none b h]
    rfl
  | cons c r ih =>
    show Ip.splitLast (c :: (r ++ ':' :: b)) = _
    unfold Ip.splitLast
    rw [ih]

theorem splitLast_iff (s : Str) : Ip.splitLast s = none ↔ ':' ∉ s := by
  refine ⟨fun h hc => ?_, splitLast_none s⟩
  induction s with
  | nil => cases hc
  | cons c r ih =>
    unfold Ip.splitLast at h
    cases hr : Ip.splitLast r with
    | some x => rw [hr] at h; cases h
    | none =>
      rw [hr] at h
      simp only at h
      by_cases hcc : c = ':'
      · rw [if_pos hcc] at h; cases h
      · exact ih hr ((List.mem_cons.mp hc).resolve_left (fun h' => hcc h'.symm))

theorem decFig_range (c : Char) (h : (Ip.decFig c).isSome) : 48 ≤ c.toNat ∧ c.toNat ≤ 57 ∧ Ip.decFig c = some (c.toNat - 48) := by
  unfold Ip.decFig at h ⊢
  split at h
  · rename_i hc; exact ⟨hc.1, hc.2, by rw [if_pos hc]⟩
  · cases h

theorem le_char (a b : Char) : a ≤ b ↔ a.toNat ≤ b.toNat := Iff.rfl

theorem digits_dec (w : Str) (h : Ip.Digits Ip.decFig w) : Wasm.Middleware.digits w = some (Ip.value Ip.decFig 10 w) := by
  obtain ⟨h1, h2⟩ := h
  unfold Wasm.Middleware.digits
  rw [if_neg]
  · have : ∀ (l : Str), (∀ c ∈ l, (Ip.decFig c).isSome) → ∀ n, l.foldl (fun n c => n * 10 + (c.toNat - 48)) n =
        l.foldl (fun n c => n * 10 + (Ip.decFig c).getD 0) n := by
      intro l
      induction l with
      | nil => intro _ n; rfl
      | cons c r ih =>
        intro hl n
        rw [List.foldl_cons, List.foldl_cons, (decFig_range c (hl c (by simp))).2.2]
        exact ih (fun x hx => hl x (by simp [hx])) _
    rw [this w h2 0]
    rfl
  · rw [not_or]
    refine ⟨h1, ?_⟩
    simp only [List.any_eq_true, not_exists, not_and]
    intro c hc
    obtain ⟨a, b, _⟩ := decFig_range c (h2 c hc)
    have ha : '0' ≤ c := (le_char _ _).mpr a
    have hb : c ≤ '9' := (le_char _ _).mpr b
    simp [ha, hb]

theorem atoi_dec (p : Nat) (hp : p < 2 ^ 63) : Wasm.Middleware.atoi (Ip.dec p) = ((p : Int), false) := by
  obtain ⟨h1, h2, _⟩ := Ip.dec_isDec (n := p) (by omega)
  have hd := digits_dec _ h1
  rw [h2] at hd
  have hne : ∀ ch : Char, (Ip.decFig ch) = none → ∀ t, Ip.dec p ≠ ch :: t := by
    intro ch hch t ht
    have := h1.2 ch (by rw [ht]; simp)
    rw [hch] at this
    cases this
  rw [Props.Middleware.atoi_plain (hne '-' (by decide)) (hne '+' (by decide)), hd]
  simp only
  rw [if_pos (by omega)]

theorem colon_dec (p : Nat) (hp : p < 10 ^ 21) : ':' ∉ Ip.dec p := by
  intro h
  have := (Ip.dec_isDec (n := p) hp).1.2 ':' h
  revert this
  decide

theorem toInt32_small (p : Nat) (hp : p ≤ 65535) : toInt32 (p : Int) = p := by
  unfold toInt32; omega

/-- **C286** The address of a connection: of the text of a host and a port, the port, and the host, in
brackets if it is an IPv6 address. -/
theorem C286_told (h : Str) (p : Nat) (hp : p ≤ 65535) :
    getAddress (Ip.joinHostPort h (Ip.dec p)) = .addr (shown h) p := by
  have hsplit : Ip.splitLast (Ip.joinHostPort h (Ip.dec p)) = some (shown h, Ip.dec p) := by
    have hc := colon_dec p (by omega)
    unfold Ip.joinHostPort shown
    by_cases hh : ':' ∈ h
    · rw [if_pos hh, if_pos hh]
      have : '[' :: h ++ ']' :: ':' :: Ip.dec p = ('[' :: h ++ [']']) ++ ':' :: Ip.dec p := by simp
      rw [this]
      exact splitLast_append _ _ hc
    · rw [if_neg hh, if_neg hh]
      exact splitLast_append _ _ hc
  unfold getAddress
  rw [hsplit]
  simp only [atoi_dec p (by omega)]
  rw [if_neg (by decide), toInt32_small p hp]

/-- **C286** A text without a number behind its last colon is an error; the program ends only for a text
without a colon that is a number. -/
theorem C286_crash (s : Str) :
    (getAddress s = .crash ↔ ':' ∉ s ∧ (Wasm.Middleware.atoi s).2 = false) ∧
    (∀ a b, ':' ∉ b → (getAddress (a ++ ':' :: b) = .fails ↔ (Wasm.Middleware.atoi b).2 = true)) := by
  constructor
  · unfold getAddress
    cases hs : Ip.splitLast s with
    | none =>
      have := (splitLast_iff s).mp hs
      simp only
      cases h : (Wasm.Middleware.atoi s).2
      · simp [this]
      · simp
    | some x =>
      have hn : ¬ ':' ∉ s := fun h => by rw [(splitLast_iff s).mpr h] at hs; cases hs
      simp only
      cases h : (Wasm.Middleware.atoi x.2).2
      · simpa using fun h' => absurd h' hn
      · simpa using fun h' => absurd h' hn
  · intro a b hb
    unfold getAddress
    rw [splitLast_append a b hb]
    simp only
    cases h : (Wasm.Middleware.atoi b).2 <;> simp

/-- **C286** A socket with a connection, between hosts that Java can read: it tells the two addresses
and ports. (What is missing are sockets without a connection.) -/
theorem C286_connected_partial {I : Type} (byName : Str → Option I) (address : Option I) (hl hr : Str) (pl pr : Nat)
    (il ir : I) (h1 : pl ≤ 65535) (h2 : pr ≤ 65535) (h3 : byName (shown hl) = some il) (h4 : byName (shown hr) = some ir) :
    remote byName ⟨some (Ip.joinHostPort hl (Ip.dec pl), Ip.joinHostPort hr (Ip.dec pr)), address⟩ = .value (ir, (pr : Int)) ∧
    localAddr byName ⟨some (Ip.joinHostPort hl (Ip.dec pl), Ip.joinHostPort hr (Ip.dec pr)), address⟩ = .value (il, (pl : Int)) := by
  have key : ∀ h p i, p ≤ 65535 → byName (shown h) = some i →
      socketAddress byName address (some (Ip.joinHostPort h (Ip.dec p))) = .value (i, (p : Int)) := by
    intro h p i hp hi
    unfold socketAddress inet port
    simp only [C286_told h p hp, hi]
    rw [if_neg (by omega)]
  exact ⟨key hr pr ir h2 h4, key hl pl il h1 h3⟩

/-- **C286 (fails)** A socket that is not connected, or whose address cannot be read: asking for the
addresses is an exception, where Java specifies a null or the local address; with whatever address was
set. -/
theorem C286_unconnected_false {I : Type} (byName : Str → Option I) (address : Option I) :
    remote byName ⟨none, address⟩ = .exception ∧ localAddr byName ⟨none, address⟩ = .exception ∧
    (∀ a b c, ':' ∉ b → (Wasm.Middleware.atoi b).2 = true →
      remote byName ⟨some (c, a ++ ':' :: b), address⟩ = .exception) := by
  have key : socketAddress byName address none = .exception := by
    cases address <;> rfl
  refine ⟨key, key, fun a b c hb hn => ?_⟩
  have hg : getAddress (a ++ ':' :: b) = .fails := ((C286_crash (a ++ ':' :: b)).2 a b hb).mpr hn
  show socketAddress byName address (some (a ++ ':' :: b)) = .exception
  unfold socketAddress inet port
  simp only [hg]
  cases address <;> rfl

example : getAddress "[::1]:8080".toList = .addr "[::1]".toList 8080 ∧ getAddress "10.0.0.1:443".toList = .addr "10.0.0.1".toList 443 ∧
    getAddress "pipe".toList = .fails ∧ getAddress "80".toList = .crash := by decide +kernel

/-! ### C287 -/

/-- Where a connection to the host is meant to go: to the address it is the text of; without a host, to
this machine; otherwise to the name. -/
def Meant (h : Str) (p : Nat) (t : Ip.Target) : Prop :=
  (h = [] ∧ t = .here p) ∨ (∃ a, h ≠ [] ∧ Ip.parseIP h = some a ∧ t = .ip a p) ∨
    (h ≠ [] ∧ Ip.parseIP h = none ∧ t = .name h p)

theorem dtoi_dec (p : Nat) (hp : p ≤ 65535) : Ip.dtoi (Ip.dec p) = some (p, (Ip.dec p).length) := by
  obtain ⟨⟨h0, h1⟩, h2, _⟩ := Ip.dec_isDec (n := p) (by omega)
  have := Ip.dtoi_munch (Ip.dec p) [] h1 (by simp)
  rw [List.append_nil, h2, if_neg] at this
  · exact this
  · rintro (h | h)
    · exact h0 h
    · omega

theorem plain_dec (p : Nat) (hp : p ≤ 65535) (ch : Char) (h : Ip.decFig ch = none) : ch ∉ Ip.dec p := by
  intro hc
  have := (Ip.dec_isDec (n := p) (by omega)).1.2 ch hc
  rw [h] at this
  cases this

/-- **C287** A name or an IPv4 address, or no host, and a port: the connection goes where it is meant to.
(What is missing are IPv6 addresses.) -/
theorem C287_target_partial (h : Str) (p : Nat) (hp : p ≤ 65535) (h1 : ':' ∉ h) (h2 : '[' ∉ h) (h3 : ']' ∉ h) :
    ∃ t, target h p = some t ∧ Meant h p t := by
  have hs : Ip.splitHostPort (hostPort h p) = some (h, Ip.dec p) := by
    unfold Ip.splitHostPort hostPort
    rw [splitLast_append h _ (plain_dec p hp ':' (by decide))]
    have hx : '[' ∉ h ++ ':' :: Ip.dec p ∧ ']' ∉ h ++ ':' :: Ip.dec p := by
      have a := plain_dec p hp '[' (by decide)
      have b := plain_dec p hp ']' (by decide)
      constructor <;> simp [*]
    cases h with
    | nil => simp only [List.nil_append] at hx ⊢; simp [hx]
    | cons c r =>
      have hc : c ≠ '[' := fun h' => h2 (by rw [h']; simp)
      simp only [List.cons_append] at hx ⊢
      split
      · rename_i heq; exact absurd heq.symm (by simp [hc.symm])
      · rw [if_neg]
        rintro (h' | h' | h')
        · exact h1 h'
        · exact hx.1 h'
        · exact hx.2 h'
  unfold target Ip.dialTarget
  rw [hs]
  simp only [dtoi_dec p hp]
  rw [if_neg (by omega)]
  by_cases h0 : h = []
  · rw [if_pos h0]; exact ⟨_, rfl, .inl ⟨h0, rfl⟩⟩
  · rw [if_neg h0]
    cases ha : Ip.parseIP h with
    | some a => exact ⟨_, rfl, .inr (.inl ⟨a, h0, ha, rfl⟩)⟩
    | none => exact ⟨_, rfl, .inr (.inr ⟨h0, ha, rfl⟩)⟩

/-- **C287 (fails)** An IPv6 address, which has colons: connecting and listening fail, with every port. -/
theorem C287_ipv6_false (h : Str) (p : Nat) (hp : p ≤ 65535) (h1 : ':' ∈ h) (h2 : '[' ∉ h) : target h p = none := by
  have hs : Ip.splitHostPort (hostPort h p) = none := by
    unfold Ip.splitHostPort hostPort
    rw [splitLast_append h _ (plain_dec p hp ':' (by decide))]
    cases h with
    | nil => cases h1
    | cons c r =>
      have hc : c ≠ '[' := fun h' => h2 (by rw [h']; simp)
      simp only [List.cons_append]
      split
      · rename_i heq; exact absurd heq.symm (by simp [hc.symm])
      · rw [if_pos (.inl h1)]
  unfold target Ip.dialTarget
  rw [hs]

example : target "::1".toList 80 = none ∧ Ip.parseIP "::1".toList ≠ none ∧
    target "echo".toList 80 = some (.name "echo".toList 80) ∧ target "10.0.0.1".toList 443 = (Ip.parseIP "10.0.0.1".toList).map (.ip · 443) := by
  decide +kernel

end Verif.JavaAddr
