import Verif.Tunnel.Message
/-
Property theorems C236-C239: messages on the streams of the tunnel.

Specification: `Law` says what JSON must satisfy; a stream is the list of pieces in which its bytes arrive.
-/
namespace Verif.Props.TMsg
open Verif.Tunnel.Msg

/-- values on the wire delimit themselves: a decoder recognises a value when it has all its bytes and not before -/
structure Law (c : Codec) : Prop where
  nonempty : ∀ w, c.enc w ≠ []
  whole : ∀ w r, c.scan (c.enc w ++ r) = .done w r
  part : ∀ w p q, p ++ q = c.enc w → q ≠ [] → c.scan p = .more

/-- all fields are present, as in every message made by `CreateMessage` for a type -/
def Full (m : Message) : Prop := m.id ≠ "" ∧ m.type ≠ "" ∧ m.data ≠ []

theorem create_full {id type : String} {data : Bytes} (h1 : id ≠ "") (h2 : type ≠ "") (h3 : data ≠ []) :
    Full (create id type data) := ⟨h1, h2, h3⟩

theorem fill_full {m old : Message} (h : Full m) : old.fill m.wire = m := by
  obtain ⟨a, b, c⟩ := h
  cases m
  simp_all [Message.fill, Message.wire]

/-- two splittings of the same bytes -/
theorem split_cases {α} {a b x y : List α} (h : a ++ b = x ++ y) : (∃ q, q ≠ [] ∧ a ++ q = x) ∨ ∃ r, a = x ++ r ∧ r ++ b = y := by
  rcases List.append_eq_append_iff.1 h with ⟨q, h1, h2⟩ | ⟨r, h1, h2⟩
  · by_cases hq : q = []
    · subst hq; exact .inr ⟨[], by simp [h1], by simpa using h2⟩
    · exact .inl ⟨q, hq, h1.symm⟩
  · exact .inr ⟨r, h1, h2.symm⟩

theorem decode_value {c : Codec} (hc : Law c) (w : Wire) (r : Bytes) : ∀ (cs : List Bytes) (buf : Bytes), buf ++ cs.flatten = c.enc w ++ r →
    ∃ buf' cs', decode c buf cs = .value w buf' cs' ∧ buf' ++ cs'.flatten = r := by
  intro cs
  induction cs with
  | nil =>
    intro buf h
    rcases split_cases h with ⟨q, hq, h1⟩ | ⟨r', h1, h2⟩
    · simp only [List.flatten_nil, List.append_nil] at h
      have := congrArg List.length h
      rw [← h1] at this
      simp only [List.length_append] at this
      have := List.length_pos_iff.2 hq
      omega
    · refine ⟨r', [], ?_, h2⟩
      rw [decode, h1, hc.whole]
  | cons x cs ih =>
    intro buf h
    rcases split_cases h with ⟨q, hq, h1⟩ | ⟨r', h1, h2⟩
    · rw [decode, hc.part w buf q h1 hq]
      exact ih (buf ++ x) (by simpa using h)
    · refine ⟨r', x :: cs, ?_, h2⟩
      rw [decode, h1, hc.whole]

theorem decode_eof {c : Codec} (hc : Law c) : ∀ cs : List Bytes, cs.flatten = [] → decode c [] cs = .eof := by
  have h0 : c.scan [] = .more := hc.part ⟨none, none, none⟩ [] _ rfl (hc.nonempty _)
  intro cs
  induction cs with
  | nil => intro _; rw [decode, h0]; simp
  | cons x cs ih =>
    intro h
    simp only [List.flatten_cons, List.append_eq_nil_iff] at h
    rw [decode, h0, h.1]
    exact ih h.2

theorem decode_cut {c : Codec} (hc : Law c) (w : Wire) (p q : Bytes) (hpq : p ++ q = c.enc w) (hp : p ≠ []) (hq : q ≠ []) :
    ∀ (cs : List Bytes) (buf : Bytes), buf ++ cs.flatten = p → decode c buf cs = .error := by
  intro cs
  induction cs with
  | nil =>
    intro buf h
    simp only [List.flatten_nil, List.append_nil] at h
    subst h
    rw [decode, hc.part w buf q hpq hq]
    simp [hp]
  | cons x cs ih =>
    intro buf h
    rw [decode, hc.part w buf ((x :: cs).flatten ++ q) (by rw [← List.append_assoc, h, hpq]) (by simp [hq])]
    exact ih (buf ++ x) (by simpa using h)

theorem loop_all {c : Codec} (hc : Law c) : ∀ (ms : List Message), (∀ m ∈ ms, Full m) → ∀ n old buf cs,
    ms.length < n → buf ++ cs.flatten = (ms.map (Message.bytes c)).flatten → handleLoop c n old buf cs = (ms, .ok) := by
  intro ms
  induction ms with
  | nil =>
    intro _ n old buf cs hn h
    cases n with
    | zero => simp at hn
    | succ n =>
      simp only [List.map_nil, List.flatten_nil, List.append_eq_nil_iff] at h
      simp only [handleLoop, h.1, decode_eof hc cs h.2]
  | cons m ms ih =>
    intro hf n old buf cs hn h
    cases n with
    | zero => simp at hn
    | succ n =>
      simp only [List.map_cons, List.flatten_cons, Message.bytes] at h
      obtain ⟨buf', cs', hd, hr⟩ := decode_value hc _ _ cs buf h
      have := ih (fun x hx => hf x (List.mem_cons_of_mem _ hx)) n (old.fill m.wire) buf' cs' (by simpa using hn) hr
      simp only [handleLoop, hd, this]
      rw [fill_full (hf m (by simp))]

theorem loop_cut {c : Codec} (hc : Law c) {w : Wire} {p q : Bytes} (hpq : p ++ q = c.enc w) (hp : p ≠ []) (hq : q ≠ []) :
    ∀ (ms : List Message), (∀ m ∈ ms, Full m) → ∀ n old buf cs,
    ms.length < n → buf ++ cs.flatten = (ms.map (Message.bytes c)).flatten ++ p → handleLoop c n old buf cs = (ms, .error) := by
  intro ms
  induction ms with
  | nil =>
    intro _ n old buf cs hn h
    cases n with
    | zero => simp at hn
    | succ n =>
      simp only [List.map_nil, List.flatten_nil, List.nil_append] at h
      simp only [handleLoop, decode_cut hc w p q hpq hp hq cs buf h]
  | cons m ms ih =>
    intro hf n old buf cs hn h
    cases n with
    | zero => simp at hn
    | succ n =>
      simp only [List.map_cons, List.flatten_cons, Message.bytes, List.append_assoc] at h
      obtain ⟨buf', cs', hd, hr⟩ := decode_value hc _ _ cs buf h
      have := ih (fun x hx => hf x (List.mem_cons_of_mem _ hx)) n (old.fill m.wire) buf' cs' (by simpa using hn) hr
      simp only [handleLoop, hd, this]
      rw [fill_full (hf m (by simp))]

theorem len_le {c : Codec} (hc : Law c) (ms : List Message) : ms.length ≤ (ms.map (Message.bytes c)).flatten.length := by
  induction ms with
  | nil => simp
  | cons m ms ih =>
    have := List.length_pos_iff.2 (hc.nonempty m.wire)
    simp only [List.map_cons, List.flatten_cons, List.length_append, List.length_cons, Message.bytes]
    omega

/-- **C236** However the bytes of the messages sent on a stream are cut into pieces, all of them are handled, in full, in the order in which they
were sent, and the end of the stream is no error. -/
theorem C236_all {c : Codec} (hc : Law c) {ms : List Message} (hf : ∀ m ∈ ms, Full m) {cs : List Bytes}
    (h : cs.flatten = (ms.map (Message.bytes c)).flatten) : handle c cs = (ms, .ok) :=
  loop_all hc ms hf _ _ _ _ (by have := len_le hc ms; rw [h]; omega) (by simpa using h)

/-- **C236** If the stream ends within a message, the messages before it are handled and the end is reported as an error. -/
theorem C236_cut {c : Codec} (hc : Law c) {ms : List Message} (hf : ∀ m ∈ ms, Full m) {m : Message} {p q : Bytes} (hm : p ++ q = m.bytes c)
    (hp : p ≠ []) (hq : q ≠ []) {cs : List Bytes} (h : cs.flatten = (ms.map (Message.bytes c)).flatten ++ p) : handle c cs = (ms, .error) :=
  loop_cut hc hm hp hq ms hf _ _ _ _ (by have := len_le hc ms; rw [h, List.length_append]; omega) (by simpa using h)

/-- **C236** A message goes to the handler registered last for its type (registrations newest first), and is refused if there is none. -/
theorem C236_handler {hs : List (String × Nat)} {m : Message} : (∀ h, route hs m = some h ↔ ∃ a b, hs = a ++ (m.type, h) :: b ∧ ∀ x ∈ a, x.1 ≠ m.type) ∧
    (route hs m = none ↔ ∀ x ∈ hs, x.1 ≠ m.type) := by
  constructor
  · intro h
    simp only [route, Option.map_eq_some_iff]
    constructor
    · rintro ⟨⟨t, h'⟩, hx, rfl⟩
      obtain ⟨ht, a, b, rfl, ha⟩ := List.find?_eq_some_iff_append.1 hx
      simp only [beq_iff_eq] at ht
      subst ht
      exact ⟨a, b, rfl, fun x hx' => by simpa using ha x hx'⟩
    · rintro ⟨a, b, rfl, ha⟩
      exact ⟨(m.type, h), List.find?_eq_some_iff_append.2 ⟨by simp, a, b, rfl, fun x hx' => by simpa using ha x hx'⟩, rfl⟩
  · simp [route, List.find?_eq_none]

theorem step_perm {s s' : St} {a : Act} (he : exec s a = some s') :
    (s'.todo ++ s'.live ++ s'.done).Perm (s.todo ++ s.live ++ s.done) := by
  cases a with
  | read =>
    simp only [exec] at he
    split at he <;> simp only [Option.some.injEq, reduceCtorEq] at he
    rename_i m l hm
    subst he
    rw [hm]
    refine List.Perm.append_right _ ?_
    rw [← List.append_assoc]
    exact (List.perm_append_comm (l₁ := l ++ s.live) (l₂ := [m]))
  | go i =>
    simp only [exec] at he
    split at he <;> simp only [Option.some.injEq, reduceCtorEq] at he
    rename_i m hm
    subst he
    obtain ⟨hi, hm'⟩ := List.getElem?_eq_some_iff.1 hm
    simp only [List.append_assoc]
    refine List.Perm.append_left _ ?_
    refine List.perm_middle.trans ?_
    rw [← List.cons_append]
    refine List.Perm.append_right _ ?_
    have : s.live = s.live.take i ++ m :: s.live.drop (i + 1) := by
      rw [← hm', List.getElem_cons_drop, List.take_append_drop]
    rw [List.eraseIdx_eq_take_drop_succ]
    refine (List.perm_middle.symm).trans ?_
    rw [← this]

/-- **C236** Every message is handed to its handler at most once, none is invented, and when all goroutines have run every message was handed
over exactly once. -/
theorem C236_once {ms : List Message} {as : List Act} {s : St} (h : run { todo := ms } as = some s) :
    (s.todo ++ s.live ++ s.done).Perm ms ∧ (s.todo = [] → s.live = [] → s.done.Perm ms) := by
  have key : ∀ as (s0 s : St), run s0 as = some s → (s.todo ++ s.live ++ s.done).Perm (s0.todo ++ s0.live ++ s0.done) := by
    intro as
    induction as with
    | nil => intro s0 s h; simp only [run, Option.some.injEq] at h; exact h ▸ .refl _
    | cons a as ih =>
      intro s0 s h
      simp only [run] at h
      cases he : exec s0 a with
      | none => rw [he] at h; cases h
      | some s1 => rw [he] at h; exact (ih s1 s h).trans (step_perm he)
  have := key as _ s h
  simp only [List.append_nil] at this
  exact ⟨this, fun a b => by simpa [a, b] using this⟩

/-! ### C237 -/

/-- **C237** Messages need not be handled in the order in which they arrive: each one has a goroutine of its own. -/
theorem C237_order_false (m m' : Message) : ∃ s, run { todo := [m, m'] } [.read, .read, .go 1, .go 0] = some s ∧ s.todo = [] ∧ s.live = [] ∧
    s.done.reverse = [m', m] := ⟨_, rfl, rfl, rfl, rfl⟩

/-- **C237** A message without type (and data) is handled as the message before it: the variable is not reset. -/
theorem C237_stale_false {c : Codec} (hc : Law c) : handle c [c.enc ⟨some "1", some "requestPort", some [1]⟩ ++ c.enc ⟨some "2", none, none⟩] =
    ([⟨"1", "requestPort", [1]⟩, ⟨"2", "requestPort", [1]⟩], .ok) := by
  have h0 : c.scan [] = .more := hc.part ⟨none, none, none⟩ [] _ rfl (hc.nonempty _)
  simp only [handle, List.flatten_cons, List.flatten_nil, List.append_nil, List.length_append]
  have l1 := List.length_pos_iff.2 (hc.nonempty ⟨some "1", some "requestPort", some [1]⟩)
  have l2 := List.length_pos_iff.2 (hc.nonempty ⟨some "2", none, none⟩)
  obtain ⟨n, hn⟩ : ∃ n, (c.enc ⟨some "1", some "requestPort", some [1]⟩).length + (c.enc ⟨some "2", none, none⟩).length + 1 = n + 3 :=
    ⟨(c.enc ⟨some "1", some "requestPort", some [1]⟩).length + (c.enc ⟨some "2", none, none⟩).length - 2, by omega⟩
  rw [hn]
  have d1 : decode c [] [c.enc ⟨some "1", some "requestPort", some [1]⟩ ++ c.enc ⟨some "2", none, none⟩] =
      .value ⟨some "1", some "requestPort", some [1]⟩ (c.enc ⟨some "2", none, none⟩) [] := by
    rw [decode, h0]; simp only [List.nil_append]; rw [decode, hc.whole]
  have d2 : decode c (c.enc ⟨some "2", none, none⟩) [] = .value ⟨some "2", none, none⟩ [] [] := by
    have := hc.whole ⟨some "2", none, none⟩ []
    rw [List.append_nil] at this
    rw [decode, this]
  have d3 : decode c [] [] = .eof := by rw [decode, h0]; simp
  simp only [handleLoop, d1, d2, d3, Message.fill, Option.getD_some, Option.getD_none]

/-- a message is read only when no other one is being handled -/
def OneByOne : St → List Act → Prop
  | _, [] => True
  | s, a :: as => (a = .read → s.live = []) ∧ ∀ s', exec s a = some s' → OneByOne s' as

/-- **C237** The same with messages as they are sent: a message whose type and data are empty does not reach its receiver as it was sent. -/
theorem C237_stale_sent_false {c : Codec} (hc : Law c) :
    handle c [(⟨"1", "requestPort", [1]⟩ : Message).bytes c ++ (⟨"2", "", []⟩ : Message).bytes c] =
    ([⟨"1", "requestPort", [1]⟩, ⟨"2", "requestPort", [1]⟩], .ok) := by
  have h1 : (⟨"1", "requestPort", [1]⟩ : Message).wire = ⟨some "1", some "requestPort", some [1]⟩ := by decide
  have h2 : (⟨"2", "", []⟩ : Message).wire = ⟨some "2", none, none⟩ := by decide
  rw [Message.bytes, Message.bytes, h1, h2]
  exact C237_stale_false hc


/-- **C237** (partial: the handlers are faster than the messages) Messages are handled in the order in which they arrive. -/
theorem C237_order_partial {ms : List Message} {as : List Act} {s : St} (h : run { todo := ms } as = some s) (ho : OneByOne { todo := ms } as) :
    s.done.reverse <+: ms := by
  have key : ∀ as (s0 s : St), run s0 as = some s → OneByOne s0 as → s0.live.length ≤ 1 → s0.done.reverse ++ s0.live ++ s0.todo = ms →
      s.done.reverse ++ s.live ++ s.todo = ms := by
    intro as
    induction as with
    | nil => intro s0 s h _ _ hm; simp only [run, Option.some.injEq] at h; exact h ▸ hm
    | cons a as ih =>
      intro s0 s h hob hl hm
      simp only [run] at h
      cases he : exec s0 a with
      | none => rw [he] at h; cases h
      | some s1 =>
        rw [he] at h
        have h2 := hob.2 s1 he
        cases a with
        | read =>
          have hlive := hob.1 rfl
          simp only [exec] at he
          split at he <;> simp only [Option.some.injEq, reduceCtorEq] at he
          rename_i m l hm'
          subst he
          exact ih _ s h h2 (by simp [hlive]) (by rw [← hm, hm']; simp)
        | go i =>
          simp only [exec] at he
          split at he <;> simp only [Option.some.injEq, reduceCtorEq] at he
          rename_i m hi
          obtain ⟨hi1, hi2⟩ := List.getElem?_eq_some_iff.1 hi
          have hi0 : i = 0 := by omega
          subst hi0
          have hlive : s0.live = [m] := by
            cases hs : s0.live with
            | nil => rw [hs] at hi1; simp at hi1
            | cons x l =>
              simp only [hs, List.length_cons] at hl hi2
              have : l = [] := List.length_eq_zero_iff.1 (by omega)
              simp_all
          subst he
          exact ih _ s h h2 (by simp [hlive]) (by rw [← hm]; simp [hlive])
  have := key as _ s h ho (by simp) (by simp)
  exact ⟨s.live ++ s.todo, by rw [← this, List.append_assoc]⟩

/-- two messages handled one by one -/
example (m m' : Message) : OneByOne { todo := [m, m'] } [.read, .go 0, .read, .go 0] ∧
    ∃ s, run { todo := [m, m'] } [.read, .go 0, .read, .go 0] = some s ∧ s.done.reverse = [m, m'] := by
  refine ⟨?_, _, rfl, rfl⟩
  refine ⟨fun _ => rfl, ?_⟩
  rintro _ ⟨⟩
  refine ⟨by simp, ?_⟩
  rintro _ ⟨⟩
  refine ⟨fun _ => rfl, ?_⟩
  rintro _ ⟨⟩
  exact ⟨by simp, fun _ _ => trivial⟩

/-! ### C238 -/

/-- **C238** Whatever follows the answer to an opened stream reaches the reader of the connection: no byte is lost, repeated or reordered, however
the bytes are cut into pieces, also if the answer arrives together with the first data. -/
theorem C238_lossless {c : Codec} (hc : Law c) {m : Message} (hm : Full m) {payload : Bytes} {cs : List Bytes}
    (h : cs.flatten = m.bytes c ++ payload) : ∃ cs', openStream c cs = some (m, cs') ∧ cs'.flatten = payload := by
  obtain ⟨buf, cs', hd, hr⟩ := decode_value hc m.wire payload cs [] (by simpa [Message.bytes] using h)
  refine ⟨buf :: cs', ?_, by simpa using hr⟩
  simp only [openStream, hd, fill_full hm]

/-- **C238** In the same way no message that follows the answer on the control stream is lost. -/
theorem C238_control {c : Codec} (hc : Law c) {m : Message} (hm : Full m) {ms : List Message} (hf : ∀ m ∈ ms, Full m) {cs : List Bytes}
    (h : cs.flatten = m.bytes c ++ (ms.map (Message.bytes c)).flatten) :
    ∃ cs', openStream c cs = some (m, cs') ∧ handle c cs' = (ms, .ok) := by
  obtain ⟨cs', h1, h2⟩ := C238_lossless hc hm h
  exact ⟨cs', h1, C236_all hc hf h2⟩

/-! ### C239 -/

/-- **C239** On the server's side the bytes that arrive together with the message that opens a stream are lost. -/
theorem C239_lost_false {c : Codec} (hc : Law c) {m : Message} (hm : Full m) (payload : Bytes) :
    acceptStream c [m.bytes c ++ payload] = some (m, []) := by
  have h0 : c.scan [] = .more := hc.part ⟨none, none, none⟩ [] _ rfl (hc.nonempty _)
  have : decode c [] [m.bytes c ++ payload] = .value m.wire payload [] := by
    rw [decode, h0]; simp only [List.nil_append]; rw [decode, Message.bytes, hc.whole]
  simp only [acceptStream, this, fill_full hm]

theorem decode_done {c : Codec} {buf : Bytes} {cs : List Bytes} {w : Wire} {r : Bytes} (h : c.scan buf = .done w r) :
    decode c buf cs = .value w r cs := by
  cases cs <;> rw [decode, h]

theorem decode_exact {c : Codec} (hc : Law c) (w : Wire) (cs2 : List Bytes) : ∀ (cs1 : List Bytes) (buf : Bytes), buf ++ cs1.flatten = c.enc w →
    ∃ cs', decode c buf (cs1 ++ cs2) = .value w [] cs' ∧ cs'.flatten = cs2.flatten := by
  intro cs1
  induction cs1 with
  | nil =>
    intro buf h
    simp only [List.flatten_nil, List.append_nil] at h
    refine ⟨cs2, ?_, rfl⟩
    have := hc.whole w []
    rw [List.append_nil] at this
    rw [h, List.nil_append, decode_done this]
  | cons x cs ih =>
    intro buf h
    by_cases hb : (x :: cs).flatten = []
    · rw [hb, List.append_nil] at h
      refine ⟨x :: cs ++ cs2, ?_, by rw [List.flatten_append, hb, List.nil_append]⟩
      have := hc.whole w []
      rw [List.append_nil] at this
      rw [h, decode_done this]
    · rw [List.cons_append, decode, hc.part w buf _ h hb]
      exact ih (buf ++ x) (by simpa using h)

/-- **C239** (partial: the peer sends nothing more until its message was read, as the client does, which waits for the answer) The server reads
all of what follows. -/
theorem C239_wait_partial {c : Codec} (hc : Law c) {m : Message} (hm : Full m) {cs1 cs2 : List Bytes} (h : cs1.flatten = m.bytes c) :
    ∃ cs', acceptStream c (cs1 ++ cs2) = some (m, cs') ∧ cs'.flatten = cs2.flatten := by
  obtain ⟨cs', h1, h2⟩ := decode_exact hc m.wire cs2 cs1 [] (by simpa [Message.bytes] using h)
  exact ⟨cs', by simp only [acceptStream, h1, fill_full hm], h2⟩

/-- **C239** (partial: bytes may be missing at the beginning) What the server reads is the end of what was sent. -/
theorem C239_suffix_partial {c : Codec} (hc : Law c) {m : Message} (hm : Full m) {payload : Bytes} {cs : List Bytes}
    (h : cs.flatten = m.bytes c ++ payload) : ∃ cs', acceptStream c cs = some (m, cs') ∧ cs'.flatten <:+ payload := by
  obtain ⟨buf, cs', hd, hr⟩ := decode_value hc m.wire payload cs [] (by simpa [Message.bytes] using h)
  exact ⟨cs', by simp only [acceptStream, hd, fill_full hm], ⟨buf, hr⟩⟩

/-! ### A codec that satisfies the laws -/

/-- a list of numbers in unary -/
def unary : List Nat → Bytes
  | [] => [0]
  | n :: l => List.replicate n 1 ++ 2 :: unary l

theorem rep_inj : ∀ (n n' : Nat) (a b : Bytes), List.replicate n 1 ++ 2 :: a = List.replicate n' 1 ++ 2 :: b → n = n' ∧ a = b := by
  intro n
  induction n with
  | zero =>
    intro n' a b h
    cases n' with
    | zero => simpa using h
    | succ n' => simp [List.replicate_succ] at h
  | succ n ih =>
    intro n' a b h
    cases n' with
    | zero => simp [List.replicate_succ] at h
    | succ n' =>
      simp only [List.replicate_succ, List.cons_append, List.cons.injEq, true_and] at h
      have := ih n' a b h
      exact ⟨by omega, this.2⟩

theorem rep_zero (n : Nat) (a b : Bytes) : List.replicate n 1 ++ 2 :: a ≠ 0 :: b := by
  cases n <;> simp [List.replicate_succ]

theorem unary_inj : ∀ (l l' : List Nat) (r r' : Bytes), unary l ++ r = unary l' ++ r' → l = l' ∧ r = r' := by
  intro l
  induction l with
  | nil =>
    intro l' r r' h
    cases l' with
    | nil => simpa [unary] using h
    | cons n l' =>
      simp only [unary, List.append_assoc, List.cons_append] at h
      exact absurd h.symm (rep_zero _ _ _)
  | cons n l ih =>
    intro l' r r' h
    cases l' with
    | nil =>
      simp only [unary, List.append_assoc, List.cons_append] at h
      exact absurd h (rep_zero _ _ _)
    | cons n' l' =>
      simp only [unary, List.append_assoc, List.cons_append] at h
      obtain ⟨rfl, h1⟩ := rep_inj _ _ _ _ h
      obtain ⟨rfl, h2⟩ := ih _ _ _ h1
      exact ⟨rfl, h2⟩

/-- an optional list of numbers, with its length -/
def field : Option (List Nat) → List Nat
  | none => [0]
  | some l => (l.length + 1) :: l

theorem field_inj {a b : Option (List Nat)} {r r' : List Nat} (h : field a ++ r = field b ++ r') : a = b ∧ r = r' := by
  cases a with
  | none => cases b with
    | none => simpa [field] using h
    | some l => simp [field] at h
  | some l => cases b with
    | none => simp [field] at h
    | some l' =>
      simp only [field, List.cons_append, List.cons.injEq, Nat.add_right_cancel_iff] at h
      obtain ⟨rfl, rfl⟩ := List.append_inj h.2 h.1
      exact ⟨rfl, rfl⟩

/-- a message as numbers -/
def nums (w : Wire) : List Nat :=
  field (w.id.map (·.toList.map Char.toNat)) ++ (field (w.type.map (·.toList.map Char.toNat)) ++ field (w.data.map (·.map UInt8.toNat)))

theorem str_inj : Function.Injective fun s : String => s.toList.map Char.toNat := by
  intro a b h
  have := (List.map_inj_right (fun _ _ h => Char.toNat_inj.1 h)).1 h
  exact String.toList_inj.1 this

theorem optmap_inj {α β} {f : α → β} (hf : Function.Injective f) {a b : Option α} (h : a.map f = b.map f) : a = b := by
  cases a <;> cases b <;> simp_all
  exact hf h

theorem nums_inj {w w' : Wire} (h : nums w = nums w') : w = w' := by
  obtain ⟨h1, h⟩ := field_inj h
  obtain ⟨h2, h⟩ := field_inj h
  have h3 := (field_inj (r := []) (r' := []) (by simpa using h)).1
  have e1 := optmap_inj str_inj h1
  have e2 := optmap_inj str_inj h2
  have e3 := optmap_inj (f := fun l : Bytes => l.map UInt8.toNat)
    (fun a b h => (List.map_inj_right (fun _ _ h => UInt8.toNat_inj.1 h)).1 h) h3
  cases w; cases w'; simp_all

open Classical in
/-- a codec whose decoder recognises a value as soon as it is complete -/
noncomputable def demo : Codec where
  enc w := unary (nums w)
  scan b := if h : ∃ p : Wire × Bytes, b = unary (nums p.1) ++ p.2 then .done h.choose.1 h.choose.2
    else if ∃ w q, b ++ q = unary (nums w) then .more else .bad

/-- the laws can be met -/
theorem demo_law : Law demo := by
  have inj : ∀ {w w' : Wire} {r r' : Bytes}, unary (nums w) ++ r = unary (nums w') ++ r' → w = w' ∧ r = r' := by
    intro w w' r r' h
    obtain ⟨h1, h2⟩ := unary_inj _ _ _ _ h
    exact ⟨nums_inj h1, h2⟩
  refine ⟨?_, ?_, ?_⟩
  · intro w h
    simp only [demo] at h
    cases hn : nums w with
    | nil => rw [hn] at h; simp [unary] at h
    | cons n l => rw [hn] at h; simp [unary] at h
  · intro w r
    have hex : ∃ p : Wire × Bytes, unary (nums w) ++ r = unary (nums p.1) ++ p.2 := ⟨(w, r), rfl⟩
    have hch := inj hex.choose_spec
    simp only [demo]
    rw [dif_pos hex, ← hch.1, ← hch.2]
  · intro w p q h hq
    simp only [demo] at h ⊢
    rw [dif_neg, if_pos ⟨w, q, h⟩]
    rintro ⟨⟨w', r⟩, hp⟩
    simp only at hp
    rw [hp, List.append_assoc] at h
    have := (inj (r' := []) (h.trans (List.append_nil _).symm)).2
    simp only [List.append_eq_nil_iff] at this
    exact hq this.2

/-- three messages in one piece, and byte by byte -/
example (b : Bytes) (h : b ≠ []) : handle demo [Message.bytes demo ⟨"1", "ping", b⟩ ++ Message.bytes demo ⟨"2", "ping", b⟩] =
    ([⟨"1", "ping", b⟩, ⟨"2", "ping", b⟩], .ok) :=
  C236_all demo_law (by simp [Full, h]) (by simp)

end Verif.Props.TMsg
