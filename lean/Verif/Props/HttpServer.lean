import Verif.Net.HttpServer
import Verif.Props.Unified
/-
C246 (no client stops or delays a server), C247 (a server started with TLS speaks TLS only).
-/
namespace Verif.Props.HttpServer
open Verif Verif.Unified Verif.Net.HttpServer

/-! ### specification -/

/-- the client talks TLS to a listener of this mode -/
def ViaTls (m : Mode) (c : Client) : Prop := m = .strict ∨ m = .other ∨ m = .permissive ∧ TlsStart c.src.bytes

/-- what a client is entitled to: its connection, from its first byte, through TLS or in plain text; only one that ended before three bytes may have
been closed -/
def Handled : Mode × Client → Saw → Prop
  | (m, c), .tls x => ViaTls m c ∧ x.stream = c.src.bytes ∧ x.src.fin = c.src.fin
  | (m, c), .plain x => ¬ ViaTls m c ∧ x.stream = c.src.bytes ∧ x.src.fin = c.src.fin
  | (m, c), .closed => m = .permissive ∧ c.src.bytes.length < 3 ∧ c.src.fin = .eof

/-- one handled connection per client, in order -/
inductive AllHandled : List (Mode × Client) → List Saw → Prop where
  | nil : AllHandled [] []
  | cons {e : Mode × Client} {s : Saw} {l : List (Mode × Client)} {ss : List Saw} : Handled e s → AllHandled l ss → AllHandled (e :: l) (s :: ss)

theorem AllHandled.length {l : List (Mode × Client)} {ss : List Saw} (h : AllHandled l ss) : ss.length = l.length := by
  induction h with
  | nil => rfl
  | cons _ _ ih => rw [List.length_cons, List.length_cons, ih]

/-- a client that sends three bytes, or ends -/
def Polite (c : Client) : Prop := 3 ≤ c.src.bytes.length ∨ c.src.fin = .eof

/-! ### C246 -/

/-- one client -/
theorem one (m : Mode) (c : Client) (hw : Wf c.src) (hp : m = .permissive → Polite c) :
    ∃ s, Handled (m, c) s ∧ ∀ r, loop ((m, c) :: r) = (s :: (loop r).1, (loop r).2) := by
  cases m with
  | strict => exact ⟨.tls { buf := [], src := c.src }, ⟨.inl rfl, rfl, rfl⟩, fun r => rfl⟩
  | other => exact ⟨.tls { buf := [], src := c.src }, ⟨.inr (.inl rfl), rfl, rfl⟩, fun r => rfl⟩
  | disabled => exact ⟨.plain { buf := [], src := c.src }, ⟨by simp [ViaTls], rfl, rfl⟩, fun r => rfl⟩
  | permissive =>
    by_cases h3 : 3 ≤ c.src.bytes.length
    · obtain ⟨x, hs, hf, _, h⟩ := C50_permissive c.src hw h3
      rcases h with ⟨ht, ha⟩ | ⟨ht, ha⟩
      · exact ⟨.tls x, ⟨.inr (.inr ⟨rfl, ht⟩), hs, hf⟩, fun r => by rw [loop, ha]⟩
      · refine ⟨.plain x, ⟨?_, hs, hf⟩, fun r => by rw [loop, ha]⟩
        rintro (h | h | h)
        · cases h
        · cases h
        · exact ht h.2
    · have hlt : c.src.bytes.length < 3 := by omega
      have he : c.src.fin = .eof := (hp rfl).resolve_left h3
      have ha := C174_short_partial c.src hw hlt
      rw [he] at ha
      exact ⟨.closed, ⟨rfl, hlt, he⟩, fun r => by rw [loop, ha]⟩

/-- **C246** (partial: clients of a listener in permissive mode send three bytes or end) Every client is handled, in order, with all its bytes, and the
server waits for the next. -/
theorem C246_all_partial (l : List (Mode × Client)) (hw : ∀ e ∈ l, Wf e.2.src) (hp : ∀ e ∈ l, e.1 = .permissive → Polite e.2) :
    AllHandled l (loop l).1 ∧ (loop l).2 = .waiting := by
  induction l with
  | nil => exact ⟨.nil, rfl⟩
  | cons e l ih =>
    obtain ⟨m, c⟩ := e
    obtain ⟨s, hs, hl⟩ := one m c (hw _ (.head _)) (hp _ (.head _))
    rw [hl]
    have := ih (fun e he => hw e (.tail _ he)) (fun e he => hp e (.tail _ he))
    exact ⟨.cons hs this.1, this.2⟩

/-- **C246** In the other modes no client can do anything to the server, whatever it sends or does not send. -/
theorem C246_fixed (l : List (Mode × Client)) (hw : ∀ e ∈ l, Wf e.2.src) (hm : ∀ e ∈ l, e.1 ≠ .permissive) : AllHandled l (loop l).1 ∧ (loop l).2 = .waiting :=
  C246_all_partial l hw fun e he h => absurd h (hm e he)

theorem loop_append (l r : List (Mode × Client)) (h : (loop l).2 = .waiting) : loop (l ++ r) = ((loop l).1 ++ (loop r).1, (loop r).2) := by
  induction l with
  | nil => rfl
  | cons e l ih =>
    obtain ⟨m, c⟩ := e
    rw [List.cons_append]
    rw [loop] at h ⊢
    rw [loop]
    cases ha : accept m c.src with
    | tls x => simp only [ha] at h ⊢; rw [ih h]; rfl
    | plain x => simp only [ha] at h ⊢; rw [ih h]; rfl
    | closed => simp only [ha] at h ⊢; rw [ih h]; rfl
    | error =>
      simp only [ha] at h ⊢
      cases ht : c.temporary with
      | true => simp only [ht, if_true] at h ⊢; exact ih h
      | false => simp only [ht] at h; cases h
    | blocked => simp only [ha] at h; cases h

/-- **C246** In permissive mode, the one a server starts in, a single client that resets its connection before it sent three bytes ends the server:
whoever comes after it, however many, is not handled. -/
theorem C246_reset_false (before after : List (Mode × Client)) (c : Client) (hb : (loop before).2 = .waiting) (hw : Wf c.src) (h3 : c.src.bytes.length < 3)
    (hf : c.src.fin = .err) (ht : c.temporary = false) : loop (before ++ (.permissive, c) :: after) = ((loop before).1, .returned) := by
  rw [loop_append _ _ hb, loop, C174_short_partial c.src hw h3, hf]
  simp [ht]

/-- **C246** A client that connects and sends nothing (or at most two bytes) keeps the server from handling anyone after it. -/
theorem C246_silent_false (before after : List (Mode × Client)) (c : Client) (hb : (loop before).2 = .waiting) (hw : Wf c.src) (h3 : c.src.bytes.length < 3)
    (hf : c.src.fin = .silent) : loop (before ++ (.permissive, c) :: after) = ((loop before).1, .hangs) := by
  rw [loop_append _ _ hb, loop, C174_short_partial c.src hw h3, hf]
  simp

/-! ### C247 -/

theorem modes_none (m : Mode) (l : List Client) : modes m (l.map fun c => (none, c)) = l.map fun c => (m, c) := by
  induction l with
  | nil => rfl
  | cons c l ih => rw [List.map_cons, List.map_cons, modes, ih]

/-- the server was started for TLS, and its files could be read -/
def Tls (st : Start) : Prop := st = .serveWithTLSConfig ∨ st = .serveTLS true true

theorem tls_mode {st : Start} (h : Tls st) : st.mode = some .permissive := by
  rcases h with rfl | rfl <;> rfl

/-- **C247** (partial: the client begins with a TLS handshake) A server that was started with TLS talks TLS to it, and to every such client before
and after it. -/
theorem C247_tls_partial (st : Start) (h : Tls st) (l : List Client) (hw : ∀ c ∈ l, Wf c.src) (ht : ∀ c ∈ l, TlsStart c.src.bytes ∧ 3 ≤ c.src.bytes.length) :
    (serve st (l.map fun c => (none, c))).1.length = l.length ∧ ∀ s ∈ (serve st (l.map fun c => (none, c))).1, ∃ x, s = .tls x := by
  rw [serve, tls_mode h]
  show (loop (modes .permissive _)).1.length = _ ∧ ∀ s ∈ (loop (modes .permissive _)).1, _
  rw [modes_none]
  have := (C246_all_partial (l.map fun c => (Mode.permissive, c))
    (by intro e he; obtain ⟨c, hc, rfl⟩ := List.mem_map.1 he; exact hw c hc)
    (by intro e he _; obtain ⟨c, hc, rfl⟩ := List.mem_map.1 he; exact .inl (ht c hc).2)).1
  refine ⟨by have := this.length; simpa using this, ?_⟩
  generalize hl : (l.map fun c => (Mode.permissive, c)) = l' at this ⊢
  have hl' : ∀ e ∈ l', e.1 = .permissive ∧ TlsStart e.2.src.bytes ∧ 3 ≤ e.2.src.bytes.length := by
    subst hl; intro e he; obtain ⟨c, hc, rfl⟩ := List.mem_map.1 he; exact ⟨rfl, ht c hc⟩
  clear hl
  generalize (loop l').1 = ss at this ⊢
  induction this with
  | nil => intro s hs; cases hs
  | @cons e s l ss he _ ih =>
    intro s' hs'
    rcases List.mem_cons.1 hs' with rfl | hs'
    · obtain ⟨m, c⟩ := e
      obtain ⟨h1, h2, h3⟩ := hl' _ (.head _)
      cases s' with
      | tls x => exact ⟨x, rfl⟩
      | plain x => exact absurd (.inr (.inr ⟨h1, h2⟩)) he.1
      | closed =>
        have := he.2.1
        have h3 : 3 ≤ c.src.bytes.length := h3
        omega
    · exact ih (fun e he => hl' e (.tail _ he)) s' hs'

/-- **C247** Everybody else is answered in plain text, also by a server that was started with `ServeTLS`: any client whose first bytes are not a TLS
handshake is handed on unencrypted, and the HTTP server reads exactly what it sent. -/
theorem C247_plain_false (st : Start) (h : Tls st) (c : Client) (hw : Wf c.src) (h3 : 3 ≤ c.src.bytes.length) (ht : ¬ TlsStart c.src.bytes) :
    ∃ x, serve st [(none, c)] = ([.plain x], .waiting) ∧ x.stream = c.src.bytes := by
  obtain ⟨s, hs, hl⟩ := one .permissive c hw fun _ => .inl h3
  have he : serve st [(none, c)] = ([s], .waiting) := by
    rw [serve, tls_mode h]
    show loop (modes .permissive [(none, c)]) = _
    rw [modes, modes, hl]; rfl
  cases s with
  | tls x =>
    obtain ⟨hv | hv | hv, _⟩ := hs
    · cases hv
    · cases hv
    · exact absurd hv.2 ht
  | plain x => exact ⟨x, he, hs.2.1⟩
  | closed => have := hs.2.1; omega

/-- **C247** Once the listener is set to strict, every client, whatever it sends, is talked to in TLS until it is set otherwise. -/
theorem C247_strict (st : Start) (h : Tls st) (c : Client) (l : List Client) (hw : Wf c.src ∧ ∀ x ∈ l, Wf x.src) :
    (serve st ((some .strict, c) :: l.map fun c => (none, c))).1.length = l.length + 1 ∧
    ∀ s ∈ (serve st ((some .strict, c) :: l.map fun c => (none, c))).1, ∃ x, s = .tls x := by
  rw [serve, tls_mode h]
  show (loop (modes .permissive _)).1.length = _ ∧ ∀ s ∈ (loop (modes .permissive _)).1, _
  rw [modes, modes_none]
  have key : ∀ l : List Client, (loop (l.map fun c => (Mode.strict, c))).1 = l.map fun c => Saw.tls { buf := [], src := c.src } := by
    intro l
    induction l with
    | nil => rfl
    | cons c l ih => rw [List.map_cons, loop]; simp only [accept, ih, List.map_cons]
  have := key (c :: l)
  rw [List.map_cons] at this
  rw [this]
  refine ⟨by simp, ?_⟩
  intro s hs
  obtain ⟨x, _, rfl⟩ := List.mem_map.1 hs
  exact ⟨_, rfl⟩

/-- **C247** A server started without TLS hands every connection on as it is. -/
theorem C247_serve (l : List Client) : serve .serve (l.map fun c => (none, c)) = (l.map fun c => .plain { buf := [], src := c.src }, .waiting) := by
  show loop (modes .disabled _) = _
  rw [modes_none]
  induction l with
  | nil => rfl
  | cons c l ih => rw [List.map_cons, loop]; simp only [accept, ih, List.map_cons]

/-- **C247** If the certificate cannot be loaded nobody is served, in plain text neither. -/
theorem C247_load (files roots : Bool) (h : ¬ (files = true ∧ roots = true)) (l : List (Option Mode × Client)) : serve (.serveTLS files roots) l = ([], .returned) := by
  cases files <;> cases roots <;> first | rfl | exact absurd ⟨rfl, rfl⟩ h

/-! ### examples -/

/-- a plain request to a server started with `ServeTLS` -/
example : serve (.serveTLS true true) [(none, ⟨⟨[[71, 69, 84, 32]], .silent⟩, false⟩)] =
    ([.plain { buf := [71, 69, 84, 32], src := ⟨[], .silent⟩ }], .waiting) := by decide
example : Wf ⟨[[71, 69, 84, 32]], .silent⟩ := ⟨by decide, by decide⟩
/-- a reset between two requests -/
example : loop [(.permissive, ⟨⟨[[71, 69, 84, 32]], .silent⟩, false⟩), (.permissive, ⟨⟨[[22]], .err⟩, false⟩), (.permissive, ⟨⟨[[71, 69, 84, 32]], .silent⟩, false⟩)] =
    ([.plain { buf := [71, 69, 84, 32], src := ⟨[], .silent⟩ }], .returned) := by decide

end Verif.Props.HttpServer
