/-
C50: the permissive listener classifies without losing bytes.
-/
import Verif.Net.Unified

namespace Verif.Unified

/-! ### Specification -/

/-- A TLS handshake record header of version 1.0 to 1.3 at the start of the stream. -/
def TlsStart (bytes : List Nat) : Prop := ∃ minor rest, bytes = 22 :: 3 :: minor :: rest ∧ 1 ≤ minor ∧ minor ≤ 4

/-- Bytes and non-empty chunks. -/
def Wf (s : Src) : Prop := (∀ c ∈ s.chunks, c ≠ []) ∧ ∀ b ∈ s.bytes, b < 256

/-- The stream of a connection handed out, as the handler would read it. -/
def Conn.stream (c : Conn) : List Nat := c.buf ++ c.src.bytes

/-! ### Proofs -/

theorem read_src {s : Src} (k : Nat) (hk : 0 < k) (hw : ∀ c ∈ s.chunks, c ≠ []) :
    (∃ b src, s.read k = (.data b, src) ∧ b ≠ [] ∧ b.length ≤ k ∧ s.bytes = b ++ src.bytes ∧ src.fin = s.fin ∧ ∀ c ∈ src.chunks, c ≠ []) ∨
    (s.bytes = [] ∧ s.read k = (s.fin.rd, s)) := by
  unfold Src.read Src.bytes
  cases hs : s.chunks with
  | nil => exact Or.inr ⟨rfl, rfl⟩
  | cons c cs =>
    refine Or.inl ⟨_, _, rfl, ?_, List.length_take_le _ _, ?_, rfl, ?_⟩
    · have : c ≠ [] := hw c (by rw [hs]; simp)
      intro h
      rw [List.take_eq_nil_iff] at h
      rcases h with h | h
      · omega
      · exact this h
    · simp only [List.flatten_cons]
      split
      · rename_i h
        have := List.take_append_drop k c
        rw [h, List.append_nil] at this
        rw [this]
      · rw [List.flatten_cons, ← List.append_assoc, List.take_append_drop]
    · intro x hx
      simp only at hx
      split at hx
      · exact hw x (by rw [hs]; simp [hx])
      · rename_i h
        rcases List.mem_cons.mp hx with rfl | hx
        · exact h
        · exact hw x (by rw [hs]; simp [hx])

theorem peek_spec (n : Nat) (hn : n ≤ bufSize) : ∀ (fuel : Nat) (c : Conn), n ≤ c.buf.length + fuel - 1 → 0 < fuel →
    (∀ x ∈ c.src.chunks, x ≠ []) →
    (∃ c', peek n fuel c = (.data (c.stream.take n), c') ∧ n ≤ c.stream.length ∧ c'.stream = c.stream ∧ c'.src.fin = c.src.fin ∧
      ∀ x ∈ c'.src.chunks, x ≠ []) ∨
    (c.stream.length < n ∧ (peek n fuel c).1 = c.src.fin.rd) := by
  intro fuel
  induction fuel with
  | zero => intro c _ h; omega
  | succ fuel ih =>
    intro c hl _ hw
    unfold peek
    by_cases h : n ≤ c.buf.length
    · rw [if_pos h]
      refine Or.inl ⟨c, ?_, ?_, rfl, rfl, hw⟩
      · unfold Conn.stream; rw [List.take_append_of_le_length h]
      · unfold Conn.stream; simp; omega
    · rw [if_neg h]
      rcases read_src (bufSize - c.buf.length) (by omega) hw with ⟨b, src, hr, hb, hlen, hbytes, hfin, hw'⟩ | ⟨hempty, hr⟩
      · rw [hr]
        simp only
        have hbl : 0 < b.length := List.length_pos_iff.mpr hb
        have hst : (Conn.mk (c.buf ++ b) src).stream = c.stream := by
          unfold Conn.stream; simp [hbytes]
        have := ih { buf := c.buf ++ b, src := src } (by simp only [List.length_append]; omega) (by omega) hw'
        rw [hst] at this
        rcases this with ⟨c', h1, h2, h3, h4, h5⟩ | ⟨h1, h2⟩
        · exact Or.inl ⟨c', h1, h2, h3, by rw [h4]; exact hfin, h5⟩
        · exact Or.inr ⟨h1, by rw [h2]; simp only; rw [hfin]⟩
      · rw [hr]
        refine Or.inr ⟨?_, ?_⟩
        · unfold Conn.stream; rw [hempty]; simp; omega
        · cases c.src.fin <;> rfl

theorem isTLS_iff (b : List Nat) (hb : ∀ x ∈ b, x < 256) (n : Nat) (hn : 3 ≤ n) : isTLS (b.take n) = true ↔ TlsStart b := by
  match b with
  | [] => simp [isTLS, TlsStart]
  | [_] =>
    have : ([‹Nat›] : List Nat).take n = [‹Nat›] := List.take_of_length_le (by simp; omega)
    rw [this]; simp [isTLS, TlsStart]
  | [x, y] =>
    have : [x, y].take n = [x, y] := List.take_of_length_le (by simp; omega)
    rw [this]; simp [isTLS, TlsStart]
  | x :: y :: z :: rest =>
    obtain ⟨k, rfl⟩ : ∃ k, n = k + 3 := ⟨n - 3, by omega⟩
    simp only [List.take_succ_cons, isTLS, bne_iff_ne, ne_eq, ite_not, Bool.if_false_right]
    have hz : z < 256 := hb z (by simp)
    simp only [Bool.and_eq_true, decide_eq_true_eq, Bool.or_eq_true, beq_iff_eq, TlsStart, List.cons.injEq]
    constructor
    · rintro ⟨rfl, h⟩
      exact ⟨z, rest, ⟨rfl, by omega, rfl, rfl⟩, by omega, by omega⟩
    · rintro ⟨m, r, ⟨rfl, rfl, rfl, rfl⟩, h1, h2⟩
      exact ⟨rfl, by omega⟩

/-- **C50** In permissive mode a connection that sends at least three bytes is treated as TLS exactly if
they are the header of a TLS handshake record; the handler reads the stream from its first byte. -/
theorem C50_permissive (src : Src) (hw : Wf src) (h3 : 3 ≤ src.bytes.length) :
    ∃ c : Conn, c.stream = src.bytes ∧ c.src.fin = src.fin ∧ (∀ x ∈ c.src.chunks, x ≠ []) ∧
      ((TlsStart src.bytes ∧ accept .permissive src = .tls c) ∨ (¬ TlsStart src.bytes ∧ accept .permissive src = .plain c)) := by
  have := peek_spec 3 (by decide) 4 { buf := [], src := src } (by simp) (by omega) hw.1
  have hst : (Conn.mk [] src).stream = src.bytes := rfl
  rw [hst] at this
  rcases this with ⟨c, h1, _, h2, h4, h5⟩ | ⟨h, _⟩
  · refine ⟨c, h2, h4, h5, ?_⟩
    unfold accept
    rw [h1]
    simp only
    have := isTLS_iff src.bytes hw.2 3 (Nat.le_refl _)
    by_cases ht : isTLS (src.bytes.take 3) = true
    · rw [if_pos ht]; exact Or.inl ⟨this.mp ht, rfl⟩
    · rw [if_neg ht]; exact Or.inr ⟨fun h => ht (this.mpr h), rfl⟩
  · omega

/-- **C50** In strict mode every connection is treated as TLS, in disabled mode none is. -/
theorem C50_fixed (src : Src) :
    (∃ c : Conn, accept .strict src = .tls c ∧ c.stream = src.bytes ∧ c.src.fin = src.fin) ∧
    (∃ c : Conn, accept .disabled src = .plain c ∧ c.stream = src.bytes ∧ c.src.fin = src.fin) :=
  ⟨⟨_, rfl, rfl, rfl⟩, ⟨_, rfl, rfl, rfl⟩⟩

theorem read_conn (c : Conn) (k : Nat) (hk : 0 < k) (hw : ∀ x ∈ c.src.chunks, x ≠ []) :
    (∃ b c', c.read k = (.data b, c') ∧ b ≠ [] ∧ b.length ≤ k ∧ c.stream = b ++ c'.stream ∧ c'.src.fin = c.src.fin ∧ ∀ x ∈ c'.src.chunks, x ≠ []) ∨
    (c.stream = [] ∧ ∃ c', c.read k = (c.src.fin.rd, c')) := by
  unfold Conn.read
  cases hb : c.buf with
  | nil =>
    simp only
    split
    · rename_i hbig
      rcases read_src k hk hw with ⟨b, src, hr, h1, h2, h3, h4, h5⟩ | ⟨h1, h2⟩
      · rw [hr]
        exact Or.inl ⟨b, _, rfl, h1, h2, by unfold Conn.stream; rw [hb, h3]; rfl, h4, h5⟩
      · rw [h2]
        exact Or.inr ⟨by unfold Conn.stream; rw [hb, h1]; rfl, _, rfl⟩
    · rename_i hbig
      rcases read_src bufSize (by decide) hw with ⟨b, src, hr, h1, h2, h3, h4, h5⟩ | ⟨h1, h2⟩
      · rw [hr]
        refine Or.inl ⟨_, _, rfl, ?_, List.length_take_le _ _, ?_, h4, h5⟩
        · intro h
          rw [List.take_eq_nil_iff] at h
          rcases h with h | h
          · omega
          · exact h1 h
        · unfold Conn.stream
          rw [hb, h3]
          simp only [List.nil_append]
          rw [← List.append_assoc, List.take_append_drop]
      · rw [h2]
        refine Or.inr ⟨by unfold Conn.stream; rw [hb, h1]; rfl, ?_⟩
        cases c.src.fin <;> exact ⟨_, rfl⟩
  | cons x xs =>
    simp only
    refine Or.inl ⟨_, _, rfl, ?_, List.length_take_le _ _, ?_, rfl, hw⟩
    · intro h
      rw [List.take_eq_nil_iff] at h
      rcases h with h | h
      · omega
      · cases h
    · unfold Conn.stream
      simp only
      rw [hb, ← List.append_assoc, List.take_append_drop]

/-- **C50** Whatever the sizes of its reads, the handler of a connection reads its stream without a gap:
what it has read, followed by what it has still to read, is the stream. -/
theorem C50_reads (c : Conn) (hw : ∀ x ∈ c.src.chunks, x ≠ []) : ∀ (ks : List Nat) (hks : ∀ k ∈ ks, 0 < k),
    (readAll c ks).1.flatten ++ (readAll c ks).2.stream = c.stream := by
  intro ks
  induction ks generalizing c with
  | nil => intro _; rfl
  | cons k ks ih =>
    intro hks
    unfold readAll
    rcases read_conn c k (hks k (by simp)) hw with ⟨b, c', hr, _, _, h3, _, h5⟩ | ⟨h1, c', h2⟩
    · rw [hr]
      simp only
      rw [h3, ← ih c' h5 (fun k hk => hks k (by simp [hk]))]
      simp
    · rw [h2]
      have hc' : c'.stream = c.stream := by
        unfold Conn.read at h2
        have hb : c.buf = [] ∧ c.src.bytes = [] := by unfold Conn.stream at h1; simpa using h1
        rw [hb.1] at h2
        have hch : c.src.chunks = [] := by
          cases hch : c.src.chunks with
          | nil => rfl
          | cons a as =>
            have := hw a (by rw [hch]; simp)
            have hb2 := hb.2
            unfold Src.bytes at hb2
            rw [hch] at hb2
            simp at hb2
            exact absurd hb2.1 this
        simp only [Src.read, hch] at h2
        split at h2
        · cases h2; simp [Conn.stream, hb.1]
        · cases hf : c.src.fin <;> simp only [hf, Fin.rd] at h2 <;> cases h2 <;> simp [Conn.stream, hb.1]
      cases c.src.fin <;> (simp only [Fin.rd]; exact hc')

/-- **C50** A read of a positive size brings at least one byte as long as the stream has any left, so the
handler gets to its end. -/
theorem C50_progress (c : Conn) (k : Nat) (hk : 0 < k) (hw : ∀ x ∈ c.src.chunks, x ≠ []) (hs : c.stream ≠ []) :
    ∃ b c', c.read k = (.data b, c') ∧ b ≠ [] ∧ c.stream = b ++ c'.stream := by
  rcases read_conn c k hk hw with ⟨b, c', h1, h2, _, h3, _⟩ | ⟨h, _⟩
  · exact ⟨b, c', h1, h2, h3⟩
  · exact absurd h hs

/-- **C174** A connection that ends or fails before three bytes is closed or refused, not classified. -/
theorem C174_short_partial (src : Src) (hw : Wf src) (h3 : src.bytes.length < 3) :
    accept .permissive src = (match src.fin with | .eof => .closed | .err => .error | .silent => .blocked) := by
  have := peek_spec 3 (by decide) 4 { buf := [], src := src } (by simp) (by omega) hw.1
  have hst : (Conn.mk [] src).stream = src.bytes := rfl
  rw [hst] at this
  rcases this with ⟨_, _, h, _⟩ | ⟨_, h⟩
  · omega
  · unfold accept
    generalize peek 3 4 { buf := [], src := src } = r at h
    obtain ⟨r1, r2⟩ := r
    simp only at h
    subst h
    cases src.fin <;> rfl

/-! ### Cases, and what does not hold -/

def hello : Src := ⟨[[22, 3], [1, 2, 0], [1]], .eof⟩
def plainText : Src := ⟨[[71], [69], [84, 32]], .eof⟩
example : Wf hello := ⟨by decide, by decide⟩
example : TlsStart hello.bytes := ⟨1, [2, 0, 1], rfl, by decide, by decide⟩
example : accept .permissive hello = .tls ⟨[22, 3, 1, 2, 0], ⟨[[1]], .eof⟩⟩ := by decide +kernel
example : accept .permissive plainText = .plain ⟨[71, 69, 84, 32], ⟨[], .eof⟩⟩ := by decide +kernel
example : (readAll ⟨[71, 69, 84, 32], ⟨[], .eof⟩⟩ [1, 2, 3, 1]).1 = [[71], [69, 84], [32]] := by decide +kernel

/-- The full statement: in permissive mode too the handler gets every stream that ends. -/
def AlwaysHandled : Prop := ∀ src, Wf src → src.fin = .eof →
  ∃ c : Conn, (accept .permissive src = .tls c ∨ accept .permissive src = .plain c) ∧ c.stream = src.bytes

/-- **C174** is false for short streams: a client that sends two bytes and ends is handed over as a closed
connection without its bytes. -/
theorem C174_short_false : ¬ AlwaysHandled := by
  intro H
  obtain ⟨c, h, _⟩ := H ⟨[[72, 73]], .eof⟩ ⟨by decide, by decide⟩ rfl
  rcases h with h | h <;> revert h <;> (rw [C174_short_partial _ ⟨by decide, by decide⟩ (by decide)]; simp)

/-- **C174** A silent client blocks `Accept` itself (in permissive mode), and with it all later clients. -/
theorem C174_silent_false : accept .permissive ⟨[], .silent⟩ = .blocked ∧ accept .disabled ⟨[], .silent⟩ ≠ .blocked := by decide +kernel

/-- **C50** A mode that is none of the three behaves as strict. -/
theorem C50_other (src : Src) : accept .other src = accept .strict src := rfl

end Verif.Unified
