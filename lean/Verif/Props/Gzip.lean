import Verif.Kafka.Gzip
/-
Property theorem C142 (compressed record batches are read to the end, and nothing else is).
-/
namespace Verif.Props.Gzip
open Verif Verif.Kafka.Gzip

theorem read_spec (s : Src) (n : Nat) : (s.read n).1 ++ (s.read n).2.2.data = s.data ∧ (s.read n).2.2.fin = s.fin ∧
    ((s.read n).2.1 ≠ none → (s.read n).2.1 = some s.fin ∧ (s.read n).2.2.data = []) ∧
    ((s.read n).2.1 = none → (s.read n).1 ≠ []) := by
  unfold Src.read
  by_cases hd : s.data = []
  · rw [if_pos hd]; exact ⟨rfl, rfl, fun _ => ⟨rfl, hd⟩, fun h => (nomatch h)⟩
  · rw [if_neg hd]
    refine ⟨List.take_append_drop .., rfl, ?_, ?_⟩
    · intro h
      by_cases ht : (s.data.drop (s.count n) = [] && s.together) = true
      · refine ⟨if_pos ht, ?_⟩
        simp only [Bool.and_eq_true, decide_eq_true_eq] at ht
        exact ht.1
      · exact absurd (if_neg ht) h
    · intro _ h
      have h2 : 1 ≤ s.count n := Nat.le_max_left ..
      have := List.length_eq_zero_iff.mpr h
      rw [List.length_take] at this
      have h1 : 0 < s.data.length := List.length_pos_iff.mpr hd
      omega

/-- filling keeps the bytes; it fails only if the source does, and stays short of the size of the buffer only at its end -/
theorem fill_spec (buf : Bytes) (s : Src) : (fill buf s).1 ++ (fill buf s).2.1.data = buf ++ s.data ∧ (fill buf s).2.1.fin = s.fin ∧
    ((fill buf s).2.2 = true → s.fin = .fail ∧ (fill buf s).2.1.data = []) ∧
    ((fill buf s).2.2 = false → (fill buf s).1.length < bufLen → s.fin = .eof ∧ (fill buf s).2.1.data = []) := by
  rw [fill]
  by_cases hb : bufLen ≤ buf.length
  · rw [if_pos hb]; exact ⟨rfl, rfl, fun h => (nomatch h), fun _ h => absurd (show buf.length < bufLen from h) (by omega)⟩
  · rw [if_neg hb]
    have hs := read_spec s (bufLen - buf.length)
    split
    · rename_i out s' hr
      rw [hr] at hs
      obtain ⟨h1, h2, h3, h4⟩ := hs
      have ih := fill_spec (buf ++ out) s'
      simp only at h1 h2
      rw [h2] at ih
      refine ⟨?_, ih.2⟩
      rw [ih.1, List.append_assoc, h1]
    · rename_i out s' hr
      rw [hr] at hs
      obtain ⟨h1, h2, h3, h4⟩ := hs
      simp only at h1 h2 h3
      obtain ⟨e1, e2⟩ := h3 (by simp)
      injection e1 with e1
      exact ⟨by rw [List.append_assoc, h1], h2, fun h => (nomatch h), fun _ _ => ⟨e1.symm, e2⟩⟩
    · rename_i out s' hr
      rw [hr] at hs
      obtain ⟨h1, h2, h3, h4⟩ := hs
      simp only at h1 h2 h3
      obtain ⟨e1, e2⟩ := h3 (by simp)
      injection e1 with e1
      exact ⟨by rw [List.append_assoc, h1], h2, fun _ => ⟨e1.symm, e2⟩, fun h => (nomatch h)⟩
termination_by s.data.length
decreasing_by exact read_shorter (by assumption)

/-- one operation on a stream that ends properly: no byte is lost, the end is only reported when all are delivered, and otherwise there is progress -/
theorem op_spec (st : St) (o : Op) (hf : st.src.fin = .eof) : (o.run st).1 ++ ((o.run st).2.2.buf ++ (o.run st).2.2.src.data) = st.buf ++ st.src.data ∧
    (o.run st).2.2.src.fin = .eof ∧
    ((o.run st).2.1 ≠ none → (o.run st).2.1 = some .eof ∧ (o.run st).2.2.buf ++ (o.run st).2.2.src.data = []) ∧
    ((o.run st).2.1 = none → o ≠ .read 0 → (o.run st).1 ≠ []) ∧
    (∀ p, o = .read p → (o.run st).1.length ≤ p) ∧ (o = .byte → (o.run st).1.length ≤ 1) := by
  have hfill := fill_spec [] st.src
  rw [hf] at hfill
  obtain ⟨f1, f2, f3, f4⟩ := hfill
  have fnot : (fill [] st.src).2.2 = false := by
    cases h : (fill [] st.src).2.2 with
    | false => rfl
    | true => exact absurd (f3 h).1 (by simp)
  cases o with
  | read p =>
    show (gread st p).1 ++ ((gread st p).2.2.buf ++ (gread st p).2.2.src.data) = _ ∧ (gread st p).2.2.src.fin = .eof ∧
      ((gread st p).2.1 ≠ none → (gread st p).2.1 = some .eof ∧ (gread st p).2.2.buf ++ (gread st p).2.2.src.data = []) ∧
      ((gread st p).2.1 = none → Op.read p ≠ .read 0 → (gread st p).1 ≠ []) ∧ (∀ q, Op.read p = .read q → (gread st p).1.length ≤ q) ∧
      (Op.read p = .byte → (gread st p).1.length ≤ 1)
    have fix : ∀ x : Bytes, x.length ≤ p → (∀ q, Op.read p = .read q → x.length ≤ q) ∧ (Op.read p = .byte → x.length ≤ 1) :=
      fun x hx => ⟨fun q hq => (by injection hq with hq; omega), fun h => (nomatch h)⟩
    unfold gread
    by_cases hp : p = 0
    · rw [if_pos hp]; exact ⟨rfl, hf, fun h => absurd rfl h, fun _ h => absurd (by rw [hp]) h, fix [] (Nat.zero_le _)⟩
    · rw [if_neg hp]
      by_cases hc : st.buf ≠ [] ∧ p ≤ st.buf.length
      · rw [if_pos hc]
        refine ⟨?_, hf, fun h => absurd rfl h, ?_, fix (List.take _ _) (by rw [List.length_take]; omega)⟩
        · show st.buf.take p ++ (st.buf.drop p ++ st.src.data) = _
          rw [← List.append_assoc, List.take_append_drop]
        · intro _ _ h
          have := List.length_eq_zero_iff.mpr h
          rw [List.length_take] at this
          omega
      · rw [if_neg hc]
        by_cases hl : bufLen ≤ p - st.buf.length
        · rw [if_pos hl]
          have hs := read_spec st.src (p - st.buf.length)
          rw [hf] at hs
          obtain ⟨h1, h2, h3, h4⟩ := hs
          have hle : (st.src.read (p - st.buf.length)).1.length ≤ p - st.buf.length := by
            unfold Src.read
            split
            · simp
            · simp only [List.length_take]
              unfold Src.count
              have : 1 ≤ bufLen := by decide
              omega
          refine ⟨?_, h2, ?_, ?_, fix _ ?_⟩
          · show (st.buf ++ (st.src.read (p - st.buf.length)).1) ++ ([] ++ (st.src.read (p - st.buf.length)).2.2.data) = _
            rw [List.nil_append, List.append_assoc, h1]
          · intro h; obtain ⟨e1, e2⟩ := h3 h; exact ⟨e1, e2⟩
          · intro h _ he
            exact h4 h (List.append_eq_nil_iff.mp he).2
          · have : 1 ≤ bufLen := by decide
            show (st.buf ++ (st.src.read (p - st.buf.length)).1).length ≤ p
            rw [List.length_append]; omega
        · rw [if_neg hl]
          have hbp : st.buf.length ≤ p := by
            rcases Nat.lt_or_ge p st.buf.length with h | h
            · exact absurd ⟨(by intro h0; rw [h0] at h; simp at h), by omega⟩ hc
            · exact h
          cases hfl : fill [] st.src with
          | mk b r =>
            obtain ⟨s', e⟩ := r
            rw [hfl] at f1 f2 f3 f4 fnot
            simp only at f1 f2 fnot
            subst fnot
            rw [List.nil_append] at f1
            unfold afterFill
            simp only
            by_cases hb : b = []
            · rw [if_pos hb]
              have hd := (f4 rfl (by show b.length < bufLen; rw [hb]; decide)).2
              simp only at hd
              refine ⟨?_, f2, fun _ => ⟨rfl, (by show [] ++ s'.data = []; rw [hd]; rfl)⟩, fun h => (nomatch h), fix _ hbp⟩
              show st.buf ++ ([] ++ s'.data) = _
              rw [← f1, hb]
            · rw [if_neg hb]
              refine ⟨?_, f2, fun h => absurd rfl h, ?_, fix _ ?_⟩
              · show (st.buf ++ b.take (p - st.buf.length)) ++ (b.drop (p - st.buf.length) ++ s'.data) = _
                rw [List.append_assoc, ← List.append_assoc (b.take _), List.take_append_drop, f1]
              · intro _ _ h
                have h1 := (List.append_eq_nil_iff.mp h).1
                have h2 := (List.append_eq_nil_iff.mp h).2
                have h3 := List.length_eq_zero_iff.mpr h2
                rw [List.length_take, h1] at h3
                have h4 := List.length_pos_iff.mpr hb
                rw [List.length_nil] at h3
                omega
              · rw [List.length_append, List.length_take]; omega
  | byte =>
    show (readByte st).1 ++ ((readByte st).2.2.buf ++ (readByte st).2.2.src.data) = _ ∧ (readByte st).2.2.src.fin = .eof ∧
      ((readByte st).2.1 ≠ none → (readByte st).2.1 = some .eof ∧ (readByte st).2.2.buf ++ (readByte st).2.2.src.data = []) ∧
      ((readByte st).2.1 = none → Op.byte ≠ .read 0 → (readByte st).1 ≠ []) ∧ (∀ q, Op.byte = .read q → (readByte st).1.length ≤ q) ∧
      (Op.byte = .byte → (readByte st).1.length ≤ 1)
    have fix : ∀ x : Bytes, x.length ≤ 1 → (∀ q, Op.byte = .read q → x.length ≤ q) ∧ (Op.byte = .byte → x.length ≤ 1) :=
      fun x hx => ⟨fun q hq => (nomatch hq), fun _ => hx⟩
    unfold readByte
    by_cases hc : st.buf ≠ []
    · rw [if_pos hc]
      refine ⟨?_, hf, fun h => absurd rfl h, ?_, fix (List.take _ _) (by rw [List.length_take]; omega)⟩
      · show st.buf.take 1 ++ (st.buf.drop 1 ++ st.src.data) = _
        rw [← List.append_assoc, List.take_append_drop]
      · intro _ _ h
        have := List.length_eq_zero_iff.mpr h
        rw [List.length_take] at this
        have := List.length_pos_iff.mpr hc
        omega
    · rw [if_neg hc]
      have hbn : st.buf = [] := Classical.byContradiction hc
      cases hfl : fill [] st.src with
      | mk b r =>
        obtain ⟨s', e⟩ := r
        rw [hfl] at f1 f2 f3 f4 fnot
        simp only at f1 f2 fnot
        subst fnot
        rw [List.nil_append] at f1
        have ea : afterFill [] 1 (b, s', false) = if b = [] then ([], some End.eof, ⟨[], s'⟩) else ([] ++ b.take 1, none, ⟨b.drop 1, s'⟩) := rfl
        rw [ea]
        by_cases hb : b = []
        · rw [if_pos hb]
          have hd := (f4 rfl (by show b.length < bufLen; rw [hb]; decide)).2
          simp only at hd
          refine ⟨?_, f2, fun _ => ⟨rfl, (by show [] ++ s'.data = []; rw [hd]; rfl)⟩, fun h => (nomatch h), fix _ (Nat.zero_le _)⟩
          show [] ++ ([] ++ s'.data) = _
          rw [← f1, hb, hbn]
        · rw [if_neg hb]
          refine ⟨?_, f2, fun h => absurd rfl h, ?_, fix (List.take _ _) (by rw [List.length_take]; omega)⟩
          · show b.take 1 ++ (b.drop 1 ++ s'.data) = _
            rw [← List.append_assoc, List.take_append_drop, f1, hbn, List.nil_append]
          · intro _ _ h
            have : (b.take 1).length = 0 := List.length_eq_zero_iff.mpr h
            rw [List.length_take] at this
            have := List.length_pos_iff.mpr hb
            omega

theorem ops_spec : ∀ (l : List Op) (st : St), st.src.fin = .eof → (runOps st l).1 ++ ((runOps st l).2.2.buf ++ (runOps st l).2.2.src.data) = st.buf ++ st.src.data ∧
    (∀ e ∈ (runOps st l).2.1, e = none ∨ e = some .eof) ∧
    ((∃ e ∈ (runOps st l).2.1, e ≠ none) → (runOps st l).1 = st.buf ++ st.src.data) ∧
    ((∀ o ∈ l, o ≠ .read 0) → (∀ e ∈ (runOps st l).2.1, e = none) → l.length ≤ (runOps st l).1.length)
  | [], st, hf => ⟨rfl, fun e h => by (cases h), fun ⟨e, h, _⟩ => by (cases h), fun _ _ => Nat.le_refl _⟩
  | o :: l, st, hf => by
    obtain ⟨a1, a2, a3, a4, -, -⟩ := op_spec st o hf
    obtain ⟨b1, b2, b3, b4⟩ := ops_spec l (o.run st).2.2 a2
    have e1 : (runOps st (o :: l)).1 = (o.run st).1 ++ (runOps (o.run st).2.2 l).1 := rfl
    have e2 : (runOps st (o :: l)).2.1 = (o.run st).2.1 :: (runOps (o.run st).2.2 l).2.1 := rfl
    have e3 : (runOps st (o :: l)).2.2 = (runOps (o.run st).2.2 l).2.2 := rfl
    rw [e1, e2, e3]
    refine ⟨by rw [List.append_assoc, b1, a1], ?_, ?_, ?_⟩
    · intro e he
      rcases List.mem_cons.mp he with rfl | he
      · cases h : (o.run st).2.1 with
        | none => exact .inl rfl
        | some x => exact .inr (by rw [← h]; exact (a3 (by rw [h]; simp)).1)
      · exact b2 e he
    · rintro ⟨e, he, hn⟩
      by_cases ho : (o.run st).2.1 ≠ none
      · have hz := (a3 ho).2
        rw [hz] at a1 b1
        rw [List.append_nil] at a1
        rw [(List.append_eq_nil_iff.mp b1).1, List.append_nil, a1]
      · rcases List.mem_cons.mp he with rfl | he
        · exact absurd hn ho
        · rw [b3 ⟨e, he, hn⟩, a1]
    · intro h1 h2
      have ho := a4 (h2 _ List.mem_cons_self) (h1 o List.mem_cons_self)
      have hb := b4 (fun o ho => h1 o (List.mem_cons_of_mem _ ho)) (fun e he => h2 e (List.mem_cons_of_mem _ he))
      have := List.length_pos_iff.mpr ho
      rw [List.length_append, List.length_cons]
      omega

/-- **C142** A stream that ends properly is delivered completely and in order by reads of any sizes, mixed with reads of single bytes: what is
read is always a prefix of it, the end is only reported when everything has been read, and it is reported at the latest after as many reads as there
are bytes, and one. Nothing else is ever reported. -/
theorem C142_stream (s : Src) (hf : s.fin = .eof) (l : List Op) :
    (∃ rest, (runOps ⟨[], s⟩ l).1 ++ rest = s.data) ∧ (∀ e ∈ (runOps ⟨[], s⟩ l).2.1, e = none ∨ e = some .eof) ∧
    (some .eof ∈ (runOps ⟨[], s⟩ l).2.1 → (runOps ⟨[], s⟩ l).1 = s.data) ∧
    ((∀ o ∈ l, o ≠ .read 0) → s.data.length < l.length → some .eof ∈ (runOps ⟨[], s⟩ l).2.1) := by
  obtain ⟨h1, h2, h3, h4⟩ := ops_spec l ⟨[], s⟩ hf
  simp only [List.nil_append] at h1 h3
  refine ⟨⟨_, h1⟩, h2, fun h => h3 ⟨_, h, by simp⟩, ?_⟩
  intro ho hl
  apply Classical.byContradiction
  intro hn
  have := h4 ho (fun e he => by
    rcases h2 e he with h | h
    · exact h
    · rw [h] at he; exact absurd he hn)
  have hlen := congrArg List.length h1
  rw [List.length_append] at hlen
  omega

/-- **C142** No read returns more than was asked for. -/
theorem C142_size (st : St) (hf : st.src.fin = .eof) (p : Nat) : (gread st p).1.length ≤ p ∧ (readByte st).1.length ≤ 1 :=
  ⟨(op_spec st (.read p) hf).2.2.2.2.1 p rfl, (op_spec st .byte hf).2.2.2.2.2 rfl⟩

/-- the hypotheses are met: five bytes, delivered in pieces of two by the source -/
example : (runOps ⟨[], ⟨[1, 2, 3, 4, 5], [2, 2, 2], .eof, false⟩⟩ [.byte, .read 3, .read 0, .read 7, .read 7]).1 = [1, 2, 3, 4, 5] := by
  decide +kernel

/-- **C220** fails: if the stream is damaged, bytes before the damage are lost: a read reports no byte and an error although bytes have been taken from
the buffer, and already the first read fails if the damage is within the first 16384 bytes. -/
theorem C220_damaged_false : (runOps ⟨[], ⟨[1, 2, 3], [], .fail, false⟩⟩ [.read 2, .read 2, .read 2, .read 2]).1 = [1, 2] ∧
    (runOps ⟨[], ⟨[1, 2, 3], [], .fail, false⟩⟩ [.read 2, .read 2, .read 2, .read 2]).2.1 = [some .fail, none, some .fail, some .fail] := by
  decide +kernel

/-- **C142** With snappy, what is read is what was written, in any number of pieces, if decoding reverses encoding. -/
theorem C142_snappy (encode : Bytes → Bytes) (decode : Bytes → Option (Bytes)) (h : ∀ b, decode (encode b) = some b) (ps : List (Bytes)) :
    snappyRead decode ((ps.foldl Writer.write {}).close encode).out = some ps.flatten := by
  have key : ∀ (ps : List (Bytes)) (w : Writer), (ps.foldl Writer.write w).buf = w.buf ++ ps.flatten ∧ (ps.foldl Writer.write w).out = w.out := by
    intro ps
    induction ps with
    | nil => intro w; simp
    | cons p ps ih =>
      intro w
      obtain ⟨h1, h2⟩ := ih (w.write p)
      rw [List.foldl_cons, h1, h2]
      exact ⟨by rw [List.flatten_cons, ← List.append_assoc]; rfl, rfl⟩
  obtain ⟨h1, h2⟩ := key ps {}
  unfold snappyRead Writer.close
  rw [h2, h1]
  show decode ([] ++ encode ([] ++ ps.flatten)) = _
  rw [List.nil_append, List.nil_append, h]

/-- **C142** A snappy writer can be used again after closing: each closing adds one compressed block, with what was written since the last one. -/
theorem C142_again (encode : Bytes → Bytes) (blocks : List (List (Bytes))) :
    (blocks.foldl (fun (w : Writer) (ps : List (Bytes)) => (ps.foldl Writer.write w).close encode) {}).out = (blocks.map fun ps => encode ps.flatten).flatten := by
  have key : ∀ (ps : List (Bytes)) (w : Writer), (ps.foldl Writer.write w).buf = w.buf ++ ps.flatten ∧ (ps.foldl Writer.write w).out = w.out := by
    intro ps
    induction ps with
    | nil => intro w; simp
    | cons p ps ih =>
      intro w
      obtain ⟨h1, h2⟩ := ih (w.write p)
      rw [List.foldl_cons, h1, h2]
      exact ⟨by rw [List.flatten_cons, ← List.append_assoc]; rfl, rfl⟩
  have all : ∀ (bs : List (List (Bytes))) (w : Writer), w.buf = [] →
      (bs.foldl (fun (w : Writer) (ps : List (Bytes)) => (ps.foldl Writer.write w).close encode) w).out = w.out ++ (bs.map fun ps => encode ps.flatten).flatten := by
    intro bs
    induction bs with
    | nil => intro w _; simp
    | cons b bs ih =>
      intro w hw
      obtain ⟨h1, h2⟩ := key b w
      rw [List.foldl_cons, ih _ rfl]
      simp only [Writer.close, h1, h2, hw, List.nil_append, List.map_cons, List.flatten_cons, List.append_assoc]
  have := all blocks {} rfl
  simpa using this

end Verif.Props.Gzip
