import Verif.Kafka.RecordVia
import Verif.Props.Gzip
/-
The gzip reader as a source of records (Verif/Kafka/RecordVia.lean): below the size of its buffer it gives everything asked for.
-/
namespace Verif.Kafka.Gzip
open Verif Verif.Kafka Verif.Props.Gzip

/-- what the reader still holds: its buffer and what the decompressor will give; specification, models no code -/
def St.data (st : St) : Bytes := st.buf ++ st.src.data

theorem fill_eof {st : St} (h : st.src.fin = .eof) : ∃ b s', fill [] st.src = (b, s', false) ∧ b ++ s'.data = st.src.data ∧ s'.fin = .eof ∧
    (b.length < bufLen → s'.data = []) := by
  obtain ⟨f1, f2, f3, f4⟩ := fill_spec [] st.src
  cases hf : fill [] st.src with
  | mk b r =>
    obtain ⟨s', e⟩ := r
    rw [hf] at f1 f2 f3 f4
    cases e with
    | true => exact absurd (f3 rfl).1 (by rw [h]; simp)
    | false => exact ⟨b, s', rfl, f1, by rw [← h]; exact f2, fun hl => (f4 rfl hl).2⟩

theorem faithful : Faithful Source.gzip St.data (fun st => st.src.fin = .eof) bufLen where
  byte := by
    intro st b rest ho hd
    unfold Source.gzip
    simp only
    unfold readByte
    by_cases hb : st.buf ≠ []
    · rw [if_pos hb]
      cases hbuf : st.buf with
      | nil => exact absurd hbuf hb
      | cons c l =>
        unfold St.data at hd
        rw [hbuf] at hd
        injection hd with h1 h2
        subst h1
        exact ⟨_, rfl, h2, ho⟩
    · have hb' : st.buf = [] := Classical.byContradiction hb
      rw [if_neg hb]
      obtain ⟨c, s', e, h1, h2, h3⟩ := fill_eof ho
      rw [e]
      unfold St.data at hd
      rw [hb', List.nil_append, ← h1] at hd
      cases c with
      | nil =>
        rw [h3 (by decide)] at hd; simp at hd
      | cons c l =>
        injection hd with h4 h5
        subst h4
        exact ⟨⟨l, s'⟩, rfl, h5, h2⟩
  read := by
    intro st a rest ho ha hl hd
    have hpos := List.length_pos_iff.mpr ha
    unfold Source.gzip
    simp only
    unfold gread
    rw [if_neg (by omega)]
    unfold St.data at hd
    by_cases hc : st.buf ≠ [] ∧ a.length ≤ st.buf.length
    · rw [if_pos hc]
      have e1 : st.buf.take a.length = a := by
        have := congrArg (List.take a.length) hd
        rw [List.take_append_of_le_length hc.2, List.take_left'  rfl] at this
        exact this
      have e2 : st.buf.drop a.length ++ st.src.data = rest := by
        have := congrArg (List.drop a.length) hd
        rw [List.drop_append_of_le_length hc.2, List.drop_left' rfl] at this
        exact this
      refine ⟨⟨st.buf.drop a.length, st.src⟩, ?_, e2, ho⟩
      simp only
      rw [e1]
    · rw [if_neg hc]
      have hbl : st.buf.length ≤ a.length := by
        rcases Nat.lt_or_ge a.length st.buf.length with h | h
        · exact absurd ⟨(by intro h0; rw [h0] at h; simp at h), by omega⟩ hc
        · exact h
      rw [if_neg (by omega)]
      obtain ⟨c, s', e, h1, h2, h3⟩ := fill_eof ho
      rw [e]
      rw [← h1] at hd
      have e1 : a.take st.buf.length = st.buf := by
        have := congrArg (List.take st.buf.length) hd
        rw [List.take_left' rfl, List.take_append_of_le_length hbl] at this
        exact this.symm
      have e2 : c ++ s'.data = a.drop st.buf.length ++ rest := by
        have := congrArg (List.drop st.buf.length) hd
        rw [List.drop_left' rfl, List.drop_append_of_le_length hbl] at this
        exact this
      have hlen : (a.drop st.buf.length).length = a.length - st.buf.length := List.length_drop ..
      have hle : a.length - st.buf.length ≤ c.length := by
        rcases Nat.lt_or_ge c.length bufLen with h | h
        · have := congrArg List.length e2
          rw [h3 h, List.length_append, List.length_append, hlen] at this
          simp at this
          omega
        · omega
      have hbufne : a.length - st.buf.length ≠ 0 ∨ st.buf = a := by
        by_cases h0 : a.length - st.buf.length = 0
        · right
          rw [← e1]
          exact List.take_of_length_le (by omega)
        · exact .inl h0
      have hne : c ≠ [] := by
        intro h0
        rw [h0] at hle
        simp only [List.length_nil, Nat.le_zero] at hle
        have h5 : a.length ≤ st.buf.length := by omega
        exact hc ⟨(by intro h6; rw [h6] at h5; simp only [List.length_nil] at h5; omega), h5⟩
      have t1 : c.take (a.length - st.buf.length) = a.drop st.buf.length := by
        have := congrArg (List.take (a.length - st.buf.length)) e2
        rw [List.take_append_of_le_length hle, List.take_left' hlen] at this
        exact this
      have t2 : c.drop (a.length - st.buf.length) ++ s'.data = rest := by
        have := congrArg (List.drop (a.length - st.buf.length)) e2
        rw [List.drop_append_of_le_length hle, List.drop_left' hlen] at this
        exact this
      refine ⟨⟨c.drop (a.length - st.buf.length), s'⟩, ?_, t2, h2⟩
      unfold afterFill
      simp only
      rw [if_neg hne, t1]
      simp only
      have : st.buf ++ a.drop st.buf.length = a := by
        conv => lhs; lhs; rw [← e1]
        exact List.take_append_drop _ _
      rw [this]

end Verif.Kafka.Gzip
