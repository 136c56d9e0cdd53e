/-
Shared vocabulary of the model: byte strings, error values, readers.
-/
namespace Verif

/-- A Go `[]byte`. (used throughout the model; models no code of its own) -/
abbrev Bytes := List UInt8

/-- Error values a reader/writer can return. Go errors carry text; the model keeps only the
distinction the code itself tests for (`errors.Is(err, io.EOF)`), everything else is `other`
(or `unexpectedEof` / `overflow` for readability). (components/kafka-protocol-go/pkg/protocol/types: the errors its readers and writers return) -/
inductive Err where
  | eof            -- io.EOF: no byte could be read
  | unexpectedEof  -- input ended in the middle of a value
  | overflow       -- varint does not fit
  | other          -- any other error value
  | panic          -- a Go run-time panic (index out of range, makeslice, nil dereference)
deriving DecidableEq, Repr

deriving instance DecidableEq for Except

/-- Result of a Go function returning `(T, error)`. (used throughout the model; models no code of its own) -/
abbrev Res := Except Err

/-- A reader: takes the unread bytes, returns a value and the bytes left unread.
Models a function over `*bytes.Reader` (the reader state after an error is never used by the code). (components/kafka-protocol-go/pkg/protocol/types: all `Read…` functions) -/
abbrev Dec (α : Type) := Bytes → Res (α × Bytes)

/-- `bytes.Reader.Read(buf)` with `len(buf) = n` followed by the check `n == len(buf)`;
components/kafka-protocol-go/pkg/protocol/types/int.go:51-69 and all other fixed-size reads.
`bytes.Reader.Read` returns io.EOF when no byte is left (even for an empty buffer), otherwise copies
`min n (unread)` bytes. -/
def readExact (n : Nat) : Dec Bytes := fun bs =>
  if bs = [] then .error .eof
  else if bs.length < n then .error .other
  else .ok (bs.take n, bs.drop n)

theorem readExact_append {n : Nat} (a rest : Bytes) (h : a.length = n) (hn : 0 < n) :
    readExact n (a ++ rest) = .ok (a, rest) := by
  unfold readExact
  have h1 : a ++ rest ≠ [] := by
    intro hc
    have := congrArg List.length hc
    simp only [List.length_append, List.length_nil] at this
    omega
  have h2 : ¬ (a ++ rest).length < n := by simp; omega
  simp only [h1, h2, ↓reduceIte]
  simp [← h]

theorem readExact_ok {n : Nat} {bs a rest : Bytes} (h : readExact n bs = .ok (a, rest)) :
    a.length = n ∧ bs = a ++ rest := by
  unfold readExact at h
  split at h
  · simp at h
  · split at h
    · simp at h
    · injection h with h
      simp only [Prod.mk.injEq] at h
      obtain ⟨rfl, rfl⟩ := h
      refine ⟨?_, by simp⟩
      simp; omega

theorem readExact_short {n : Nat} {bs : Bytes} (h : bs.length < n) :
    ∃ e, readExact n bs = .error e := by
  unfold readExact
  split
  · exact ⟨_, rfl⟩
  · exact ⟨.other, rfl⟩

end Verif
