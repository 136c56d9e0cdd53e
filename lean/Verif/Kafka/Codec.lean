import Verif.Kafka.VarintLemmas
/-
Sequencing of readers and writers, big-endian integers, and the two proof notions used for all codecs:
`RT enc d a` (reading `enc` followed by anything yields `a` and the rest) and
`Cut enc d` (every proper prefix of `enc` is rejected).
-/
namespace Verif.Kafka
open Verif

/-- sequencing of two reads (`if err != nil { return err }` between them) as in components/kafka-protocol-go/pkg/protocol/types/int.go:91-109 and all readers -/
def Dec.andThen {α β : Type} (d : Dec α) (f : α → Dec β) : Dec β := fun bs =>
  match d bs with
  | .error e => .error e
  | .ok (a, r) => f a r

@[inherit_doc] infixl:55 " ⟫= " => Dec.andThen

/-- a read that consumes nothing; (a `return nil` in the readers) -/
def Dec.ret {α : Type} (a : α) : Dec α := fun bs => .ok (a, bs)

/-- a read that fails; (a `return err` in the readers) -/
def Dec.fail {α : Type} (e : Err) : Dec α := fun _ => .error e

/-- sequencing of two writes: the bytes of the first, then those of the second; the first error wins; as in every `Write` of components/kafka-protocol-go/pkg/protocol/types/fields -/
def wseq (a b : Res Bytes) : Res Bytes :=
  match a with
  | .error e => .error e
  | .ok x => match b with
    | .error e => .error e
    | .ok y => .ok (x ++ y)

@[inherit_doc] infixr:60 " +++ " => wseq

@[simp] theorem wseq_ok (x y : Bytes) : (Except.ok x +++ Except.ok y : Res Bytes) = .ok (x ++ y) := rfl
@[simp] theorem wseq_err (e : Err) (y : Res Bytes) : (Except.error e +++ y : Res Bytes) = .error e := rfl

theorem wseq_eq_ok {a b : Res Bytes} {z : Bytes} :
    (a +++ b) = .ok z ↔ ∃ x y, a = .ok x ∧ b = .ok y ∧ z = x ++ y := by
  unfold wseq
  constructor
  · intro h
    split at h
    · simp at h
    · split at h
      · simp at h
      · injection h with h; exact ⟨_, _, rfl, rfl, h.symm⟩
  · rintro ⟨x, y, rfl, rfl, rfl⟩; rfl

/-- sequencing of two size computations; as in every `SizeInBytes` of components/kafka-protocol-go/pkg/protocol/types/fields -/
def sadd (a b : Res Nat) : Res Nat :=
  match a with
  | .error e => .error e
  | .ok x => match b with
    | .error e => .error e
    | .ok y => .ok (x + y)

theorem sadd_eq_ok {a b : Res Nat} {z : Nat} :
    sadd a b = .ok z ↔ ∃ x y, a = .ok x ∧ b = .ok y ∧ z = x + y := by
  unfold sadd
  constructor
  · intro h
    split at h
    · simp at h
    · split at h
      · simp at h
      · injection h with h; exact ⟨_, _, rfl, rfl, h.symm⟩
  · rintro ⟨x, y, rfl, rfl, rfl⟩; rfl

/-! ### proof notions -/

/-- reading `enc` followed by arbitrary bytes yields `a` and leaves exactly those bytes; specification, models no code -/
def RT {α : Type} (enc : Bytes) (d : Dec α) (a : α) : Prop :=
  ∀ rest, d (enc ++ rest) = .ok (a, rest)

/-- reading a proper prefix of `enc` fails; specification, models no code -/
def Cut {α : Type} (enc : Bytes) (d : Dec α) : Prop :=
  ∀ p s, enc = p ++ s → s ≠ [] → ∃ e, d p = .error e

theorem RT.ret {α : Type} (a : α) : RT [] (Dec.ret a) a := fun _ => rfl

theorem RT.bind {α β : Type} {e1 e2 : Bytes} {d : Dec α} {f : α → Dec β} {a : α} {b : β}
    (h1 : RT e1 d a) (h2 : RT e2 (f a) b) : RT (e1 ++ e2) (d ⟫= f) b := by
  intro rest
  unfold Dec.andThen
  rw [List.append_assoc, h1]
  exact h2 rest

theorem RT.map {α β : Type} {e1 : Bytes} {d : Dec α} {f : α → Dec β} {a : α} {b : β}
    (h1 : RT e1 d a) (h2 : RT [] (f a) b) : RT e1 (d ⟫= f) b := by
  have := h1.bind h2; simpa using this

theorem Cut.nil {α : Type} (d : Dec α) : Cut [] d := by
  intro p s h hs
  have := congrArg List.length h
  simp only [List.length_nil, List.length_append] at this
  have : s.length = 0 := by omega
  exact absurd (List.length_eq_zero_iff.mp this) hs

theorem Cut.bind {α β : Type} {e1 e2 : Bytes} {d : Dec α} {f : α → Dec β} {a : α}
    (h1 : RT e1 d a) (c1 : Cut e1 d) (c2 : Cut e2 (f a)) : Cut (e1 ++ e2) (d ⟫= f) := by
  intro p s h hs
  unfold Dec.andThen
  rcases List.append_eq_append_iff.mp h with ⟨t, rfl, h2⟩ | ⟨t, h1', h2⟩
  · obtain ⟨e, he⟩ := c2 t s h2 hs
    rw [h1]; exact ⟨e, he⟩
  · by_cases ht : t = []
    · subst ht
      simp only [List.append_nil] at h1'
      subst h1'
      have := h1 []
      simp only [List.append_nil] at this
      rw [this]
      obtain ⟨e, he⟩ := c2 [] s (by simpa using h2.symm) hs
      exact ⟨e, he⟩
    · obtain ⟨e, he⟩ := c1 p t h1' ht
      rw [he]; exact ⟨e, rfl⟩

theorem Cut.map {α β : Type} {e1 : Bytes} {d : Dec α} {f : α → Dec β} {a : α}
    (h1 : RT e1 d a) (c1 : Cut e1 d) : Cut e1 (d ⟫= f) := by
  have := Cut.bind (e2 := []) (f := f) h1 c1 (Cut.nil _)
  simpa using this

theorem andThen_ok {α β : Type} {d : Dec α} {f : α → Dec β} {bs r : Bytes} {b : β}
    (h : (d ⟫= f) bs = .ok (b, r)) : ∃ a r', d bs = .ok (a, r') ∧ f a r' = .ok (b, r) := by
  unfold Dec.andThen at h
  split at h
  · simp at h
  · exact ⟨_, _, by assumption, h⟩

/-! ### exact reads -/

theorem RT.exact {n : Nat} (a : Bytes) (h : a.length = n) (hn : 0 < n) : RT a (readExact n) a :=
  fun rest => readExact_append a rest h hn

theorem Cut.exact {n : Nat} (a : Bytes) (h : a.length = n) : Cut a (readExact n) := by
  intro p s hps hs
  apply readExact_short
  have h1 := congrArg List.length hps
  have h2 := List.length_pos_iff.mpr hs
  simp only [List.length_append] at h1
  omega

/-! ### varints -/

theorem RT.uvarint32 (v : Nat) (h : v < 2^32) : RT (putUvarint v) readUvarint32 v :=
  fun rest => readUvarint32_put v rest h

theorem RT.varint32 (v : Int) (h1 : -2^31 ≤ v) (h2 : v < 2^31) : RT (putVarint v) readVarint32 v :=
  fun rest => readVarint32_put v rest h1 h2

theorem RT.varint64 (v : Int) (h1 : -2^63 ≤ v) (h2 : v < 2^63) : RT (putVarint v) readVarint64 v :=
  fun rest => readVarint64_put v rest h1 h2

theorem Cut.uvarint32 (v : Nat) : Cut (putUvarint v) readUvarint32 := by
  intro p s h hs
  obtain ⟨e, he⟩ := readUvarintAux_trunc p 10 0 0 v s h hs
  unfold readUvarint32 readUvarint
  rw [he]; exact ⟨e, rfl⟩

theorem Cut.varint32 (v : Int) : Cut (putVarint v) readVarint32 := by
  intro p s h hs
  obtain ⟨e, he⟩ := Cut.uvarint32 (zigzag64 v) p s h hs
  unfold readVarint32
  rw [he]; exact ⟨e, rfl⟩

theorem Cut.varint64 (v : Int) : Cut (putVarint v) readVarint64 := by
  intro p s h hs
  obtain ⟨e, he⟩ := readUvarintAux_trunc p 10 0 0 (zigzag64 v) s h hs
  unfold readVarint64 readUvarint
  rw [he]; exact ⟨e, rfl⟩

theorem writeUvarint32_ok (v : Nat) : writeUvarint32 v = .ok (putUvarint v) := by
  unfold writeUvarint32
  rw [if_neg (by have := uint32Size_le v; omega)]

theorem writeVarint32_ok (v : Int) : writeVarint32 v = .ok (putVarint v) := by
  unfold writeVarint32 int32Size
  rw [if_neg (by have := uint32Size_le ((BitVec.ofInt 32 v <<< 1) ^^^ (BitVec.ofInt 32 v).sshiftRight 31).toNat
                 simp only; omega)]

theorem putVarint_ne_nil (v : Int) : putVarint v ≠ [] := putUvarint_ne_nil _

/-! ### big-endian integers (Go `encoding/binary` BigEndian) -/

/-- Go `binary.BigEndian.PutUintN`: `b[0] = byte(v >> 8(k-1)) … b[k-1] = byte(v)`. -/
def beBytes : (k : Nat) → (v : Nat) → Bytes
  | 0, _ => []
  | k + 1, v => UInt8.ofNat (v >>> (8 * k)) :: beBytes k v

/-- Go `binary.BigEndian.UintN`: `uint(b[k-1]) | uint(b[k-2])<<8 | …`, as a Horner sum. -/
def beNat : Bytes → Nat → Nat
  | [], acc => acc
  | b :: bs, acc => beNat bs (acc * 256 + b.toNat)

/-- Go conversion of an integer to a signed type of `8*k` bits (two's complement wrap-around). e.g. `int32(len)` in components/kafka-protocol-go/pkg/protocol/types/fields/batchrecord.go:254-327 -/
def wrapS (k : Nat) (x : Int) : Int := Int.bmod x (256 ^ k)

/-- Go conversion of a signed integer to the unsigned type of `8*k` bits. e.g. `uint32(…)` in components/kafka-protocol-go/pkg/protocol/types/fields/recordbatch.go:275-288 -/
def wrapU (k : Nat) (x : Int) : Nat := (x % (256 ^ k : Nat)).toNat

/-- big-endian write of a signed (or unsigned) `8*k`-bit integer; int.go:35-49 `WriteInt32` and siblings -/
def putInt (k : Nat) (x : Int) : Bytes := beBytes k (wrapU k x)

/-- big-endian read of a signed `8*k`-bit integer; int.go:51-69 `ReadInt32` and siblings -/
def readInt (k : Nat) : Dec Int := readExact k ⟫= fun b => Dec.ret (wrapS k (beNat b 0))

/-- big-endian read of an unsigned `8*k`-bit integer; int.go `ReadUint16`, float.go bits -/
def readUInt (k : Nat) : Dec Nat := readExact k ⟫= fun b => Dec.ret (beNat b 0)

/-- values of a signed `8*k`-bit integer; (the range of a Go integer type; models no code) -/
def InS (k : Nat) (x : Int) : Prop := -(256 ^ k / 2 : Nat) ≤ x ∧ x < (256 ^ k / 2 : Nat)

@[simp] theorem length_beBytes (k v : Nat) : (beBytes k v).length = k := by
  induction k with
  | zero => rfl
  | succ k ih => simp [beBytes, ih]

theorem beNat_append (a b : Bytes) (acc : Nat) : beNat (a ++ b) acc = beNat b (beNat a acc) := by
  induction a generalizing acc with
  | nil => rfl
  | cons x a ih => simp [beNat, ih]

theorem beNat_beBytes (k v acc : Nat) : beNat (beBytes k v) acc = acc * 256 ^ k + v % 256 ^ k := by
  induction k generalizing acc with
  | zero => simp [beBytes, beNat, Nat.mod_one]
  | succ k ih =>
    have hp : (2:Nat) ^ (8 * k) = 256 ^ k := by rw [Nat.pow_mul]
    have h1 : v % (256 ^ k * 256) = v % 256 ^ k + 256 ^ k * (v / 256 ^ k % 256) := Nat.mod_mul
    have h2 : (UInt8.ofNat (v >>> (8 * k))).toNat = v / 256 ^ k % 256 := by
      simp [Nat.shiftRight_eq_div_pow, hp]
    rw [beBytes, beNat, ih, h2, Nat.pow_succ, h1, Nat.add_mul, Nat.mul_assoc, Nat.mul_comm 256 (256 ^ k),
      Nat.mul_comm (v / 256 ^ k % 256) (256 ^ k)]
    omega

theorem pow256_pos (k : Nat) : 0 < 256 ^ k := Nat.pow_pos (by decide)

theorem wrapU_lt (k : Nat) (x : Int) : wrapU k x < 256 ^ k := by
  have := pow256_pos k
  have h1 := Int.emod_lt_of_pos x (b := ((256 ^ k : Nat) : Int)) (by omega)
  have h2 := Int.emod_nonneg x (b := ((256 ^ k : Nat) : Int)) (by omega)
  unfold wrapU
  omega

theorem wrapS_wrapU (k : Nat) (x : Int) (h : InS k x) : wrapS k (wrapU k x) = x := by
  have hp := pow256_pos k
  have h2 := Int.emod_nonneg x (b := ((256 ^ k : Nat) : Int)) (by omega)
  unfold wrapS wrapU
  rw [Int.toNat_of_nonneg h2, Int.emod_bmod]
  apply Int.bmod_eq_of_le
  · exact h.1
  · have := h.2; omega

theorem RT.int (k : Nat) (hk : 0 < k) (x : Int) (h : InS k x) : RT (putInt k x) (readInt k) x := by
  apply RT.map (RT.exact _ (by simp [putInt]) hk)
  intro rest
  have := wrapU_lt k x
  simp only [putInt, beNat_beBytes, Nat.zero_mul, Nat.zero_add, Nat.mod_eq_of_lt this, wrapS_wrapU k x h]
  rfl

theorem Cut.int (k : Nat) (hk : 0 < k) (x : Int) : Cut (putInt k x) (readInt k) :=
  Cut.map (RT.exact _ (by simp [putInt]) hk) (Cut.exact _ (by simp [putInt]))

theorem RT.uint (k : Nat) (hk : 0 < k) (x : Nat) (h : x < 256 ^ k) : RT (beBytes k x) (readUInt k) x := by
  apply RT.map (RT.exact _ (by simp) hk)
  intro rest
  simp only [beNat_beBytes, Nat.zero_mul, Nat.zero_add, Nat.mod_eq_of_lt h]
  rfl

theorem Cut.uint (k : Nat) (hk : 0 < k) (x : Nat) : Cut (beBytes k x) (readUInt k) :=
  Cut.map (RT.exact _ (by simp) hk) (Cut.exact _ (by simp))

@[simp] theorem length_putInt (k : Nat) (x : Int) : (putInt k x).length = k := by simp [putInt]

theorem beNat_lt (b : Bytes) (acc : Nat) : beNat b acc < (acc + 1) * 256 ^ b.length := by
  induction b generalizing acc with
  | nil => simp [beNat]
  | cons x b ih =>
    have h := ih (acc * 256 + x.toNat)
    have hx := x.toNat_lt
    have h3 : (acc * 256 + x.toNat + 1) * 256 ^ b.length ≤ ((acc + 1) * 256) * 256 ^ b.length :=
      Nat.mul_le_mul_right _ (by omega)
    simp only [beNat, List.length_cons, Nat.pow_succ]
    calc _ < _ := h
      _ ≤ _ := h3
      _ = _ := by rw [Nat.mul_assoc, Nat.mul_comm 256]

end Verif.Kafka
