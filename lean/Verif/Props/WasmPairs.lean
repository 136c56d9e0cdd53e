import Verif.Wasm.Pairs
/-
C45: maps handed to filters are decodable.  The specification is a decoder for the proxy-wasm
pair format, written independently of the encoder.
-/
namespace Verif.Wasm.Pairs

/-! ### Specification: the pair format -/

/-- A little-endian 32-bit number. -/
def u32 : Bytes → Option (Nat × Bytes)
  | a :: b :: c :: d :: rest =>
    some (a.toNat + 256 * b.toNat + 65536 * c.toNat + 16777216 * d.toNat, rest)
  | _ => none

/-- `n` bytes followed by a NUL. -/
def field (n : Nat) (bs : Bytes) : Option (Bytes × Bytes) :=
  match bs.drop n with
  | 0 :: rest => some (bs.take n, rest)
  | _ => none

/-- `n` pairs of lengths. -/
def decSizes : Nat → Bytes → Option (List (Nat × Nat) × Bytes)
  | 0, bs => some ([], bs)
  | n + 1, bs => do
    let (k, bs) ← u32 bs
    let (v, bs) ← u32 bs
    let (r, bs) ← decSizes n bs
    some ((k, v) :: r, bs)

/-- The pairs, of the given lengths; nothing may follow. -/
def decPairs : List (Nat × Nat) → Bytes → Option (List (Bytes × Bytes))
  | [], [] => some []
  | [], _ :: _ => none
  | (k, v) :: r, bs => do
    let (key, bs) ← field k bs
    let (val, bs) ← field v bs
    let ps ← decPairs r bs
    some ((key, val) :: ps)

/-- Decodes the pair format. -/
def decode (bs : Bytes) : Option (List (Bytes × Bytes)) := do
  let (n, bs) ← u32 bs
  let (sizes, bs) ← decSizes n bs
  decPairs sizes bs

/-! ### Proof -/

theorem u32_le32 (n : Nat) (h : n < 4294967296) (rest : Bytes) : u32 (le32 n ++ rest) = some (n, rest) := by
  simp only [le32, u32, List.cons_append, List.nil_append, Option.some.injEq, Prod.mk.injEq, and_true,
    UInt8.toNat_ofNat']
  omega

theorem field_ok (x rest : Bytes) : field x.length (x ++ 0 :: rest) = some (x, rest) := by
  simp [field]

/-- The sizes as written. -/
def sizesOf (m : List (Bytes × Bytes)) : List Bytes → Bytes
  | [] => []
  | k :: ks => le32 k.length ++ le32 (lookup m k).length ++ sizesOf m ks

theorem le32_length (n : Nat) : (le32 n).length = 4 := rfl

theorem put32_mid (a b : Bytes) (x : Bytes) (hx : x.length = 4) (n off : Nat) (ho : off = a.length) :
    put32 (a ++ x ++ b) off n = a ++ le32 n ++ b := by
  subst ho
  unfold put32
  have h2 : (x ++ b).drop 4 = b := by rw [← hx, List.drop_left]
  rw [List.append_assoc a x b, List.take_left, ← List.drop_drop, List.drop_left, h2]

theorem replicate_add' {α} (a b : Nat) (x : α) :
    List.replicate (a + b) x = List.replicate a x ++ List.replicate b x :=
  (List.replicate_append_replicate).symm

theorem putSizes_eq (m : List (Bytes × Bytes)) : ∀ (ks : List Bytes) (i : Nat) (pre : Bytes),
    pre.length = 4 + i * 8 →
    putSizes m ks i (pre ++ List.replicate (ks.length * 8) 0) = pre ++ sizesOf m ks
  | [], i, pre, h => by simp [putSizes, sizesOf]
  | k :: ks, i, pre, h => by
    have hrep : List.replicate ((k :: ks).length * 8) (0 : UInt8) =
        [0, 0, 0, 0] ++ ([0, 0, 0, 0] ++ List.replicate (ks.length * 8) 0) := by
      rw [List.length_cons, show (ks.length + 1) * 8 = 4 + (4 + ks.length * 8) by omega,
        replicate_add', replicate_add']
      rfl
    simp only [putSizes]
    rw [hrep, ← List.append_assoc, put32_mid pre _ [0, 0, 0, 0] rfl _ _ h.symm, ← List.append_assoc,
      put32_mid (pre ++ le32 k.length) _ [0, 0, 0, 0] rfl _ _
        (by rw [List.length_append, le32_length]; omega)]
    rw [putSizes_eq m ks (i + 1) _ (by simp only [List.length_append, le32_length]; omega)]
    simp [sizesOf]

/-- The pairs as written. -/
def pairsOf (m : List (Bytes × Bytes)) : List Bytes → Bytes
  | [] => []
  | k :: ks => k ++ 0 :: (lookup m k ++ 0 :: pairsOf m ks)

theorem appendPairs_eq (m : List (Bytes × Bytes)) : ∀ (ks : List Bytes) (buf : Bytes),
    appendPairs m ks buf = buf ++ pairsOf m ks
  | [], buf => by simp [appendPairs, pairsOf]
  | k :: ks, buf => by
    simp only [appendPairs, pairsOf]
    rw [appendPairs_eq m ks]
    simp

theorem ins_perm (k : Bytes) : ∀ l, (ins k l).Perm (k :: l)
  | [] => List.Perm.refl _
  | x :: xs => by
    simp only [ins]
    split
    · exact List.Perm.refl _
    · exact ((ins_perm k xs).cons x).trans (List.Perm.swap k x xs)

theorem sort_perm : ∀ l, (sortKeys l).Perm l
  | [] => List.Perm.refl _
  | x :: xs => (ins_perm x (sortKeys xs)).trans ((sort_perm xs).cons x)

theorem serialize_eq (m : List (Bytes × Bytes)) :
    serialize m = le32 m.length ++ sizesOf m (sortKeys (m.map (·.1))) ++
      pairsOf m (sortKeys (m.map (·.1))) := by
  have hl : (sortKeys (m.map (·.1))).length = m.length := by
    rw [(sort_perm _).length_eq]; simp
  simp only [serialize, appendPairs_eq]
  congr 1
  have h0 : List.replicate (4 + m.length * 8) (0 : UInt8) =
      [] ++ [0, 0, 0, 0] ++ List.replicate (m.length * 8) 0 := by
    rw [replicate_add']; rfl
  rw [h0, put32_mid [] _ [0, 0, 0, 0] rfl _ 0 rfl, ← hl, List.nil_append]
  exact putSizes_eq m _ 0 _ rfl

theorem decSizes_ok (m : List (Bytes × Bytes)) : ∀ (ks : List Bytes) (rest : Bytes),
    (∀ k ∈ ks, k.length < 4294967296 ∧ (lookup m k).length < 4294967296) →
    decSizes ks.length (sizesOf m ks ++ rest) =
      some (ks.map fun k => (k.length, (lookup m k).length), rest)
  | [], rest, _ => by simp [decSizes, sizesOf]
  | k :: ks, rest, h => by
    obtain ⟨h1, h2⟩ := h k (by simp)
    have ih := decSizes_ok m ks rest (fun k hk => h k (by simp [hk]))
    simp only [decSizes, sizesOf, List.append_assoc, List.length_cons, u32_le32 _ h1, u32_le32 _ h2, ih,
      Option.bind_eq_bind, Option.bind_some, List.map_cons]

theorem decPairs_ok (m : List (Bytes × Bytes)) : ∀ (ks : List Bytes),
    decPairs (ks.map fun k => (k.length, (lookup m k).length)) (pairsOf m ks) =
      some (ks.map fun k => (k, lookup m k))
  | [] => by simp [decPairs, pairsOf]
  | k :: ks => by
    simp only [decPairs, pairsOf, List.map_cons, field_ok, decPairs_ok m ks, Option.bind_eq_bind,
      Option.bind_some]

/-- Keys are distinct. -/
def IsMap (m : List (Bytes × Bytes)) : Prop := (m.map (·.1)).Nodup

theorem lookup_mem {m : List (Bytes × Bytes)} (h : IsMap m) {k v : Bytes} (hm : (k, v) ∈ m) :
    lookup m k = v := by
  unfold IsMap at h
  induction m with
  | nil => cases hm
  | cons e m ih =>
    simp only [List.map_cons, List.nodup_cons] at h
    rcases List.mem_cons.mp hm with rfl | hm'
    · simp [lookup]
    · have hne : e.1 ≠ k := by
        rintro rfl
        exact h.1 (List.mem_map.mpr ⟨_, hm', rfl⟩)
      have : lookup (e :: m) k = lookup m k := by simp [lookup, hne]
      rw [this]
      exact ih h.2 hm'

theorem map_lookup_perm {m : List (Bytes × Bytes)} (h : IsMap m) :
    ((sortKeys (m.map (·.1))).map fun k => (k, lookup m k)).Perm m := by
  have h1 := (sort_perm (m.map (·.1))).map fun k => (k, lookup m k)
  have h2 : (m.map (·.1)).map (fun k => (k, lookup m k)) = m := by
    rw [List.map_map]
    conv => rhs; rw [← List.map_id m]
    apply List.map_congr_left
    rintro ⟨k, v⟩ hm
    simp [lookup_mem h hm]
  rw [h2] at h1
  exact h1

/-- **C45** The serialization of any map decodes, with the pair format's decoder, to exactly the
entries of the map (sizes and the number of entries below 2^32, the limit of the format). -/
theorem C45_pairs_round_trip (m : List (Bytes × Bytes)) (hm : IsMap m) (hn : m.length < 4294967296)
    (hs : ∀ e ∈ m, e.1.length < 4294967296 ∧ e.2.length < 4294967296) :
    ∃ ps, decode (serialize m) = some ps ∧ ps.Perm m := by
  refine ⟨_, ?_, map_lookup_perm hm⟩
  have hl : (sortKeys (m.map (·.1))).length = m.length := by
    rw [(sort_perm _).length_eq]; simp
  have hk : ∀ k ∈ sortKeys (m.map (·.1)), k.length < 4294967296 ∧ (lookup m k).length < 4294967296 := by
    intro k hk
    obtain ⟨⟨k', v⟩, he, rfl⟩ := List.mem_map.mp ((sort_perm _).mem_iff.mp hk)
    rw [lookup_mem hm he]
    exact hs _ he
  rw [serialize_eq]
  have h1 := decSizes_ok m (sortKeys (m.map (·.1))) (pairsOf m (sortKeys (m.map (·.1)))) hk
  rw [hl] at h1
  simp only [decode, List.append_assoc, u32_le32 _ hn, h1, Option.bind_eq_bind, Option.bind_some,
    decPairs_ok]

/-! ### The order does not depend on the map's iteration order -/

theorem leBytes_total : ∀ a b, leBytes a b = true ∨ leBytes b a = true
  | [], _ => Or.inl rfl
  | _ :: _, [] => Or.inr rfl
  | a :: as, b :: bs => by
    simp only [leBytes]
    rcases leBytes_total as bs with h | h
    all_goals
      by_cases h1 : a < b
      · simp [h1]
      · by_cases h2 : b < a
        · simp [h2]
        · simp [h1, h2, h]

theorem leBytes_antisymm : ∀ {a b}, leBytes a b = true → leBytes b a = true → a = b
  | [], [], _, _ => rfl
  | [], _ :: _, _, h => by cases h
  | _ :: _, [], h, _ => by cases h
  | a :: as, b :: bs, h, h' => by
    simp only [leBytes] at h h'
    by_cases h1 : a < b
    · have h2 : ¬ b < a := by
        rw [UInt8.lt_iff_toNat_lt] at h1 ⊢; omega
      simp [h1, h2] at h'
    · by_cases h2 : b < a
      · simp [h1, h2] at h
      · simp [h1, h2] at h h'
        have : a = b := by
          rw [UInt8.lt_iff_toNat_lt] at h1 h2
          apply UInt8.toNat_inj.mp; omega
        rw [this, leBytes_antisymm h h']

theorem leBytes_trans : ∀ {a b c}, leBytes a b = true → leBytes b c = true → leBytes a c = true
  | [], _, _, _, _ => rfl
  | _ :: _, [], _, h, _ => by cases h
  | _ :: _, _ :: _, [], _, h => by cases h
  | a :: as, b :: bs, c :: cs, h, h' => by
    simp only [leBytes, UInt8.lt_iff_toNat_lt] at *
    by_cases h1 : a.toNat < b.toNat
    · by_cases h2 : b.toNat < c.toNat
      · rw [if_pos (by omega)]
      · by_cases h3 : c.toNat < b.toNat
        · simp [h2, h3] at h'
        · rw [if_pos (by omega)]
    · by_cases h2 : b.toNat < a.toNat
      · simp [h1, h2] at h
      · by_cases h3 : b.toNat < c.toNat
        · rw [if_pos (by omega)]
        · by_cases h4 : c.toNat < b.toNat
          · simp [h3, h4] at h'
          · simp only [h1, h2, h3, h4, if_false] at h h'
            rw [if_neg (by omega), if_neg (by omega)]
            exact leBytes_trans h h'

/-- Sorted by `leBytes`. -/
def Sorted (l : List Bytes) : Prop := l.Pairwise fun a b => leBytes a b = true

theorem ins_sorted (k : Bytes) : ∀ {l}, Sorted l → Sorted (ins k l)
  | [], _ => by simp [ins, Sorted]
  | x :: xs, h => by
    simp only [Sorted, List.pairwise_cons] at h
    simp only [ins]
    split
    · rename_i hk
      simp only [Sorted, List.pairwise_cons]
      refine ⟨?_, h⟩
      intro y hy
      rcases List.mem_cons.mp hy with rfl | hy
      · exact hk
      · exact leBytes_trans hk (h.1 y hy)
    · rename_i hk
      simp only [Sorted, List.pairwise_cons]
      refine ⟨?_, ins_sorted k h.2⟩
      intro y hy
      rcases List.mem_cons.mp ((ins_perm k xs).mem_iff.mp hy) with rfl | hy
      · rcases leBytes_total y x with h' | h'
        · exact absurd h' hk
        · exact h'
      · exact h.1 y hy

theorem sort_sorted : ∀ l, Sorted (sortKeys l)
  | [] => List.Pairwise.nil
  | x :: xs => ins_sorted x (sort_sorted xs)

theorem sorted_unique : ∀ {a b : List Bytes}, Sorted a → Sorted b → a.Perm b → a = b
  | [], b, _, _, hp => (List.Perm.nil_eq hp)
  | x :: xs, [], _, _, hp => by cases hp.length_eq
  | x :: xs, y :: ys, ha, hb, hp => by
    simp only [Sorted, List.pairwise_cons] at ha hb
    have hxy : x = y := by
      rcases List.mem_cons.mp (hp.mem_iff.mp (List.mem_cons_self)) with h | h
      · exact h
      · rcases List.mem_cons.mp (hp.symm.mem_iff.mp (List.mem_cons_self)) with h' | h'
        · exact h'.symm
        · exact leBytes_antisymm (ha.1 y h') (hb.1 x h)
    subst hxy
    rw [sorted_unique ha.2 hb.2 (List.Perm.cons_inv hp)]

theorem lookup_perm {m m' : List (Bytes × Bytes)} (hm : IsMap m) (hp : m.Perm m') (k : Bytes) :
    lookup m k = lookup m' k := by
  have hm' : IsMap m' := (hp.map (fun e : Bytes × Bytes => e.1)).nodup_iff.mp hm
  by_cases h : ∃ v, (k, v) ∈ m
  · obtain ⟨v, hv⟩ := h
    rw [lookup_mem hm hv, lookup_mem hm' (hp.mem_iff.mp hv)]
  · have hn : ∀ (n : List (Bytes × Bytes)), (¬ ∃ v, (k, v) ∈ n) → lookup n k = [] := by
      intro n hn
      unfold lookup
      have : n.find? (·.1 = k) = none := by
        apply List.find?_eq_none.mpr
        rintro ⟨k', v⟩ hmem
        simp only [decide_eq_true_eq]
        rintro rfl
        exact hn ⟨v, hmem⟩
      rw [this]
    rw [hn m h, hn m' (fun ⟨v, hv⟩ => h ⟨v, hp.mem_iff.mpr hv⟩)]

theorem sizesOf_congr {m m' : List (Bytes × Bytes)} (h : ∀ k, lookup m k = lookup m' k) :
    ∀ ks, sizesOf m ks = sizesOf m' ks ∧ pairsOf m ks = pairsOf m' ks
  | [] => ⟨rfl, rfl⟩
  | k :: ks => by
    obtain ⟨h1, h2⟩ := sizesOf_congr h ks
    simp only [sizesOf, pairsOf, h, h1, h2, and_self]

/-- **C45** The serialization is a function of the map, not of Go's random iteration order. -/
theorem C45_deterministic {m m' : List (Bytes × Bytes)} (hm : IsMap m) (hp : m.Perm m') :
    serialize m = serialize m' := by
  have hk : sortKeys (m.map (·.1)) = sortKeys (m'.map (·.1)) :=
    sorted_unique (sort_sorted _) (sort_sorted _)
      ((sort_perm _).trans ((hp.map (·.1)).trans (sort_perm _).symm))
  obtain ⟨h1, h2⟩ := sizesOf_congr (lookup_perm hm hp) (sortKeys (m'.map (·.1)))
  rw [serialize_eq, serialize_eq, hk, h1, h2, hp.length_eq]

/-- **C45** Different maps have different serializations. -/
theorem C45_injective {m m' : List (Bytes × Bytes)} (hm : IsMap m) (hm' : IsMap m')
    (hn : m.length < 4294967296) (hn' : m'.length < 4294967296)
    (hs : ∀ e ∈ m, e.1.length < 4294967296 ∧ e.2.length < 4294967296)
    (hs' : ∀ e ∈ m', e.1.length < 4294967296 ∧ e.2.length < 4294967296)
    (h : serialize m = serialize m') : m.Perm m' := by
  obtain ⟨p, h1, h2⟩ := C45_pairs_round_trip m hm hn hs
  obtain ⟨p', h1', h2'⟩ := C45_pairs_round_trip m' hm' hn' hs'
  rw [h, h1'] at h1
  injection h1 with h1
  subst h1
  exact h2.symm.trans h2'

/-- The 64-bit number in eight bytes. -/
def u64 (bs : Bytes) : Option Nat := do
  let (lo, r) ← u32 bs
  let (hi, r) ← u32 r
  if r = [] then some (lo + 4294967296 * hi) else none

/-- **C45** Numbers handed to filters are eight little-endian bytes in two's complement. -/
theorem C45_numbers (v : Int) (h1 : -9223372036854775808 ≤ v) (h2 : v < 9223372036854775808) :
    ∃ n, u64 (stringify (.int64 v)) = some n ∧
      v = if n < 9223372036854775808 then (n : Int) else (n : Int) - 18446744073709551616 := by
  refine ⟨(v % 18446744073709551616).toNat, ?_, ?_⟩
  · have hb : (v % 18446744073709551616).toNat < 18446744073709551616 := by omega
    simp only [stringify, le64, u64]
    generalize (v % 18446744073709551616).toNat = n at hb ⊢
    have e1 : u32 (le32 n ++ le32 (n / 4294967296)) = some (n % 4294967296, le32 (n / 4294967296)) := by
      have : le32 n = le32 (n % 4294967296) := by
        simp only [le32, List.cons.injEq, and_true, ← UInt8.toNat_inj, UInt8.toNat_ofNat']
        omega
      rw [this, u32_le32 _ (by omega)]
    have e2 : u32 (le32 (n / 4294967296)) = some (n / 4294967296, []) := by
      have := u32_le32 (n / 4294967296) (by omega) []
      rwa [List.append_nil] at this
    rw [e1]
    simp only [Option.bind_eq_bind, Option.bind_some]
    rw [e2]
    simp only [Option.bind_some, if_true, Option.some.injEq]
    omega
  · split <;> omega

/-- **C45** Truth values handed to filters are one byte, 1 for true and 0 for false; strings are their own bytes; string maps
are the serialised pairs; unsigned numbers are eight little-endian bytes. -/
theorem C45_scalars : stringify (.bool true) = [1] ∧ stringify (.bool false) = [0] ∧
    (∀ s, stringify (.string s) = s) ∧ (∀ m, stringify (.strMap m) = serialize m) ∧
    ∀ v, v < 18446744073709551616 → u64 (stringify (.uint64 v)) = some v := by
  refine ⟨rfl, rfl, fun _ => rfl, fun _ => rfl, ?_⟩
  intro n hb
  simp only [stringify, le64, u64]
  have e1 : u32 (le32 n ++ le32 (n / 4294967296)) = some (n % 4294967296, le32 (n / 4294967296)) := by
    have : le32 n = le32 (n % 4294967296) := by
      simp only [le32, List.cons.injEq, and_true, ← UInt8.toNat_inj, UInt8.toNat_ofNat']
      omega
    rw [this, u32_le32 _ (by omega)]
  have e2 : u32 (le32 (n / 4294967296)) = some (n / 4294967296, []) := by
    have := u32_le32 (n / 4294967296) (by omega) []
    rwa [List.append_nil] at this
  rw [e1]
  simp only [Option.bind_eq_bind, Option.bind_some]
  rw [e2]
  simp only [Option.bind_some, if_true, Option.some.injEq]
  omega

/-- Two keys, one with an embedded NUL and an empty value. -/
example : decode (serialize [([98], [1, 2]), ([97, 0], [])]) = some [([97, 0], []), ([98], [1, 2])] := by
  decide +kernel

example : IsMap [([98], [1, 2]), ([97, 0], [])] := by unfold IsMap; decide +kernel

/-- **C45 (fails)** for maps with values that are not strings: the entry is dropped silently. -/
theorem C45_any_map_false : decode (stringify (.anyMap [([97], some [1]), ([98], none)])) = some [([97], [1])] := by
  decide +kernel

end Verif.Wasm.Pairs
