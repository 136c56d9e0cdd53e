import Verif.Props.TcpMeta
import Verif.Props.WasmPairs
/-
Property C269: what an end says about itself is what the other end reads.
-/
namespace Verif.TcpMeta
open Verif

/-! ### numbers and fields -/

theorem decVar_enc : ∀ (f n : Nat), n < 128 ^ (f + 1) → ∀ r, decVar f (encVar f n ++ r) = some (n, r)
  | 0, n, h, r => by
    have hn : n < 128 := by simpa using h
    have : (UInt8.ofNat (n % 128)).toNat = n := by rw [UInt8.toNat_ofNat']; omega
    simp only [encVar, List.cons_append, List.nil_append, decVar, this, hn, if_true]
  | f + 1, n, h, r => by
    unfold encVar
    by_cases hn : n < 128
    · have : (UInt8.ofNat n).toNat = n := by rw [UInt8.toNat_ofNat']; omega
      rw [if_pos hn, List.cons_append, List.nil_append, decVar, this, if_pos hn]
    · have h2 : n / 128 < 128 ^ (f + 1) := by
        rw [Nat.pow_succ] at h
        exact Nat.div_lt_of_lt_mul (by rw [Nat.mul_comm]; exact h)
      have : (UInt8.ofNat (128 + n % 128)).toNat = 128 + n % 128 := by rw [UInt8.toNat_ofNat']; omega
      rw [if_neg hn, List.cons_append, decVar, this, if_neg (by omega), decVar_enc f _ h2 r]
      simp only [Option.some.injEq, Prod.mk.injEq, and_true]
      omega

/-- numbers that fit -/
abbrev big : Nat := 128 ^ 10

theorem payload_data {d : Bytes} (h : d.length < 128 ^ 10) (r : Bytes) : payload 2 (encVar 9 d.length ++ d ++ r) = some (.data d, r) := by
  unfold payload
  rw [if_neg (by decide), if_neg (by decide), if_pos rfl, List.append_assoc, decVar_enc 9 _ h]
  dsimp only
  rw [if_pos (by rw [List.length_append]; omega), List.take_left, List.drop_left]

theorem encVar_pos (f n : Nat) : 0 < (encVar f n).length := by
  cases f with
  | zero => simp [encVar]
  | succ f => unfold encVar; split <;> simp

/-- fields written one after the other -/
def encAll (ds : List (Nat × Bytes)) : Bytes := ds.flatMap fun e => encData e.1 e.2

/-- the fields that were written -/
def asFields (ds : List (Nat × Bytes)) : List (Nat × Nat × Pay) := ds.map fun e => (e.1, 2, .data e.2)

theorem fieldsOf_enc : ∀ (ds : List (Nat × Bytes)) (fuel : Nat), (∀ e ∈ ds, 0 < e.1 ∧ e.1 < 16 ∧ e.2.length < 128 ^ 10) → (encAll ds).length ≤ fuel →
    fieldsOf fuel (encAll ds) = some (asFields ds)
  | [], fuel, _, _ => by cases fuel <;> rfl
  | e :: ds, fuel, h, hf => by
    have he := h e (by simp)
    have hcons : encAll (e :: ds) = encVar 9 (8 * e.1 + 2) ++ (encVar 9 e.2.length ++ e.2 ++ encAll ds) := by
      simp only [encAll, List.flatMap_cons, encData, List.append_assoc]
    have hp : 0 < (encVar 9 (8 * e.1 + 2)).length := encVar_pos _ _
    have hl : (encAll ds).length < (encAll (e :: ds)).length := by
      rw [hcons]
      simp only [List.length_append]
      omega
    cases fuel with
    | zero => omega
    | succ fuel =>
      have hd := decVar_enc 9 (8 * e.1 + 2) (Nat.lt_trans (show 8 * e.1 + 2 < 200 by omega) (by decide)) (encVar 9 e.2.length ++ e.2 ++ encAll ds)
      rw [← hcons] at hd
      have h1 : (8 * e.1 + 2) / 8 = e.1 := by omega
      have h2 : (8 * e.1 + 2) % 8 = 2 := by omega
      have ih := fieldsOf_enc ds fuel (fun e' h' => h e' (by simp [h'])) (by omega)
      have hne : encAll (e :: ds) ≠ [] := by
        intro h0
        rw [h0] at hl
        simp at hl
      rw [fieldsOf.eq_3 _ _ (by intro h0; exact hne h0), hd]
      dsimp only
      rw [h1, h2, if_neg (by omega), payload_data he.2.2]
      dsimp only
      rw [ih]
      rfl

theorem wire_enc (ds : List (Nat × Bytes)) (h : ∀ e ∈ ds, 0 < e.1 ∧ e.1 < 16 ∧ e.2.length < 128 ^ 10) : wire (encAll ds) = some (asFields ds) :=
  fieldsOf_enc ds _ h (Nat.le_refl _)

theorem encAll_one (k : Nat) (d : Bytes) : encAll [(k, d)] = encData k d := by simp [encAll]

theorem encAll_two (k k' : Nat) (d d' : Bytes) : encAll [(k, d), (k', d')] = encData k d ++ encData k' d' := by simp [encAll]

/-! ### values and structs -/

theorem wire_one {k : Nat} {d : Bytes} (h1 : 0 < k) (h2 : k < 16) (h3 : d.length < 128 ^ 10) : wire (encData k d) = some [(k, 2, .data d)] := by
  rw [← encAll_one, wire_enc _ (by intro e he; rw [List.mem_singleton] at he; subst he; exact ⟨h1, h2, h3⟩)]
  rfl

theorem parseVal_str (rec : Bytes → Option Fields) {s : Bytes} (h : s.length < 128 ^ 10) : parseVal rec (valStr s) = some (.str s) := by
  rw [parseVal, valStr, wire_one (by decide) (by decide) h]
  rfl

theorem parseVal_struct (rec : Bytes → Option Fields) {b : Bytes} (h : b.length < 128 ^ 10) {fs : Fields} (hr : rec b = some fs) :
    parseVal rec (valStruct b) = some (.struct fs) := by
  rw [parseVal, valStruct, wire_one (by decide) (by decide) h]
  simp [pickVal, hr]

theorem parseEntry_enc (rec : Bytes → Option Fields) {k v : Bytes} (hk : k.length < 128 ^ 10) (hv : v.length < 128 ^ 10) {x : Val} (hx : parseVal rec v = some x) :
    parseEntry rec (encData 1 k ++ encData 2 v) = some (k, x) := by
  rw [parseEntry, ← encAll_two, wire_enc _ (by
    intro e he
    rcases List.mem_cons.1 he with rfl | he
    · exact ⟨Nat.one_pos, (by decide : 1 < 16), hk⟩
    · rw [List.mem_singleton] at he
      subst he
      exact ⟨(by decide : 0 < 2), (by decide : 2 < 16), hv⟩)]
  have h2 : lastData 2 (asFields [(1, k), (2, v)]) = some v := rfl
  have h1 : lastData 1 (asFields [(1, k), (2, v)]) = some k := rfl
  simp only [Option.bind_some, h2, h1, hx, Option.map_some, Option.getD_some]

/-- the bytes of an entry -/
def entry (e : Bytes × Bytes) : Bytes := encData 1 e.1 ++ encData 2 e.2

theorem length_encData (k : Nat) (d : Bytes) : d.length ≤ (encData k d).length := by
  simp only [encData, List.length_append]; omega

theorem parseEntries_enc (rec : Bytes → Option Fields) (pv : Bytes → Val) : ∀ es : List (Bytes × Bytes),
    (∀ e ∈ es, (entry e).length < 128 ^ 10 ∧ parseVal rec e.2 = some (pv e.2)) →
    parseEntries rec (asFields (es.map fun e => (1, entry e))) = some (es.map fun e => (e.1, pv e.2))
  | [], _ => rfl
  | e :: es, h => by
    obtain ⟨h1, h2⟩ := h e (by simp)
    have hk : e.1.length < 128 ^ 10 := by
      refine Nat.lt_of_le_of_lt ?_ h1
      rw [entry, List.length_append]
      have := length_encData 1 e.1
      omega
    have hv : e.2.length < 128 ^ 10 := by
      refine Nat.lt_of_le_of_lt ?_ h1
      rw [entry, List.length_append]
      have := length_encData 2 e.2
      omega
    have ih := parseEntries_enc rec pv es (fun e' h' => h e' (by simp [h']))
    have hc : asFields ((e :: es).map fun e => (1, entry e)) = (1, 2, .data (entry e)) :: asFields (es.map fun e => (1, entry e)) := rfl
    rw [hc, parseEntries.eq_2]
    simp only [and_self, if_true]
    rw [ih, entry, parseEntry_enc rec hk hv h2]
    rfl

/-! ### maps -/

/-- the value given last for a key (specification) -/
def last {α : Type} (k : Bytes) (l : List (Bytes × α)) : Option α := (l.reverse.find? (·.1 = k)).map (·.2)

/-- no key twice (specification) -/
def Keys {α : Type} (l : List (Bytes × α)) : Prop := (l.map (·.1)).Nodup

theorem get_put {α : Type} (k k' : Bytes) (v : α) : ∀ m, get k (put k' v m) = if k' = k then some v else get k m
  | [] => by simp only [put, get]
  | (k1, v1) :: r => by
    unfold put
    by_cases h : k1 = k'
    · rw [if_pos h]
      subst h
      by_cases h2 : k1 = k <;> simp [get, h2]
    · rw [if_neg h]
      unfold get
      rw [get_put k k' v r]
      by_cases h2 : k1 = k
      · by_cases h3 : k' = k
        · exact absurd (h2.trans h3.symm) h
        · rw [if_pos h2, if_neg h3, if_pos h2]
      · rw [if_neg h2, if_neg h2]

theorem keys_put {α : Type} (k : Bytes) (v : α) : ∀ m : List (Bytes × α), Keys m → Keys (put k v m) ∧ ∀ x, x ∈ (put k v m).map (·.1) ↔ x = k ∨ x ∈ m.map (·.1)
  | [], _ => by simp [put, Keys]
  | (k1, v1) :: r, h => by
    unfold Keys at h
    rw [List.map_cons, List.nodup_cons] at h
    unfold put
    by_cases h1 : k1 = k
    · rw [if_pos h1]
      subst h1
      refine ⟨?_, fun x => by simp⟩
      unfold Keys
      rw [List.map_cons, List.nodup_cons]
      exact h
    · rw [if_neg h1]
      obtain ⟨ih1, ih2⟩ := keys_put k v r h.2
      refine ⟨?_, fun x => ?_⟩
      · unfold Keys
        rw [List.map_cons, List.nodup_cons]
        refine ⟨fun hm => ?_, ih1⟩
        rcases (ih2 _).1 hm with hk | hm
        · exact h1 hk
        · exact h.1 hm
      · rw [List.map_cons, List.mem_cons, ih2, List.map_cons, List.mem_cons]
        constructor
        · rintro (h | h | h)
          · exact .inr (.inl h)
          · exact .inl h
          · exact .inr (.inr h)
        · rintro (h | h | h)
          · exact .inr (.inl h)
          · exact .inl h
          · exact .inr (.inr h)

theorem toMap_keys {α : Type} (es : List (Bytes × α)) : Keys (toMap es) := by
  have : ∀ (es m : List (Bytes × α)), Keys m → Keys (es.foldl (fun m e => put e.1 e.2 m) m) := by
    intro es
    induction es with
    | nil => intro m h; exact h
    | cons e es ih => intro m h; exact ih _ (keys_put _ _ _ h).1
  exact this es [] List.nodup_nil

theorem last_cons {α : Type} (k : Bytes) (e : Bytes × α) (l : List (Bytes × α)) : last k (e :: l) = match last k l with
    | some v => some v
    | none => if e.1 = k then some e.2 else none := by
  unfold last
  rw [List.reverse_cons, List.find?_append]
  cases h : l.reverse.find? (·.1 = k) with
  | some x => simp
  | none =>
    by_cases h2 : e.1 = k <;> simp [h2]

theorem get_foldl {α : Type} (k : Bytes) : ∀ (es m : List (Bytes × α)), get k (es.foldl (fun m e => put e.1 e.2 m) m) = match last k es with
    | some v => some v
    | none => get k m
  | [], m => rfl
  | e :: es, m => by
    rw [List.foldl_cons, get_foldl k es, last_cons, get_put]
    cases last k es with
    | some v => rfl
    | none =>
      dsimp only
      by_cases h : e.1 = k
      · simp [h]
      · simp [h]

theorem get_toMap {α : Type} (k : Bytes) (es : List (Bytes × α)) : get k (toMap es) = last k es := by
  rw [toMap, get_foldl]
  cases last k es <;> rfl

theorem get_some {α : Type} {k : Bytes} {v : α} : ∀ {m : List (Bytes × α)}, Keys m → (get k m = some v ↔ (k, v) ∈ m)
  | [], _ => by simp [get]
  | (k1, v1) :: r, h => by
    unfold Keys at h
    rw [List.map_cons, List.nodup_cons] at h
    have ih := get_some (k := k) (v := v) h.2
    unfold get
    by_cases h1 : k1 = k
    · rw [if_pos h1]
      subst h1
      constructor
      · intro hv
        cases hv
        exact List.mem_cons_self
      · intro hm
        rcases List.mem_cons.1 hm with hm | hm
        · cases hm
          rfl
        · exact absurd (List.mem_map.2 ⟨_, hm, rfl⟩) h.1
    · rw [if_neg h1, ih]
      constructor
      · exact List.mem_cons_of_mem _
      · intro hm
        rcases List.mem_cons.1 hm with hm | hm
        · cases hm
          exact absurd rfl h1
        · exact hm

theorem get_perm {α : Type} {m m' : List (Bytes × α)} (h : Keys m) (hp : m'.Perm m) (k : Bytes) : get k m' = get k m := by
  have h' : Keys m' := (hp.map fun e : Bytes × α => e.1).nodup_iff.2 (by exact h)
  apply Option.ext
  intro v
  rw [get_some h', get_some h, hp.mem_iff]

theorem last_keys {α : Type} {m : List (Bytes × α)} (h : Keys m) (k : Bytes) : last k m = get k m := by
  induction m with
  | nil => rfl
  | cons e m ih =>
    unfold Keys at h
    rw [List.map_cons, List.nodup_cons] at h
    rw [last_cons, ih h.2]
    obtain ⟨k1, v1⟩ := e
    have hget : get k ((k1, v1) :: m) = if k1 = k then some v1 else get k m := rfl
    rw [hget]
    cases hg : get k m with
    | none => rfl
    | some v =>
      have hne : ¬ k1 = k := by
        rintro rfl
        exact h.1 (List.mem_map.2 ⟨_, (get_some h.2).1 hg, rfl⟩)
      simp [hne]

theorem get_map {α β : Type} (f : α → β) (k : Bytes) : ∀ m : List (Bytes × α), get k (m.map fun e => (e.1, f e.2)) = (get k m).map f
  | [] => rfl
  | (k1, v1) :: r => by
    rw [List.map_cons]
    unfold get
    rw [get_map f k r]
    by_cases h : k1 = k <;> simp [h]

theorem keys_map {α β : Type} (f : α → β) {m : List (Bytes × α)} (h : Keys m) : Keys (m.map fun e => (e.1, f e.2)) := by
  unfold Keys at *
  rw [List.map_map]
  exact h

/-- a struct is read as it was written, whatever the order -/
theorem parseStruct_enc (ord : List (Bytes × Bytes) → List (Bytes × Bytes)) (hord : ∀ m, (ord m).Perm m) (pv : Bytes → Val) (depth : Nat) {m : List (Bytes × Bytes)}
    (hm : Keys m) (hs : (encStruct ord m).length < 128 ^ 10) (hv : ∀ e ∈ m, parseVal (parseStruct depth) e.2 = some (pv e.2)) :
    ∃ fs, parseStruct (depth + 1) (encStruct ord m) = some fs ∧ Keys fs ∧ ∀ k, get k fs = (get k m).map pv := by
  have he : encStruct ord m = encAll ((ord m).map fun e => (1, entry e)) := by
    simp only [encStruct, encAll, List.flatMap_map, entry]
  have hlen : ∀ e ∈ ord m, (entry e).length < 128 ^ 10 := by
    intro e hm'
    refine Nat.lt_of_le_of_lt ?_ hs
    rw [he, encAll, List.flatMap_map]
    obtain ⟨l1, l2, hl⟩ := List.append_of_mem hm'
    rw [hl, List.flatMap_append, List.flatMap_cons]
    have := length_encData 1 (entry e)
    simp only [List.length_append]
    omega
  have h1 := wire_enc ((ord m).map fun e => (1, entry e)) (by
    intro e he
    obtain ⟨e', he', rfl⟩ := List.mem_map.1 he
    exact ⟨(by decide : 0 < 1), (by decide : 1 < 16), hlen e' he'⟩)
  have h2 := parseEntries_enc (parseStruct depth) pv (ord m) (fun e hm' => ⟨hlen e hm', hv e ((hord m).mem_iff.1 hm')⟩)
  have hko : Keys (ord m) := ((hord m).map fun e : Bytes × Bytes => e.1).nodup_iff.2 (by exact hm)
  refine ⟨_, by rw [parseStruct, he, h1]; simp only [Option.bind_some, h2, Option.map_some]; rfl, toMap_keys _, fun k => ?_⟩
  rw [get_toMap, last_keys (keys_map pv hko), get_map, get_perm hm (hord m)]


/-! ### sorted pairs -/

/-- pairs in strictly increasing order of their keys that say the last thing said for each key of `l` (specification) -/
def SamePairs (l l' : List (Bytes × Bytes)) : Prop :=
  l'.Pairwise (fun a b => Wasm.Pairs.leBytes a.1 b.1 = true ∧ a.1 ≠ b.1) ∧ ∀ k v, (k, v) ∈ l' ↔ last k l = some v

/-- sorted by key -/
def Asc (l : List (Bytes × Bytes)) : Prop := l.Pairwise (fun a b => Wasm.Pairs.leBytes a.1 b.1 = true ∧ a.1 ≠ b.1)

theorem asc_keys {l : List (Bytes × Bytes)} (h : Asc l) : Keys l := by
  unfold Keys List.Nodup
  rw [List.pairwise_map]
  exact h.imp fun h => h.2

theorem mem_insertSorted (k v : Bytes) : ∀ (m : List (Bytes × Bytes)) (e : Bytes × Bytes), e ∈ insertSorted k v m → e = (k, v) ∨ e ∈ m
  | [], e, h => by
    rw [insertSorted, List.mem_singleton] at h
    exact .inl h
  | (k1, v1) :: r, e, h => by
    unfold insertSorted at h
    by_cases h1 : k = k1
    · rw [if_pos h1] at h
      rcases List.mem_cons.1 h with h | h
      · exact .inl h
      · exact .inr (List.mem_cons_of_mem _ h)
    · rw [if_neg h1] at h
      by_cases h2 : Wasm.Pairs.leBytes k k1 = true
      · rw [if_pos h2] at h
        rcases List.mem_cons.1 h with h | h
        · exact .inl h
        · exact .inr h
      · rw [if_neg h2] at h
        rcases List.mem_cons.1 h with h | h
        · exact .inr (by rw [h]; exact List.mem_cons_self)
        · rcases mem_insertSorted k v r e h with h | h
          · exact .inl h
          · exact .inr (List.mem_cons_of_mem _ h)

theorem asc_insertSorted (k v : Bytes) : ∀ {m : List (Bytes × Bytes)}, Asc m → Asc (insertSorted k v m)
  | [], _ => by simp [insertSorted, Asc]
  | (k1, v1) :: r, h => by
    unfold Asc at h
    rw [List.pairwise_cons] at h
    unfold insertSorted
    by_cases h1 : k = k1
    · rw [if_pos h1]
      subst h1
      unfold Asc
      rw [List.pairwise_cons]
      exact h
    · rw [if_neg h1]
      by_cases h2 : Wasm.Pairs.leBytes k k1 = true
      · rw [if_pos h2]
        unfold Asc
        rw [List.pairwise_cons, List.pairwise_cons]
        refine ⟨fun e he => ?_, h⟩
        rcases List.mem_cons.1 he with rfl | he
        · exact ⟨h2, h1⟩
        · have h3 := h.1 e he
          refine ⟨Wasm.Pairs.leBytes_trans h2 h3.1, fun h4 => ?_⟩
          change k = e.1 at h4
          rw [h4] at h2
          exact h3.2 (Wasm.Pairs.leBytes_antisymm h3.1 h2)
      · rw [if_neg h2]
        unfold Asc
        rw [List.pairwise_cons]
        refine ⟨fun e he => ?_, asc_insertSorted k v h.2⟩
        rcases mem_insertSorted k v r e he with rfl | he
        · exact ⟨(Wasm.Pairs.leBytes_total k1 k).resolve_right h2, fun h3 => h1 h3.symm⟩
        · exact h.1 e he

theorem get_insertSorted (k k' v : Bytes) : ∀ m, get k (insertSorted k' v m) = if k' = k then some v else get k m
  | [] => rfl
  | (k1, v1) :: r => by
    have hg : ∀ (a b : Bytes) (l : List (Bytes × Bytes)), get k ((a, b) :: l) = if a = k then some b else get k l := fun _ _ _ => rfl
    unfold insertSorted
    by_cases h1 : k' = k1
    · rw [if_pos h1, hg, hg]
      subst h1
      by_cases h2 : k' = k <;> simp [h2]
    · rw [if_neg h1]
      by_cases h2 : Wasm.Pairs.leBytes k' k1 = true
      · rw [if_pos h2, hg]
      · rw [if_neg h2, hg, hg, get_insertSorted k k' v r]
        by_cases h3 : k1 = k
        · rw [if_pos h3, if_neg (fun h => h1 (h.trans h3.symm)), if_pos h3]
        · rw [if_neg h3, if_neg h3]

theorem sortedPairs_same {fs : Fields} (hk : Keys fs) : Asc (sortedPairs fs) ∧ ∀ k, get k (sortedPairs fs) = (get k fs).map Val.text := by
  have key : ∀ (fs : Fields) (m : List (Bytes × Bytes)), Asc m →
      Asc (fs.foldl (fun m e => insertSorted e.1 e.2.text m) m) ∧
      ∀ k, get k (fs.foldl (fun m e => insertSorted e.1 e.2.text m) m) = match last k fs with
        | some v => some v.text
        | none => get k m := by
    intro fs
    induction fs with
    | nil => intro m h; exact ⟨h, fun k => rfl⟩
    | cons e fs ih =>
      intro m h
      obtain ⟨h1, h2⟩ := ih _ (asc_insertSorted e.1 e.2.text h)
      refine ⟨h1, fun k => ?_⟩
      rw [List.foldl_cons, h2, last_cons, get_insertSorted]
      cases last k fs with
      | some v => rfl
      | none => by_cases h3 : e.1 = k <;> simp [h3]
  obtain ⟨h1, h2⟩ := key fs [] List.Pairwise.nil
  refine ⟨h1, fun k => ?_⟩
  have := h2 k
  rw [last_keys hk] at this
  rw [sortedPairs, this]
  cases get k fs <;> rfl

/-! ### parts between commas -/

/-- parts that a text with commas keeps: no commas inside, and the last one is not empty (specification) -/
def Clean (l : List Bytes) : Prop := (∀ p ∈ l, (44 : UInt8) ∉ p) ∧ l.getLast? ≠ some []

theorem split_none {p : Bytes} (h : (44 : UInt8) ∉ p) : split p = [p] := by
  induction p with
  | nil => rfl
  | cons b r ih =>
    rw [List.mem_cons, not_or] at h
    rw [split, if_neg (fun hb => h.1 hb.symm), ih h.2]

theorem split_comma {p : Bytes} (h : (44 : UInt8) ∉ p) (r : Bytes) : split (p ++ 44 :: r) = p :: split r := by
  induction p with
  | nil => rfl
  | cons b p ih =>
    rw [List.mem_cons, not_or] at h
    rw [List.cons_append, split, if_neg (fun hb => h.1 hb.symm), ih h.2]

theorem split_join : ∀ {l : List Bytes}, l ≠ [] → (∀ p ∈ l, (44 : UInt8) ∉ p) → split (join l) = l
  | [], h, _ => absurd rfl h
  | [p], _, h => split_none (h p (by simp))
  | p :: q :: ps, _, h => by
    rw [join, split_comma (h p (by simp)), split_join (by simp) (fun x hx => h x (List.mem_cons_of_mem _ hx))]
    simp

theorem splitTerm_join {l : List Bytes} (h : Clean l) : splitTerm (join l) = l := by
  cases l with
  | nil => rfl
  | cons p ps =>
    rw [splitTerm, split_join (by simp) h.1, if_neg h.2]

/-! ### the metadata -/

/-- a field that may be missing -/
def pick (e : Bytes × Option Bytes) : List (Bytes × Bytes) := match e.2 with
  | some b => [(e.1, b)]
  | none => []

theorem mem_pick {e : Bytes × Option Bytes} {x : Bytes × Bytes} : x ∈ pick e ↔ x.1 = e.1 ∧ e.2 = some x.2 := by
  obtain ⟨k, v⟩ := e
  obtain ⟨k', b⟩ := x
  cases v with
  | none => simp [pick]
  | some c =>
    simp only [pick, List.mem_singleton, Prod.mk.injEq, Option.some.injEq]
    constructor
    · rintro ⟨h1, h2⟩; exact ⟨h1, h2.symm⟩
    · rintro ⟨h1, h2⟩; exact ⟨h1, h2.symm⟩

theorem pick_keys : ∀ {l : List (Bytes × Option Bytes)}, Keys l → Keys (l.flatMap pick)
  | [], _ => List.nodup_nil
  | (k, v) :: r, h => by
    unfold Keys at h
    rw [List.map_cons, List.nodup_cons] at h
    have ih := pick_keys h.2
    rw [List.flatMap_cons]
    cases v with
    | none => exact ih
    | some b =>
      unfold Keys
      simp only [pick, List.cons_append, List.nil_append, List.map_cons, List.nodup_cons]
      refine ⟨fun hm => ?_, ih⟩
      obtain ⟨x, hx, hk⟩ := List.mem_map.1 hm
      obtain ⟨e, he, hx'⟩ := List.mem_flatMap.1 hx
      exact h.1 (List.mem_map.2 ⟨e, he, by rw [← (mem_pick.1 hx').1, hk]⟩)

theorem pick_get {l : List (Bytes × Option Bytes)} (h : Keys l) {k : Bytes} {v : Option Bytes} (hm : (k, v) ∈ l) : get k (l.flatMap pick) = v := by
  apply Option.ext
  intro b
  rw [get_some (pick_keys h), List.mem_flatMap]
  constructor
  · rintro ⟨⟨k', v'⟩, he, hx⟩
    obtain ⟨h1, h2⟩ := mem_pick.1 hx
    have h3 := (get_some h).2 hm
    have h4 := (get_some h).2 he
    dsimp only at h1 h2
    subst h1
    rw [h3] at h4
    cases h4
    exact h2
  · rintro rfl
    exact ⟨_, hm, mem_pick.2 ⟨rfl, rfl⟩⟩

/-- the value of a map field -/
def mapVal (ord : List (Bytes × Bytes) → List (Bytes × Bytes)) (m : List (Bytes × Bytes)) : Bytes :=
  valStruct (encStruct ord (toMap (m.map fun e => (e.1, valStr e.2))))

/-- the fields of a node -/
def opts (ord : List (Bytes × Bytes) → List (Bytes × Bytes)) (n : Node) : List (Bytes × Option Bytes) :=
  [(txt "NAME", n.name.map valStr), (txt "NAMESPACE", n.ns.map valStr), (txt "OWNER", n.owner.map valStr), (txt "WORKLOAD_NAME", n.workload.map valStr),
    (txt "ISTIO_VERSION", n.version.map valStr), (txt "MESH_ID", n.mesh.map valStr), (txt "CLUSTER_ID", n.cluster.map valStr),
    (txt "LABELS", n.labels.map (mapVal ord)), (txt "PLATFORM_METADATA", n.platform.map (mapVal ord)),
    (txt "APP_CONTAINERS", (n.containers.map join).map valStr), (txt "INSTANCE_IPS", (n.ips.map join).map valStr)]

theorem strField_pick (k : String) (v : Option Bytes) : strField k v = pick (txt k, v.map valStr) := by cases v <;> rfl

theorem mapField_pick (ord : List (Bytes × Bytes) → List (Bytes × Bytes)) (k : String) (v : Option (List (Bytes × Bytes))) :
    mapField ord k v = pick (txt k, v.map (mapVal ord)) := by cases v <;> rfl

theorem structOf_opts (ord : List (Bytes × Bytes) → List (Bytes × Bytes)) (n : Node) : structOf ord n = (opts ord n).flatMap pick := by
  simp only [structOf, opts, strField_pick, mapField_pick, List.flatMap_cons, List.flatMap_nil, List.append_nil, List.append_assoc]

theorem names_nodup : ([txt "NAME", txt "NAMESPACE", txt "OWNER", txt "WORKLOAD_NAME", txt "ISTIO_VERSION", txt "MESH_ID", txt "CLUSTER_ID",
    txt "LABELS", txt "PLATFORM_METADATA", txt "APP_CONTAINERS", txt "INSTANCE_IPS"]).Nodup := by decide +kernel

theorem opts_keys (ord : List (Bytes × Bytes) → List (Bytes × Bytes)) (n : Node) : Keys (opts ord n) := names_nodup

theorem length_value {ord : List (Bytes × Bytes) → List (Bytes × Bytes)} (hord : ∀ m, (ord m).Perm m) {m : List (Bytes × Bytes)} {e : Bytes × Bytes} (he : e ∈ m) :
    e.2.length ≤ (encStruct ord m).length := by
  obtain ⟨l1, l2, hl⟩ := List.append_of_mem ((hord m).mem_iff.2 he)
  rw [encStruct, hl, List.flatMap_append, List.flatMap_cons]
  have h1 := length_encData 1 (encData 1 e.1 ++ encData 2 e.2)
  have h2 := length_encData 2 e.2
  simp only [List.length_append] at *
  omega

theorem length_valStr (s : Bytes) : s.length ≤ (valStr s).length := length_encData 3 s

theorem length_valStruct (s : Bytes) : s.length ≤ (valStruct s).length := length_encData 5 s

/-- a map of texts is read as it was written -/
theorem parse_mapVal {ord : List (Bytes × Bytes) → List (Bytes × Bytes)} (hord : ∀ m, (ord m).Perm m) (depth : Nat) (m : List (Bytes × Bytes))
    (hs : (mapVal ord m).length < 128 ^ 10) :
    ∃ fs, parseVal (parseStruct (depth + 1)) (mapVal ord m) = some (.struct fs) ∧ Keys fs ∧ ∀ k, get k fs = (last k m).map .str := by
  have hs' : (encStruct ord (toMap (m.map fun e => (e.1, valStr e.2)))).length < 128 ^ 10 := Nat.lt_of_le_of_lt (length_valStruct _) hs
  have hk := toMap_keys (m.map fun e => (e.1, valStr e.2))
  have hlast : ∀ (k : Bytes) (l : List (Bytes × Bytes)), last k (l.map fun e => (e.1, valStr e.2)) = (last k l).map valStr := by
    intro k l
    induction l with
    | nil => rfl
    | cons e l ih =>
      rw [List.map_cons, last_cons, last_cons, ih]
      cases last k l with
      | some v => rfl
      | none => by_cases h : e.1 = k <;> simp [h]
  have hval : ∀ e ∈ toMap (m.map fun e => (e.1, valStr e.2)), ∃ s, e.2 = valStr s ∧ s.length < 128 ^ 10 := by
    intro e he
    have h1 := (get_some hk).2 he
    rw [get_toMap, hlast] at h1
    cases h2 : last e.1 m with
    | none => rw [h2] at h1; cases h1
    | some s =>
      rw [h2] at h1
      have h3 : valStr s = e.2 := Option.some.inj h1
      refine ⟨s, h3.symm, ?_⟩
      refine Nat.lt_of_le_of_lt (Nat.le_trans (length_valStr s) ?_) hs'
      rw [h3]
      exact length_value hord he
  obtain ⟨fs, h1, h2, h3⟩ := parseStruct_enc ord hord (fun v => (parseVal (parseStruct depth) v).getD .other) depth hk hs' (by
    intro e he
    obtain ⟨s, hs1, hs2⟩ := hval e he
    rw [hs1, parseVal_str _ hs2]
    rfl)
  refine ⟨fs, parseVal_struct _ hs' h1, h2, fun k => ?_⟩
  rw [h3, get_toMap, hlast]
  cases h4 : last k m with
  | none => rfl
  | some s =>
    have : (k, valStr s) ∈ toMap (m.map fun e => (e.1, valStr e.2)) := by
      rw [← get_some hk, get_toMap, hlast, h4]
      rfl
    obtain ⟨s', hs1, hs2⟩ := hval _ this
    have hls : s.length < 128 ^ 10 := by
      refine Nat.lt_of_le_of_lt (Nat.le_trans (length_valStr s) ?_) hs'
      exact length_value hord this
    simp only [Option.map_some, parseVal_str _ hls, Option.getD_some]

/-- the node `n'` says about itself what `n` says: maps sorted, with the last value for each key, and lists as long as they can be told apart (specification) -/
structure Seen (n n' : Node) : Prop where
  name : n'.name = n.name
  ns : n'.ns = n.ns
  owner : n'.owner = n.owner
  workload : n'.workload = n.workload
  version : n'.version = n.version
  mesh : n'.mesh = n.mesh
  cluster : n'.cluster = n.cluster
  noLabels : n.labels = none → n'.labels = none
  labels : ∀ l, n.labels = some l → ∃ l', n'.labels = some l' ∧ SamePairs l l'
  noPlatform : n.platform = none → n'.platform = none
  platform : ∀ l, n.platform = some l → ∃ l', n'.platform = some l' ∧ SamePairs l l'
  containers : (∀ l, n.containers = some l → Clean l) → n'.containers = n.containers
  ips : (∀ l, n.ips = some l → Clean l) → n'.ips = n.ips

theorem encMeta_eq (ord : List (Bytes × Bytes) → List (Bytes × Bytes)) (n : Node) (id : Bytes) : encMeta ord n id =
    encAll [(1, typeUrl), (2, encStruct ord [(txt "x-envoy-peer-metadata", valStruct (encStruct ord (toMap (structOf ord n)))),
      (txt "x-envoy-peer-metadata-id", valStr id)])] := (encAll_two _ _ _ _).symm

theorem names_meta : ([txt "x-envoy-peer-metadata", txt "x-envoy-peer-metadata-id"]).Nodup := by decide +kernel

theorem meta_ne : txt "x-envoy-peer-metadata" ≠ txt "x-envoy-peer-metadata-id" := by decide +kernel

theorem typeUrl_small : typeUrl.length < 128 ^ 10 := by decide +kernel

/-- the value of a field of the struct -/
def pvAt (depth : Nat) (v : Bytes) : Val := (parseVal (parseStruct depth) v).getD .other

/-- **C269**: what one end says about itself is what the other end reads, whatever the order in which the entries of maps are written -/
theorem C269_round_trip (ord : List (Bytes × Bytes) → List (Bytes × Bytes)) (hord : ∀ m, (ord m).Perm m) (n : Node) (id : Bytes)
    (hl : (encMeta ord n id).length < 4294967296) : ∃ n', Says (encMeta ord n id) id n' ∧ Seen n n' := by
  have hbig : ∀ x, x ≤ (encMeta ord n id).length → x < 128 ^ 10 := fun x hx => Nat.lt_trans (Nat.lt_of_le_of_lt hx hl) (by decide)
  -- the lengths
  have hl2 : (encStruct ord [(txt "x-envoy-peer-metadata", valStruct (encStruct ord (toMap (structOf ord n)))),
      (txt "x-envoy-peer-metadata-id", valStr id)]).length ≤ (encMeta ord n id).length := by
    rw [encMeta, List.length_append]
    exact Nat.le_trans (length_encData 2 _) (Nat.le_add_left _ _)
  have hl3 : (valStruct (encStruct ord (toMap (structOf ord n)))).length ≤ (encMeta ord n id).length :=
    Nat.le_trans (length_value hord (e := (txt "x-envoy-peer-metadata", _)) List.mem_cons_self) hl2
  have hl4 : (encStruct ord (toMap (structOf ord n))).length ≤ (encMeta ord n id).length := Nat.le_trans (length_valStruct _) hl3
  have hl5 : id.length ≤ (encMeta ord n id).length :=
    Nat.le_trans (length_valStr id) (Nat.le_trans (length_value hord (e := (txt "x-envoy-peer-metadata-id", valStr id)) (by simp)) hl2)
  -- the node's struct
  have hsk : Keys (structOf ord n) := by rw [structOf_opts]; exact pick_keys (opts_keys ord n)
  have hget : ∀ k v, (k, v) ∈ opts ord n → get k (toMap (structOf ord n)) = v := by
    intro k v hm
    rw [get_toMap, last_keys hsk, structOf_opts, pick_get (opts_keys ord n) hm]
  have hlen : ∀ k v b, (k, v) ∈ opts ord n → v = some b → b.length < 128 ^ 10 := by
    intro k v b hm hv
    have h1 := hget k v hm
    rw [hv, get_some (toMap_keys _)] at h1
    exact hbig _ (Nat.le_trans (length_value hord h1) hl4)
  have htext : ∀ k (v : Option Bytes), (k, v.map valStr) ∈ opts ord n → (v.map valStr).map (pvAt 31) = v.map Val.str := by
    intro k v hm
    cases v with
    | none => rfl
    | some s =>
      have h1 := hlen _ _ (valStr s) hm rfl
      have h2 : s.length < 128 ^ 10 := Nat.lt_of_le_of_lt (length_valStr s) h1
      simp only [Option.map_some, pvAt, parseVal_str _ h2, Option.getD_some]
  have hall : ∀ e ∈ toMap (structOf ord n), parseVal (parseStruct 31) e.2 = some (pvAt 31 e.2) := by
    intro e he
    have h1 := (get_some (toMap_keys _)).2 he
    rw [get_toMap, last_keys hsk, structOf_opts, get_some (pick_keys (opts_keys ord n)), List.mem_flatMap] at h1
    obtain ⟨⟨k, v⟩, hm, hx⟩ := h1
    have h2 := (mem_pick.1 hx).2
    dsimp only at h2
    have h3 := hlen k v e.2 hm h2
    have hstr : ∀ w : Option Bytes, v = w.map valStr → parseVal (parseStruct 31) e.2 = some (pvAt 31 e.2) := by
      intro w hw
      rw [hw] at h2
      cases w with
      | none => cases h2
      | some s =>
        have h4 : valStr s = e.2 := Option.some.inj h2
        rw [← h4] at h3 ⊢
        rw [pvAt, parseVal_str _ (Nat.lt_of_le_of_lt (length_valStr s) h3)]
        rfl
    have hmap : ∀ w : Option (List (Bytes × Bytes)), v = w.map (mapVal ord) → parseVal (parseStruct 31) e.2 = some (pvAt 31 e.2) := by
      intro w hw
      rw [hw] at h2
      cases w with
      | none => cases h2
      | some m =>
        have h4 : mapVal ord m = e.2 := Option.some.inj h2
        rw [← h4] at h3 ⊢
        obtain ⟨fs, h5, _⟩ := parse_mapVal hord 30 m h3
        rw [pvAt, h5]
        rfl
    simp only [opts, List.mem_cons, Prod.mk.injEq, List.not_mem_nil, or_false] at hm
    rcases hm with ⟨_, h⟩ | ⟨_, h⟩ | ⟨_, h⟩ | ⟨_, h⟩ | ⟨_, h⟩ | ⟨_, h⟩ | ⟨_, h⟩ | ⟨_, h⟩ | ⟨_, h⟩ | ⟨_, h⟩ | ⟨_, h⟩
    · exact hstr _ h
    · exact hstr _ h
    · exact hstr _ h
    · exact hstr _ h
    · exact hstr _ h
    · exact hstr _ h
    · exact hstr _ h
    · exact hmap _ h
    · exact hmap _ h
    · exact hstr _ h
    · exact hstr _ h
  obtain ⟨fs, hf1, hf2, hf3⟩ := parseStruct_enc ord hord (pvAt 31) 31 (toMap_keys (structOf ord n)) (hbig _ hl4) hall
  have hfield : ∀ k v, (k, v) ∈ opts ord n → get k fs = v.map (pvAt 31) := by
    intro k v hm
    rw [hf3, hget k v hm]
  -- the outer struct
  have hmk : Keys [(txt "x-envoy-peer-metadata", valStruct (encStruct ord (toMap (structOf ord n)))), (txt "x-envoy-peer-metadata-id", valStr id)] := names_meta
  have hv1 : parseVal (parseStruct 32) (valStruct (encStruct ord (toMap (structOf ord n)))) = some (.struct fs) := parseVal_struct _ (hbig _ hl4) hf1
  have hv2 : parseVal (parseStruct 32) (valStr id) = some (.str id) := parseVal_str _ (hbig _ hl5)
  obtain ⟨gs, hg1, hg2, hg3⟩ := parseStruct_enc ord hord (pvAt 32) 32 hmk (hbig _ hl2) (by
    intro e he
    rcases List.mem_cons.1 he with rfl | he
    · rw [pvAt, hv1]; rfl
    · rw [List.mem_singleton] at he
      subst he
      rw [pvAt, hv2]; rfl)
  have hpm : parseMeta (encMeta ord n id) = some gs := by
    rw [parseMeta, encMeta_eq, wire_enc _ (by
      intro e he
      rcases List.mem_cons.1 he with rfl | he
      · exact ⟨Nat.one_pos, (by decide : 1 < 16), typeUrl_small⟩
      · rw [List.mem_singleton] at he
        subst he
        exact ⟨(by decide : 0 < 2), (by decide : 2 < 16), hbig _ hl2⟩)]
    exact hg1
  have hgi : get (txt "x-envoy-peer-metadata-id") gs = some (.str id) := by
    rw [hg3]
    have : get (txt "x-envoy-peer-metadata-id") [(txt "x-envoy-peer-metadata", valStruct (encStruct ord (toMap (structOf ord n)))), (txt "x-envoy-peer-metadata-id", valStr id)] =
        some (valStr id) := (get_some hmk).2 (by simp)
    rw [this, Option.map_some, pvAt, hv2]
    rfl
  have hgn : get (txt "x-envoy-peer-metadata") gs = some (.struct fs) := by
    rw [hg3]
    have : get (txt "x-envoy-peer-metadata") [(txt "x-envoy-peer-metadata", valStruct (encStruct ord (toMap (structOf ord n)))), (txt "x-envoy-peer-metadata-id", valStr id)] =
        some (valStruct (encStruct ord (toMap (structOf ord n)))) := (get_some hmk).2 (by simp)
    rw [this, Option.map_some, pvAt, hv1]
    rfl
  refine ⟨nodeOf fs, ⟨hl, gs, _, _, hpm, hgi, hgn, rfl, rfl⟩, ?_⟩
  have hs : ∀ k (v : Option Bytes), (k, v.map valStr) ∈ opts ord n → (get k fs).map Val.text = v := by
    intro k v hm
    rw [hfield _ _ hm, htext k v hm]
    cases v <;> rfl
  have hc : ∀ k (v : Option (List Bytes)), (k, (v.map join).map valStr) ∈ opts ord n → (∀ l, v = some l → Clean l) →
      ((get k fs).map fun v => splitTerm v.text) = v := by
    intro k v hm hcl
    rw [hfield _ _ hm, htext k _ hm]
    cases v with
    | none => rfl
    | some l =>
      simp only [Option.map_some, Val.text, splitTerm_join (hcl l rfl)]
  have hm0 : ∀ k (v : Option (List (Bytes × Bytes))), (k, v.map (mapVal ord)) ∈ opts ord n → v = none → ((get k fs).map fun v => sortedPairs v.fields) = none := by
    intro k v hm hv
    rw [hfield _ _ hm, hv]
    rfl
  have hm1 : ∀ k (v : Option (List (Bytes × Bytes))), (k, v.map (mapVal ord)) ∈ opts ord n → ∀ l, v = some l →
      ∃ l', ((get k fs).map fun v => sortedPairs v.fields) = some l' ∧ SamePairs l l' := by
    intro k v hm l hv
    subst hv
    obtain ⟨ls, h1, h2, h3⟩ := parse_mapVal hord 30 l (hlen _ _ _ hm rfl)
    obtain ⟨h4, h5⟩ := sortedPairs_same h2
    refine ⟨sortedPairs ls, ?_, h4, fun k' v' => ?_⟩
    · rw [hfield _ _ hm]
      simp only [Option.map_some, pvAt, h1, Option.getD_some, Val.fields]
    · rw [← get_some (asc_keys h4), h5, h3]
      cases last k' l with
      | none => simp
      | some s => simp [Val.text]
  exact
    { name := hs _ _ (by simp [opts])
      ns := hs _ _ (by simp [opts])
      owner := hs _ _ (by simp [opts])
      workload := hs _ _ (by simp [opts])
      version := hs _ _ (by simp [opts])
      mesh := hs _ _ (by simp [opts])
      cluster := hs _ _ (by simp [opts])
      noLabels := hm0 _ _ (by simp [opts])
      labels := hm1 _ _ (by simp [opts])
      noPlatform := hm0 _ _ (by simp [opts])
      platform := hm1 _ _ (by simp [opts])
      containers := hc _ _ (by simp [opts])
      ips := hc _ _ (by simp [opts]) }

/-! ### from the environment -/

theorem slice_mid (pre x post : Bytes) {p n : Nat} (hp : p = pre.length) (hn : n = x.length) : slice (pre ++ (x ++ post)) p n = some x := by
  subst hp hn
  unfold slice
  rw [if_pos (by simp only [List.length_append]; omega), List.drop_left, List.take_left]

theorem u32At_mid (pre post : Bytes) {n s : Nat} (hn : n < 4294967296) (hs : s = pre.length) : u32At (pre ++ (Wasm.Pairs.le32 n ++ post)) s = some n := by
  unfold u32At
  rw [slice_mid pre _ post hs (Wasm.Pairs.le32_length n).symm]
  simp only [Wasm.Pairs.le32, UInt8.toNat_ofNat', Option.some.injEq]
  omega

theorem desLoop_ok (m : List (Bytes × Bytes)) : ∀ (ks : List Bytes) (pre mid : Bytes) (n p : Nat),
    (∀ k ∈ ks, k.length < 4294967296 ∧ (Wasm.Pairs.lookup m k).length < 4294967296) → pre.length = 4 + n * 8 →
    p = (pre ++ (Wasm.Pairs.sizesOf m ks ++ mid)).length →
    desLoop (pre ++ (Wasm.Pairs.sizesOf m ks ++ mid) ++ Wasm.Pairs.pairsOf m ks) ks.length n p = some (ks.map fun k => (k, Wasm.Pairs.lookup m k))
  | [], _, _, _, _, _, _, _ => rfl
  | k :: ks, pre, mid, n, p, h, hpre, hp => by
    obtain ⟨hk, hv⟩ := h k (by simp)
    have ih := desLoop_ok m ks (pre ++ (Wasm.Pairs.le32 k.length ++ Wasm.Pairs.le32 (Wasm.Pairs.lookup m k).length))
      (mid ++ (k ++ 0 :: (Wasm.Pairs.lookup m k ++ [0]))) (n + 1) (p + (k.length + 1) + ((Wasm.Pairs.lookup m k).length + 1))
      (fun x hx => h x (by simp [hx]))
      (by simp only [List.length_append, Wasm.Pairs.le32_length]; omega)
      (by
        rw [hp]
        simp only [Wasm.Pairs.sizesOf, List.length_append, List.length_cons, List.length_nil, Wasm.Pairs.le32_length]
        omega)
    generalize hb : pre ++ (Wasm.Pairs.sizesOf m (k :: ks) ++ mid) ++ Wasm.Pairs.pairsOf m (k :: ks) = b
    have hb' : (pre ++ (Wasm.Pairs.le32 k.length ++ Wasm.Pairs.le32 (Wasm.Pairs.lookup m k).length)) ++
        (Wasm.Pairs.sizesOf m ks ++ (mid ++ (k ++ 0 :: (Wasm.Pairs.lookup m k ++ [0])))) ++ Wasm.Pairs.pairsOf m ks = b := by
      rw [← hb]
      simp only [Wasm.Pairs.sizesOf, Wasm.Pairs.pairsOf, List.append_assoc, List.cons_append, List.nil_append]
    rw [hb'] at ih
    have h1 : u32At b (4 + n * 8) = some k.length := by
      rw [← hb]
      simp only [Wasm.Pairs.sizesOf, List.append_assoc]
      exact u32At_mid _ _ hk hpre.symm
    have h2 : slice b p k.length = some k := by
      rw [← hb, Wasm.Pairs.pairsOf]
      exact slice_mid _ _ _ hp rfl
    have h3 : u32At b (4 + n * 8 + 4) = some (Wasm.Pairs.lookup m k).length := by
      rw [← hb]
      have : pre ++ (Wasm.Pairs.sizesOf m (k :: ks) ++ mid) ++ Wasm.Pairs.pairsOf m (k :: ks) =
          (pre ++ Wasm.Pairs.le32 k.length) ++ (Wasm.Pairs.le32 (Wasm.Pairs.lookup m k).length ++ (Wasm.Pairs.sizesOf m ks ++ (mid ++ Wasm.Pairs.pairsOf m (k :: ks)))) := by
        simp only [Wasm.Pairs.sizesOf, List.append_assoc]
      rw [this]
      exact u32At_mid _ _ hv (by rw [List.length_append, Wasm.Pairs.le32_length]; omega)
    have h4 : slice b (p + (k.length + 1)) (Wasm.Pairs.lookup m k).length = some (Wasm.Pairs.lookup m k) := by
      rw [← hb]
      have : pre ++ (Wasm.Pairs.sizesOf m (k :: ks) ++ mid) ++ Wasm.Pairs.pairsOf m (k :: ks) =
          (pre ++ (Wasm.Pairs.sizesOf m (k :: ks) ++ mid) ++ (k ++ [0])) ++ (Wasm.Pairs.lookup m k ++ (0 :: Wasm.Pairs.pairsOf m ks)) := by
        simp only [Wasm.Pairs.pairsOf, List.append_assoc, List.cons_append, List.nil_append]
      rw [this]
      exact slice_mid _ _ _ (by
        rw [hp]
        simp only [List.length_append, List.length_cons, List.length_nil]
        try omega) rfl
    rw [List.length_cons, desLoop, h1]
    dsimp only
    rw [h2]
    dsimp only
    rw [h3]
    dsimp only
    rw [h4]
    dsimp only
    rw [ih]
    rfl

/-- **C269**: the filter reads the pairs of a map as the host writes them, in the order of their keys -/
theorem C269_pairs (m : List (Bytes × Bytes)) (hm : Wasm.Pairs.IsMap m) (hn : m.length < 4294967296)
    (hs : ∀ e ∈ m, e.1.length < 4294967296 ∧ e.2.length < 4294967296) :
    ∃ l, deserializeMap (Wasm.Pairs.serialize m) = some l ∧ l.Perm m ∧ Wasm.Pairs.Sorted (l.map (·.1)) := by
  refine ⟨_, ?_, Wasm.Pairs.map_lookup_perm hm, by
    rw [List.map_map]
    have : ((fun x : Bytes × Bytes => x.1) ∘ fun k => (k, Wasm.Pairs.lookup m k)) = id := rfl
    rw [this, List.map_id]
    exact Wasm.Pairs.sort_sorted _⟩
  have hl : (Wasm.Pairs.sortKeys (m.map (·.1))).length = m.length := by
    rw [(Wasm.Pairs.sort_perm _).length_eq, List.length_map]
  have hk : ∀ k ∈ Wasm.Pairs.sortKeys (m.map (·.1)), k.length < 4294967296 ∧ (Wasm.Pairs.lookup m k).length < 4294967296 := by
    intro k hk
    obtain ⟨⟨k', v⟩, he, rfl⟩ := List.mem_map.mp ((Wasm.Pairs.sort_perm _).mem_iff.mp hk)
    rw [Wasm.Pairs.lookup_mem hm he]
    exact hs _ he
  have hsz : ∀ ks : List Bytes, (Wasm.Pairs.sizesOf m ks).length = ks.length * 8 := by
    intro ks
    induction ks with
    | nil => rfl
    | cons k ks ih =>
      simp only [Wasm.Pairs.sizesOf, List.length_append, Wasm.Pairs.le32_length, ih, List.length_cons]
      omega
  have hd := desLoop_ok m (Wasm.Pairs.sortKeys (m.map (·.1))) (Wasm.Pairs.le32 m.length) [] 0 (4 + m.length * 8) hk
    (by rw [Wasm.Pairs.le32_length]) (by rw [List.append_nil, List.length_append, hsz, hl, Wasm.Pairs.le32_length])
  rw [List.append_nil, ← Wasm.Pairs.serialize_eq, hl] at hd
  have h0 : u32At (Wasm.Pairs.serialize m) 0 = some m.length := by
    rw [Wasm.Pairs.serialize_eq, List.append_assoc]
    exact u32At_mid [] _ hn rfl
  have hne : Wasm.Pairs.serialize m ≠ [] := by
    intro h
    rw [h] at h0
    cases h0
  rw [deserializeMap, if_neg hne, h0]
  exact hd

/-- an environment whose maps and texts the formats can hold (specification) -/
def Holds (e : IstioEnv) : Prop :=
  (∀ m, m = e.labels ∨ m = e.platform → Wasm.Pairs.IsMap m ∧ m.length < 4294967296 ∧ ∀ x ∈ m, x.1.length < 4294967296 ∧ x.2.length < 4294967296) ∧
  Clean e.containers ∧ Clean e.ips

/-- the node `n` is the workload with this environment (specification) -/
structure Is (e : IstioEnv) (n : Node) : Prop where
  name : n.name = some e.podName
  ns : n.ns = some e.podNamespace
  owner : n.owner = some e.podOwner
  workload : n.workload = some e.workloadName
  version : n.version = some e.istioVersion
  mesh : n.mesh = some e.meshID
  cluster : n.cluster = some e.clusterID
  labels : ∃ l, n.labels = some l ∧ l.Perm e.labels
  platform : ∃ l, n.platform = some l ∧ l.Perm e.platform
  containers : n.containers = some e.containers
  ips : n.ips = some e.ips

theorem stringify_any (m : List (Bytes × Bytes)) : Wasm.Pairs.stringify (.anyMap (m.map fun l => (l.1, some l.2))) = Wasm.Pairs.serialize m := by
  rw [Wasm.Pairs.stringify, List.filterMap_map]
  congr 1
  have : ((fun e : Bytes × Option Bytes => e.2.map fun v => (e.1, v)) ∘ fun l : Bytes × Bytes => (l.1, some l.2)) = some := by
    funext x
    rfl
  rw [this, List.filterMap_some]

theorem local_is {e : IstioEnv} (h : Holds e) : ∃ n, localNode e.props = some n ∧ Is e n := by
  obtain ⟨hm, hc, hi⟩ := h
  obtain ⟨a1, a2, a3⟩ := hm _ (.inl rfl)
  obtain ⟨b1, b2, b3⟩ := hm _ (.inr rfl)
  obtain ⟨l, hl1, hl2, _⟩ := C269_pairs _ a1 a2 a3
  obtain ⟨q, hq1, hq2, _⟩ := C269_pairs _ b1 b2 b3
  refine ⟨_, by simp only [localNode, IstioEnv.props, stringify_any, mapProp, hl1, hq1]; rfl, ?_⟩
  exact
    { name := rfl
      ns := rfl
      owner := rfl
      workload := rfl
      version := rfl
      mesh := rfl
      cluster := rfl
      labels := ⟨l, rfl, hl2⟩
      platform := ⟨q, rfl, hq2⟩
      containers := congrArg some (splitTerm_join hc)
      ips := congrArg some (splitTerm_join hi) }

theorem samePairs_perm {l l' m : List (Bytes × Bytes)} (hm : Wasm.Pairs.IsMap m) (hl : l.Perm m) (h : SamePairs l l') : l'.Perm m := by
  have hkl : Keys l := (hl.map fun e : Bytes × Bytes => e.1).nodup_iff.2 (by exact hm)
  have hmem : ∀ e, e ∈ l' ↔ e ∈ m := by
    rintro ⟨k, v⟩
    rw [h.2, last_keys hkl, get_some hkl, hl.mem_iff]
  have nd : ∀ {x : List (Bytes × Bytes)}, Keys x → x.Nodup := fun h => (List.pairwise_map.1 h).imp fun h1 h2 => h1 (by rw [h2])
  exact (List.perm_ext_iff_of_nodup (nd (asc_keys h.1)) (nd hm)).2 hmem

/-- **C269**: the filter says about itself what is in the environment of its workload, and the other end reads it -/
theorem C269_environment {e : IstioEnv} (h : Holds e) : ∃ n, localNode e.props = some n ∧
    ∀ ord : List (Bytes × Bytes) → List (Bytes × Bytes), (∀ m, (ord m).Perm m) → ∀ id, (encMeta ord n id).length < 4294967296 →
      ∃ n', Says (encMeta ord n id) id n' ∧ Is e n' := by
  obtain ⟨n, h1, h2⟩ := local_is h
  refine ⟨n, h1, fun ord hord id hl => ?_⟩
  obtain ⟨n', h3, h4⟩ := C269_round_trip ord hord n id hl
  refine ⟨n', h3, ?_⟩
  obtain ⟨l, hl1, hl2⟩ := h2.labels
  obtain ⟨q, hq1, hq2⟩ := h2.platform
  obtain ⟨l', hl3, hl4⟩ := h4.labels l hl1
  obtain ⟨q', hq3, hq4⟩ := h4.platform q hq1
  exact
    { name := h4.name.trans h2.name
      ns := h4.ns.trans h2.ns
      owner := h4.owner.trans h2.owner
      workload := h4.workload.trans h2.workload
      version := h4.version.trans h2.version
      mesh := h4.mesh.trans h2.mesh
      cluster := h4.cluster.trans h2.cluster
      labels := ⟨l', hl3, samePairs_perm (h.1 _ (.inl rfl)).1 hl2 hl4⟩
      platform := ⟨q', hq3, samePairs_perm (h.1 _ (.inr rfl)).1 hq2 hq4⟩
      containers := (h4.containers fun x hx => by rw [h2.containers] at hx; cases hx; exact h.2.1).trans h2.containers
      ips := (h4.ips fun x hx => by rw [h2.ips] at hx; cases hx; exact h.2.2).trans h2.ips }

/-- **C269**: a comma in the name of a container makes two of it -/
theorem C269_comma_false : ∃ l, splitTerm (join l) ≠ l ∧ l = [[97, 44, 98]] := ⟨_, by decide, rfl⟩

/-- an environment with two labels -/
def exampleEnv : IstioEnv := ⟨txt "pod", txt "ns", [], txt "w", [], [], [], [(txt "b", txt "1"), (txt "a", txt "2")], [], [txt "c", txt "d"], [txt "10.0.0.1"]⟩

example : Holds exampleEnv := by
  refine ⟨fun m hm => ?_, ⟨by decide +kernel, by decide +kernel⟩, ⟨by decide +kernel, by decide +kernel⟩⟩
  rcases hm with rfl | rfl <;> exact ⟨by unfold Wasm.Pairs.IsMap; decide +kernel, by decide +kernel, by decide +kernel⟩

example : (localNode exampleEnv.props).map (fun n => (n.labels, decide ((encMeta id n (txt "id")).length < 4294967296))) =
    some (some [(txt "a", txt "2"), (txt "b", txt "1")], true) := by decide +kernel

end Verif.TcpMeta
