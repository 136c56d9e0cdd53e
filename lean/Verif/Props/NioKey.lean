import Verif.Exp.NioKey
import Verif.Kafka.Codec
/-
C82: selected keys and `Select` of the Java binding.
-/
namespace Verif.Props
open Verif Verif.Kafka Verif.Nio

theorem testBit_small {n i : Nat} (h : n < 2 ^ 32) (hi : 32 ≤ i) : n.testBit i = false :=
  Nat.testBit_lt_two_pow (Nat.lt_of_lt_of_le h (Nat.pow_le_pow_right (by decide) hi))

theorem testBit_255 (i : Nat) : (255 : Nat).testBit i = decide (i < 8) := by
  have : (255 : Nat) = 2 ^ 8 - 1 := by decide
  rw [this, Nat.testBit_two_pow_sub_one]

theorem newKey_bit (op id i : Nat) (h : id < 2 ^ 32) :
    (newKey op id).testBit i = if i < 32 then id.testBit i else (decide (i < 40) && op.testBit (i - 32)) := by
  unfold newKey
  rw [Nat.testBit_or, Nat.testBit_shiftLeft, Nat.testBit_and, testBit_255]
  by_cases hi : i < 32
  · rw [if_pos hi, show decide (i ≥ 32) = false by simp; omega]; simp
  · rw [if_neg hi, testBit_small h (by omega), show decide (i ≥ 32) = true by simp; omega]
    have : decide (i - 32 < 8) = decide (i < 40) := by simp; omega
    rw [this]; cases op.testBit (i - 32) <;> simp

theorem keyOp_bit (k i : Nat) : (keyOp k).testBit i = (decide (i < 8) && k.testBit (32 + i)) := by
  unfold keyOp
  rw [Nat.testBit_and, Nat.testBit_shiftRight, testBit_255, Bool.and_comm]

theorem keyId_bit (k i : Nat) : (keyId k).testBit i = (decide (i < 32) && k.testBit i) := by
  unfold keyId; rw [Nat.testBit_mod_two_pow]

/-- **C82** A selected key carries its operation and its id: for all operations (8 bits) and ids (32 bits). -/
theorem C82_roundtrip (op id : Nat) (ho : op < 256) (hi : id < 2 ^ 32) :
    keyOp (newKey op id) = op ∧ keyId (newKey op id) = id ∧ newKey op id < 2 ^ 40 := by
  refine ⟨?_, ?_, ?_⟩
  · apply Nat.eq_of_testBit_eq
    intro i
    rw [keyOp_bit, newKey_bit _ _ _ hi, if_neg (by omega)]
    by_cases h8 : i < 8
    · rw [show decide (i < 8) = true by simpa using h8, show decide (32 + i < 40) = true by simp; omega,
        show 32 + i - 32 = i by omega]; simp
    · rw [show decide (i < 8) = false by simpa using h8]
      simp only [Bool.false_and]
      exact (Nat.testBit_lt_two_pow (Nat.lt_of_lt_of_le ho (show 256 ≤ 2 ^ i from Nat.pow_le_pow_right (n := 2) (i := 8) (by decide) (by omega)))).symm
  · apply Nat.eq_of_testBit_eq
    intro i
    rw [keyId_bit, newKey_bit _ _ _ hi]
    by_cases h : i < 32
    · rw [if_pos h]; simp [h]
    · rw [testBit_small hi (by omega)]; simp [h]
  · unfold newKey
    refine Nat.or_lt_two_pow ?_ (Nat.lt_of_lt_of_le hi (Nat.pow_le_pow_right (by decide) (by decide)))
    rw [Nat.shiftLeft_eq]
    have : op &&& 255 ≤ 255 := Nat.and_le_right
    have e : (2 : Nat) ^ 40 = 256 * 2 ^ 32 := by decide
    have e2 : (2 : Nat) ^ 32 = 4294967296 := by decide
    rw [e, e2]
    omega

theorem keyOp_or (a b : Nat) : keyOp (a ||| b) = keyOp a ||| keyOp b := by
  apply Nat.eq_of_testBit_eq
  intro i
  rw [keyOp_bit, Nat.testBit_or, Nat.testBit_or, keyOp_bit, keyOp_bit, Bool.and_or_distrib_left]

theorem keyId_or {a b : Nat} (h : keyId a = keyId b) : keyId (a ||| b) = keyId a := by
  apply Nat.eq_of_testBit_eq
  intro i
  have := congrArg (fun n => Nat.testBit n i) h
  simp only [keyId_bit] at this
  rw [keyId_bit, keyId_bit, Nat.testBit_or, Bool.and_or_distrib_left, ← this, Bool.or_self]

/-- the union of the operations of the events with an id -/
def opsOf (id : Nat) (q : List Nat) : Nat := (q.filter fun k => keyId k = id).foldl (fun a k => a ||| keyOp k) 0

/-- events that are not wake-ups -/
def events (q : List Nat) : List Nat := q.filter fun k => keyOp k ≠ opWakeup

structure SelOk (m : List (Nat × Nat)) (es : List Nat) : Prop where
  nodup : (m.map (·.1)).Nodup
  ids : ∀ p ∈ m, keyId p.2 = p.1
  mem : ∀ i, i ∈ m.map (·.1) ↔ ∃ k ∈ es, keyId k = i
  ops : ∀ p ∈ m, keyOp p.2 = opsOf p.1 es

theorem opsOf_append (i : Nat) (es : List Nat) (k : Nat) :
    opsOf i (es ++ [k]) = if keyId k = i then opsOf i es ||| keyOp k else opsOf i es := by
  unfold opsOf
  rw [List.filter_append]
  by_cases h : keyId k = i <;> simp [h]

theorem opsOf_none {i : Nat} {es : List Nat} (h : ¬ ∃ k ∈ es, keyId k = i) : opsOf i es = 0 := by
  unfold opsOf
  have : es.filter (fun k => keyId k = i) = [] := by
    rw [List.filter_eq_nil_iff]
    intro k hk hc
    exact h ⟨k, hk, by simpa using hc⟩
  rw [this]; rfl

theorem addSelected_keys (m : List (Nat × Nat)) (k : Nat) :
    (addSelected m k).map (·.1) = if keyId k ∈ m.map (·.1) then m.map (·.1) else m.map (·.1) ++ [keyId k] := by
  induction m with
  | nil => simp [addSelected]
  | cons p r ih =>
    obtain ⟨i, v⟩ := p
    unfold addSelected
    by_cases h : i = keyId k
    · rw [if_pos h]; simp [h]
    · rw [if_neg h]
      simp only [List.map_cons, ih, List.mem_cons]
      by_cases h2 : keyId k ∈ r.map (·.1)
      · rw [if_pos h2, if_pos (Or.inr h2)]
      · have h3 : ¬ (keyId k = i ∨ keyId k ∈ r.map (·.1)) := by
          rintro (h3 | h3)
          · exact h h3.symm
          · exact h2 h3
        rw [if_neg h2, if_neg h3]; simp

theorem addSelected_mem {m : List (Nat × Nat)} (hn : (m.map (·.1)).Nodup) (k : Nat) (p : Nat × Nat) (hp : p ∈ addSelected m k) :
    (p ∈ m ∧ p.1 ≠ keyId k) ∨ (p = (keyId k, k) ∧ keyId k ∉ m.map (·.1)) ∨ ∃ v, (keyId k, v) ∈ m ∧ p = (keyId k, v ||| k) := by
  induction m with
  | nil => simp only [addSelected, List.mem_singleton] at hp; exact Or.inr (Or.inl ⟨hp, by simp⟩)
  | cons q r ih =>
    obtain ⟨i, v⟩ := q
    rw [List.map_cons, List.nodup_cons] at hn
    unfold addSelected at hp
    by_cases h : i = keyId k
    · rw [if_pos h] at hp
      rcases List.mem_cons.mp hp with h1 | h1
      · right; right; exact ⟨v, by simp [h], by rw [h1, h]⟩
      · left
        refine ⟨by simp [h1], ?_⟩
        intro hc
        exact hn.1 (by rw [show (i, v).1 = keyId k from h, ← hc]; exact List.mem_map_of_mem h1)
    · rw [if_neg h] at hp
      rcases List.mem_cons.mp hp with h1 | h1
      · left; exact ⟨by simp [h1], by rw [h1]; exact h⟩
      · rcases ih hn.2 h1 with ⟨a, b⟩ | ⟨a, b⟩ | ⟨w, a, b⟩
        · left; exact ⟨by simp [a], b⟩
        · right; left
          refine ⟨a, ?_⟩
          simp only [List.map_cons, List.mem_cons]
          rintro (h3 | h3)
          · exact h h3.symm
          · exact b h3
        · right; right; exact ⟨w, by simp [a], b⟩

theorem addSelected_ok {m : List (Nat × Nat)} {es : List Nat} (h : SelOk m es) (k : Nat) : SelOk (addSelected m k) (es ++ [k]) := by
  have hk := addSelected_keys m k
  refine ⟨?_, ?_, ?_, ?_⟩
  · rw [hk]
    split
    · exact h.nodup
    · rename_i hn
      rw [List.nodup_append]
      refine ⟨h.nodup, by simp, ?_⟩
      intro a ha b hb hab
      have : b = keyId k := by simpa using hb
      rw [hab, this] at ha
      exact hn ha
  · intro p hp
    rcases addSelected_mem h.nodup k p hp with ⟨a, _⟩ | ⟨a, _⟩ | ⟨v, a, b⟩
    · exact h.ids p a
    · rw [a]
    · rw [b]
      have hv : keyId v = keyId k := h.ids _ a
      show keyId (v ||| k) = keyId k
      rw [keyId_or hv, hv]
  · intro i
    rw [hk]
    have hm := h.mem
    split
    · rename_i hin
      rw [hm i]
      constructor
      · rintro ⟨x, hx, hi⟩; exact ⟨x, by simp [hx], hi⟩
      · rintro ⟨x, hx, hi⟩
        rcases List.mem_append.mp hx with hx | hx
        · exact ⟨x, hx, hi⟩
        · have : x = k := by simpa using hx
          rw [← hi, this]; exact (hm _).mp hin
    · rw [List.mem_append, hm i]
      constructor
      · rintro (⟨x, hx, hi⟩ | hi)
        · exact ⟨x, by simp [hx], hi⟩
        · exact ⟨k, by simp, (List.mem_singleton.mp hi).symm⟩
      · rintro ⟨x, hx, hi⟩
        rcases List.mem_append.mp hx with hx | hx
        · exact Or.inl ⟨x, hx, hi⟩
        · have : x = k := by simpa using hx
          exact Or.inr (by rw [← hi, this]; simp)
  · intro p hp
    rcases addSelected_mem h.nodup k p hp with ⟨a, b⟩ | ⟨a, b⟩ | ⟨v, a, b⟩
    · rw [opsOf_append, if_neg (fun hc => b hc.symm)]; exact h.ops p a
    · rw [a, opsOf_append, if_pos rfl]
      rw [opsOf_none (fun hc => b ((h.mem _).mpr hc))]
      simp
    · rw [b, opsOf_append, if_pos rfl, keyOp_or]
      rw [h.ops _ a]

theorem collect_ok (q : List Nat) : SelOk (collect q) (events q) := by
  have key : ∀ q m es, SelOk m es →
      SelOk (q.foldl (fun m k => if keyOp k = opWakeup then m else addSelected m k) m) (es ++ events q) := by
    intro q
    induction q with
    | nil => intro m es h; simpa [events] using h
    | cons k q ih =>
      intro m es h
      rw [List.foldl_cons]
      by_cases hw : keyOp k = opWakeup
      · rw [if_pos hw, show events (k :: q) = events q by simp [events, hw]]
        exact ih m es h
      · rw [if_neg hw, show events (k :: q) = [k] ++ events q by simp [events, hw], ← List.append_assoc]
        exact ih _ _ (addSelected_ok h k)
  have := key q [] [] ⟨by simp, by simp, by simp, by simp⟩
  rw [List.nil_append] at this
  exact this

theorem decode_encode (ks : List Nat) (h : ∀ k ∈ ks, k < 2 ^ 64) : decodeKeys ks.length (encodeKeys ks) = ks := by
  induction ks with
  | nil => rfl
  | cons k ks ih =>
    have hl : (beBytes 8 k).length = 8 := by simp [beBytes]
    have he : encodeKeys (k :: ks) = beBytes 8 k ++ encodeKeys ks := by simp [encodeKeys]
    have hk : k < 256 ^ 8 := by
      have := h k (by simp)
      rwa [show (256 : Nat) ^ 8 = 2 ^ 64 by decide]
    rw [he, List.length_cons, decodeKeys, if_neg (by rw [List.length_append]; omega)]
    rw [List.take_left' hl, List.drop_left' hl, ih (fun x hx => h x (by simp [hx]))]
    rw [Verif.Kafka.beNat_beBytes, Nat.zero_mul, Nat.zero_add, Nat.mod_eq_of_lt hk]

/-- **C82** What `Select` returns for the events in the queue, in whatever order the map is iterated: eight bytes for each id
for which there is an event other than a wake-up, once per id, with the union of the operations reported for it; nothing
else. Wake-ups only make `Select` return. -/
theorem C82_select (order : List (Nat × Nat) → List (Nat × Nat)) (horder : ∀ l, (order l).Perm l) (q : List Nat)
    (hq : ∀ k ∈ q, ∃ op id, k = newKey op id ∧ op < 256 ∧ id < 2 ^ 32) :
    ∃ ks : List Nat, (selectBytes order q).length = 8 * ks.length ∧ decodeKeys ks.length (selectBytes order q) = ks ∧
      (ks.map keyId).Nodup ∧
      (∀ i, i ∈ ks.map keyId ↔ ∃ k ∈ q, keyOp k ≠ opWakeup ∧ keyId k = i) ∧
      (∀ k ∈ ks, keyOp k = opsOf (keyId k) (events q)) := by
  have hc := collect_ok q
  have hp := horder (collect q)
  have hids : ∀ p ∈ order (collect q), keyId p.2 = p.1 := fun p h => hc.ids p (hp.mem_iff.mp h)
  have hmap : ((order (collect q)).map (·.2)).map keyId = (order (collect q)).map (·.1) := by
    rw [List.map_map]
    exact List.map_congr_left hids
  have h64 : ∀ k ∈ (order (collect q)).map (·.2), k < 2 ^ 64 := by
    have hb : ∀ (q : List Nat) (m : List (Nat × Nat)), (∀ k ∈ q, k < 2 ^ 64) → (∀ p ∈ m, p.2 < 2 ^ 64) →
        ∀ p ∈ q.foldl (fun m k => if keyOp k = opWakeup then m else addSelected m k) m, p.2 < 2 ^ 64 := by
      intro q
      induction q with
      | nil => intro m _ hm; exact hm
      | cons k q ih =>
        intro m hq hm
        rw [List.foldl_cons]
        refine ih _ (fun x hx => hq x (by simp [hx])) ?_
        split
        · exact hm
        · have hk := hq k (by simp)
          clear ih hq
          induction m with
          | nil => intro p hp; simp only [addSelected, List.mem_singleton] at hp; rw [hp]; exact hk
          | cons a r ih2 =>
            obtain ⟨i, v⟩ := a
            have hv := hm (i, v) (by simp)
            have hr := ih2 (fun p hp => hm p (by simp [hp]))
            unfold addSelected
            split
            · intro p hp
              rcases List.mem_cons.mp hp with h | h
              · rw [h]; exact Nat.or_lt_two_pow hv hk
              · exact hm p (by simp [h])
            · intro p hp
              rcases List.mem_cons.mp hp with h | h
              · rw [h]; exact hv
              · exact hr p h
    intro k hk
    obtain ⟨p, hpm, rfl⟩ := List.mem_map.mp hk
    refine hb q [] ?_ (by simp) p (hp.mem_iff.mp hpm)
    intro x hx
    obtain ⟨op, id, rfl, h1, h2⟩ := hq x hx
    exact Nat.lt_of_lt_of_le (C82_roundtrip op id h1 h2).2.2 (Nat.pow_le_pow_right (by decide) (by decide))
  refine ⟨(order (collect q)).map (·.2), ?_, decode_encode _ h64, ?_, ?_, ?_⟩
  · unfold selectBytes encodeKeys
    generalize (order (collect q)).map (·.2) = l
    induction l with
    | nil => rfl
    | cons a l ih =>
      rw [List.flatMap_cons, List.length_append, ih, List.length_cons]
      have : (beBytes 8 a).length = 8 := by simp [beBytes]
      omega
  · rw [hmap]
    exact (hp.map (·.1)).nodup_iff.mpr hc.nodup
  · intro i
    rw [hmap, (hp.map (·.1)).mem_iff, hc.mem i]
    simp only [events, List.mem_filter, decide_eq_true_eq]
    constructor
    · rintro ⟨k, ⟨h1, h2⟩, h3⟩; exact ⟨k, h1, h2, h3⟩
    · rintro ⟨k, h1, h2, h3⟩; exact ⟨k, ⟨h1, h2⟩, h3⟩
  · intro k hk
    obtain ⟨p, hpm, rfl⟩ := List.mem_map.mp hk
    have := hc.ops p (hp.mem_iff.mp hpm)
    rw [hids p hpm]; exact this

/-- three events for key 7, a wake-up, one for key 9 -/
example : (collect [newKey opRead 7, newKey opWakeup 0, newKey opWrite 9, newKey opWrite 7, newKey opRead 7]) =
    [(7, newKey 5 7), (9, newKey 4 9)] := by decide
example : selectBytes id [newKey opWakeup 0] = [] := by decide
example : selectBytes id [newKey opAccept 4294967295] = [0, 0, 0, 16, 255, 255, 255, 255] := by decide

theorem offer_mono {q : List Nat} {k x : Nat} (h : x ∈ q) : x ∈ offer q k := by
  unfold offer; split
  · simp [h]
  · exact h

theorem foldl_offer_mono (ks : List Nat) : ∀ {q : List Nat} {x : Nat}, x ∈ q → x ∈ ks.foldl offer q := by
  induction ks with
  | nil => intro q x h; exact h
  | cons k ks ih => intro q x h; exact ih (offer_mono h)

theorem foldl_offer_length (ks : List Nat) : ∀ q : List Nat, (ks.foldl offer q).length = max q.length (min queueCap (q.length + ks.length)) := by
  induction ks with
  | nil => intro q; simp; omega
  | cons k ks ih =>
    intro q
    rw [List.foldl_cons, ih]
    unfold offer
    split <;> simp <;> omega

theorem foldl_offer_room (ks : List Nat) : ∀ q : List Nat, q.length + ks.length ≤ queueCap → ks.foldl offer q = q ++ ks := by
  induction ks with
  | nil => intro q _; simp
  | cons k ks ih =>
    intro q h
    simp only [List.length_cons] at h
    have ho : offer q k = q ++ [k] := by unfold offer; rw [if_pos (by omega)]
    rw [List.foldl_cons, ho, ih _ (by simp; omega)]
    simp

/-- **C82** `Select` reports every key that is ready when it looks, as long as the queue has room for all of them; and
whatever was queued before. -/
theorem C82_ready (readable writable q : List Nat) (h : q.length + readable.length + writable.length ≤ queueCap)
    (hr : ∀ i ∈ readable, i < 2 ^ 32) (hw : ∀ i ∈ writable, i < 2 ^ 32) :
    (∀ k ∈ q, k ∈ scan readable writable q) ∧
    (∀ i ∈ readable, ∃ p ∈ collect (scan readable writable q), p.1 = i ∧ (keyOp p.2).testBit 0 = true) ∧
    (∀ i ∈ writable, ∃ p ∈ collect (scan readable writable q), p.1 = i ∧ (keyOp p.2).testBit 2 = true) := by
  have hs : scan readable writable q = q ++ readable.map (newKey opRead) ++ writable.map (newKey opWrite) := by
    unfold scan
    rw [foldl_offer_room _ q (by simp; omega), foldl_offer_room _ _ (by simp; omega)]
  have bit : ∀ (es : List Nat) (i k b : Nat), k ∈ es → keyId k = i → (keyOp k).testBit b = true → (opsOf i es).testBit b = true := by
    intro es i k b hk hi hb
    have gen : ∀ (l : List Nat) (a : Nat), (a.testBit b = true ∨ k ∈ l) → (l.foldl (fun a k => a ||| keyOp k) a).testBit b = true := by
      intro l
      induction l with
      | nil => intro a h; rcases h with h | h
               · exact h
               · cases h
      | cons x l ih =>
        intro a h
        refine ih _ ?_
        rw [Nat.testBit_or]
        rcases h with h | h
        · left; simp [h]
        · rcases List.mem_cons.mp h with h | h
          · left; rw [← h, hb]; simp
          · right; exact h
    exact gen _ 0 (Or.inr (by simp [hk, hi]))
  have main : ∀ (op i b : Nat), op < 256 → op ≠ opWakeup → op.testBit b = true → i < 2 ^ 32 →
      newKey op i ∈ scan readable writable q →
      ∃ p ∈ collect (scan readable writable q), p.1 = i ∧ (keyOp p.2).testBit b = true := by
    intro op i b h1 h2 h3 h4 h5
    have hc := collect_ok (scan readable writable q)
    obtain ⟨r1, r2, _⟩ := C82_roundtrip op i h1 h4
    have he : newKey op i ∈ events (scan readable writable q) := by
      unfold events
      rw [List.mem_filter]
      exact ⟨h5, by rw [r1]; simpa using h2⟩
    obtain ⟨p, hp, hpi⟩ := List.mem_map.mp ((hc.mem i).mpr ⟨_, he, r2⟩)
    refine ⟨p, hp, hpi, ?_⟩
    rw [hc.ops p hp]
    exact bit _ _ _ _ he (by rw [r2, hpi]) (by rw [r1]; exact h3)
  refine ⟨?_, ?_, ?_⟩
  · intro k hk; rw [hs]; simp [hk]
  · intro i hi
    exact main opRead i 0 (by decide) (by decide) (by decide) (hr i hi) (by rw [hs]; exact List.mem_append.mpr (Or.inl (List.mem_append.mpr (Or.inr (List.mem_map_of_mem hi)))))
  · intro i hi
    exact main opWrite i 2 (by decide) (by decide) (by decide) (hw i hi) (by rw [hs]; exact List.mem_append.mpr (Or.inr (List.mem_map_of_mem hi)))

/-- **C89** (partial) `WakeUp` does not block while the queue has room, and then makes `Select` return. -/
theorem C89_wakeup_partial (q : List Nat) : (∃ q', send q (newKey opWakeup 0) = some q' ∧ newKey opWakeup 0 ∈ q') ↔ q.length < queueCap := by
  unfold send
  constructor
  · rintro ⟨q', h, _⟩
    split at h
    · assumption
    · cases h
  · intro h; rw [if_pos h]; exact ⟨_, rfl, by simp⟩

/-- **C89** (negation) With 64 ready keys `WakeUp` blocks until somebody selects. If the thread that selects calls it, that is
never. -/
theorem C89_wakeup_false : ∃ readable : List Nat, (∀ i ∈ readable, i < 2 ^ 32) ∧ readable.Nodup ∧
    send (scan readable [] []) (newKey opWakeup 0) = none :=
  ⟨List.range 64, by intro i hi; have := List.mem_range.mp hi; omega, List.nodup_range, by decide +kernel⟩

end Verif.Props
