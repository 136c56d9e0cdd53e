import Verif.Sec.DotnClone
/-
C250 (a clone of a property store answers like the store).
-/
namespace Verif.Dotn

/-! ### specification -/

/-- The same answer; maps and lists are compared in the form in which they are handed out. -/
def Got.same : Got → Got → Prop
  | .found v, .found w => w = v.conv
  | .missing, .missing => True
  | .panic, .panic => True
  | _, _ => False

/-- The path does not go on inside a list, and what is in a `map[string]string` are strings. -/
def NoList : V → List Str → Prop
  | _, [] => True
  | .store kvs, p :: ps => ∀ v, kvs.get p = some v → ps ≠ [] → NoList v ps
  | .gomap kvs, p :: ps => ∀ v, kvs.get p = some v → ps ≠ [] → NoList v ps
  | .strmap kvs, p :: _ => ∀ v, kvs.get p = some v → ∃ n, v = .scalar n
  | .array _, _ :: _ => False
  | _, _ :: _ => True

theorem get_conv : ∀ (m : KVs) (p : Str), m.conv.get p = (m.get p).map V.conv
  | .nil, p => by simp [KVs.conv, KVs.get]
  | .cons k v r, p => by
    simp only [KVs.conv, KVs.get]
    by_cases h : k = p
    · simp [h]
    · simp [h, get_conv r p]

theorem outward_conv (v : V) : outward v.conv = (outward v).conv := by
  cases v <;> simp [V.conv, outward]

theorem getLoop_conv (pi : Str → Option Int) : ∀ (ps : List Str) (v : V), NoList v ps → (getLoop pi v ps).same (getLoop pi v.conv ps) := by
  intro ps
  induction ps with
  | nil => intro v _; cases v <;> simp [getLoop, Got.same]
  | cons p ps ih =>
    intro v h
    cases v with
    | scalar n => simp [V.conv, getLoop, Got.same]
    | slice vs => simp [V.conv, getLoop, Got.same]
    | array vs => exact absurd h id
    | store kvs =>
      simp only [V.conv, getLoop, get_conv]
      cases hg : kvs.get p with
      | none => exact trivial
      | some w =>
        cases ps with
        | nil => exact outward_conv w
        | cons q qs => exact ih w (h w hg (by simp))
    | gomap kvs =>
      simp only [V.conv, getLoop, get_conv]
      cases hg : kvs.get p with
      | none => exact trivial
      | some w =>
        cases ps with
        | nil => exact outward_conv w
        | cons q qs => exact ih w (h w hg (by simp))
    | strmap kvs =>
      simp only [V.conv, getLoop]
      cases hg : kvs.get p with
      | none => exact trivial
      | some w =>
        obtain ⟨n, rfl⟩ := h w hg
        cases ps with
        | nil => rfl
        | cons q qs => simp [getLoop, Got.same]

/-- **C250** (partial: the path does not go into a list) A clone answers every question as the store does. -/
theorem C250_get_partial (pi : Str → Option Int) (m : KVs) (key : Str) (h : NoList (.store m) ((split (escape key)).map unNul)) :
    (get pi m key).same (get pi (clone m) key) := by
  have h1 := getLoop_conv pi _ _ h
  unfold get clone
  have : getLoop pi (.store m.conv) ((split (escape key)).map unNul) = getLoop pi (V.store m).conv ((split (escape key)).map unNul) := by
    cases (split (escape key)).map unNul with
    | nil => simp [getLoop]
    | cons p ps => simp only [V.conv, getLoop]
  rw [this]; exact h1

/-- **C250** In particular every scalar is there, unchanged. -/
theorem C250_scalar_partial (pi : Str → Option Int) (m : KVs) (key : Str) (n : Nat) (h : NoList (.store m) ((split (escape key)).map unNul))
    (hg : get pi m key = .found (.scalar n)) : get pi (clone m) key = .found (.scalar n) := by
  have := C250_get_partial pi m key h
  rw [hg] at this
  cases hc : get pi (clone m) key with
  | found w => rw [hc] at this; have : w = (V.scalar n).conv := this; rw [this]; simp [V.conv]
  | missing => rw [hc] at this; exact this.elim
  | panic => rw [hc] at this; exact this.elim

mutual
theorem V.conv_conv : ∀ v : V, v.conv.conv = v.conv
  | .scalar n => by simp [V.conv]
  | .store kvs => by simp [V.conv, KVs.conv_conv kvs]
  | .gomap kvs => by simp [V.conv, KVs.conv_conv kvs]
  | .strmap kvs => by simp [V.conv]
  | .array vs => by simp [V.conv]
  | .slice vs => by simp [V.conv]
theorem KVs.conv_conv : ∀ m : KVs, m.conv.conv = m.conv
  | .nil => by simp [KVs.conv]
  | .cons k v r => by simp [KVs.conv, V.conv_conv v, KVs.conv_conv r]
end

/-- **C250** A clone of a clone is the clone. -/
theorem C250_clone (m : KVs) : clone (clone m) = clone m := m.conv_conv

/-- **C250** Elements of lists are not found in a clone, however long the list and whatever is in it: the store answers with the element, the clone
that there is none. -/
theorem C250_element_false (pi : Str → Option Int) (k p : Str) (i : Nat) (vs : Vs) (v : V) (hp : pi p = some (i : Int)) (hv : vs.get i = some v) (hi : i < vs.length) :
    getLoop pi (.store (.cons k (.array vs) .nil)) [k, p] = .found (outward v) ∧ getLoop pi (.store (clone (.cons k (.array vs) .nil))) [k, p] = .missing := by
  have h1 : ¬ ((vs.length : Int) < (i : Int) + 1) := by omega
  have h2 : ¬ ((i : Int) < 0) := by omega
  constructor
  · simp [getLoop, KVs.get, hp, h1, h2, hv]
  · simp [getLoop, clone, KVs.conv, V.conv, KVs.get]

/-- **C250** And what is appended to a list of a clone is lost: the list stays as it is. -/
theorem C250_append_false (k : Str) (vs ws : Vs) : setLast (.slice ws) (.cons k (.array vs) .nil) k = .cons k (.array (vs.append ws)) .nil ∧
    setLast (.slice ws) (clone (.cons k (.array vs) .nil)) k = clone (.cons k (.array vs) .nil) := by
  constructor <;> simp [setLast, clone, KVs.conv, V.conv, KVs.get, KVs.put]

/-! ### examples -/

/-- a nested map -/
example : get (fun _ => none) (clone (set .nil "a.b".toList (.scalar 1))) "a.b".toList = .found (.scalar 1) := by
  apply C250_scalar_partial
  · simp [set, setPieces, split, walk, escape, unNul, KVs.get, KVs.put, NoList, setLast]
  · simp [get, getLoop, set, setPieces, split, walk, escape, unNul, KVs.get, KVs.put, setLast, outward]

end Verif.Dotn
