import Verif.Wasm.HostProps
import Verif.Props.DotnLaws
/-
Property theorems C122 (filters read the attributes the program stored), C123 (a filter reads back what it set).
-/
namespace Verif.Props.HostProps
open Verif.Dotn Verif.Wasm.HostProps

variable {pi : Str → Option Int}

/-! ### specification -/

/-- parts of a path with a separator between them -/
def sepBy (c : Char) : List Str → Str
  | [] => []
  | [p] => p
  | p :: q :: ps => p ++ c :: sepBy c (q :: ps)

/-- an ordinary name: not empty, and neither dot nor backslash nor NUL in it -/
def Name (p : Str) : Prop := p ≠ [] ∧ '.' ∉ p ∧ '\\' ∉ p ∧ '\x00' ∉ p

/-! ### lemmas -/

theorem unNul_name {p : Str} (h : '\x00' ∉ p) : unNul p = p := by
  unfold unNul
  conv => rhs; rw [← List.map_id p]
  refine List.map_congr_left fun c hc => ?_
  rw [if_neg]; rfl
  rintro rfl; exact h hc

theorem unNul_append (a b : Str) : unNul (a ++ b) = unNul a ++ unNul b := List.map_append

theorem unNul_sepBy : ∀ (ps : List Str), (∀ p ∈ ps, '\x00' ∉ p) → unNul (sepBy '\x00' ps) = sepBy '.' ps
  | [], _ => rfl
  | [p], h => unNul_name (h p (by simp))
  | p :: q :: ps, h => by
    rw [sepBy, unNul_append, unNul_name (h p (by simp)), sepBy]
    have := unNul_sepBy (q :: ps) fun x hx => h x (List.mem_cons_of_mem _ hx)
    show p ++ unNul ('\x00' :: sepBy '\x00' (q :: ps)) = _
    rw [show unNul ('\x00' :: sepBy '\x00' (q :: ps)) = '.' :: unNul (sepBy '\x00' (q :: ps)) from rfl, this]

theorem sepBy_last : ∀ (ps : List Str), ps ≠ [] → (∀ p ∈ ps, Name p) → ∃ s c, sepBy '.' ps = s ++ [c] ∧ c ≠ '.'
  | [], h, _ => absurd rfl h
  | [p], _, h => by
    have hp := h p (by simp)
    have := List.dropLast_concat_getLast hp.1
    refine ⟨_, _, this.symm, fun hc => hp.2.1 (hc ▸ List.getLast_mem hp.1)⟩
  | p :: q :: ps, _, h => by
    obtain ⟨s, c, h1, h2⟩ := sepBy_last (q :: ps) (by simp) fun x hx => h x (List.mem_cons_of_mem _ hx)
    exact ⟨p ++ '.' :: s, c, by rw [sepBy, h1]; simp, h2⟩

theorem trimDots_dots (s : Str) (c : Char) (hc : c ≠ '.') (n : Nat) : trimDots (s ++ [c] ++ List.replicate n '.') = s ++ [c] := by
  unfold trimDots
  rw [List.reverse_append, List.reverse_replicate]
  have : ∀ n (t : Str), (List.replicate n '.' ++ t).dropWhile (fun c => c == '.') = t.dropWhile (fun c => c == '.') := by
    intro n t
    induction n with
    | zero => rfl
    | succ n ih => rw [List.replicate_succ, List.cons_append, List.dropWhile_cons_of_pos (by rfl), ih]
  rw [this, List.reverse_append, List.reverse_singleton, List.singleton_append, List.dropWhile_cons_of_neg (by simpa using hc),
    List.reverse_cons, List.reverse_reverse]

theorem hostKey_path (ps : List Str) (h0 : ps ≠ []) (h : ∀ p ∈ ps, Name p) (n : Nat) :
    hostKey (sepBy '\x00' ps ++ List.replicate n '\x00') = sepBy '.' ps := by
  unfold hostKey
  rw [unNul_append, unNul_sepBy ps fun p hp => (h p hp).2.2.2]
  have : unNul (List.replicate n '\x00') = List.replicate n '.' := by
    unfold unNul; rw [List.map_replicate]; rfl
  rw [this]
  obtain ⟨s, c, h1, h2⟩ := sepBy_last ps h0 h
  rw [h1]
  exact trimDots_dots s c h2 n

theorem plain_sepBy : ∀ (ps : List Str), (∀ p ∈ ps, Name p) → Plain (sepBy '.' ps)
  | [], _ => ⟨by simp [sepBy], by simp [sepBy]⟩
  | [p], h => ⟨(h p (by simp)).2.2.1, (h p (by simp)).2.2.2⟩
  | p :: q :: ps, h => by
    have h1 := plain_sepBy (q :: ps) fun x hx => h x (List.mem_cons_of_mem _ hx)
    have h2 := h p (by simp)
    rw [sepBy]
    refine ⟨?_, ?_⟩
    · simp only [List.mem_append, List.mem_cons, not_or]
      exact ⟨h2.2.2.1, by decide, h1.1⟩
    · simp only [List.mem_append, List.mem_cons, not_or]
      exact ⟨h2.2.2.2, by decide, h1.2⟩

theorem split_dotfree : ∀ (p : Str), '.' ∉ p → split p = [p]
  | [], _ => rfl
  | c :: p, h => by
    have hc : c ≠ '.' := fun e => h (e ▸ List.mem_cons_self)
    rw [split, if_neg hc, split_dotfree p fun hm => h (List.mem_cons_of_mem _ hm)]

theorem split_dot : ∀ (p s : Str), '.' ∉ p → split (p ++ '.' :: s) = p :: split s
  | [], s, _ => by rw [List.nil_append, split, if_pos rfl]
  | c :: p, s, h => by
    have hc : c ≠ '.' := fun e => h (e ▸ List.mem_cons_self)
    rw [List.cons_append, split, if_neg hc, split_dot p s fun hm => h (List.mem_cons_of_mem _ hm)]

theorem split_sepBy : ∀ (ps : List Str), ps ≠ [] → (∀ p ∈ ps, Name p) → split (sepBy '.' ps) = ps
  | [], h, _ => absurd rfl h
  | [p], _, h => split_dotfree p (h p (by simp)).2.1
  | p :: q :: ps, _, h => by
    rw [sepBy, split_dot _ _ (h p (by simp)).2.1, split_sepBy (q :: ps) (by simp) fun x hx => h x (List.mem_cons_of_mem _ hx)]

/-! ### C122 -/

/-- **C122** A filter that asks for a path (parts separated, and perhaps followed, by NUL) gets exactly what the program has stored under
the dotted name, from the nearest holder that has it. -/
theorem C122_read (c : Chain) (ps : List Str) (h0 : ps ≠ []) (h : ∀ p ∈ ps, Name p) (n : Nat) :
    getProperty pi c (sepBy '\x00' ps ++ List.replicate n '\x00') = chainGet pi c (sepBy '.' ps) := by
  unfold getProperty
  rw [hostKey_path ps h0 h n]

/-- **C122** What the program stores last under a path of maps is what filters get for it, whatever the parents hold. -/
theorem C122_stored (m : KVs) (r : Chain) (ps : List Str) (h0 : ps ≠ []) (h : ∀ p ∈ ps, Name p) (n k : Nat) (hp : MapPath m ps) :
    getProperty pi (chainSet (m :: r) (sepBy '.' ps) (.scalar k)) (sepBy '\x00' ps ++ List.replicate n '\x00') = .found (.scalar k) := by
  rw [C122_read _ _ h0 h, chainSet, chainGet]
  have hp' : MapPath m (split (sepBy '.' ps)) := by rw [split_sepBy ps h0 h]; exact hp
  rw [C48_get_partial (pi := pi) m (sepBy '.' ps) (.scalar k) (plain_sepBy ps h) ⟨k, rfl⟩ hp']

/-- **C122** The holders of parents are asked in order, each only if none before has the property. -/
theorem C122_parents (c1 c2 : Chain) (ps : List Str) (h0 : ps ≠ []) (h : ∀ p ∈ ps, Name p)
    (hm : ∀ m ∈ c1, Verif.Dotn.get pi m (sepBy '.' ps) = .missing) :
    getProperty pi (c1 ++ c2) (sepBy '\x00' ps) = getProperty pi c2 (sepBy '\x00' ps) := by
  have e := fun c => C122_read (pi := pi) c ps h0 h 0
  simp only [List.replicate_zero, List.append_nil] at e
  rw [e, e]
  induction c1 with
  | nil => rfl
  | cons m c1 ih =>
    rw [List.cons_append, chainGet, hm m List.mem_cons_self]
    exact ih fun x hx => hm x (List.mem_cons_of_mem _ hx)

example : let c : Chain := [.nil, Verif.Dotn.set .nil "node.id".toList (.scalar 7)]
    getProperty (fun _ => none) c ("node".toList ++ ['\x00'] ++ "id".toList ++ ['\x00']) |> (got · (.scalar 7)) := by
  decide +kernel

/-! ### C123 -/

/-- **C123** A property a filter sets under a name of one part is what it reads afterwards, whatever else there is. -/
theorem C123_single (m : KVs) (r : Chain) (p : Str) (h : Name p) (n k : Nat) :
    getProperty pi (setProperty (m :: r) p (.scalar k)) (p ++ List.replicate n '\x00') = .found (.scalar k) :=
  C122_stored m r [p] (by simp) (by simpa using h) n k .last

/-- **C123** Setting it changes no other property. -/
theorem C123_frame (m : KVs) (r : Chain) (p : Str) (h : Name p) (k : Nat) (qs : List Str) (h0 : qs ≠ []) (hq : ∀ q ∈ qs, Name q)
    (hne : qs.head? ≠ some p) :
    getProperty pi (setProperty (m :: r) p (.scalar k)) (sepBy '\x00' qs) = getProperty pi (m :: r) (sepBy '\x00' qs) := by
  have e := fun c => C122_read (pi := pi) c qs h0 hq 0
  simp only [List.replicate_zero, List.append_nil] at e
  rw [e, e, setProperty, chainSet, chainGet, chainGet]
  have hs := split_sepBy qs h0 hq
  have hsp := split_dotfree p h.2.1
  have : Verif.Dotn.get pi (Verif.Dotn.set m p (.scalar k)) (sepBy '.' qs) = Verif.Dotn.get pi m (sepBy '.' qs) := by
    refine C48_frame_partial m p (sepBy '.' qs) _ ⟨h.2.2.1, h.2.2.2⟩ (plain_sepBy qs hq) (by intro kvs hh; cases hh) ?_ ?_
    · rw [hsp]; exact .last
    · rw [hs, hsp]
      cases qs with
      | nil => exact absurd rfl h0
      | cons q qs => exact ⟨[], p, q, [], qs, rfl, rfl, fun hh => hne (by rw [hh]; rfl)⟩
  rw [this]

/-- a path of two or more parts as a filter writes it has no dot in it and becomes, with dots for NULs, one name -/
theorem nulPath_dotfree : ∀ (ps : List Str), (∀ p ∈ ps, Name p) → '.' ∉ sepBy '\x00' ps
  | [], _ => by simp [sepBy]
  | [p], h => (h p (by simp)).2.1
  | p :: q :: ps, h => by
    have := nulPath_dotfree (q :: ps) fun x hx => h x (List.mem_cons_of_mem _ hx)
    rw [sepBy]
    simp only [List.mem_append, List.mem_cons, not_or]
    exact ⟨(h p (by simp)).2.1, by decide, this⟩

/-- **C209** fails: whatever a filter sets under a path of two or more parts, it reads the same afterwards as before. -/
theorem C209_path_false (m : KVs) (r : Chain) (p q : Str) (ps : List Str) (h : ∀ x ∈ p :: q :: ps, Name x) (k : Nat) :
    getProperty pi (setProperty (m :: r) (sepBy '\x00' (p :: q :: ps)) (.scalar k)) (sepBy '\x00' (p :: q :: ps)) =
      getProperty pi (m :: r) (sepBy '\x00' (p :: q :: ps)) := by
  have e := fun c => C122_read (pi := pi) c (p :: q :: ps) (by simp) h 0
  simp only [List.replicate_zero, List.append_nil] at e
  rw [e, e, setProperty, chainSet, chainGet, chainGet]
  have hs := split_sepBy (p :: q :: ps) (by simp) h
  have hset : Verif.Dotn.set m (sepBy '\x00' (p :: q :: ps)) (.scalar k) = m.put (sepBy '.' (p :: q :: ps)) (.scalar k) := by
    unfold Verif.Dotn.set setPieces
    rw [split_dotfree _ (nulPath_dotfree _ h)]
    simp only [List.map_cons, List.map_nil, walk, setLast]
    rw [unNul_sepBy _ fun x hx => (h x hx).2.2.2]
  have hget : Verif.Dotn.get pi (m.put (sepBy '.' (p :: q :: ps)) (.scalar k)) (sepBy '.' (p :: q :: ps)) =
      Verif.Dotn.get pi m (sepBy '.' (p :: q :: ps)) := by
    rw [get_plain (plain_sepBy _ h), get_plain (plain_sepBy _ h), hs, getLoop_store, getLoop_store, get_put_other]
    intro hh
    refine (h p (by simp)).2.1 ?_
    rw [← hh, sepBy]; simp
  rw [hset, hget]

example : ∀ x ∈ [K "a", K "b", K "c d"], Name x := by unfold Name; decide +kernel

/-- **C209** fails: in particular a filter that sets such a path on an empty stream reads nothing back, and the value is found neither
by the program under the dotted name. -/
theorem C209_lost_false : let c := setProperty [.nil] ("a".toList ++ ['\x00'] ++ "b".toList) (.scalar 1)
    missing (getProperty (fun _ => none) c ("a".toList ++ ['\x00'] ++ "b".toList)) = true ∧ missing (chainGet (fun _ => none) c "a.b".toList) = true := by
  decide +kernel

/-- **C209** fails for names with dots, as Kubernetes labels have: they cannot be read; and a filter that asks for an element of a list
by a negative number crashes the program. -/
theorem C209_dotted_false :
    missing (getProperty (fun _ => none) [.cons "labels".toList (.store (.cons "k8s.io/app".toList (.scalar 1) .nil)) .nil]
      ("labels".toList ++ ['\x00'] ++ "k8s.io/app".toList)) = true ∧
    panics (getProperty (fun s => if s = "-1".toList then some (-1) else none) [.cons "l".toList (.array (.cons (.scalar 1) .nil)) .nil]
      ("l".toList ++ ['\x00'] ++ "-1".toList)) = true := by
  decide +kernel

end Verif.Props.HostProps
