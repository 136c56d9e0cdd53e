import Verif.Props.DotnLaws
import Verif.Props.CertVerify
import Verif.Props.Matchers
/-
More about C46 (printed matchers), C47 (hash restrictions from the mesh), C48 (list elements).
-/

namespace Verif.Match

/-- **C154** The printed form of a matcher is its kind, a colon and the pattern it compares with (in
lower case if it ignores case). -/
theorem C154_print (e : Env) (k : Kind) (v : Str) (ic : Bool) (m : Matcher) (h : newMatcher e k v ic = some m) :
    toStr m = k.name ++ ':' :: (if ic then v.map e.lower else v) := by
  unfold newMatcher setMatcher at h
  cases k
  case regex =>
    simp only [Option.map_eq_some_iff] at h
    obtain ⟨rx, _, rfl⟩ := h
    rfl
  all_goals (injection h with h; subst h; rfl)

example : ((newMatcher demo .suffix ".example.com".toList true).map fun m => String.ofList (toStr m)) =
    some "SUFFIX:.example.com" := by decide +kernel

end Verif.Match

namespace Verif.Cert
open Verif.Match

/-- **C47** A certificate accepted under a validation context that lists certificate hashes has one
of them, and one that lists public key hashes has one of those. -/
theorem C47_mesh_hashes (e : Env) (x : X509) (pool : List Nat → Pool) (v : Validation) (raw : List (List Nat))
    (leaf : Certificate) (rest : List Certificate)
    (h : verifyCertificate e x (configFrom e pool v) raw = .ok (leaf :: rest)) :
    (v.hash ≠ [] → leaf.hash ∈ v.hash) ∧ (v.spki ≠ [] → ∃ k, leaf.spki = some k ∧ k ∈ v.spki) := by
  obtain ⟨l, r, others, he, _, hp⟩ := (C47_accept e x _ raw _).mp h
  cases he
  exact ⟨hp.hash, hp.spki⟩

end Verif.Cert

namespace Verif.Dotn
variable {pi : Str → Option Int}

/-- Going on from what was written at the end of the walk. -/
theorem get_walk_on {f : KVs → Str → KVs} {v : V} {q : List Str} (hq : q ≠ []) :
    ∀ (ps : List Str) (m : KVs), MapPath m ps → (f (ending m ps).1 (ending m ps).2).get (ending m ps).2 = some v →
      getLoop pi (.store (walk f m ps)) (ps ++ q) = getLoop pi v q := by
  intro ps
  induction ps with
  | nil => intro m h; cases h
  | cons p ps ih =>
    intro m h hf
    have hcont : ∀ (m' : KVs) (w : V), m'.get p = some w →
        getLoop pi (.store m') (p :: (ps ++ q)) = getLoop pi w (ps ++ q) := by
      intro m' w hw
      have : ps ++ q ≠ [] := by simp [hq]
      generalize ps ++ q = z at this
      rw [getLoop_store, hw]
      cases z with
      | nil => exact absurd rfl this
      | cons _ _ => rfl
    rw [List.cons_append]
    by_cases hps : ps = []
    · subst hps
      rw [ending] at hf
      rw [walk_single, hcont _ _ hf, List.nil_append]
    · rw [walk_cons hps]
      rw [ending_cons hps] at hf
      cases h with
      | last => exact absurd rfl hps
      | absent hg _ =>
        rw [hg] at hf ⊢
        simp only
        rw [hcont _ _ (get_put_same _ _ _)]
        exact ih _ (mapPath_nil hps) hf
      | store hg hs =>
        rw [hg] at hf ⊢
        simp only
        rw [hcont _ _ (get_put_same _ _ _)]
        exact ih _ hs hf
      | gomap hg hs =>
        rw [hg] at hf ⊢
        simp only
        rw [hcont _ _ (get_put_same _ _ _)]
        rw [getLoop_gomap]
        exact ih _ hs hf

theorem split_dot (a b : Str) : split (a ++ '.' :: b) = split a ++ split b := by
  induction a with
  | nil => simp [split]
  | cons c a ih =>
    have e : ∀ (c : Char) (s : Str), split (c :: s) = if c = '.' then [] :: split s else
        match split s with
        | [] => [[c]]
        | p :: ps => (c :: p) :: ps := fun _ _ => rfl
    rw [List.cons_append, e, e, ih]
    split
    · rfl
    · have := split_ne a
      cases h : split a with
      | nil => exact absurd h this
      | cons p ps => rfl

theorem split_nodot {b : Str} (h : '.' ∉ b) : split b = [b] := by
  induction b with
  | nil => rfl
  | cons c b ih =>
    simp only [List.mem_cons, not_or] at h
    unfold split
    rw [if_neg (Ne.symm h.1), ih h.2]

theorem vs_get : ∀ (w : Vs) (n : Nat), (n < w.length → ∃ x, w.get n = some x) ∧ (w.length ≤ n → w.get n = none)
  | .nil, n => by simp [Vs.length, Vs.get]
  | .cons x r, 0 => by simp [Vs.length, Vs.get]
  | .cons x r, n + 1 => by
    simp only [Vs.length, Vs.get]
    exact ⟨fun h => (vs_get r n).1 (by omega), fun h => (vs_get r n).2 (by omega)⟩

/-- **C48** (partial) After a list was set where nothing was, `Get(path.i)` is the i-th element for
every index of the list, and nothing for a larger one. -/
theorem C48_element_partial (m : KVs) (key idx : Str) (vs : Vs) (i : Nat) (hk : Plain key) (hi : Plain idx)
    (hdot : '.' ∉ idx) (hpi : pi idx = some (i : Int)) (hp : MapPath m (split key))
    (ho : oldList m (split key) = some .nil) :
    get pi (set m key (.slice vs)) (key ++ '.' :: idx) =
      match vs.get i with
      | some v => .found (outward v)
      | none => .missing := by
  have hpl : Plain (key ++ '.' :: idx) := by
    refine ⟨?_, ?_⟩
    · simp only [List.mem_append, List.mem_cons, not_or]
      exact ⟨hk.1, by decide, hi.1⟩
    · simp only [List.mem_append, List.mem_cons, not_or]
      exact ⟨hk.2, by decide, hi.2⟩
  rw [get_plain hpl, split_dot, split_nodot hdot]
  have hs : set m key (.slice vs) = walk (setLast (.slice vs)) m (split key) := by
    unfold set setPieces
    rw [map_unNul_split hk.2]
  rw [hs, get_walk_on (v := .array vs) (by simp) (split key) m hp ?_]
  · have hlen := vs_get
    rw [getLoop]
    simp only [hpi]
    by_cases h : i < vs.length
    · obtain ⟨x, hx⟩ := (hlen vs i).1 h
      rw [if_neg (by omega), if_neg (by omega), Int.toNat_natCast, hx]
    · rw [if_pos (by omega), (hlen vs i).2 (by omega)]
      simp [getLoop]
  · unfold oldList at ho
    unfold setLast
    split at ho
    · rename_i h
      simp only [h]
      have : (Vs.nil.append vs) = vs := rfl
      first
        | exact get_put_same _ _ _
        | (rw [this]; exact get_put_same _ _ _)
    · rename_i ws h
      cases ho
      simp only [h]
      exact get_put_same _ _ _
    · cases ho

example : let m := set .nil (K "l") (.slice (.cons (.scalar 5) (.cons (.scalar 6) .nil)))
    got (get dec m (K "l.1")) (.scalar 6) = true ∧ missing (get dec m (K "l.2")) = true := by decide +kernel

end Verif.Dotn
