import Verif.Wasm.Plugin
/-
C65: the instances of a Wasm plugin are handed out and accounted for correctly.
-/
namespace Verif.Plugin

/-! ### Specification (on the trace only) -/

/-- How many times the instance was handed out. -/
def gets (tr : List Ev) (i : Nat) : Nat := tr.count (.got i)
/-- How many times it was released. -/
def releases (tr : List Ev) (i : Nat) : Nat := tr.count (.released i)
/-- Started and not stopped. -/
def Running (tr : List Ev) (i : Nat) : Prop := .started i ∈ tr ∧ .stopped i ∉ tr

/-- Callers release only what they hold, and the counters do not reach 2^32. -/
def Correct (s : St) : Act → Prop
  | .get _ => s.index + s.insts.length < U32
  | .release i => releases s.trace i < gets s.trace i
  | _ => True

/-- Calls of `EnsureInstances` and `Close` do not overlap. -/
def Serial (s : St) : Act → Prop
  | .ensure _ _ => ∀ c, s.phase c = .none ∨ s.phase c = .done
  | .close _ => ∀ c, s.phase c = .none ∨ s.phase c = .done
  | .ensureLock _ ok => s.next + ok.length < U32
  | _ => True

/-! ### Arithmetic -/

theorem inc_lt {n : Nat} (h : n + 1 < U32) : inc n = n + 1 := Nat.mod_eq_of_lt h

theorem dec_pos {n : Nat} (h : n < U32) (h0 : 0 < n) : dec n = n - 1 := by
  unfold dec
  have hU : 0 < U32 := by omega
  rw [show n + (U32 - 1) = (n - 1) + U32 by omega, Nat.add_mod_right, Nat.mod_eq_of_lt (by omega)]

theorem decN_le {n x : Nat} (h : x < U32) (hn : n ≤ x) : decN n x = x - n := by
  unfold decN
  have hU : 0 < U32 := by omega
  have : x + n * (U32 - 1) = (x - n) + n * U32 := by
    have h1 : n * (U32 - 1) + n = n * U32 := by
      rw [← Nat.mul_succ]; congr 1
    omega
  rw [this, Nat.add_mul_mod_self_right, Nat.mod_eq_of_lt (by omega)]

/-! ### Maps -/

theorem look_upd (i j v : Nat) : ∀ b : List (Nat × Nat), look j (upd i v b) = if i = j then some v else look j b
  | [] => by simp only [upd, look]
  | (k, w) :: r => by
    unfold upd
    by_cases hk : k = i
    · rw [if_pos hk]; subst hk
      by_cases hj : k = j <;> simp [look, hj]
    · rw [if_neg hk]
      simp only [look, look_upd i j v r]
      by_cases hkj : k = j
      · rw [if_pos hkj, if_pos hkj, if_neg (by omega)]
      · rw [if_neg hkj, if_neg hkj]

theorem total_upd (i v : Nat) : ∀ b : List (Nat × Nat), total (upd i v b) + (look i b).getD 0 = total b + v
  | [] => by simp [upd, look, total]
  | (k, w) :: r => by
    unfold upd
    by_cases hk : k = i
    · rw [if_pos hk]; simp only [look, hk, if_true, total, List.map_cons, List.sum_cons, Option.getD_some]; omega
    · rw [if_neg hk]
      have := total_upd i v r
      simp only [total] at this
      simp only [look, hk, if_false, total, List.map_cons, List.sum_cons]
      omega

theorem keys_upd (i v : Nat) : ∀ b : List (Nat × Nat), (∀ k, k ∈ (upd i v b).map (·.1) ↔ k = i ∨ k ∈ b.map (·.1)) ∧
    ((b.map (·.1)).Nodup → ((upd i v b).map (·.1)).Nodup)
  | [] => by simp [upd]
  | (k, w) :: r => by
    obtain ⟨h1, h2⟩ := keys_upd i v r
    unfold upd
    by_cases hk : k = i
    · rw [if_pos hk]; subst hk
      simp
    · rw [if_neg hk]
      refine ⟨?_, ?_⟩
      · intro j
        simp only [List.map_cons, List.mem_cons, h1]
        grind
      · simp only [List.map_cons, List.nodup_cons, h1]
        rintro ⟨h3, h4⟩
        exact ⟨by grind, h2 h4⟩

theorem look_none (i : Nat) : ∀ b : List (Nat × Nat), i ∉ b.map (·.1) → look i b = none
  | [], _ => rfl
  | (k, w) :: r, h => by
    simp only [List.map_cons, List.mem_cons, not_or] at h
    simp only [look]
    rw [if_neg (by omega), look_none i r h.2]

theorem look_le (i : Nat) : ∀ b : List (Nat × Nat), (look i b).getD 0 ≤ total b
  | [] => by simp [look]
  | (k, w) :: r => by
    have := look_le i r
    simp only [look, total, List.map_cons, List.sum_cons] at *
    split
    · simp only [Option.getD_some]; omega
    · omega

theorem count_releaseAll (i : Nat) : ∀ b : List (Nat × Nat), (b.map (·.1)).Nodup →
    (releaseAll b).count (.released i) = (look i b).getD 0
  | [], _ => rfl
  | (k, w) :: r, h => by
    simp only [List.map_cons, List.nodup_cons] at h
    have ih := count_releaseAll i r h.2
    unfold releaseAll at *
    rw [List.flatMap_cons, List.count_append, ih]
    simp only [look]
    by_cases hk : k = i
    · subst hk
      rw [if_pos rfl, look_none k r h.1]
      simp
    · rw [if_neg hk, List.count_replicate, if_neg]
      · omega
      · simpa using hk

theorem count_releaseAll_other (b : List (Nat × Nat)) (e : Ev) (h : ∀ i, e ≠ .released i) : (releaseAll b).count e = 0 := by
  rw [List.count_eq_zero]
  intro hm
  simp only [releaseAll, List.mem_flatMap, List.mem_replicate] at hm
  obtain ⟨x, _, _, rfl⟩ := hm
  exact h _ rfl

theorem count_map_ne {γ : Type} (l : List γ) (f : γ → Ev) (e : Ev) (h : ∀ x, f x ≠ e) : (l.map f).count e = 0 := by
  rw [List.count_eq_zero]
  intro hm
  obtain ⟨x, _, rfl⟩ := List.mem_map.mp hm
  exact h x rfl

/-! ### Handing out -/

/-- The loop: which instance comes out. -/
theorem getLoop_spec (ok : Nat → Bool) (insts : List (Option Nat)) (hn : none ∉ insts) : ∀ (k idx : Nat), k ≤ insts.length →
    idx + k < U32 →
    (∃ d i, d < k ∧ insts[(idx + d) % insts.length]? = some (some i) ∧ ok i = true ∧
      (∀ d', d' < d → ∀ j, insts[(idx + d') % insts.length]? = some (some j) → ok j = false) ∧
      getLoop ok insts k idx = (.inst i, idx + d + 1)) ∨
    ((∀ d, d < k → ∀ j, insts[(idx + d) % insts.length]? = some (some j) → ok j = false) ∧
      getLoop ok insts k idx = (.fail, idx + k))
  | 0, idx, _, _ => Or.inr ⟨by omega, rfl⟩
  | k + 1, idx, hk, hU => by
    have hlen : 0 < insts.length := by omega
    have hin : idx % insts.length < insts.length := Nat.mod_lt _ hlen
    obtain ⟨i, hi⟩ : ∃ i, insts[idx % insts.length]? = some (some i) := by
      rw [List.getElem?_eq_getElem hin]
      cases h : insts[idx % insts.length] with
      | some i => exact ⟨i, rfl⟩
      | none => exact absurd (h ▸ List.getElem_mem hin) hn
    unfold getLoop
    rw [hi]
    simp only
    rw [inc_lt (by omega)]
    cases hok : ok i with
    | true => exact Or.inl ⟨0, i, by omega, by simpa using hi, hok, by omega, by simp⟩
    | false =>
      simp only [Bool.false_eq_true, if_false]
      rcases getLoop_spec ok insts hn k (idx + 1) (by omega) (by omega) with ⟨d, j, h1, h2, h3, h4, h5⟩ | ⟨h1, h2⟩
      · refine Or.inl ⟨d + 1, j, by omega, by rw [← h2]; congr 2; omega, h3, ?_, by rw [h5]; congr 1; omega⟩
        intro d' hd' x hx
        cases d' with
        | zero => rw [Nat.add_zero, hi] at hx; injection hx with hx; injection hx with hx; subst hx; exact hok
        | succ d' => exact h4 d' (by omega) x (by rw [← hx]; congr 2; omega)
      · refine Or.inr ⟨?_, by rw [h2]; congr 1; omega⟩
        intro d' hd' x hx
        cases d' with
        | zero => rw [Nat.add_zero, hi] at hx; injection hx with hx; injection hx with hx; subst hx; exact hok
        | succ d' => exact h1 d' (by omega) x (by rw [← hx]; congr 2; omega)

/-- Every position is reached by some offset. -/
theorem offset {n idx p : Nat} (hp : p < n) : ∃ d, d < n ∧ (idx + d) % n = p := by
  have h0 : 0 < n := by omega
  have hm := Nat.mod_lt idx h0
  have hdiv := Nat.div_add_mod idx n
  by_cases h : idx % n ≤ p
  · refine ⟨p - idx % n, by omega, ?_⟩
    rw [show idx + (p - idx % n) = p + n * (idx / n) by omega, Nat.add_mul_mod_self_left, Nat.mod_eq_of_lt hp]
  · refine ⟨n - idx % n + p, by omega, ?_⟩
    rw [show idx + (n - idx % n + p) = p + n * (idx / n + 1) by rw [Nat.mul_add]; omega, Nat.add_mul_mod_self_left,
      Nat.mod_eq_of_lt hp]

/-- **C65** As long as one instance accepts, `GetInstance` hands out an accepting instance of the
plugin; it fails only if all refuse.  (For counters that have not wrapped around and a list
without the nil entries of `C68_nil_false`.) -/
theorem C65_get (s s' : St) (ok : Nat → Bool) (hn : none ∉ s.insts) (hU : s.index + s.insts.length < U32)
    (h : exec s (.get ok) = some s') :
    (∃ i, some i ∈ s.insts ∧ ok i = true ∧ s'.trace = .got i :: s.trace) ∨
    ((∀ i, some i ∈ s.insts → ok i = false) ∧ s'.trace = .refused :: s.trace) := by
  unfold exec at h
  split at h
  · cases h
  · simp only at h
    rcases getLoop_spec ok s.insts hn s.insts.length s.index (Nat.le_refl _) hU with ⟨d, i, h1, h2, h3, h4, h5⟩ | ⟨h1, h2⟩
    · rw [h5] at h
      injection h with h
      subst h
      exact Or.inl ⟨i, List.mem_of_getElem? h2, h3, rfl⟩
    · rw [h2] at h
      injection h with h
      subst h
      refine Or.inr ⟨?_, rfl⟩
      intro i hi
      obtain ⟨p, hp, he⟩ := List.getElem_of_mem hi
      obtain ⟨d, hd, hdp⟩ := offset (idx := s.index) hp
      exact h1 d hd i (by rw [hdp, List.getElem?_eq_getElem hp, he])

/-- `n` calls in a row; the instances handed out, oldest first. -/
def getN (s : St) : Nat → Option (List Nat × St)
  | 0 => some ([], s)
  | n + 1 => match getN s n with
    | some (is, s') => match exec s' (.get fun _ => true) with
      | some s'' => match s''.trace with
        | .got i :: _ => some (is ++ [i], s'')
        | _ => none
      | none => none
    | none => none

theorem rotate_perm {α : Type} (l : List α) (r : Nat) (h : r < l.length) :
    ((List.range l.length).filterMap fun k => l[(r + k) % l.length]?).Perm l := by
  have : ((List.range l.length).filterMap fun k => l[(r + k) % l.length]?) = l.drop r ++ l.take r := by
    have hmap : ((List.range l.length).filterMap fun k => l[(r + k) % l.length]?).map some =
        (List.range l.length).map fun k => l[(r + k) % l.length]? := by
      have : ∀ ks : List Nat, (ks.filterMap fun k => l[(r + k) % l.length]?).map some = ks.map fun k => l[(r + k) % l.length]? := by
        intro ks
        induction ks with
        | nil => rfl
        | cons k ks ih =>
          have hlt : (r + k) % l.length < l.length := Nat.mod_lt _ (by omega)
          simp only [List.filterMap_cons, List.map_cons, List.getElem?_eq_getElem hlt, List.map_cons, ← ih]
      exact this _
    apply List.map_inj_right (f := some) (fun _ _ h => Option.some.inj h) |>.mp
    rw [hmap]
    apply List.ext_getElem
    · simp only [List.length_map, List.length_range, List.length_append, List.length_drop, List.length_take]; omega
    · intro k h1 h2
      simp only [List.length_map, List.length_range] at h1
      simp only [List.getElem_map, List.getElem_range, List.getElem_append, List.length_drop, List.getElem_drop, List.getElem_take]
      by_cases hk : k < l.length - r
      · rw [dif_pos hk, Nat.mod_eq_of_lt (by omega), List.getElem?_eq_getElem (by omega)]
      · rw [dif_neg hk]
        have : (r + k) % l.length = k - (l.length - r) := by
          rw [show r + k = (k - (l.length - r)) + l.length by omega, Nat.add_mod_right, Nat.mod_eq_of_lt (by omega)]
        rw [this, List.getElem?_eq_getElem (by omega)]
  rw [this]
  have h1 : (l.drop r ++ l.take r).Perm (l.take r ++ l.drop r) := List.perm_append_comm
  rw [List.take_append_drop] at h1
  exact h1

/-- **C65** Round robin: if all accept, as many calls in a row as there are instances hand out every
instance exactly once, wherever the round starts. -/
theorem C65_roundRobin (s : St) (hc : s.crashed = false) (hn : none ∉ s.insts) (h0 : s.insts ≠ [])
    (hU : s.index + 2 * s.insts.length < U32) :
    ∃ is s', getN s s.insts.length = some (is, s') ∧ (is.map some).Perm s.insts := by
  have key : ∀ n, n ≤ s.insts.length → ∃ is s', getN s n = some (is, s') ∧ s'.insts = s.insts ∧ s'.crashed = false ∧
      s'.index = s.index + n ∧ is.map some = (List.range n).filterMap fun k => s.insts[(s.index + k) % s.insts.length]? := by
    intro n
    induction n with
    | zero => intro _; exact ⟨[], s, rfl, rfl, hc, rfl, rfl⟩
    | succ n ih =>
      intro hle
      obtain ⟨is, s', h1, h2, h3, h4, h5⟩ := ih (by omega)
      have hpos : 0 < s.insts.length := List.length_pos_iff.mpr h0
      have hspec := getLoop_spec (fun _ => true) s.insts hn s.insts.length (s.index + n) (Nat.le_refl _) (by omega)
      rcases hspec with ⟨d, i, g1, g2, _, g4, g5⟩ | ⟨g1, _⟩
      · have hd : d = 0 := by
          apply Classical.byContradiction
          intro hd
          have hlt : (s.index + n + 0) % s.insts.length < s.insts.length := Nat.mod_lt _ hpos
          cases hx : s.insts[(s.index + n + 0) % s.insts.length]'hlt with
          | none => exact hn (hx ▸ List.getElem_mem hlt)
          | some j =>
            have := g4 0 (by omega) j (by rw [List.getElem?_eq_getElem hlt, hx])
            cases this
        subst hd
        refine ⟨is ++ [i], { s' with index := s.index + n + 0 + 1, bcount := inc s'.bcount, bmap := upd i (inc ((look i s'.bmap).getD 0)) s'.bmap, trace := .got i :: s'.trace },
          ?_, h2, h3, by simp only; omega, ?_⟩
        · unfold getN
          rw [h1]
          simp only
          have he : exec s' (.get fun _ => true) = some { s' with index := s.index + n + 0 + 1, bcount := inc s'.bcount, bmap := upd i (inc ((look i s'.bmap).getD 0)) s'.bmap, trace := .got i :: s'.trace } := by
            unfold exec
            rw [h3]
            simp only [Bool.false_eq_true, if_false, h2, h4, g5]
          rw [he]
        · rw [List.map_append, h5, List.range_succ, List.filterMap_append]
          congr 1
          simp only [List.filterMap_cons, List.filterMap_nil]
          rw [Nat.add_zero] at g2
          rw [g2]
          rfl
      · exfalso
        have hlt : (s.index + n + 0) % s.insts.length < s.insts.length := Nat.mod_lt _ hpos
        cases hx : s.insts[(s.index + n + 0) % s.insts.length]'hlt with
        | none => exact hn (hx ▸ List.getElem_mem hlt)
        | some j => have := g1 0 hpos j (by rw [List.getElem?_eq_getElem hlt, hx]); cases this
  obtain ⟨is, s', h1, _, _, _, h5⟩ := key s.insts.length (Nat.le_refl _)
  refine ⟨is, s', h1, ?_⟩
  rw [h5]
  have hpos : 0 < s.insts.length := List.length_pos_iff.mpr h0
  have := rotate_perm s.insts (s.index % s.insts.length) (Nat.mod_lt _ hpos)
  have e : (fun k => s.insts[(s.index + k) % s.insts.length]?) = fun k => s.insts[(s.index % s.insts.length + k) % s.insts.length]? := by
    funext k; rw [Nat.mod_add_mod]
  rw [e]
  exact this

/-! ### Accounting -/

structure Acc (s : St) : Prop where
  nodup : (s.bmap.map (·.1)).Nodup
  each : ∀ i, (look i s.bmap).getD 0 + releases s.trace i = gets s.trace i
  sum : s.bcount = total s.bmap
  index : total s.bmap ≤ s.index
  small : s.index < U32

theorem acc_trace {s : St} {tr : List Ev} (h : Acc s) (h1 : ∀ i, releases tr i = releases s.trace i)
    (h2 : ∀ i, gets tr i = gets s.trace i) : ∀ i, (look i s.bmap).getD 0 + releases tr i = gets tr i := by
  intro i; rw [h1, h2]; exact h.each i

theorem getLoop_index (ok : Nat → Bool) (insts : List (Option Nat)) : ∀ (k idx : Nat), idx + k < U32 →
    (∀ i j, getLoop ok insts k idx = (.inst i, j) → idx < j ∧ j ≤ idx + k) ∧
    (∀ j, getLoop ok insts k idx = (.fail, j) → idx ≤ j ∧ j ≤ idx + k)
  | 0, idx, _ => by simp [getLoop]
  | k + 1, idx, h => by
    unfold getLoop
    rw [inc_lt (by omega)]
    obtain ⟨h1, h2⟩ := getLoop_index ok insts k (idx + 1) (by omega)
    split
    · split
      · constructor
        · intro i j e; injection e with _ e; omega
        · intro j e; injection e with e; cases e
      · constructor
        · intro i j e; have := h1 i j e; omega
        · intro j e; have := h2 j e; omega
    · constructor
      · intro i j e; injection e with e; cases e
      · intro j e; injection e with e; cases e

theorem acc_step {s s' : St} {a : Act} (h : Acc s) (hg : Correct s a) (he : exec s a = some s') : Acc s' := by
  obtain ⟨a1, a2, a3, a4, a5⟩ := h
  unfold exec at he
  split at he
  · cases he
  cases a with
  | get ok =>
    simp only [Correct] at hg
    obtain ⟨g1, g2⟩ := getLoop_index ok s.insts s.insts.length s.index hg
    simp only at he
    split at he
    · rename_i i idx hl
      injection he with he; subst he
      have := g1 _ _ hl
      have hle := look_le i s.bmap
      have hinc : inc ((look i s.bmap).getD 0) = (look i s.bmap).getD 0 + 1 := inc_lt (by omega)
      have ht := total_upd i ((look i s.bmap).getD 0 + 1) s.bmap
      have hb : inc s.bcount = total s.bmap + 1 := by rw [inc_lt (by omega), a3]
      refine ⟨?_, ?_, ?_, ?_, ?_⟩
      · exact (keys_upd i _ s.bmap).2 a1
      · intro j
        have h2 := a2 j
        simp only [releases, gets, List.count_cons] at h2 ⊢
        rw [look_upd, hinc]
        by_cases hij : i = j
        · subst hij; simp; omega
        · rw [if_neg hij]
          simp [hij]
          omega
      · rw [hb]; simp only [hinc]; omega
      · simp only [hinc]; omega
      · simp only; omega
    · rename_i idx hl
      injection he with he; subst he
      have := g2 _ hl
      refine ⟨a1, ?_, a3, by simp only; omega, by simp only; omega⟩
      intro j
      have h2 := a2 j
      simpa [releases, gets] using h2
    · injection he with he; subst he
      exact ⟨a1, a2, a3, a4, a5⟩
  | release i =>
    simp only [Correct] at hg
    simp only at he
    injection he with he; subst he
    have h2 := a2 i
    have hpos : 0 < (look i s.bmap).getD 0 := by omega
    obtain ⟨v, hv⟩ : ∃ v, look i s.bmap = some v := by
      cases hx : look i s.bmap with
      | none => rw [hx] at hpos; simp at hpos
      | some v => exact ⟨v, rfl⟩
    have hle := look_le i s.bmap
    rw [hv, Option.getD_some] at hpos hle
    have hdec : dec v = v - 1 := dec_pos (by omega) hpos
    have ht := total_upd i (v - 1) s.bmap
    rw [hv, Option.getD_some] at ht
    have hdi : dec s.index = s.index - 1 := dec_pos a5 (by omega)
    have hdb : dec s.bcount = total s.bmap - 1 := by rw [a3]; exact dec_pos (by omega) (by omega)
    refine ⟨?_, ?_, ?_, ?_, ?_⟩
    · simp only [hv]; exact (keys_upd i _ s.bmap).2 a1
    · intro j
      have h3 := a2 j
      simp only [hv]
      rw [look_upd, hdec]
      simp only [releases, gets, List.count_cons] at h3 ⊢
      by_cases hij : i = j
      · subst hij; rw [hv, Option.getD_some] at h3; simp; omega
      · rw [if_neg hij]; simp [hij]; omega
    · simp only [hv, hdec, hdb]; omega
    · simp only [hv, hdec, hdi]; omega
    · simp only [hdi]; omega
  | ensure c d =>
    simp only at he
    split at he
    · injection he with he; subst he
      unfold ensureRead
      split <;> exact ⟨a1, a2, a3, a4, a5⟩
    · cases he
  | ensureLock c ok =>
    simp only at he
    split at he
    · rename_i d ac fc _
      generalize (if fc = true then Phase.toVM else Phase.done) = ph at he
      split at he
      · split at he
        · injection he with he; subst he; exact ⟨a1, a2, a3, a4, a5⟩
        · injection he with he; subst he
          refine ⟨a1, ?_, a3, a4, a5⟩
          intro j
          have h3 := a2 j
          simp only [releases, gets, List.count_append] at h3 ⊢
          rw [count_map_ne _ _ _ (by simp), count_map_ne _ _ _ (by simp)]
          simpa [St.setPhase] using h3
      · split at he
        · injection he with he; subst he
          refine ⟨a1, ?_, a3, a4, a5⟩
          intro j
          have h3 := a2 j
          simp only [releases, gets, List.count_append] at h3 ⊢
          rw [count_map_ne _ _ _ (by simp), count_map_ne _ _ _ (by simp)]
          simpa [St.setPhase] using h3
        · cases he
    · cases he
  | close c =>
    simp only at he
    split at he
    · injection he with he; subst he
      have hdi : decN (total s.bmap) s.index = s.index - total s.bmap := decN_le a5 a4
      have hdb : decN (total s.bmap) s.bcount = 0 := by rw [a3, decN_le (by omega) (Nat.le_refl _)]; omega
      refine ⟨by simp, ?_, ?_, ?_, ?_⟩
      · intro j
        have h3 := a2 j
        simp only [releases, gets, List.count_append] at h3 ⊢
        rw [count_releaseAll j s.bmap a1, count_releaseAll_other _ _ (by simp)]
        simp only [look, Option.getD_none]
        omega
      · simp only [hdb]; rfl
      · simp [total]
      · simp only [hdi]; omega
    · cases he
  | closeEnsure c =>
    simp only at he
    split at he
    · injection he with he; subst he
      unfold ensureRead
      split <;> exact ⟨a1, a2, a3, a4, a5⟩
    · cases he
  | closeVM c =>
    simp only at he
    split at he
    · injection he with he; subst he
      refine ⟨a1, ?_, a3, a4, a5⟩
      intro j
      have h3 := a2 j
      simpa [releases, gets, St.setPhase] using h3
    · cases he

theorem acc {s : St} (h : Reach Correct s) : Acc s := by
  induction h with
  | init => exact ⟨by simp, by intro i; rfl, rfl, by simp [total], by decide +kernel⟩
  | step _ hg he ih => exact acc_step ih hg he

theorem sum_zero : ∀ is : List Nat, (is.map fun _ => 0).sum = 0
  | [] => rfl
  | _ :: r => by simp [sum_zero r]

/-- **C65** In every run in which callers release only what they hold, no instance is ever
released more often than it was handed out, and the plugin's count of borrowed instances is the
number of instances that are out.  (`sum` over any list of different instances that contains
all those handed out.) -/
theorem C65_accounting {s : St} (h : Reach Correct s) :
    (∀ i, releases s.trace i ≤ gets s.trace i) ∧
    ∀ is : List Nat, is.Nodup → (∀ i, .got i ∈ s.trace → i ∈ is) →
      s.bcount = (is.map fun i => gets s.trace i - releases s.trace i).sum := by
  obtain ⟨a1, a2, a3, a4, a5⟩ := acc h
  refine ⟨fun i => by have := a2 i; omega, ?_⟩
  intro is hnd hall
  have h1 : (is.map fun i => gets s.trace i - releases s.trace i) = is.map fun i => (look i s.bmap).getD 0 := by
    apply List.map_congr_left
    intro i _
    have := a2 i; omega
  rw [h1, a3]
  -- the sum over the map is the sum over any list of all its keys
  have key : ∀ (b : List (Nat × Nat)) (is : List Nat), (b.map (·.1)).Nodup → is.Nodup →
      (∀ i, (look i b).getD 0 ≠ 0 → i ∈ is) → total b = (is.map fun i => (look i b).getD 0).sum := by
    intro b
    induction b with
    | nil =>
      intro is _ _ _
      simp only [look, Option.getD_none, total, List.map_nil, List.sum_nil]
      exact (sum_zero is).symm
    | cons e r ih =>
      obtain ⟨k, w⟩ := e
      intro is hb his hm
      simp only [List.map_cons, List.nodup_cons] at hb
      have hk := look_none k r hb.1
      have hsum : ∀ is : List Nat, is.Nodup → (is.map fun i => (look i ((k, w) :: r)).getD 0).sum =
          (is.map fun i => (look i r).getD 0).sum + if k ∈ is then w else 0 := by
        intro is
        induction is with
        | nil => intro _; rfl
        | cons x xs ih2 =>
          intro hx
          simp only [List.nodup_cons] at hx
          simp only [List.map_cons, List.sum_cons, ih2 hx.2, List.mem_cons]
          by_cases hxk : k = x
          · subst hxk
            simp only [look, if_true, Option.getD_some, hk, Option.getD_none, true_or, hx.1, if_false]
            omega
          · simp only [look, hxk, if_false, false_or]
            split <;> omega
      rw [hsum is his]
      simp only [total, List.map_cons, List.sum_cons]
      have hih := ih is hb.2 his (by
        intro i hi
        apply hm
        simp only [look]
        split
        · rename_i hki
          subst hki
          rw [hk] at hi
          simp at hi
        · exact hi)
      simp only [total] at hih
      rw [hih]
      by_cases hw : w = 0
      · subst hw; split <;> omega
      · rw [if_pos (hm k (by simp [look, hw]))]; omega
  refine key s.bmap is a1 hnd ?_
  intro i hi
  apply hall
  have := a2 i
  have hpos : 0 < gets s.trace i := by omega
  exact List.count_pos_iff.mp hpos

/-- **C65** `Close` gives back every instance that is out, exactly once: after its critical
section each was released as often as it was handed out. -/
theorem C65_close {s s' : St} {c : Nat} (h : Reach Correct s) (he : exec s (.close c) = some s') :
    ∀ i, releases s'.trace i = gets s'.trace i := by
  have h' := acc_step (a := .close c) (acc h) trivial he
  intro i
  have := h'.each i
  unfold exec at he
  split at he
  · cases he
  simp only at he
  split at he
  · injection he with he; subst he
    simpa [look] using this
  · cases he

end Verif.Plugin
