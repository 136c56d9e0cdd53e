import Verif.Exp.JavaLog
/-
C145: the batches given to Java contain every log line exactly once, in order.
-/
namespace Verif.Props.JavaLog
open Verif.Exp.JavaLog

/-! ### specification: a queue -/

/-- the lines of a batch as a JSON array: none for no lines -/
def array (ls : List Line) : Option (List Nat) := if ls = [] then none else some ([91] ++ List.intercalate [44] ls ++ [93])

/-- what the batches contain if lines wait in a queue -/
def expected : List Line → List Op → List (Option (List Nat))
  | _, [] => []
  | q, .log l :: r => expected (q ++ [l]) r
  | q, .batch n :: r => array (q.take n.toNat) :: expected (q.drop n.toNat) r

/-- at no time more than `cap` lines wait, and no line is empty -/
def Fits (cap : Nat) : List Line → List Op → Prop
  | _, [] => True
  | q, .log l :: r => q.length < cap ∧ l ≠ [] ∧ Fits cap (q ++ [l]) r
  | q, .batch n :: r => Fits cap (q.drop n.toNat) r

/-! ### proofs -/

theorem mod_ne {a b c : Nat} (h1 : a ≤ b) (h2 : b < a + c) (h : a % c = b % c) : a = b := by
  have := Nat.sub_mod_eq_zero_of_mod_eq h.symm
  rw [Nat.mod_eq_of_lt (by omega)] at this
  omega

structure Rep (g : Ring) (q : List Line) : Prop where
  w : g.w = g.r + q.length
  fit : q.length ≤ g.cap
  ne : ∀ l ∈ q, l ≠ []
  there : ∀ k (h : k < q.length), g.buf ((g.r + k) % g.cap) = some (g.r + k, q[k])
  only : ∀ i n l, g.buf i = some (n, l) → g.r ≤ n ∧ n < g.w ∧ i = n % g.cap

theorem rep_write {g : Ring} {q : List Line} (h : Rep g q) {l : Line} (hl : l ≠ []) (hq : q.length < g.cap) : Rep (g.write l) (q ++ [l]) := by
  refine ⟨?_, ?_, ?_, ?_, ?_⟩
  · show g.w + 1 = g.r + (q ++ [l]).length
    rw [List.length_append, h.w]; simp; omega
  · show (q ++ [l]).length ≤ g.cap
    rw [List.length_append]; simp; omega
  · intro m hm
    rcases List.mem_append.mp hm with hm | hm
    · exact h.ne m hm
    · simp at hm; rw [hm]; exact hl
  · intro k hk
    rw [List.length_append] at hk
    simp at hk
    show (if (g.r + k) % g.cap = g.w % g.cap then some (g.w, l) else g.buf ((g.r + k) % g.cap)) = some (g.r + k, _)
    by_cases hkq : k < q.length
    · have hne : ¬ (g.r + k) % g.cap = g.w % g.cap := by
        intro e
        have := mod_ne (by rw [h.w]; omega) (by rw [h.w]; omega) e
        rw [h.w] at this; omega
      rw [if_neg hne, h.there k hkq, List.getElem_append_left hkq]
    · have hke : k = q.length := by omega
      subst hke
      rw [← h.w, if_pos rfl, List.getElem_append_right (Nat.le_refl _)]
      simp
  · intro i n m hb
    change (if i = g.w % g.cap then some (g.w, l) else g.buf i) = some (n, m) at hb
    show g.r ≤ n ∧ n < g.w + 1 ∧ i = n % g.cap
    by_cases hi : i = g.w % g.cap
    · rw [if_pos hi] at hb; cases hb; have := h.w; exact ⟨by omega, by omega, hi⟩
    · rw [if_neg hi] at hb; have := h.only i n m hb; exact ⟨this.1, by omega, this.2.2⟩

theorem rep_next_nil {g : Ring} (h : Rep g []) : g.next.1 = none ∧ Rep g.next.2 [] ∧ g.next.2.cap = g.cap := by
  have hb : g.buf (g.r % g.cap) = none := by
    cases hb : g.buf (g.r % g.cap) with
    | none => rfl
    | some e => obtain ⟨n, l⟩ := e; have := h.only _ _ _ hb; have := h.w; simp at this; omega
  unfold Ring.next
  rw [hb]
  refine ⟨rfl, ⟨h.w, h.fit, h.ne, fun k hk => by simp at hk, ?_⟩, rfl⟩
  intro i n l hi
  change (if i = g.r % g.cap then none else g.buf i) = some (n, l) at hi
  by_cases he : i = g.r % g.cap
  · rw [if_pos he] at hi; cases hi
  · rw [if_neg he] at hi; exact h.only i n l hi

theorem rep_next_cons {g : Ring} {l : Line} {q : List Line} (h : Rep g (l :: q)) : g.next.1 = some l ∧ Rep g.next.2 q ∧ g.next.2.cap = g.cap := by
  have hb : g.buf (g.r % g.cap) = some (g.r, l) := h.there 0 (by simp)
  unfold Ring.next
  rw [hb]
  simp only [Nat.lt_irrefl, if_false]
  have hw : g.w = g.r + (q.length + 1) := h.w
  have hf : q.length + 1 ≤ g.cap := h.fit
  refine ⟨trivial, ⟨?_, ?_, ?_, ?_, ?_⟩, rfl⟩
  · show g.w = g.r + 1 + q.length; omega
  · show q.length ≤ g.cap; omega
  · exact fun m hm => h.ne m (by simp [hm])
  · intro k hk
    show (if (g.r + 1 + k) % g.cap = g.r % g.cap then none else g.buf ((g.r + 1 + k) % g.cap)) = some (g.r + 1 + k, q[k])
    rw [if_neg]
    · have := h.there (k + 1) (by simp; omega)
      rw [show g.r + 1 + k = g.r + (k + 1) by omega, this]; rfl
    · intro e
      have := mod_ne (by omega) (by omega) e.symm
      omega
  · intro i n m hi
    change (if i = g.r % g.cap then none else g.buf i) = some (n, m) at hi
    show g.r + 1 ≤ n ∧ n < g.w ∧ i = n % g.cap
    by_cases he : i = g.r % g.cap
    · rw [if_pos he] at hi; cases hi
    · rw [if_neg he] at hi
      have o := h.only i n m hi
      refine ⟨?_, o.2⟩
      rcases Nat.lt_or_ge g.r n with hlt | hge
      · exact hlt
      · have : n = g.r := by omega
        subst this
        exact absurd o.2.2 he

theorem rep_take (n : Nat) : ∀ {g : Ring} {q : List Line}, Rep g q → (g.take n).1 = q.take n ∧ Rep (g.take n).2 (q.drop n) ∧ (g.take n).2.cap = g.cap := by
  induction n with
  | zero => intro g q h; exact ⟨rfl, h, rfl⟩
  | succ n ih =>
    intro g q h
    cases q with
    | nil =>
      obtain ⟨h1, h2, h3⟩ := rep_next_nil h
      have e : g.take (n + 1) = ([], g.next.2) := by
        simp only [Ring.take]
        rcases hx : g.next with ⟨a, b⟩
        rw [hx] at h1
        cases h1; rfl
      rw [e]
      exact ⟨rfl, h2, h3⟩
    | cons l q =>
      obtain ⟨h1, h2, h3⟩ := rep_next_cons h
      have e : g.take (n + 1) = (l :: (g.next.2.take n).1, (g.next.2.take n).2) := by
        simp only [Ring.take]
        rcases hx : g.next with ⟨a, b⟩
        rw [hx] at h1
        cases h1; rfl
      obtain ⟨i1, i2, i3⟩ := ih h2
      rw [e]
      exact ⟨by rw [i1]; rfl, i2, i3.trans h3⟩

theorem commas_spec (ls : List Line) : commas ls = List.intercalate [44] ls := by
  induction ls with
  | nil => rfl
  | cons l r ih =>
    cases r with
    | nil => simp [commas, List.intercalate]
    | cons m r =>
      simp only [commas, ih]
      simp [List.intercalate, List.intersperse]

theorem commas_ne (ls : List Line) (hn : ls ≠ []) (h : ∀ l ∈ ls, l ≠ []) : commas ls ≠ [] := by
  cases ls with
  | nil => exact absurd rfl hn
  | cons l r =>
    have hl := h l (by simp)
    cases r with
    | nil => exact hl
    | cons m r => simp [commas]

theorem brackets_spec (ls : List Line) (h : ∀ l ∈ ls, l ≠ []) : brackets (commas ls) = array ls := by
  unfold array brackets
  by_cases hn : ls = []
  · subst hn; rfl
  · rw [if_neg hn, if_neg (commas_ne ls hn h), commas_spec]; rfl

theorem run_spec (ops : List Op) : ∀ (g : Ring) (q : List Line), Rep g q → Fits g.cap q ops → (run g ops).1 = expected q ops := by
  induction ops with
  | nil => intro g q _ _; rfl
  | cons o r ih =>
    intro g q h f
    cases o with
    | log l => exact ih (g.write l) (q ++ [l]) (rep_write h f.2.1 f.1) f.2.2
    | batch n =>
      by_cases hn : n ≤ 0
      · have h0 : n.toNat = 0 := Int.toNat_eq_zero.mpr hn
        have e : (run g (.batch n :: r)).1 = none :: (run g r).1 := by
          simp only [run, nextBatch, if_pos hn]
        have f' : Fits g.cap q r := by have := f; simp only [Fits, h0, List.drop_zero] at this; exact this
        rw [e, ih g q h f']
        simp only [expected, h0, List.take_zero, List.drop_zero]
        rfl
      · obtain ⟨t1, t2, t3⟩ := rep_take n.toNat h
        have e : (run g (.batch n :: r)).1 = brackets (commas (g.take n.toNat).1) :: (run (g.take n.toNat).2 r).1 := by
          simp only [run, nextBatch, if_neg hn]
        have f' : Fits (g.take n.toNat).2.cap (q.drop n.toNat) r := by rw [t3]; exact f
        rw [e, ih _ _ t2 f', t1, brackets_spec]
        · rfl
        · exact fun l hl => h.ne l (List.mem_of_mem_take hl)

/-- C145: as long as at most `cap` lines wait (1000 in the code) and lines are not empty, every history of logging and batches gives the batches of a
queue: every line exactly once and in order, at most as many as asked for, as a JSON array, and nothing if no lines wait. -/
theorem C145_batches (cap : Nat) (ops : List Op) (f : Fits cap [] ops) : (run (Ring.empty cap) ops).1 = expected [] ops :=
  run_spec ops (Ring.empty cap) [] ⟨rfl, Nat.zero_le _, (fun _ h => nomatch h), (fun _ h => nomatch h), (fun _ _ _ h => nomatch h)⟩ f

example : Fits 2 [] [.log [1], .log [2], .batch 1, .log [3], .batch 5] ∧
    (run (Ring.empty 2) [.log [1], .log [2], .batch 1, .log [3], .batch 5]).1 = [some [91, 1, 93], some [91, 2, 44, 3, 93]] := by
  refine ⟨by simp [Fits], by decide⟩

theorem write_many (cap : Nat) (f : Nat → Line) (n : Nat) : ∀ g : Ring, g.cap = cap → n ≤ cap → 0 < cap → g.w = 0 →
    let h := (List.range n).foldl (fun g k => g.write (f k)) g
    h.w = n ∧ h.cap = cap ∧ h.r = g.r ∧ ∀ k, k < n → h.buf k = some (k, f k) := by
  induction n with
  | zero => intro g hc _ _ hw; exact ⟨hw, hc, rfl, (fun k h => by omega)⟩
  | succ n ih =>
    intro g hc hn h0 hw
    obtain ⟨i1, i2, i3, i4⟩ := ih g hc (by omega) h0 hw
    rw [List.range_succ, List.foldl_append]
    simp only [List.foldl_cons, List.foldl_nil]
    generalize (List.range n).foldl (fun g k => g.write (f k)) g = h at i1 i2 i3 i4 ⊢
    refine ⟨by simp only [Ring.write, i1], i2, i3, ?_⟩
    intro k hk
    simp only [Ring.write, i1, i2]
    rw [Nat.mod_eq_of_lt (by omega)]
    by_cases hkn : k = n
    · rw [if_pos hkn, hkn]
    · rw [if_neg hkn]; exact i4 k (by omega)

/-- Known defect (C223): one line more than fits loses all lines before it: after `cap + 1` lines, reading gives the newest line only, and then nothing. -/
theorem C223_full_false (cap : Nat) (hc : 1 < cap) (f : Nat → Line) :
    let g := ((List.range cap).foldl (fun g k => g.write (f k)) (Ring.empty cap)).write (f cap)
    g.next.1 = some (f cap) ∧ g.next.2.next.1 = none := by
  obtain ⟨i1, i2, i3, i4⟩ := write_many cap f cap (Ring.empty cap) rfl (Nat.le_refl _) (by omega) rfl
  have i3' : ((List.range cap).foldl (fun g k => g.write (f k)) (Ring.empty cap)).r = 0 := i3
  intro g
  have hb : g.buf 0 = some (cap, f cap) := by
    show (if 0 = _ % _ then _ else _) = _
    rw [i1, i2, Nat.mod_self, if_pos rfl]
  have hb1 : g.buf 1 = some (1, f 1) := by
    show (if 1 = _ % _ then _ else _) = _
    rw [i1, i2, Nat.mod_self, if_neg (by decide)]; exact i4 1 hc
  have hr : g.r = 0 := i3'
  have hcap : g.cap = cap := i2
  have e : g.next = (some (f cap), { g.clear with r := cap + 1 }) := by
    unfold Ring.next
    rw [hr, Nat.zero_mod, hb]
    simp
  rw [e]
  refine ⟨rfl, ?_⟩
  have hm : (cap + 1) % cap = 1 := by rw [Nat.add_mod_left, Nat.mod_eq_of_lt hc]
  have hc1 : g.clear.buf 1 = some (1, f 1) := by
    show (if 1 = g.r % g.cap then none else g.buf 1) = _
    rw [hr, Nat.zero_mod, if_neg (by decide), hb1]
  have hcl : g.clear.cap = cap := hcap
  unfold Ring.next
  simp only [hcl, hm, hc1]
  rw [if_pos (by omega)]

/-- Known defect (C223): asking for lines before the logger is set up crashes. -/
theorem C223_setup_false (n : Int) (h : 0 < n) : nextBatch none n = none := by
  unfold nextBatch; rw [if_neg (by omega)]

end Verif.Props.JavaLog
