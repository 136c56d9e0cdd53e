import Verif.Wasm.Context
/-
Property theorems C130 (numbers of contexts are distinct), C131 (one context per name, with its parent), C132 (plugins do not interfere).
-/
namespace Verif.Props.Context
open Verif.Heimdall Verif.Wasm.Context

/-! ### specification -/

/-- the numbers a context has handed out, newest first -/
def idsOf (s : St) (i : Nat) : List Nat := (s.ids.filter fun e => e.1 = i).map (·.2)

/-- one history continues another -/
inductive Later : St → St → Prop where
  | refl {s} : Later s s
  | step {s s' s'' a} : Later s s' → exec s' a = some s'' → Later s s''

/-! ### C130 -/

def IdInv (s : St) : Prop :=
  (∀ e ∈ s.ids, e.1 < s.ctxs.length) ∧
  ∀ (i : Nat) (c : Ctx), s.ctxs[i]? = some c → c.id < M ∧
    ∃ n, idsOf s i = ((List.range n).map fun k => (c.id + k + 1) % M).reverse ∧ c.latest = (c.id + n) % M

theorem mod_M (n : Nat) : n % M < M := Nat.mod_lt _ (by decide)

theorem get_set {l : List Ctx} {i j : Nat} {c : Ctx} : (l.set i c)[j]? = if i = j then (if i < l.length then some c else none) else l[j]? :=
  List.getElem?_set

theorem lt_of_get {l : List Ctx} {i : Nat} {c : Ctx} (h : l[i]? = some c) : i < l.length := (List.getElem?_eq_some_iff.mp h).1

theorem idsOf_cons (s : St) (i j n : Nat) (cs : List Ctx) (rg : List (Str × Nat)) (pl : List Plugin) :
    idsOf ⟨cs, rg, pl, (j, n) :: s.ids⟩ i = if j = i then n :: idsOf s i else idsOf s i := by
  unfold idsOf
  by_cases h : j = i
  · rw [if_pos h]; simp only; rw [List.filter_cons_of_pos (by simpa using h)]; rfl
  · rw [if_neg h]; simp only; rw [List.filter_cons_of_neg (by simpa using h)]

theorem idInv_fresh {s : St} (h : IdInv s) (k : Str) : IdInv (s.fresh k).1 := by
  refine ⟨?_, ?_⟩
  · intro e he
    have := h.1 e he
    show e.1 < (s.ctxs ++ [_]).length
    rw [List.length_append]; omega
  · intro i c hc
    have hc : (s.ctxs ++ [⟨k, 1, 1, none, none, none⟩])[i]? = some c := hc
    show _ ∧ ∃ n, idsOf s i = _ ∧ _
    rw [List.getElem?_append] at hc
    split at hc
    · exact h.2 i c hc
    · rename_i hi
      have h0 : i - s.ctxs.length = 0 := by
        have := lt_of_get hc; simp at this; omega
      rw [h0] at hc
      injection hc with hc
      subst hc
      refine ⟨(by show 1 < M; decide), 0, ?_, (by show 1 = (1+0) % M; decide)⟩
      unfold idsOf
      rw [List.filter_eq_nil_iff.mpr]
      · rfl
      · intro e he
        have := h.1 e he
        simp only [decide_eq_true_eq]; omega

theorem newId_eq {s s' : St} {i n : Nat} (h : s.newId i = some (s', n)) : ∃ c, s.ctxs[i]? = some c ∧ n = (c.latest + 1) % M ∧
    s' = { s with ctxs := s.ctxs.set i { c with latest := n }, ids := (i, n) :: s.ids } := by
  unfold St.newId at h
  cases hc : s.ctxs[i]? with
  | none => rw [hc] at h; cases h
  | some c =>
    rw [hc] at h
    simp only [Option.some.injEq, Prod.mk.injEq] at h
    obtain ⟨h1, rfl⟩ := h
    exact ⟨c, rfl, rfl, h1.symm⟩

theorem idInv_newId {s s' : St} {i n : Nat} (h : IdInv s) (he : s.newId i = some (s', n)) : IdInv s' := by
  obtain ⟨c, hc, hn, rfl⟩ := newId_eq he
  refine ⟨?_, ?_⟩
  · intro e hm
    show e.1 < (s.ctxs.set i _).length
    rw [List.length_set]
    rcases List.mem_cons.mp hm with rfl | hm
    · exact lt_of_get hc
    · exact h.1 e hm
  · intro j d hd
    have hd : (s.ctxs.set i _)[j]? = some d := hd
    rw [get_set] at hd
    rw [idsOf_cons]
    by_cases hij : i = j
    · subst hij
      rw [if_pos rfl, if_pos (lt_of_get hc)] at hd
      injection hd with hd
      subst hd
      obtain ⟨h1, m, h2, h3⟩ := h.2 i c hc
      refine ⟨h1, m + 1, ?_, ?_⟩
      · rw [if_pos rfl, List.range_succ, List.map_append, List.reverse_append, h2]
        simp only [List.map_cons, List.map_nil, List.reverse_cons, List.reverse_nil, List.nil_append, List.singleton_append]
        rw [hn, h3]
        congr 1
        unfold M; omega
      · simp only
        rw [hn, h3]
        unfold M; omega
    · rw [if_neg hij] at hd
      rw [if_neg hij]
      exact h.2 j d hd

/-- a change of a context that keeps its numbers -/
theorem idInv_set {s : St} (h : IdInv s) {j : Nat} {c d : Ctx} (hc : s.ctxs[j]? = some c) (h1 : d.id = c.id) (h2 : d.latest = c.latest)
    (pl : List Plugin) : IdInv ⟨s.ctxs.set j d, s.reg, pl, s.ids⟩ := by
  refine ⟨?_, ?_⟩
  · intro e he
    show e.1 < (s.ctxs.set j d).length
    rw [List.length_set]; exact h.1 e he
  · intro i x hx
    have hx : (s.ctxs.set j d)[i]? = some x := hx
    show _ ∧ ∃ n, idsOf s i = _ ∧ _
    rw [get_set] at hx
    by_cases hij : j = i
    · subst hij
      rw [if_pos rfl, if_pos (lt_of_get hc)] at hx
      injection hx with hx
      subst hx
      rw [h1, h2]
      exact h.2 j c hc
    · rw [if_neg hij] at hx
      exact h.2 i x hx

theorem adopt_eq {s s' : St} {i j : Nat} (h : s.adopt i j = some s') : ∃ s1 n c, s.newId i = some (s1, n) ∧ s1.ctxs[j]? = some c ∧
    s' = { s1 with ctxs := s1.ctxs.set j { c with id := n, latest := n, parent := some i } } := by
  unfold St.adopt at h
  cases hn : s.newId i with
  | none => rw [hn] at h; cases h
  | some p =>
    obtain ⟨s1, n⟩ := p
    rw [hn] at h
    simp only at h
    cases hc : s1.ctxs[j]? with
    | none => rw [hc] at h; cases h
    | some c =>
      rw [hc] at h
      injection h with h
      exact ⟨s1, n, c, rfl, hc, h.symm⟩

theorem idInv_adopt {s s' : St} {i j : Nat} (h : IdInv s) (hj : ∀ e ∈ s.ids, e.1 ≠ j) (hij : i ≠ j) (he : s.adopt i j = some s') : IdInv s' := by
  obtain ⟨s1, n, c, hn, hc, rfl⟩ := adopt_eq he
  have h1 := idInv_newId h hn
  obtain ⟨ci, hci, hnn, rfl⟩ := newId_eq hn
  refine ⟨?_, ?_⟩
  · intro e hm
    show e.1 < (List.set _ j _).length
    rw [List.length_set]; exact h1.1 e hm
  · intro k x hx
    have hx : (List.set _ j _)[k]? = some x := hx
    rw [get_set] at hx
    by_cases hjk : j = k
    · subst hjk
      rw [if_pos rfl, if_pos (lt_of_get hc)] at hx
      injection hx with hx
      subst hx
      refine ⟨by simp only; rw [hnn]; exact mod_M _, 0, ?_, ?_⟩
      · rw [idsOf_cons, if_neg hij]
        unfold idsOf
        rw [List.filter_eq_nil_iff.mpr]
        · rfl
        · intro e he; simpa using hj e he
      · simp only
        rw [hnn]; unfold M; omega
    · rw [if_neg hjk] at hx
      exact h1.2 k x hx

theorem getOrCreate_cases {s s' : St} {i j : Nat} {r : Str} (h : s.getOrCreate i r = some (s', j)) : ∃ p, s.ctxs[i]? = some p ∧
    ((s.find (childKey p r) = some j ∧ s' = s) ∨ (s.find (childKey p r) = none ∧ j = s.ctxs.length ∧ (s.fresh (childKey p r)).1.adopt i j = some s')) := by
  unfold St.getOrCreate at h
  cases hp : s.ctxs[i]? with
  | none => rw [hp] at h; cases h
  | some p =>
    rw [hp] at h
    simp only at h
    refine ⟨p, rfl, ?_⟩
    cases hf : s.find (childKey p r) with
    | some k =>
      rw [hf] at h
      simp only [Option.some.injEq, Prod.mk.injEq] at h
      exact .inl ⟨by rw [h.2], h.1.symm⟩
    | none =>
      rw [hf] at h
      simp only [Option.map_eq_some_iff, Prod.mk.injEq] at h
      obtain ⟨a, h1, rfl, rfl⟩ := h
      exact .inr ⟨rfl, rfl, h1⟩

theorem idInv_getOrCreate {s s' : St} {i j : Nat} {r : Str} (h : IdInv s) (he : s.getOrCreate i r = some (s', j)) : IdInv s' := by
  obtain ⟨p, hp, ⟨-, rfl⟩ | ⟨-, rfl, ha⟩⟩ := getOrCreate_cases he
  · exact h
  · refine idInv_adopt (idInv_fresh h _) ?_ ?_ ha
    · intro e hm
      have := h.1 e hm
      omega
    · have := lt_of_get hp; omega

theorem addPlugin_eq {s s' : St} {i q cfg : Nat} {r : Str} (h : s.addPlugin i r cfg = some (s', q)) : ∃ s1 j c, s.getOrCreate i r = some (s1, j) ∧
    s1.ctxs[j]? = some c ∧ q = s1.plugins.length ∧
    s' = ⟨s1.ctxs.set j { c with config := some cfg, plugin := some s1.plugins.length }, s1.reg, s1.plugins ++ [⟨j, cfg, []⟩], s1.ids⟩ := by
  unfold St.addPlugin at h
  cases hg : s.getOrCreate i r with
  | none => rw [hg] at h; cases h
  | some p =>
    obtain ⟨s1, j⟩ := p
    rw [hg] at h
    simp only at h
    cases hc : s1.ctxs[j]? with
    | none => rw [hc] at h; cases h
    | some c =>
      rw [hc] at h
      simp only [Option.some.injEq, Prod.mk.injEq] at h
      exact ⟨s1, j, c, rfl, hc, h.2.symm, h.1.symm⟩

theorem addFilter_eq {s s' : St} {p inst n : Nat} (h : s.addFilter p inst = some (s', n)) : ∃ pl s1, s.plugins[p]? = some pl ∧
    s.newId pl.ctx = some (s1, n) ∧ s' = { s1 with plugins := s1.plugins.set p { pl with filters := (inst, n) :: pl.filters } } := by
  unfold St.addFilter at h
  cases hp : s.plugins[p]? with
  | none => rw [hp] at h; cases h
  | some pl =>
    rw [hp] at h
    simp only at h
    cases hn : s.newId pl.ctx with
    | none => rw [hn] at h; cases h
    | some q =>
      obtain ⟨s1, m⟩ := q
      rw [hn] at h
      simp only [Option.some.injEq, Prod.mk.injEq] at h
      obtain ⟨h1, rfl⟩ := h
      exact ⟨pl, s1, rfl, hn, h1.symm⟩

theorem idInv_exec {s s' : St} {a : Act} (h : IdInv s) (he : exec s a = some s') : IdInv s' := by
  cases a with
  | base k =>
    rw [exec] at he
    injection he with he
    subst he
    unfold St.base
    cases s.find k with
    | some i => exact h
    | none => exact idInv_fresh h k
  | child i r =>
    rw [exec] at he
    obtain ⟨⟨a, b⟩, h1, rfl⟩ := Option.map_eq_some_iff.mp he
    exact idInv_getOrCreate h h1
  | newId i =>
    rw [exec] at he
    obtain ⟨⟨a, b⟩, h1, rfl⟩ := Option.map_eq_some_iff.mp he
    exact idInv_newId h h1
  | plugin i r c =>
    rw [exec] at he
    obtain ⟨⟨a, b⟩, h1, rfl⟩ := Option.map_eq_some_iff.mp he
    obtain ⟨s1, j, d, h2, h3, -, rfl⟩ := addPlugin_eq h1
    exact idInv_set (d := { d with config := some c, plugin := some s1.plugins.length }) (idInv_getOrCreate h h2) h3 rfl rfl (s1.plugins ++ [⟨j, c, []⟩])
  | filter p i =>
    rw [exec] at he
    obtain ⟨⟨a, b⟩, h1, rfl⟩ := Option.map_eq_some_iff.mp he
    obtain ⟨pl, s1, -, h3, rfl⟩ := addFilter_eq h1
    have := idInv_newId h h3
    exact ⟨this.1, this.2⟩

theorem idInv_reach {s : St} (h : Reach s) : IdInv s := by
  induction h with
  | init => exact ⟨(by intro e he; cases he), (by intro i c hc; simp at hc)⟩
  | step _ he ih => exact idInv_exec ih he

/-- **C130** For every history: the numbers a context has handed out, to filters and to contexts below it, and its own number, are all
different, as long as fewer than 2^32 have been handed out. -/
theorem C130_distinct (s : St) (h : Reach s) (i : Nat) (c : Ctx) (hc : s.ctxs[i]? = some c) (hn : (idsOf s i).length < M) :
    (c.id :: idsOf s i).Nodup := by
  obtain ⟨h1, n, h2, -⟩ := (idInv_reach h).2 i c hc
  rw [h2] at hn ⊢
  rw [List.length_reverse, List.length_map, List.length_range] at hn
  rw [List.nodup_cons]
  refine ⟨?_, ?_⟩
  · intro hm
    rw [List.mem_reverse, List.mem_map] at hm
    obtain ⟨k, hk, he⟩ := hm
    rw [List.mem_range] at hk
    unfold M at *; omega
  · rw [List.Nodup, List.pairwise_reverse, List.pairwise_map]
    refine List.Pairwise.imp_of_mem ?_ List.pairwise_lt_range
    intro a b ha hb hab he
    rw [List.mem_range] at ha hb
    unfold M at *; omega

/-- **C130** and beyond that any two handed out less than 2^32 apart are different. -/
theorem C130_window (s : St) (h : Reach s) (i : Nat) (c : Ctx) (hc : s.ctxs[i]? = some c) (a b : Nat) (hab : a < b) (hw : b - a < M)
    (x y : Nat) (hx : (idsOf s i)[a]? = some x) (hy : (idsOf s i)[b]? = some y) : x ≠ y := by
  obtain ⟨h1, n, h2, -⟩ := (idInv_reach h).2 i c hc
  rw [h2] at hx hy
  have hb : b < n := by
    have := (List.getElem?_eq_some_iff.mp hy).1
    simpa using this
  rw [List.getElem?_reverse (by simp; omega)] at hx hy
  simp only [List.length_map, List.length_range, List.getElem?_map, Option.map_eq_some_iff] at hx hy
  obtain ⟨k, hk, rfl⟩ := hx
  obtain ⟨l, hl, rfl⟩ := hy
  rw [List.getElem?_range (by omega)] at hk hl
  injection hk with hk
  injection hl with hl
  subst hk; subst hl
  unfold M at *; omega

/-! ### C131 -/

def RegInv (s : St) : Prop :=
  (∀ k j, s.find k = some j → ∃ c, s.ctxs[j]? = some c ∧ c.rootID = k) ∧
  (∀ (j : Nat) (c : Ctx), s.ctxs[j]? = some c → s.find c.rootID = some j)

/-- contexts keep their names, and names their contexts -/
def Keeps (s s' : St) : Prop :=
  (∀ k j, s.find k = some j → s'.find k = some j) ∧
  (∀ (j : Nat) (c : Ctx), s.ctxs[j]? = some c → ∃ d, s'.ctxs[j]? = some d ∧ d.rootID = c.rootID)

theorem keeps_refl (s : St) : Keeps s s := ⟨fun _ _ h => h, fun _ c h => ⟨c, h, rfl⟩⟩
theorem keeps_trans {s t u : St} (h1 : Keeps s t) (h2 : Keeps t u) : Keeps s u := by
  refine ⟨fun k j h => h2.1 k j (h1.1 k j h), fun j c h => ?_⟩
  obtain ⟨d, hd, e⟩ := h1.2 j c h
  obtain ⟨f, hf, e'⟩ := h2.2 j d hd
  exact ⟨f, hf, e'.trans e⟩

theorem find_fresh (s : St) (k l : Str) : (s.fresh k).1.find l = if k = l then some s.ctxs.length else s.find l := by
  unfold St.fresh St.find
  by_cases h : k = l
  · rw [if_pos h]; simp only; rw [List.find?_cons_of_pos (by simpa using h)]; rfl
  · rw [if_neg h]; simp only; rw [List.find?_cons_of_neg (by simpa using h)]

theorem fresh_get (s : St) (k : Str) (j : Nat) : (s.fresh k).1.ctxs[j]? =
    if j < s.ctxs.length then s.ctxs[j]? else if j = s.ctxs.length then some ⟨k, 1, 1, none, none, none⟩ else none := by
  show (s.ctxs ++ [_])[j]? = _
  rw [List.getElem?_append]
  split
  · rfl
  · split
    · rename_i h; subst h; simp
    · rw [List.getElem?_eq_none]; simp; omega

theorem reg_fresh {s : St} (h : RegInv s) {k : Str} (hk : s.find k = none) : RegInv (s.fresh k).1 ∧ Keeps s (s.fresh k).1 := by
  refine ⟨⟨?_, ?_⟩, ?_, ?_⟩
  · intro l j hl
    rw [find_fresh] at hl
    by_cases e : k = l
    · rw [if_pos e] at hl; injection hl with hl; subst hl; subst e
      exact ⟨_, by rw [fresh_get, if_neg (by omega), if_pos rfl], rfl⟩
    · rw [if_neg e] at hl
      obtain ⟨c, hc, hr⟩ := h.1 l j hl
      exact ⟨c, by rw [fresh_get, if_pos (lt_of_get hc), hc], hr⟩
  · intro j c hc
    rw [fresh_get] at hc
    rw [find_fresh]
    split at hc
    · have := h.2 j c hc
      rw [if_neg, this]
      rintro e; rw [← e] at this; rw [hk] at this; cases this
    · split at hc
      · rename_i hj; injection hc with hc; subst hc; rw [if_pos rfl, hj]
      · cases hc
  · intro l j hl
    rw [find_fresh, if_neg, hl]
    rintro e; rw [← e] at hl; rw [hk] at hl; cases hl
  · intro j c hc
    exact ⟨c, by rw [fresh_get, if_pos (lt_of_get hc), hc], rfl⟩

/-- a change of one context that keeps its name -/
theorem reg_set {s : St} (h : RegInv s) {j : Nat} {c d : Ctx} (hc : s.ctxs[j]? = some c) (hr : d.rootID = c.rootID) (pl : List Plugin)
    (ids : List (Nat × Nat)) : RegInv ⟨s.ctxs.set j d, s.reg, pl, ids⟩ ∧ Keeps s ⟨s.ctxs.set j d, s.reg, pl, ids⟩ := by
  have hg : ∀ i, (s.ctxs.set j d)[i]? = if j = i then some d else s.ctxs[i]? := by
    intro i
    rw [get_set]
    by_cases e : j = i
    · rw [if_pos e, if_pos e, if_pos (lt_of_get hc)]
    · rw [if_neg e, if_neg e]
  have K : ∀ (i : Nat) (x : Ctx), s.ctxs[i]? = some x → ∃ y, (s.ctxs.set j d)[i]? = some y ∧ y.rootID = x.rootID := by
    intro i x hx
    rw [hg]
    by_cases e : j = i
    · subst e; rw [hc] at hx; injection hx with hx; subst hx
      exact ⟨d, if_pos rfl, hr⟩
    · exact ⟨x, by rw [if_neg e, hx], rfl⟩
  refine ⟨⟨?_, ?_⟩, fun k i hk => hk, K⟩
  · intro k i hk
    obtain ⟨x, hx, e⟩ := h.1 k i hk
    obtain ⟨y, hy, e'⟩ := K i x hx
    exact ⟨y, hy, e'.trans e⟩
  · intro i x hx
    have hx : (s.ctxs.set j d)[i]? = some x := hx
    rw [hg] at hx
    by_cases e : j = i
    · subst e; rw [if_pos rfl] at hx; injection hx with hx; subst hx
      show s.find d.rootID = _
      rw [hr]; exact h.2 j c hc
    · rw [if_neg e] at hx; exact h.2 i x hx

theorem reg_newId {s s' : St} {i n : Nat} (h : RegInv s) (he : s.newId i = some (s', n)) : RegInv s' ∧ Keeps s s' := by
  obtain ⟨c, hc, -, rfl⟩ := newId_eq he
  exact reg_set (d := { c with latest := n }) h hc rfl _ _

theorem reg_adopt {s s' : St} {i j : Nat} (h : RegInv s) (he : s.adopt i j = some s') : RegInv s' ∧ Keeps s s' := by
  obtain ⟨s1, n, c, hn, hc, rfl⟩ := adopt_eq he
  obtain ⟨h1, h2⟩ := reg_newId h hn
  obtain ⟨h3, h4⟩ := reg_set (d := { c with id := n, latest := n, parent := some i }) h1 hc rfl s1.plugins s1.ids
  exact ⟨h3, keeps_trans h2 h4⟩

theorem reg_getOrCreate {s s' : St} {i j : Nat} {r : Str} (h : RegInv s) (he : s.getOrCreate i r = some (s', j)) :
    RegInv s' ∧ Keeps s s' ∧ ∃ p, s.ctxs[i]? = some p ∧ s'.find (childKey p r) = some j := by
  obtain ⟨p, hp, ⟨hf, rfl⟩ | ⟨hf, rfl, ha⟩⟩ := getOrCreate_cases he
  · exact ⟨h, keeps_refl _, p, hp, hf⟩
  · obtain ⟨h1, h2⟩ := reg_fresh h hf
    obtain ⟨h3, h4⟩ := reg_adopt h1 ha
    exact ⟨h3, keeps_trans h2 h4, p, hp, h4.1 _ _ (by rw [find_fresh, if_pos rfl])⟩

theorem reg_exec {s s' : St} {a : Act} (h : RegInv s) (he : exec s a = some s') : RegInv s' ∧ Keeps s s' := by
  cases a with
  | base k =>
    rw [exec] at he
    injection he with he
    subst he
    unfold St.base
    cases hf : s.find k with
    | some i => exact ⟨h, keeps_refl _⟩
    | none => exact reg_fresh h hf
  | child i r =>
    rw [exec] at he
    obtain ⟨⟨a, b⟩, h1, rfl⟩ := Option.map_eq_some_iff.mp he
    exact ⟨(reg_getOrCreate h h1).1, (reg_getOrCreate h h1).2.1⟩
  | newId i =>
    rw [exec] at he
    obtain ⟨⟨a, b⟩, h1, rfl⟩ := Option.map_eq_some_iff.mp he
    exact reg_newId h h1
  | plugin i r c =>
    rw [exec] at he
    obtain ⟨⟨a, b⟩, h1, rfl⟩ := Option.map_eq_some_iff.mp he
    obtain ⟨s1, j, d, h2, h3, -, rfl⟩ := addPlugin_eq h1
    obtain ⟨h4, h5, -⟩ := reg_getOrCreate h h2
    obtain ⟨h6, h7⟩ := reg_set (d := { d with config := some c, plugin := some s1.plugins.length }) h4 h3 rfl (s1.plugins ++ [⟨j, c, []⟩]) s1.ids
    exact ⟨h6, keeps_trans h5 h7⟩
  | filter p i =>
    rw [exec] at he
    obtain ⟨⟨a, b⟩, h1, rfl⟩ := Option.map_eq_some_iff.mp he
    obtain ⟨pl, s1, -, h3, rfl⟩ := addFilter_eq h1
    have := reg_newId h h3
    exact ⟨⟨this.1.1, this.1.2⟩, this.2.1, this.2.2⟩

theorem reg_reach {s : St} (h : Reach s) : RegInv s := by
  induction h with
  | init => exact ⟨(by intro k j h; cases h), (by intro j c h; simp at h)⟩
  | step _ he ih => exact (reg_exec ih he).1

theorem later_keeps {s s' : St} (h : RegInv s) (hl : Later s s') : RegInv s' ∧ Keeps s s' := by
  induction hl with
  | refl => exact ⟨h, keeps_refl _⟩
  | step _ he ih =>
    obtain ⟨h1, h2⟩ := ih
    obtain ⟨h3, h4⟩ := reg_exec h1 he
    exact ⟨h3, keeps_trans h2 h4⟩

/-- **C131** Two calls for contexts below contexts, at any two times of a history, give the same context exactly if the full names are the
same. -/
theorem C131_one (s s1 s2 s3 : St) (i i' j j' : Nat) (r r' : Str) (p p' : Ctx) (h : Reach s) (hp : s.ctxs[i]? = some p)
    (he : s.getOrCreate i r = some (s1, j)) (hl : Later s1 s2) (hp' : s2.ctxs[i']? = some p') (he' : s2.getOrCreate i' r' = some (s3, j')) :
    j = j' ↔ childKey p r = childKey p' r' := by
  obtain ⟨h1, -, q, hq, hf⟩ := reg_getOrCreate (reg_reach h) he
  rw [hp] at hq; injection hq with hq; subst hq
  obtain ⟨h2, h3⟩ := later_keeps h1 hl
  obtain ⟨h4, h5, q', hq', hf'⟩ := reg_getOrCreate h2 he'
  rw [hp'] at hq'; injection hq' with hq'; subst hq'
  have hf2 := h5.1 _ _ (h3.1 _ _ hf)
  constructor
  · rintro rfl
    obtain ⟨c, hc, e⟩ := h4.1 _ _ hf2
    obtain ⟨c', hc', e'⟩ := h4.1 _ _ hf'
    rw [hc] at hc'; injection hc' with hc'; subst hc'
    rw [← e, ← e']
  · intro e
    rw [e, hf'] at hf2
    injection hf2 with hf2
    exact hf2.symm

/-- the full names are the same exactly if the parts are, if the name of the upper context has no dot -/
theorem C131_names (p p' : Ctx) (r r' : Str) (h : '.' ∉ p.rootID) (h' : '.' ∉ p'.rootID) :
    childKey p r = childKey p' r' ↔ p.rootID = p'.rootID ∧ r = r' := by
  unfold childKey
  generalize p.rootID = a at *
  generalize p'.rootID = b at *
  constructor
  · intro he
    induction a generalizing b with
    | nil =>
      cases b with
      | nil => exact ⟨rfl, by injection he⟩
      | cons y b =>
        simp only [List.nil_append, List.cons_append] at he
        injection he with he _
        exact absurd (he ▸ List.mem_cons_self) h'
    | cons x a ih =>
      cases b with
      | nil =>
        simp only [List.nil_append, List.cons_append] at he
        injection he with he _
        exact absurd (he ▸ List.mem_cons_self) h
      | cons y b =>
        simp only [List.cons_append] at he
        injection he with e1 e2
        obtain ⟨h1, h2⟩ := ih (fun hm => h (List.mem_cons_of_mem _ hm)) b (fun hm => h' (List.mem_cons_of_mem _ hm)) e2
        exact ⟨by rw [e1, h1], h2⟩
  · rintro ⟨rfl, rfl⟩; rfl

/-- **C131** A new context gets the next number of its parent and sees its properties. -/
theorem C131_parent (s s' : St) (i : Nat) (r : Str) (j : Nat) (p : Ctx) (_h : Reach s) (hp : s.ctxs[i]? = some p)
    (hn : s.find (childKey p r) = none) (he : s.getOrCreate i r = some (s', j)) :
    ∃ c, s'.ctxs[j]? = some c ∧ c.parent = some i ∧ c.id = (p.latest + 1) % M ∧ c.rootID = childKey p r := by
  obtain ⟨q, hq, ⟨hf, -⟩ | ⟨-, hj, ha⟩⟩ := getOrCreate_cases he
  · rw [hp] at hq; injection hq with hq; subst hq
    rw [hn] at hf; cases hf
  · rw [hp] at hq; injection hq with hq; subst hq
    obtain ⟨s1, n, c, h1, h2, rfl⟩ := adopt_eq ha
    obtain ⟨d, h3, h4, rfl⟩ := newId_eq h1
    have hip := lt_of_get hp
    rw [fresh_get, if_pos hip, hp] at h3
    injection h3 with h3; subst h3
    have h2 : (List.set _ i _)[j]? = some c := h2
    rw [get_set, if_neg (by omega), fresh_get, if_neg (by omega), if_pos hj] at h2
    injection h2 with h2; subst h2
    refine ⟨⟨childKey p r, n, n, some i, none, none⟩, ?_, rfl, h4, rfl⟩
    show (List.set _ j _)[j]? = _
    rw [get_set, if_pos rfl, if_pos]
    rw [List.length_set]
    show j < (s.ctxs ++ [_]).length
    rw [List.length_append, List.length_singleton]; omega

/-! ### C132 -/

/-- a plugin is added only under a root id that no plugin of the same context has -/
def Guard : St → Act → Prop
  | s, .plugin i r _ => ∀ s1 j, s.getOrCreate i r = some (s1, j) → ∀ pl ∈ s.plugins, pl.ctx ≠ j
  | _, _ => True

inductive GReach : St → Prop where
  | init : GReach {}
  | step {s s' a} : GReach s → Guard s a → exec s a = some s' → GReach s'

theorem greach {s : St} (h : GReach s) : Reach s := by
  induction h with
  | init => exact .init
  | step _ _ he ih => exact .step ih he

def PInv (s : St) : Prop :=
  (∀ (q : Nat) (pl : Plugin), s.plugins[q]? = some pl → (∃ c, s.ctxs[pl.ctx]? = some c ∧ c.plugin = some q ∧ c.config = some pl.config)) ∧
  (∀ (q : Nat) (pl : Plugin), s.plugins[q]? = some pl → ∀ e ∈ pl.filters, e.2 ∈ idsOf s pl.ctx)

/-- contexts keep what plugins stored -/
def PKeeps (s s' : St) : Prop :=
  s'.plugins = s.plugins ∧ (∀ (j : Nat) (c : Ctx), s.ctxs[j]? = some c → ∃ d, s'.ctxs[j]? = some d ∧ d.plugin = c.plugin ∧ d.config = c.config) ∧
  ∀ j x, x ∈ idsOf s j → x ∈ idsOf s' j

theorem pkeeps_trans {s t u : St} (h1 : PKeeps s t) (h2 : PKeeps t u) : PKeeps s u := by
  refine ⟨h2.1.trans h1.1, fun j c h => ?_, fun j x h => h2.2.2 j x (h1.2.2 j x h)⟩
  obtain ⟨d, hd, a, b⟩ := h1.2.1 j c h
  obtain ⟨f, hf, a', b'⟩ := h2.2.1 j d hd
  exact ⟨f, hf, a'.trans a, b'.trans b⟩

theorem pinv_keeps {s s' : St} (h : PInv s) (hk : PKeeps s s') : PInv s' := by
  refine ⟨?_, ?_⟩
  · intro q pl hq
    rw [hk.1] at hq
    obtain ⟨c, hc, h1, h2⟩ := h.1 q pl hq
    obtain ⟨d, hd, a, b⟩ := hk.2.1 _ c hc
    exact ⟨d, hd, a.trans h1, b.trans h2⟩
  · intro q pl hq e he
    rw [hk.1] at hq
    exact hk.2.2 _ _ (h.2 q pl hq e he)

theorem pkeeps_fresh (s : St) (k : Str) : PKeeps s (s.fresh k).1 :=
  ⟨rfl, fun j c hc => ⟨c, by rw [fresh_get, if_pos (lt_of_get hc), hc], rfl, rfl⟩, fun _ _ h => h⟩

theorem pkeeps_set {s : St} {j : Nat} {c d : Ctx} (hc : s.ctxs[j]? = some c) (h1 : d.plugin = c.plugin) (h2 : d.config = c.config)
    (i n : Nat) : PKeeps s ⟨s.ctxs.set j d, s.reg, s.plugins, (i, n) :: s.ids⟩ := by
  refine ⟨rfl, ?_, ?_⟩
  · intro i x hx
    show ∃ y, (s.ctxs.set j d)[i]? = some y ∧ _
    rw [get_set]
    by_cases e : j = i
    · subst e; rw [hc] at hx; injection hx with hx; subst hx
      exact ⟨d, by rw [if_pos rfl, if_pos (lt_of_get hc)], h1, h2⟩
    · exact ⟨x, by rw [if_neg e, hx], rfl, rfl⟩
  · intro k x hx
    rw [idsOf_cons]
    split
    · exact List.mem_cons_of_mem _ hx
    · exact hx

theorem pkeeps_newId {s s' : St} {i n : Nat} (he : s.newId i = some (s', n)) : PKeeps s s' := by
  obtain ⟨c, hc, -, rfl⟩ := newId_eq he
  exact pkeeps_set (d := { c with latest := n }) hc rfl rfl i n

theorem pkeeps_adopt {s s' : St} {i j : Nat} (he : s.adopt i j = some s') : PKeeps s s' := by
  obtain ⟨s1, n, c, hn, hc, rfl⟩ := adopt_eq he
  refine pkeeps_trans (pkeeps_newId hn) ⟨rfl, ?_, fun _ _ h => h⟩
  intro k x hx
  show ∃ y, (s1.ctxs.set j _)[k]? = some y ∧ _
  rw [get_set]
  by_cases e : j = k
  · subst e; rw [hc] at hx; injection hx with hx; subst hx
    exact ⟨{ c with id := n, latest := n, parent := some i }, by rw [if_pos rfl, if_pos (lt_of_get hc)], rfl, rfl⟩
  · exact ⟨x, by rw [if_neg e, hx], rfl, rfl⟩

theorem pkeeps_getOrCreate {s s' : St} {i j : Nat} {r : Str} (he : s.getOrCreate i r = some (s', j)) : PKeeps s s' := by
  obtain ⟨p, hp, ⟨-, rfl⟩ | ⟨-, rfl, ha⟩⟩ := getOrCreate_cases he
  · exact ⟨rfl, fun _ c h => ⟨c, h, rfl, rfl⟩, fun _ _ h => h⟩
  · exact pkeeps_trans (pkeeps_fresh s _) (pkeeps_adopt ha)

theorem pinv_exec {s s' : St} {a : Act} (h : PInv s) (hg : Guard s a) (he : exec s a = some s') : PInv s' := by
  cases a with
  | base k =>
    rw [exec] at he
    injection he with he
    subst he
    unfold St.base
    cases s.find k with
    | some i => exact h
    | none => exact pinv_keeps h (pkeeps_fresh s k)
  | child i r =>
    rw [exec] at he
    obtain ⟨⟨a, b⟩, h1, rfl⟩ := Option.map_eq_some_iff.mp he
    exact pinv_keeps h (pkeeps_getOrCreate h1)
  | newId i =>
    rw [exec] at he
    obtain ⟨⟨a, b⟩, h1, rfl⟩ := Option.map_eq_some_iff.mp he
    exact pinv_keeps h (pkeeps_newId h1)
  | plugin i r cfg =>
    rw [exec] at he
    obtain ⟨⟨a, b⟩, h1, rfl⟩ := Option.map_eq_some_iff.mp he
    obtain ⟨s1, j, d, h2, h3, -, rfl⟩ := addPlugin_eq h1
    have hk := pkeeps_getOrCreate h2
    have h4 := pinv_keeps h hk
    have hne := hg s1 j h2
    rw [← hk.1] at hne
    refine ⟨?_, ?_⟩
    · intro q pl hq
      have hq : (s1.plugins ++ [⟨j, cfg, []⟩])[q]? = some pl := hq
      show ∃ c, (s1.ctxs.set j _)[pl.ctx]? = some c ∧ _
      rw [List.getElem?_append] at hq
      split at hq
      · obtain ⟨c, hc, e1, e2⟩ := h4.1 q pl hq
        have := hne pl (List.mem_of_getElem? hq)
        exact ⟨c, by rw [get_set, if_neg (fun e => this e.symm), hc], e1, e2⟩
      · rename_i hlt
        have h0 : q - s1.plugins.length = 0 := by
          have := (List.getElem?_eq_some_iff.mp hq).1
          simp at this; omega
        rw [h0] at hq
        injection hq with hq
        subst hq
        exact ⟨_, by rw [get_set, if_pos rfl, if_pos (lt_of_get h3)], by simp only; congr 1; omega, rfl⟩
    · intro q pl hq e hm
      have hq : (s1.plugins ++ [⟨j, cfg, []⟩])[q]? = some pl := hq
      rw [List.getElem?_append] at hq
      split at hq
      · exact h4.2 q pl hq e hm
      · have h0 : q - s1.plugins.length = 0 := by
          have := (List.getElem?_eq_some_iff.mp hq).1
          simp at this; omega
        rw [h0] at hq
        injection hq with hq
        subst hq
        cases hm
  | filter p i =>
    rw [exec] at he
    obtain ⟨⟨a, b⟩, h1, rfl⟩ := Option.map_eq_some_iff.mp he
    obtain ⟨pl, s1, hp, h3, rfl⟩ := addFilter_eq h1
    have hk := pkeeps_newId h3
    have h4 := pinv_keeps h hk
    have hp1 : s1.plugins[p]? = some pl := by rw [hk.1]; exact hp
    have hlen : p < s1.plugins.length := (List.getElem?_eq_some_iff.mp hp1).1
    have hb : b ∈ idsOf s1 pl.ctx := by
      obtain ⟨c, hc, -, rfl⟩ := newId_eq h3
      rw [idsOf_cons, if_pos rfl]; exact List.mem_cons_self
    refine ⟨?_, ?_⟩
    · intro q ql hq
      have hq : (s1.plugins.set p _)[q]? = some ql := hq
      rw [List.getElem?_set] at hq
      by_cases e : p = q
      · subst e
        rw [if_pos rfl, if_pos hlen] at hq
        injection hq with hq
        subst hq
        exact h4.1 p pl hp1
      · rw [if_neg e] at hq
        exact h4.1 q ql hq
    · intro q ql hq x hx
      have hq : (s1.plugins.set p _)[q]? = some ql := hq
      rw [List.getElem?_set] at hq
      by_cases e : p = q
      · subst e
        rw [if_pos rfl, if_pos hlen] at hq
        injection hq with hq
        subst hq
        rcases List.mem_cons.mp hx with rfl | hx
        · exact hb
        · exact h4.2 p pl hp1 x hx
      · rw [if_neg e] at hq
        exact h4.2 q ql hq x hx

theorem pinv_reach {s : St} (h : GReach s) : PInv s := by
  induction h with
  | init => exact ⟨(by intro q pl h; simp at h), (by intro q pl h; simp at h)⟩
  | step _ hg he ih => exact pinv_exec ih hg he

/-- **C132** If no two plugins have the same root id, every instance of a plugin is started with the configuration of this plugin. -/
theorem C132_config (s : St) (h : GReach s) (p : Nat) (pl : Plugin) (hp : s.plugins[p]? = some pl) : s.configOf p = some pl.config := by
  obtain ⟨c, hc, -, h2⟩ := (pinv_reach h).1 p pl hp
  unfold St.configOf
  rw [hp]
  simp only
  rw [hc]
  exact h2

/-- **C132** If no two plugins have the same root id, a filter can switch exactly to the root context of its plugin and to the
contexts registered for its instance. -/
theorem C132_effective (s : St) (h : GReach s) (p inst id : Nat) (pl : Plugin) (c : Ctx) (hp : s.plugins[p]? = some pl)
    (hc : s.ctxs[pl.ctx]? = some c) (hn : (idsOf s pl.ctx).length < M) :
    (s.effective p inst id = .root ↔ id = c.id) ∧
    (s.effective p inst id = .filter id ↔ (inst, id) ∈ pl.filters) ∧
    (s.effective p inst id = .notFound ↔ id ≠ c.id ∧ (inst, id) ∉ pl.filters) := by
  obtain ⟨d, hd, h1, -⟩ := (pinv_reach h).1 p pl hp
  have hf := (pinv_reach h).2 p pl hp
  rw [hc] at hd; injection hd with hd; subst hd
  have hnd := C130_distinct s (greach h) pl.ctx c hc hn
  have key : s.effective p inst id = if c.id = id then .root else if (inst, id) ∈ pl.filters then .filter id else .notFound := by
    unfold St.effective
    simp only [hp, hc, h1, Option.map_some, Option.some.injEq]
  have hex : (inst, id) ∈ pl.filters → c.id ≠ id := by
    rintro hm rfl
    exact (List.nodup_cons.mp hnd).1 (hf _ hm)
  rw [key]
  by_cases e1 : c.id = id
  · rw [if_pos e1]
    have : (inst, id) ∉ pl.filters := fun hm => hex hm e1
    simp [this, e1]
  · have e1' : id ≠ c.id := fun h => e1 h.symm
    rw [if_neg e1]
    by_cases e2 : (inst, id) ∈ pl.filters
    · rw [if_pos e2]; simp [e2, e1']
    · rw [if_neg e2]; simp [e2, e1']

def run (s : St) : List Act → Option St
  | [] => some s
  | a :: l => (exec s a).bind fun s => run s l

/-- **C213** fails: of two plugins with the same root id, new instances of the first are started with the configuration of the second, and
its filters cannot switch to their own contexts any more. -/
theorem C213_shared_false :
    (run {} [.base "root".toList, .plugin 0 "stats".toList 10, .plugin 0 "stats".toList 20, .filter 0 7]).map
      (fun s => (s.configOf 0, s.plugins.map (·.filters), s.effective 0 7 3)) = some (some 20, [[(7, 3)], []], .notFound) := by
  decide +kernel

/-- with different root ids all is well -/
example : (run {} [.base "root".toList, .plugin 0 "a".toList 10, .plugin 0 "b".toList 20, .filter 0 7, .filter 1 8]).map
      (fun s => (s.configOf 0, s.configOf 1, s.effective 0 7 3, s.effective 1 8 4, s.effective 0 7 2, s.effective 0 8 3)) =
    some (some 10, some 20, .filter 3, .filter 4, .root, .notFound) := by
  decide +kernel

/-- **C213** fails: a context another thread is just creating is handed out with the number of the root context and without the
properties of its parent; and names with dots are mixed up. -/
theorem C213_race_false :
    ((run {} [.base "root".toList]).map fun s => ((s.fresh "root.a".toList).1.getOrCreate 0 "a".toList).map
      fun x => (x.2, x.1.ctxs.map fun c => (c.id, c.parent))) = some (some (1, [(1, none), (1, none)])) ∧
    ((run {} [.base "a".toList, .base "a.b".toList, .child 1 "c".toList]).map fun s => (s.getOrCreate 0 "b.c".toList).map
      fun x => (x.2, x.1.ctxs.map (·.parent))) = some (some (2, [none, none, some 1])) := by
  decide +kernel

end Verif.Props.Context
