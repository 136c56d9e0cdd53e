/-
C48: the get/set laws of the dotted-path property store.
-/
import Verif.Sec.Dotn

namespace Verif.Dotn

/-! ### Specification -/

/-- A key without escapes: no backslash and no NUL. Its pieces are the parts between the dots. -/
def Plain (key : Str) : Prop := '\\' ∉ key ∧ '\x00' ∉ key

/-- On the way along the path everything present, except perhaps at its end, is a map. -/
inductive MapPath : KVs → List Str → Prop where
  | last {m p} : MapPath m [p]
  | absent {m p ps} : m.get p = none → ps ≠ [] → MapPath m (p :: ps)
  | store {m p ps s} : m.get p = some (.store s) → MapPath s ps → MapPath m (p :: ps)
  | gomap {m p ps s} : m.get p = some (.gomap s) → MapPath s ps → MapPath m (p :: ps)

/-- Neither path is a prefix of the other. -/
def Unrelated (p q : List Str) : Prop := ∃ c x y p' q', p = c ++ x :: p' ∧ q = c ++ y :: q' ∧ x ≠ y

/-- Neither a map nor a list. -/
def IsScalar (v : V) : Prop := ∃ n, v = .scalar n

/-! ### Proofs -/

theorem get_put_same : ∀ (m : KVs) (p : Str) (v : V), (m.put p v).get p = some v
  | .nil, p, v => by simp [KVs.put, KVs.get]
  | .cons k w r, p, v => by
    unfold KVs.put
    split
    · rename_i h; simp [KVs.get, h]
    · rename_i h; simp [KVs.get, h, get_put_same r p v]

theorem get_put_other : ∀ (m : KVs) (p q : Str) (v : V), p ≠ q → (m.put p v).get q = m.get q
  | .nil, p, q, v, h => by simp [KVs.put, KVs.get, h]
  | .cons k w r, p, q, v, h => by
    unfold KVs.put
    split
    · rename_i hk
      subst hk
      simp [KVs.get, h]
    · simp only [KVs.get, get_put_other r p q v h]

variable {pi : Str → Option Int}

theorem getLoop_store {m : KVs} {p : Str} {ps : List Str} : getLoop pi (.store m) (p :: ps) =
    match m.get p with
    | none => .missing
    | some v => match ps with
      | [] => .found (outward v)
      | _ => getLoop pi v ps := by
  rw [getLoop]
  cases m.get p <;> rfl

theorem getLoop_gomap {m : KVs} {ps : List Str} : getLoop pi (.gomap m) ps = getLoop pi (.store m) ps := by
  cases ps with
  | nil => simp [getLoop]
  | cons p ps => rw [getLoop, getLoop]

theorem walk_single {f : KVs → Str → KVs} {m : KVs} {p : Str} : walk f m [p] = f m p := by rw [walk]

theorem walk_cons {f : KVs → Str → KVs} {m : KVs} {p : Str} {ps : List Str} (h : ps ≠ []) : walk f m (p :: ps) =
    match m.get p with
    | none => m.put p (.store (walk f .nil ps))
    | some (.store s) => m.put p (.store (walk f s ps))
    | some (.gomap s) => m.put p (.gomap (walk f s ps))
    | some _ => walk f m ps := by
  cases ps with
  | nil => exact absurd rfl h
  | cons q qs =>
    rw [walk]
    · cases m.get p with
      | none => rfl
      | some v => cases v <;> rfl
    · simp

/-- The map in which the path ends, and the name in it. -/
def ending : KVs → List Str → KVs × Str
  | m, [] => (m, [])
  | m, p :: ps => match ps with
    | [] => (m, p)
    | _ => match m.get p with
      | some (.store s) => ending s ps
      | some (.gomap s) => ending s ps
      | _ => ending .nil ps

theorem ending_cons {m : KVs} {p : Str} {ps : List Str} (h : ps ≠ []) : ending m (p :: ps) =
    match m.get p with
    | some (.store s) => ending s ps
    | some (.gomap s) => ending s ps
    | _ => ending .nil ps := by
  cases ps with
  | nil => exact absurd rfl h
  | cons q qs =>
    rw [ending] <;> simp

theorem mapPath_nil : ∀ {ps : List Str}, ps ≠ [] → MapPath .nil ps
  | [], h => absurd rfl h
  | [_], _ => .last
  | _ :: _ :: _, _ => .absent rfl (by simp)

/-- Reading back what was written at the end of the walk. -/
theorem get_walk {f : KVs → Str → KVs} {v : V} :
    ∀ (ps : List Str) (m : KVs), MapPath m ps → (f (ending m ps).1 (ending m ps).2).get (ending m ps).2 = some v →
      getLoop pi (.store (walk f m ps)) ps = .found (outward v) := by
  intro ps
  induction ps with
  | nil => intro m h; cases h
  | cons p ps ih =>
    intro m h hf
    by_cases hps : ps = []
    · subst hps
      rw [ending] at hf
      rw [walk_single, getLoop_store, hf]
    · have hcont : ∀ w : V, (match ps with | [] => Got.found (outward w) | _ => getLoop pi w ps) = getLoop pi w ps := by
        intro w; cases ps with
        | nil => exact absurd rfl hps
        | cons _ _ => rfl
      rw [walk_cons hps]
      rw [ending_cons hps] at hf
      cases h with
      | last => exact absurd rfl hps
      | absent hg _ =>
        rw [hg] at hf ⊢
        simp only
        rw [getLoop_store, get_put_same]
        simp only [hcont]
        exact ih _ (mapPath_nil hps) hf
      | store hg hs =>
        rw [hg] at hf ⊢
        simp only
        rw [getLoop_store, get_put_same]
        simp only [hcont]
        exact ih _ hs hf
      | gomap hg hs =>
        rw [hg] at hf ⊢
        simp only
        rw [getLoop_store, get_put_same]
        simp only [hcont]
        rw [getLoop_gomap]
        exact ih _ hs hf

theorem append_ne {c : List Str} {x : Str} {p : List Str} : c ++ x :: p ≠ [] := by simp

/-- Paths that leave the walk at some point do not see it. -/
theorem get_walk_other {f : KVs → Str → KVs} (hf : ∀ m x y, x ≠ y → (f m x).get y = m.get y) {x y : Str} (hxy : x ≠ y)
    (p' q' : List Str) : ∀ (c : List Str) (m : KVs), MapPath m (c ++ x :: p') →
      getLoop pi (.store (walk f m (c ++ x :: p'))) (c ++ y :: q') = getLoop pi (.store m) (c ++ y :: q') := by
  intro c
  induction c with
  | nil =>
    intro m h
    simp only [List.nil_append]
    rw [getLoop_store, getLoop_store]
    have : (walk f m (x :: p')).get y = m.get y := by
      by_cases hp : p' = []
      · subst hp; rw [walk_single]; exact hf m x y hxy
      · rw [walk_cons hp]
        cases h with
        | last => exact absurd rfl hp
        | absent hg _ => rw [hg]; exact get_put_other _ _ _ _ hxy
        | store hg _ => rw [hg]; exact get_put_other _ _ _ _ hxy
        | gomap hg _ => rw [hg]; exact get_put_other _ _ _ _ hxy
    rw [this]
  | cons a c ih =>
    intro m h
    simp only [List.cons_append] at h ⊢
    rw [walk_cons append_ne, getLoop_store, getLoop_store]
    have hcont : ∀ w : V, (match c ++ y :: q' with | [] => Got.found (outward w) | _ => getLoop pi w (c ++ y :: q')) = getLoop pi w (c ++ y :: q') := by
      intro w; cases c <;> rfl
    generalize hgen : c ++ x :: p' = rest at h ih
    cases h with
    | last => exact absurd hgen append_ne
    | absent hg hne =>
      rw [hg]
      simp only [get_put_same, hcont]
      rw [ih _ (mapPath_nil hne)]
      cases c <;> (simp only [List.nil_append, List.cons_append]; rw [getLoop_store]; rfl)
    | store hg hs =>
      rw [hg]
      simp only [get_put_same, hcont]
      exact ih _ hs
    | gomap hg hs =>
      rw [hg]
      simp only [get_put_same, hcont]
      rw [getLoop_gomap, getLoop_gomap]
      exact ih _ hs

/-! #### Keys -/

theorem escape_plain {s : Str} (h : '\\' ∉ s) : escape s = s := by
  induction s with
  | nil => rfl
  | cons c s ih =>
    have hc : c ≠ '\\' := by rintro rfl; exact h (by simp)
    have := ih (fun hm => h (by simp [hm]))
    rw [escape.eq_4, this]
    · rintro rfl; exact absurd rfl hc
    · rintro s' rfl; exact absurd rfl hc

theorem unNul_plain {s : Str} (h : '\x00' ∉ s) : unNul s = s := by
  unfold unNul
  rw [List.map_congr_left (g := id)]
  · simp
  · intro c hc
    have : c ≠ '\x00' := by rintro rfl; exact h hc
    simp [this]

theorem split_ne (s : Str) : split s ≠ [] := by
  cases s with
  | nil => simp [split]
  | cons c s =>
    unfold split
    split
    · simp
    · split <;> simp

theorem split_mem (s : Str) : ∀ p ∈ split s, ∀ c ∈ p, c ∈ s := by
  induction s with
  | nil => simp [split]
  | cons a s ih =>
    unfold split
    split
    · intro p hp c hc
      rcases List.mem_cons.mp hp with rfl | hp
      · cases hc
      · exact List.mem_cons_of_mem _ (ih p hp c hc)
    · split
      · intro p hp c hc
        simp only [List.mem_singleton] at hp
        subst hp
        simp only [List.mem_singleton] at hc
        simp [hc]
      · rename_i q qs hq
        intro p hp c hc
        rcases List.mem_cons.mp hp with rfl | hp
        · rcases List.mem_cons.mp hc with rfl | hc
          · simp
          · exact List.mem_cons_of_mem _ (ih q (by rw [hq]; simp) c hc)
        · exact List.mem_cons_of_mem _ (ih p (by rw [hq]; simp [hp]) c hc)

theorem map_unNul_split {key : Str} (h : '\x00' ∉ key) : (split key).map unNul = split key := by
  rw [List.map_congr_left (g := id)]
  · simp
  · intro p hp
    exact unNul_plain fun hm => h (split_mem key p hp _ hm)

theorem get_plain {m : KVs} {key : Str} (h : Plain key) : get pi m key = getLoop pi (.store m) (split key) := by
  unfold get
  rw [escape_plain h.1, map_unNul_split h.2]

theorem set_scalar {m : KVs} {key : Str} {v : V} (h : '\x00' ∉ key) (hv : IsScalar v) : set m key v = walk (setLast v) m (split key) := by
  obtain ⟨n, rfl⟩ := hv
  unfold set setPieces
  rw [map_unNul_split h]

theorem setLast_same {v : V} (hv : IsScalar v) (m : KVs) (p : Str) : (setLast v m p).get p = some v := by
  obtain ⟨n, rfl⟩ := hv
  exact get_put_same _ _ _

theorem setLast_other (v : V) (m : KVs) (x y : Str) (h : x ≠ y) : (setLast v m x).get y = m.get y := by
  unfold setLast
  split
  · split
    · exact get_put_other _ _ _ _ h
    · exact get_put_other _ _ _ _ h
    · rfl
  · exact get_put_other _ _ _ _ h

/-- **C48** (partial) After `Set(path, v)` of a plain value, `Get(path)` returns it, if everything present
along the path is a map. -/
theorem C48_get_partial (m : KVs) (key : Str) (v : V) (hk : Plain key) (hv : IsScalar v) (hp : MapPath m (split key)) :
    get pi (set m key v) key = .found v := by
  rw [get_plain hk, set_scalar hk.2 hv]
  have := get_walk (pi := pi) (split key) m hp (setLast_same hv _ _)
  obtain ⟨n, rfl⟩ := hv
  exact this

/-- **C48** (partial) `Set(path, v)` of any value but a map leaves what `Get` returns for every path
unrelated to it unchanged, if everything present along the path is a map. -/
theorem C48_frame_partial (m : KVs) (key other : Str) (v : V) (hk : Plain key) (ho : Plain other)
    (hv : ∀ kvs, v ≠ .gomap kvs) (hp : MapPath m (split key)) (hu : Unrelated (split key) (split other)) :
    get pi (set m key v) other = get pi m other := by
  rw [get_plain ho, get_plain ho]
  have hs : set m key v = walk (setLast v) m (split key) := by
    unfold set setPieces
    rw [map_unNul_split hk.2]
    cases v with
    | gomap kvs => exact absurd rfl (hv kvs)
    | _ => rfl
  rw [hs]
  obtain ⟨c, x, y, p', q', h1, h2, h3⟩ := hu
  rw [h1] at hp
  rw [h1, h2]
  exact get_walk_other (setLast_other v) h3 p' q' c m hp

/-! #### Lists -/

/-- The list, if any, already stored where the path ends. -/
def oldList (m : KVs) (ps : List Str) : Option Vs := match (ending m ps).1.get (ending m ps).2 with
  | none => some .nil
  | some (.array ws) => some ws
  | some _ => none

/-- **C48** (partial) A list set where nothing or a list is, is appended to it. -/
theorem C48_list_partial (m : KVs) (key : Str) (vs old : Vs) (hk : Plain key) (hp : MapPath m (split key))
    (ho : oldList m (split key) = some old) : get pi (set m key (.slice vs)) key = .found (.slice (old.append vs)) := by
  rw [get_plain hk]
  have hs : set m key (.slice vs) = walk (setLast (.slice vs)) m (split key) := by
    unfold set setPieces
    rw [map_unNul_split hk.2]
  rw [hs]
  refine get_walk (v := .array (old.append vs)) (split key) m hp ?_
  unfold oldList at ho
  unfold setLast
  split at ho
  · rename_i h
    cases ho
    simp only [h]
    exact get_put_same _ _ _
  · rename_i ws h
    cases ho
    simp only [h]
    exact get_put_same _ _ _
  · cases ho

/-! #### Maps -/

theorem mapPath_walk {f : KVs → Str → KVs} {k x : Str} : ∀ (c : List Str) (m : KVs), MapPath m (c ++ [k]) → MapPath (walk f m (c ++ [x])) (c ++ [k]) := by
  intro c
  induction c with
  | nil => intro m _; exact .last
  | cons a c ih =>
    intro m h
    have hne : c ++ [x] ≠ [] := by simp
    simp only [List.cons_append] at h ⊢
    rw [walk_cons hne]
    generalize hgen : c ++ [k] = rest at h ih
    have hr : rest ≠ [] := by rw [← hgen]; simp
    cases h with
    | last => exact absurd rfl hr
    | absent hg _ =>
      rw [hg]
      exact .store (get_put_same _ _ _) (ih _ (mapPath_nil hr))
    | store hg hs =>
      rw [hg]
      exact .store (get_put_same _ _ _) (ih _ hs)
    | gomap hg hs =>
      rw [hg]
      exact .gomap (get_put_same _ _ _) (ih _ hs)

theorem create_other (m : KVs) (x y : Str) (h : x ≠ y) : (create m x).get y = m.get y := by
  unfold create
  split
  · exact get_put_other _ _ _ _ h
  · rfl

/-- Entries of a map value: distinct names without NUL, scalar values. -/
def KVs.toList : KVs → List (Str × V)
  | .nil => []
  | .cons k v r => (k, v) :: r.toList

def Flat (kvs : KVs) : Prop := (kvs.toList.map (·.1)).Nodup ∧ ∀ e ∈ kvs.toList, '\x00' ∉ e.1 ∧ IsScalar e.2

theorem unNul_nul {k : Str} (h : '\x00' ∉ k) : unNul (nul k) = k := by
  unfold unNul nul
  rw [List.map_map, List.map_congr_left (g := id)]
  · simp
  · intro c hc
    have h0 : c ≠ '\x00' := by rintro rfl; exact h hc
    by_cases hd : c = '.'
    · subst hd; rfl
    · simp [hd, h0]

theorem setPieces_scalar {m : KVs} {ps : List Str} {v : V} (hv : IsScalar v) : setPieces m ps v = walk (setLast v) m (ps.map unNul) := by
  obtain ⟨n, rfl⟩ := hv
  rw [setPieces]; simp

theorem setAll_spec {ps : List Str} (hps : ps.map unNul = ps) : ∀ (kvs : KVs) (root : KVs), Flat kvs → (∀ k, MapPath root (ps ++ [k])) →
    (∀ e ∈ kvs.toList, getLoop pi (.store (setAll root ps kvs)) (ps ++ [e.1]) = .found e.2) ∧
    ∀ k ∉ kvs.toList.map (·.1), ∀ q, getLoop pi (.store (setAll root ps kvs)) (ps ++ k :: q) = getLoop pi (.store root) (ps ++ k :: q)
  | .nil, root, _, _ => by simp [KVs.toList, setAll]
  | .cons k v r, root, hf, hmp => by
    obtain ⟨hnd, hall⟩ := hf
    simp only [KVs.toList, List.map_cons, List.nodup_cons] at hnd
    have hk := hall (k, v) (by simp [KVs.toList])
    have hstep : setPieces root (ps ++ [nul k]) v = walk (setLast v) root (ps ++ [k]) := by
      rw [setPieces_scalar hk.2, List.map_append, hps]
      simp [unNul_nul hk.1]
    have hmp' : ∀ k', MapPath (walk (setLast v) root (ps ++ [k])) (ps ++ [k']) := fun k' => mapPath_walk ps root (hmp k')
    have ih := setAll_spec hps r (walk (setLast v) root (ps ++ [k])) ⟨hnd.2, fun e he => hall e (by simp [KVs.toList, he])⟩ hmp'
    rw [setAll, hstep]
    refine ⟨?_, ?_⟩
    · intro e he
      simp only [KVs.toList] at he
      rcases List.mem_cons.mp he with rfl | he
      · rw [ih.2 k hnd.1 []]
        have := get_walk (pi := pi) (f := setLast v) (ps ++ [k]) root (hmp k) (setLast_same hk.2 _ _)
        obtain ⟨n, hn⟩ := hk.2
        simp only at hn
        subst hn
        exact this
      · exact ih.1 e he
    · intro k' hk' q
      simp only [KVs.toList, List.map_cons, List.mem_cons, not_or] at hk'
      rw [ih.2 k' hk'.2 q]
      exact get_walk_other (setLast_other v) (Ne.symm hk'.1) [] q ps root (by simpa using hmp k)

/-- **C48** (partial) Setting a flat map merges it: every entry is read back under the path, and names
not in the map keep what they had; unless something on the path, or at its end, is not a map. -/
theorem C48_merge_partial (m : KVs) (key : Str) (kvs : KVs) (hk : Plain key) (hf : Flat kvs) (hp : ∀ k, MapPath m (split key ++ [k])) :
    (∀ e ∈ kvs.toList, getLoop pi (.store (set m key (.gomap kvs))) (split key ++ [e.1]) = .found e.2) ∧
    ∀ k ∉ kvs.toList.map (·.1), ∀ q, getLoop pi (.store m) (split key ++ k :: q) ≠ .missing →
      getLoop pi (.store (set m key (.gomap kvs))) (split key ++ k :: q) = getLoop pi (.store m) (split key ++ k :: q) := by
  have hs : set m key (.gomap kvs) = setAll (walk create m (split key)) (split key) kvs := by
    unfold set
    rw [setPieces, map_unNul_split hk.2]
  obtain ⟨c, x, hcx⟩ : ∃ c x, split key = c ++ [x] := by
    have := List.dropLast_concat_getLast (split_ne key)
    exact ⟨_, _, this.symm⟩
  -- the walk that creates the entry keeps the path a path of maps, and hides nothing
  have key1 : ∀ (c : List Str) (m : KVs) (x k : Str), MapPath m (c ++ [x] ++ [k]) → MapPath (walk create m (c ++ [x])) (c ++ [x] ++ [k]) ∧
      ∀ q, getLoop pi (.store m) (c ++ [x] ++ k :: q) ≠ .missing →
        getLoop pi (.store (walk create m (c ++ [x]))) (c ++ [x] ++ k :: q) = getLoop pi (.store m) (c ++ [x] ++ k :: q) := by
    intro c
    induction c with
    | nil =>
      intro m x k h
      simp only [List.nil_append, List.singleton_append] at h ⊢
      rw [walk_single]
      unfold create
      cases h with
      | absent hg hne =>
        rw [hg]
        refine ⟨.store (get_put_same _ _ _) (mapPath_nil (by simp)), ?_⟩
        intro q hq
        rw [getLoop_store, hg] at hq
        exact absurd rfl hq
      | store hg hs => rw [hg]; exact ⟨.store hg hs, fun _ _ => rfl⟩
      | gomap hg hs => rw [hg]; exact ⟨.gomap hg hs, fun _ _ => rfl⟩
    | cons a c ih =>
      intro m x k h
      simp only [List.cons_append] at h ⊢
      have hne : c ++ [x] ≠ [] := by simp
      rw [walk_cons hne]
      have hcont : ∀ (w : V) q, (match c ++ [x] ++ k :: q with | [] => Got.found (outward w) | _ => getLoop pi w (c ++ [x] ++ k :: q)) = getLoop pi w (c ++ [x] ++ k :: q) := by
        intro w q; cases c <;> rfl
      generalize hgen : c ++ [x] ++ [k] = rest at h
      cases h with
      | last => simp at hgen
      | absent hg _ =>
        rw [hg]
        refine ⟨.store (get_put_same _ _ _) (hgen ▸ (ih .nil x k (mapPath_nil (by simp))).1), ?_⟩
        intro q hq
        rw [getLoop_store, hg] at hq
        exact absurd rfl hq
      | store hg hs =>
        rw [hg]
        have ih := ih _ x k (hgen ▸ hs)
        refine ⟨.store (get_put_same _ _ _) (hgen ▸ ih.1), ?_⟩
        intro q
        rw [getLoop_store, getLoop_store, hg]
        simp only [get_put_same, hcont]
        exact ih.2 q
      | gomap hg hs =>
        rw [hg]
        have ih := ih _ x k (hgen ▸ hs)
        refine ⟨.gomap (get_put_same _ _ _) (hgen ▸ ih.1), ?_⟩
        intro q
        rw [getLoop_store, getLoop_store, hg]
        simp only [get_put_same, hcont]
        rw [getLoop_gomap, getLoop_gomap]
        exact ih.2 q
  have hmp : ∀ k, MapPath (walk create m (split key)) (split key ++ [k]) := by
    intro k
    have := hp k
    rw [hcx] at this ⊢
    exact (key1 c m x k this).1
  obtain ⟨h1, h2⟩ := setAll_spec (pi := pi) (map_unNul_split hk.2) kvs _ hf hmp
  rw [hs]
  refine ⟨h1, fun k hk' q hq => ?_⟩
  rw [h2 k hk' q]
  have := hp k
  rw [hcx] at this hq ⊢
  exact (key1 c m x k this).2 q hq

/-! ### Cases, and what does not hold -/

/-- Indices in decimal, at most 127 as `ParseInt` with 8 bits. -/
def dec (s : Str) : Option Int :=
  let n (ds : Str) : Option Int :=
    if ds ≠ [] ∧ ds.all Char.isDigit then some (ds.foldl (fun a c => a * 10 + ((c.toNat - 48 : Nat) : Int)) 0) else none
  match s with
  | '-' :: ds => (n ds).bind fun i => if i ≤ 128 then some (-i) else none
  | ds => (n ds).bind fun i => if i ≤ 127 then some i else none

def got (g : Got) (v : V) : Bool := match g with
  | .found w => w.beq v
  | _ => false
def missing : Got → Bool
  | .missing => true
  | _ => false
def panics : Got → Bool
  | .panic => true
  | _ => false

def K (s : String) : Str := s.toList

example : got (get dec (set (set .nil (K "node.id") (.scalar 1)) (K "node.name") (.scalar 2)) (K "node.id")) (.scalar 1) = true := by decide +kernel
example : MapPath (set .nil (K "node.id") (.scalar 1)) (split (K "node.name")) :=
  .store (s := .cons (K "id") (.scalar 1) .nil) (by rfl) .last
example : got (get dec (set (set .nil (K "node.id") (.scalar 1)) (K "node") (.gomap (.cons (K "a.b") (.scalar 7) .nil))) (K "node.a\\.b")) (.scalar 7) = true := by decide +kernel
example : Flat (.cons (K "a.b") (.scalar 7) (.cons (K "c") (.scalar 8) .nil)) := by
  refine ⟨by decide +kernel, ?_⟩
  intro e he
  simp only [KVs.toList, List.mem_cons, List.not_mem_nil, or_false] at he
  rcases he with rfl | rfl
  · exact ⟨by decide +kernel, 7, rfl⟩
  · exact ⟨by decide +kernel, 8, rfl⟩
example : got (get dec (set (set .nil (K "l") (.slice (.cons (.scalar 1) .nil))) (K "l") (.slice (.cons (.scalar 2) .nil))) (K "l.1")) (.scalar 2) = true := by decide +kernel

/-- **C48** fails for a path through a value that is not a map: the value is not found where it was set,
and is found under another, unrelated name. -/
theorem C48_through_false : let m := set (set .nil (K "a") (.scalar 1)) (K "a.b") (.scalar 2)
    missing (get dec m (K "a.b")) = true ∧ got (get dec m (K "b")) (.scalar 2) = true := by decide +kernel

/-- **C48** fails for escaped dots: `Get` understands them, `Set` does not. -/
theorem C48_escape_false : missing (get dec (set .nil (K "a\\.b") (.scalar 1)) (K "a\\.b")) = true := by decide +kernel

/-- **C48** fails for a list set where a plain value is: it is ignored; and where a list is: it is
appended instead of replacing it. -/
theorem C48_list_false :
    got (get dec (set (set .nil (K "a") (.scalar 1)) (K "a") (.slice .nil)) (K "a")) (.scalar 1) = true ∧
    got (get dec (set (set .nil (K "a") (.slice (.cons (.scalar 1) .nil))) (K "a") (.slice (.cons (.scalar 1) .nil))) (K "a"))
      (.slice (.cons (.scalar 1) (.cons (.scalar 1) .nil))) = true := by decide +kernel

/-- **C48** fails for a map set where a plain value is: its entries end up beside it. -/
theorem C48_map_false : let m := set (set .nil (K "a") (.scalar 1)) (K "a") (.gomap (.cons (K "b") (.scalar 2) .nil))
    got (get dec m (K "a")) (.scalar 1) = true ∧ got (get dec m (K "b")) (.scalar 2) = true := by decide +kernel

/-- **C48** fails for list indices: one that is not a number is skipped and a negative one crashes. -/
theorem C48_index_false : let m := set .nil (K "l") (.slice (.cons (.scalar 5) .nil))
    got (get dec m (K "l.foo.0")) (.scalar 5) = true ∧ panics (get dec m (K "l.-1")) = true := by decide +kernel

end Verif.Dotn
