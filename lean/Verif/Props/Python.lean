import Verif.Exp.Python
/-
C143: a transport can be used as long as someone who opened it has not closed it.
C144: responses reach Python as they were received, and their memory is released exactly once.
-/
namespace Verif.Props.Python
open Verif.Heimdall Verif.Exp.Python

/-- specification: how many callers hold the transport `id`; a failed creation gives nobody a transport -/
def holders (hash : Str → Nat) (id : Nat) : Nat → List Op → Nat
  | n, [] => n
  | n, .new a ok :: l => holders hash id (if hash (a.url ++ a.token) = id ∧ (0 < n ∨ ok = true) then n + 1 else n) l
  | n, .close i :: l => holders hash id (if i = id then n - 1 else n) l

/-- one transport per id, with the number of its holders, as long as there are any -/
def Good (hash : Str → Nat) (s : St) (f : Nat → Nat) : Prop :=
  ∀ id, match s.find id with
    | none => f id = 0
    | some t => ∃ tr, s.transports[t]? = some tr ∧ hash (tr.args.url ++ tr.args.token) = id ∧ tr.refCount = f id ∧ 0 < f id

theorem lookup_filter (l : List (Nat × Nat)) (id j : Nat) :
    (l.filter (fun e => e.1 ≠ id)).lookup j = if j = id then none else l.lookup j := by
  induction l with
  | nil => simp
  | cons e l ih =>
    obtain ⟨k, v⟩ := e
    by_cases hk : k = id
    · subst hk
      rw [List.filter_cons_of_neg (by simp), ih]
      by_cases hj : j = k
      · rw [if_pos hj, if_pos hj]
      · rw [if_neg hj, if_neg hj, List.lookup_cons, beq_eq_false_iff_ne.mpr hj]
    · rw [List.filter_cons_of_pos (by simpa using hk), List.lookup_cons, List.lookup_cons]
      by_cases hj : j = k
      · subst hj; simp [hk]
      · rw [beq_eq_false_iff_ne.mpr hj]; exact ih

theorem good_set {hash : Str → Nat} {s : St} {f : Nat → Nat} (g : Good hash s f) {id t : Nat} {tr : Transport}
    (hf : s.find id = some t) (ht : s.transports[t]? = some tr) (hid : hash (tr.args.url ++ tr.args.token) = id)
    (c : Bool) (n : Nat) (hn : 0 < n) :
    Good hash { s with transports := s.transports.set t { tr with refCount := n, cancelled := c } } (fun j => if j = id then n else f j) := by
  intro j
  have gj := g j
  have hlen : t < s.transports.length := (List.getElem?_eq_some_iff.mp ht).1
  show match s.find j with | none => _ | some u => _
  cases hj : s.find j with
  | none =>
    rw [hj] at gj
    have : j ≠ id := by intro e; rw [e, hf] at hj; cases hj
    simp [this]; exact gj
  | some u =>
    rw [hj] at gj
    obtain ⟨tr', h1, h2, h3, h4⟩ := gj
    by_cases hu : u = t
    · subst hu
      rw [ht] at h1; cases h1
      have : j = id := by rw [← h2, hid]
      refine ⟨{ tr with refCount := n, cancelled := c }, by rw [List.getElem?_set_self hlen], hid.trans this.symm, ?_, ?_⟩
      · simp [this]
      · simp [this, hn]
    · have hne : j ≠ id := by intro e; rw [e, hf] at hj; cases hj; exact hu rfl
      refine ⟨tr', by rw [List.getElem?_set_ne (Ne.symm hu)]; exact h1, h2, ?_, ?_⟩
      · simp [hne, h3]
      · simp [hne, h4]

theorem good_step {hash : Str → Nat} {s : St} {f : Nat → Nat} (g : Good hash s f) (o : Op) :
    Good hash (s.op hash o) (fun id => holders hash id (f id) [o]) := by
  cases o with
  | new a ok =>
    have ga := g (ident hash a)
    show Good hash (s.new hash a ok) _
    unfold St.new
    cases hf : s.find (ident hash a) with
    | some t =>
      rw [hf] at ga
      obtain ⟨tr, h1, h2, h3, h4⟩ := ga
      have := good_set g hf h1 h2 tr.cancelled (tr.refCount + 1) (by omega)
      intro j
      have tj := this j
      simp only [St.inc, h1, St.ret]
      show match s.find j with | none => _ | some u => _
      change match s.find j with | none => _ | some u => _ at tj
      have e : holders hash j (f j) [Op.new a ok] = if j = ident hash a then tr.refCount + 1 else f j := by
        simp only [holders]
        by_cases hj : j = ident hash a
        · have : hash (a.url ++ a.token) = j := hj.symm
          rw [if_pos hj, if_pos ⟨this, Or.inl (by rw [hj]; exact h4)⟩, h3, hj]
        · rw [if_neg hj, if_neg (fun h => hj h.1.symm)]
      simp only [e]
      exact tj
    | none =>
      rw [hf] at ga
      cases ok with
      | false =>
        intro j
        have gj := g j
        have e : holders hash j (f j) [Op.new a false] = f j := by
          simp only [holders]
          by_cases hj : j = ident hash a
          · have h0 : f j = 0 := by rw [hj]; exact ga
            rw [if_neg]; rintro ⟨_, h | h⟩
            · omega
            · cases h
          · rw [if_neg (fun h => hj h.1.symm)]
        simp only [e]
        exact gj
      | true =>
        intro j
        have gj := g j
        simp only [St.make, St.ret, if_true]
        by_cases hj : j = ident hash a
        · have e : holders hash j (f j) [Op.new a true] = 1 := by
            have h0 : f j = 0 := by rw [hj]; exact ga
            have h1 : hash (a.url ++ a.token) = j := hj.symm
            simp [holders, h0, h1]
          simp only [e]
          subst hj
          simp only [St.find, List.lookup_cons, beq_self_eq_true]
          exact ⟨⟨a, 1, true⟩, by simp, rfl, rfl, Nat.one_pos⟩
        · have e : holders hash j (f j) [Op.new a true] = f j := by
            simp only [holders]
            rw [if_neg (fun h => hj h.1.symm)]
          simp only [e, St.find, List.lookup_cons, beq_eq_false_iff_ne.mpr hj]
          change match s.pool.lookup j with | none => _ | some u => _ at gj
          cases hl : s.pool.lookup j with
          | none => rw [hl] at gj; exact gj
          | some u =>
            rw [hl] at gj
            obtain ⟨tr, h1, h2, h3, h4⟩ := gj
            have hu : u < s.transports.length := (List.getElem?_eq_some_iff.mp h1).1
            exact ⟨tr, by rw [List.getElem?_append_left hu]; exact h1, h2, h3, h4⟩
  | close id =>
    have gi := g id
    show Good hash (s.close id) _
    unfold St.close
    cases hf : s.find id with
    | none =>
      rw [hf] at gi
      intro j
      have gj := g j
      have e : holders hash j (f j) [Op.close id] = f j := by
        simp only [holders]
        by_cases hj : id = j
        · have h0 : f j = 0 := by rw [← hj]; exact gi
          rw [if_pos hj]; omega
        · rw [if_neg hj]
      simp only [e]
      exact gj
    | some t =>
      rw [hf] at gi
      obtain ⟨tr, h1, h2, h3, h4⟩ := gi
      simp only [h1]
      by_cases h0 : tr.refCount - 1 = 0
      · rw [if_pos h0]
        intro j
        have gj := g j
        simp only [St.find, lookup_filter]
        by_cases hj : j = id
        · subst hj
          have : f j = 1 := by omega
          simp [holders, this]
        · have e : holders hash j (f j) [Op.close id] = f j := by
            simp only [holders]
            rw [if_neg (fun h => hj h.symm)]
          simp only [e, if_neg hj]
          change match s.pool.lookup j with | none => _ | some u => _ at gj
          cases hl : s.pool.lookup j with
          | none => rw [hl] at gj; exact gj
          | some u =>
            rw [hl] at gj
            obtain ⟨tr', g1, g2, g3, g4⟩ := gj
            have hu : u ≠ t := by
              intro e; subst e; rw [h1] at g1; cases g1; exact hj (g2.symm.trans h2)
            exact ⟨tr', by rw [List.getElem?_set_ne (Ne.symm hu)]; exact g1, g2, g3, g4⟩
      · rw [if_neg h0]
        have := good_set g hf h1 h2 tr.cancelled (tr.refCount - 1) (by omega)
        intro j
        have tj := this j
        change match s.find j with | none => _ | some u => _
        change match s.find j with | none => _ | some u => _ at tj
        have e : holders hash j (f j) [Op.close id] = if j = id then tr.refCount - 1 else f j := by
          simp only [holders]
          by_cases hj : j = id
          · rw [if_pos hj, if_pos hj.symm, h3, hj]
          · rw [if_neg hj, if_neg (fun h => hj h.symm)]
        simp only [e]
        exact tj

theorem good_ops (hash : Str → Nat) (l : List Op) : ∀ (s : St) (f : Nat → Nat), Good hash s f →
    Good hash (l.foldl (St.op hash) s) (fun id => holders hash id (f id) l) := by
  induction l with
  | nil => intro s f g; exact g
  | cons o l ih =>
    intro s f g
    have := ih _ _ (good_step g o)
    intro j
    have tj := this j
    have e : holders hash j (holders hash j (f j) [o]) l = holders hash j (f j) (o :: l) := by
      cases o <;> rfl
    simp only [e] at tj
    exact tj

/-- C143: with calls one after the other, whatever the opening, failing and closing before: an id is known exactly while someone who opened it has not
closed it, and its transport was made for arguments with that hash and counts its holders. -/
theorem C143_held (hash : Str → Nat) (l : List Op) (id : Nat) :
    (0 < holders hash id 0 l ↔ ∃ t, (l.foldl (St.op hash) {}).find id = some t) ∧
    ∀ t, (l.foldl (St.op hash) {}).find id = some t → ∃ tr, (l.foldl (St.op hash) {}).transports[t]? = some tr ∧
      hash (tr.args.url ++ tr.args.token) = id ∧ tr.refCount = holders hash id 0 l := by
  have g := good_ops hash l {} (fun _ => 0) (fun _ => rfl) id
  cases hf : (l.foldl (St.op hash) {}).find id with
  | none =>
    rw [hf] at g
    exact ⟨⟨fun h => absurd g (by show ¬ (holders hash id 0 l = 0); omega), (fun ⟨_, h⟩ => nomatch h)⟩, (fun _ h => nomatch h)⟩
  | some t =>
    rw [hf] at g
    obtain ⟨tr, h1, h2, h3, h4⟩ := g
    exact ⟨⟨fun _ => ⟨t, rfl⟩, fun _ => h4⟩, fun u hu => by cases hu; exact ⟨tr, h1, h2, h3⟩⟩

/-- C143: a successful opening returns the id of its arguments, and the id is known afterwards. -/
theorem C143_open (hash : Str → Nat) (l : List Op) (a : Args) :
    ∃ t, ((l.foldl (St.op hash) {}).new hash a true).find (hash (a.url ++ a.token)) = some t ∧
      ((l.foldl (St.op hash) {}).new hash a true).returned = (a, hash (a.url ++ a.token)) :: (l.foldl (St.op hash) {}).returned := by
  unfold St.new
  cases hf : (l.foldl (St.op hash) {}).find (ident hash a) with
  | none =>
    refine ⟨(l.foldl (St.op hash) {}).transports.length, ?_, rfl⟩
    simp [St.make, St.ret, St.find, ident]
  | some t =>
    simp only [St.inc]
    cases (l.foldl (St.op hash) {}).transports[t]? <;> exact ⟨t, hf, rfl⟩

def hash0 (s : Str) : Nat := s.length

example : ([.new ⟨['a'], ['b'], none⟩ true, .new ⟨['a'], ['b'], none⟩ true, .close 2].foldl (St.op hash0) {}).find 2 = some 0 ∧
    ([.new ⟨['a'], ['b'], none⟩ true, .new ⟨['a'], ['b'], none⟩ true, .close 2, .close 2].foldl (St.op hash0) {}).find 2 = none ∧
    ([.new ⟨['a'], ['b'], none⟩ false].foldl (St.op hash0) {}).find 2 = none := by decide

/-- Known defect (C221): for every hash, different Heimdall addresses and tokens with the same concatenation share a transport, and so do callers with different
push gateways: the second uses the identity and the settings of the first. -/
theorem C221_shared_false (hash : Str → Nat) :
    ([.new ⟨['a'], ['b', 'c'], none⟩ true, .new ⟨['a', 'b'], ['c'], none⟩ true, .new ⟨['a', 'b'], ['c'], some ['g']⟩ true].foldl (St.op hash) {}).transports =
      [⟨⟨['a'], ['b', 'c'], none⟩, 3, true⟩] := by
  simp [St.op, St.new, St.find, ident, St.make, St.ret, St.inc]

/-- Known defect (C221): with calls at the same time two callers make two transports, of which one is lost; the first close then removes the transport that the
other still holds. Or the transport is closed between looking it up and counting: the id returned is not known. -/
theorem C221_race_false (hash : Str → Nat) (a : Args) :
    (∃ s, runActs hash {} [.look a, .look a, .finish 0, .finish 0, .close (ident hash a)] = some s ∧ s.returned = [(a, ident hash a), (a, ident hash a)] ∧
      s.transports.length = 2 ∧ s.find (ident hash a) = none) ∧
    ∃ s, runActs hash {} [.look a, .finish 0, .look a, .close (ident hash a), .finish 0] = some s ∧ s.returned.length = 2 ∧ s.find (ident hash a) = none := by
  constructor
  · simp [St.close, St.find, St.ret, St.make, runActs, St.exec]
  · simp [St.close, St.find, St.ret, St.make, runActs, St.exec, St.inc]

/-- Known defect (C221): the context of the connection to the mesh of every transport is cancelled from the moment it is handed out, whatever calls
are made. -/
theorem C221_cancelled_false (hash : Str → Nat) (ops : List Op) : ∀ tr ∈ (ops.foldl (St.op hash) {}).transports, tr.cancelled = true := by
  have step : ∀ (s : St) (o : Op), (∀ tr ∈ s.transports, tr.cancelled = true) → ∀ tr ∈ (s.op hash o).transports, tr.cancelled = true := by
    intro s o h
    have hset : ∀ (t : Nat) (x : Transport), x.cancelled = true → ∀ tr ∈ s.transports.set t x, tr.cancelled = true := by
      intro t x hx tr htr
      rcases List.mem_or_eq_of_mem_set htr with htr | rfl
      · exact h tr htr
      · exact hx
    cases o with
    | new a ok =>
      simp only [St.op, St.new]
      cases s.find (ident hash a) with
      | some t =>
        simp only [St.ret, St.inc]
        cases ht : s.transports[t]? with
        | none => exact h
        | some tr => exact hset t _ (h tr (List.mem_of_getElem? ht))
      | none =>
        cases ok with
        | false => exact h
        | true =>
          intro tr htr
          simp only [if_true, St.ret, St.make, List.mem_append, List.mem_singleton] at htr
          rcases htr with htr | rfl
          · exact h tr htr
          · rfl
    | close id =>
      simp only [St.op, St.close]
      cases s.find id with
      | none => exact h
      | some t =>
        simp only
        cases ht : s.transports[t]? with
        | none => exact h
        | some tr =>
          simp only
          have hc := h tr (List.mem_of_getElem? ht)
          split
          · exact hset t _ rfl
          · exact hset t _ hc
  have all : ∀ (ops : List Op) (s : St), (∀ tr ∈ s.transports, tr.cancelled = true) → ∀ tr ∈ (ops.foldl (St.op hash) s).transports, tr.cancelled = true := by
    intro ops
    induction ops with
    | nil => intro s h; exact h
    | cons o ops ih => intro s h; exact ih _ (step s o h)
  exact all ops {} (by intro tr h; cases h)

/-- and there are transports -/
example (hash : Str → Nat) (a : Args) : ([Op.new a true].foldl (St.op hash) {}).transports.map (·.cancelled) = [true] := rfl

/-! ### responses -/

/-- C144: status, headers in their order, and a body without zero bytes reach Python as they were received. -/
theorem C144_same (n status : Nat) (version : List Nat) (headers : List (Str × Str)) (body : List Nat) (hv : 0 ∉ version) (hb : 0 ∉ body) :
    (cResponse n status version headers body).1.status = status ∧ (cResponse n status version headers body).1.version.1 = version ∧
    (cResponse n status version headers body).1.body.1 = body ∧
    (cResponse n status version headers body).1.headers.map (fun e => (e.1.1, e.2.1)) = headers := by
  have ct : ∀ b : List Nat, 0 ∉ b → cText b = b := by
    intro b hb
    induction b with
    | nil => rfl
    | cons x b ih =>
      have hx : x ≠ 0 := fun e => hb (by simp [e])
      have : cText (x :: b) = x :: cText b := by simp [cText, hx]
      rw [this, ih (fun h => hb (by simp [h]))]
  have hh : ∀ (h : List (Str × Str)) (n : Nat), (allocHeaders n h).1.map (fun e => (e.1.1, e.2.1)) = h := by
    intro h
    induction h with
    | nil => intro n; rfl
    | cons e h ih => intro n; obtain ⟨k, v⟩ := e; simp only [allocHeaders, List.map_cons, ih]
  unfold cResponse
  by_cases h : headers = []
  · subst h; simp [ct _ hv, ct _ hb]
  · rw [if_neg h]; simp [ct _ hv, ct _ hb, hh]

/-- C144: a header with one value keeps it, and several values without commas can be read back from the text. -/
theorem C144_value (v : Str) (l : List Str) (hn : l ≠ []) (h : ∀ p ∈ l, ',' ∉ p) : joinValues [v] = v ∧ split ',' (joinValues l) = l :=
  ⟨rfl, split_join ',' l hn h⟩

example : split ',' (joinValues [['a'], [], ['b', 'c']]) = [['a'], [], ['b', 'c']] := by decide

theorem alloc_spec (h : List (Str × Str)) : ∀ n, (allocHeaders n h).2 = n + 2 * h.length ∧
    ((allocHeaders n h).1.flatMap fun e => [e.1.2, e.2.2]) = List.range' n (2 * h.length) := by
  induction h with
  | nil => intro n; exact ⟨rfl, rfl⟩
  | cons e h ih =>
    intro n
    obtain ⟨k, v⟩ := e
    obtain ⟨i1, i2⟩ := ih (n + 2)
    constructor
    · show (allocHeaders (n + 2) h).2 = _
      rw [i1, List.length_cons]; omega
    · show [n, n + 1] ++ ((allocHeaders (n + 2) h).1.flatMap fun e => [e.1.2, e.2.2]) = _
      rw [i2, List.length_cons, show 2 * (h.length + 1) = (2 * h.length + 1) + 1 by omega, List.range'_succ, List.range'_succ]
      rfl

/-- C144: releasing a response releases every piece of memory made for it, and each exactly once. -/
theorem C144_free (n status : Nat) (version : List Nat) (headers : List (Str × Str)) (body : List Nat) :
    (cResponse n status version headers body).1.free.Nodup ∧
    ∀ p, p ∈ (cResponse n status version headers body).1.free ↔ n ≤ p ∧ p < (cResponse n status version headers body).2 := by
  unfold cResponse
  by_cases h : headers = []
  · rw [if_pos h]
    constructor
    · simp [CResponse.free]
    · intro p; simp [CResponse.free]; omega
  · rw [if_neg h]
    obtain ⟨a1, a2⟩ := alloc_spec headers (n + 1)
    have e : (CResponse.free ⟨status, (cText version, (allocHeaders (n + 1) headers).2), some n, (allocHeaders (n + 1) headers).1,
        (cText body, (allocHeaders (n + 1) headers).2 + 1), (allocHeaders (n + 1) headers).2 + 2⟩) =
        (n + 1 + 2 * headers.length) :: ((List.range' (n + 1) (2 * headers.length) ++ [n]) ++ [n + 1 + 2 * headers.length + 1, n + 1 + 2 * headers.length + 2]) := by
      simp only [CResponse.free, a1, a2]; rfl
    dsimp only
    rw [e, a1]
    constructor
    · rw [List.nodup_cons, List.nodup_append, List.nodup_append]
      refine ⟨?_, ⟨List.nodup_range', by simp, ?_⟩, by simp, ?_⟩
      · simp only [List.mem_append, List.mem_range'_1, List.mem_cons, List.not_mem_nil, or_false]; omega
      · intro a ha b hb
        simp only [List.mem_range'_1, List.mem_cons, List.not_mem_nil, or_false] at ha hb; omega
      · intro a ha b hb
        simp only [List.mem_append, List.mem_range'_1, List.mem_cons, List.not_mem_nil, or_false] at ha hb; omega
    · intro p
      simp only [List.mem_cons, List.mem_append, List.mem_range'_1, List.not_mem_nil, or_false]; omega

example : (cResponse 0 200 [49] [(['a'], ['b'])] [1, 2]).1.free = [3, 1, 2, 0, 4, 5] := by decide

/-- Known defect (C222): a body ends at its first zero byte, and two values of a header cannot be told from one value with a comma. -/
theorem C222_body_false : (cResponse 0 200 [49] [] [1, 0, 2]).1.body.1 = [1] ∧ joinValues [['a'], ['b']] = joinValues [['a', ',', 'b']] := by decide

end Verif.Props.Python
