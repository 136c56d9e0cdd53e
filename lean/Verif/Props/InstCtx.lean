import Verif.Wasm.InstCtx
/-
C244 (an instance has one context while the plugin has it), C245 (nothing is kept for instances that are gone).
-/
namespace Verif.Props.InstCtx
open Verif.Wasm.InstCtx

/-! ### lists -/

theorem load_store (s : St) (i c j : Nat) : ({ s with ctxs := s.store i c } : St).load j = if j = i then some c else s.load j := by
  unfold St.load St.store
  by_cases h : j = i
  · subst h; simp
  · have hi : ¬ i = j := fun e => h e.symm
    rw [List.find?_cons_of_neg (by simpa using hi), if_neg h]
    congr 1
    induction s.ctxs with
    | nil => rfl
    | cons e r ih =>
      by_cases he : e.1 = i
      · rw [List.filter_cons_of_neg (by simpa using he), ih, List.find?_cons_of_neg (by simpa [he] using hi)]
      · rw [List.filter_cons_of_pos (by simpa using he)]
        by_cases hj : e.1 = j
        · rw [List.find?_cons_of_pos (by simpa using hj), List.find?_cons_of_pos (by simpa using hj)]
        · rw [List.find?_cons_of_neg (by simpa using hj), List.find?_cons_of_neg (by simpa using hj), ih]

theorem load_delete (s : St) (i j : Nat) : ({ s with ctxs := s.ctxs.filter fun e => e.1 ≠ i } : St).load j = if j = i then none else s.load j := by
  unfold St.load
  show Option.map _ (List.find? _ (s.ctxs.filter _)) = _
  induction s.ctxs with
  | nil => simp
  | cons e r ih =>
    by_cases he : e.1 = i
    · rw [List.filter_cons_of_neg (by simpa using he), ih]
      by_cases h : j = i
      · rw [if_pos h, if_pos h]
      · rw [if_neg h, if_neg h, List.find?_cons_of_neg (by simpa [he] using fun x => h x.symm)]
    · rw [List.filter_cons_of_pos (by simpa using he)]
      by_cases hj : e.1 = j
      · have hk : ¬ j = i := fun x => he (hj.trans x)
        rw [if_neg hk, List.find?_cons_of_pos (by simpa using hj), List.find?_cons_of_pos (by simpa using hj)]
      · rw [List.find?_cons_of_neg (by simpa using hj), List.find?_cons_of_neg (by simpa using hj), ih]

theorem mem_set {l : List Thread} {n : Nat} {a x : Thread} (h : x ∈ l.set n a) : x ∈ l ∨ x = a := List.mem_or_eq_of_mem_set h

theorem mem_get {l : List Thread} {n : Nat} {x : Thread} (h : l[n]? = some x) : x ∈ l := List.mem_of_getElem? h

/-! ### C244 -/

/-- the invariant: an instance of the list has a context, nobody has missed it, and everybody who was given one while it was there was given this -/
structure Inv (s : St) : Prop where
  listed : ∀ i ∈ s.list, ∃ c, s.load i = some c ∧ (∀ t ∈ s.threads, t.inst = i → t.ph ≠ .missed ∧ t.stop = false) ∧ ∀ a ∈ s.answers, a.1 = i → a.2.1 = c
  nodup : s.list.Nodup
  fresh : ∀ i ∈ s.list, i < s.made
  freshT : ∀ t ∈ s.threads, t.inst < s.made
  freshA : ∀ a ∈ s.answers, a.1 < s.made
  ctxFresh : ∀ e ∈ s.ctxs, e.2 < s.madeCtx
  ansFresh : ∀ a ∈ s.answers, a.2.1 < s.madeCtx
  /-- contexts are not shared -/
  own : ∀ e ∈ s.ctxs, ∀ a ∈ s.answers, e.2 = a.2.1 → e.1 = a.1
  own2 : ∀ e ∈ s.ctxs, ∀ e' ∈ s.ctxs, e.2 = e'.2 → e.1 = e'.1
  own3 : ∀ a ∈ s.answers, ∀ b ∈ s.answers, a.2.1 = b.2.1 → a.1 = b.1
  /-- the answers given while the plugin had the instance agree -/
  agree : ∀ a ∈ s.answers, ∀ b ∈ s.answers, a.1 = b.1 → a.2.2 = true → b.2.2 = true → a.2.1 = b.2.1

theorem mem_load {s : St} {i c : Nat} (h : s.load i = some c) : (i, c) ∈ s.ctxs := by
  unfold St.load at h
  obtain ⟨e, he, rfl⟩ := Option.map_eq_some_iff.1 h
  have h1 := List.mem_of_find?_eq_some he
  have h2 : e.1 = i := by simpa using List.find?_some he
  subst h2; exact h1

theorem mem_store {s : St} {i c : Nat} {e : Nat × Nat} (h : e ∈ s.store i c) : e = (i, c) ∨ e ∈ s.ctxs := by
  rcases List.mem_cons.1 h with h | h
  · exact .inl h
  · exact .inr (List.mem_filter.1 h).1

/-- a context is made and stored for a new instance -/
theorem inv_start {s : St} (h : Inv s) (list : List Nat) (hl : list = s.list ∨ list = s.list ++ [s.made]) :
    Inv { s with list := list, ctxs := s.store s.made s.madeCtx, made := s.made + 1, madeCtx := s.madeCtx + 1 } := by
  have hload : ∀ j, ({ s with list := list, ctxs := s.store s.made s.madeCtx, made := s.made + 1, madeCtx := s.madeCtx + 1 } : St).load j =
      if j = s.made then some s.madeCtx else s.load j := fun j => load_store s s.made s.madeCtx j
  have hmem : ∀ i ∈ list, i ∈ s.list ∨ i = s.made := by
    intro i hi
    rcases hl with rfl | rfl
    · exact .inl hi
    · simpa using hi
  refine ⟨?_, ?_, ?_, fun t ht => Nat.lt_succ_of_lt (h.freshT t ht), fun a ha => Nat.lt_succ_of_lt (h.freshA a ha), ?_,
    fun a ha => Nat.lt_succ_of_lt (h.ansFresh a ha), ?_, ?_, h.own3, h.agree⟩
  · intro i hi
    rw [hload]
    rcases hmem i hi with hi | rfl
    · obtain ⟨c, h1, h2, h3⟩ := h.listed i hi
      have := h.fresh i hi
      rw [if_neg (by omega)]
      exact ⟨c, h1, h2, h3⟩
    · rw [if_pos rfl]
      refine ⟨s.madeCtx, rfl, ?_, ?_⟩
      · intro t ht e; have := h.freshT t ht; omega
      · intro a ha e; have := h.freshA a ha; omega
  · show list.Nodup
    rcases hl with rfl | rfl
    · exact h.nodup
    · rw [List.nodup_append]
      refine ⟨h.nodup, by simp, ?_⟩
      intro a ha b hb
      have := h.fresh a ha
      simp only [List.mem_singleton] at hb
      omega
  · intro i hi
    rcases hmem i hi with hi | rfl
    · exact Nat.lt_succ_of_lt (h.fresh i hi)
    · exact Nat.lt_succ_self _
  · intro e he
    rcases mem_store he with rfl | he
    · exact Nat.lt_succ_self _
    · exact Nat.lt_succ_of_lt (h.ctxFresh e he)
  · intro e he a ha hea
    rcases mem_store he with rfl | he
    · have := h.ansFresh a ha
      have hea : s.madeCtx = a.2.1 := hea
      omega
    · exact h.own e he a ha hea
  · intro e he e' he' hee
    rcases mem_store he with rfl | he <;> rcases mem_store he' with rfl | he'
    · rfl
    · have := h.ctxFresh e' he'
      have hee : s.madeCtx = e'.2 := hee
      omega
    · have := h.ctxFresh e he
      have hee : e.2 = s.madeCtx := hee
      omega
    · exact h.own2 e he e' he' hee

theorem inv_step {s s' : St} {a : Act} (h : Inv s) (ha : exec s a = some s') : Inv s' := by
  cases a with
  | startNone =>
    simp only [exec, Option.some.injEq] at ha; subst ha
    exact ⟨h.listed, h.nodup, fun i hi => Nat.lt_succ_of_lt (h.fresh i hi), fun t ht => Nat.lt_succ_of_lt (h.freshT t ht),
      fun a ha => Nat.lt_succ_of_lt (h.freshA a ha), h.ctxFresh, h.ansFresh, h.own, h.own2, h.own3, h.agree⟩
  | startOk =>
    simp only [exec, Option.some.injEq] at ha; subst ha
    exact inv_start h _ (.inr rfl)
  | startFail =>
    simp only [exec, Option.some.injEq] at ha; subst ha
    exact inv_start h _ (.inl rfl)
  | get i =>
    unfold exec at ha
    by_cases hi : i ∈ s.list
    · simp only [hi, if_true, Option.some.injEq] at ha; subst ha
      refine ⟨?_, h.nodup, h.fresh, ?_, h.freshA, h.ctxFresh, h.ansFresh, h.own, h.own2, h.own3, h.agree⟩
      · intro j hj
        obtain ⟨c, h1, h2, h3⟩ := h.listed j hj
        refine ⟨c, h1, ?_, h3⟩
        intro t ht e
        rcases List.mem_append.1 ht with ht | ht
        · exact h2 t ht e
        · simp only [List.mem_singleton] at ht; subst ht; exact ⟨by simp, rfl⟩
      · intro t ht
        rcases List.mem_append.1 ht with ht | ht
        · exact h.freshT t ht
        · simp only [List.mem_singleton] at ht; subst ht; exact h.fresh i hi
    · simp only [hi, if_false] at ha; cases ha
  | drop i =>
    unfold exec at ha
    by_cases hi : i ∈ s.list
    · simp only [hi, if_true, Option.some.injEq] at ha; subst ha
      refine ⟨?_, h.nodup.erase i, fun j hj => h.fresh j (List.mem_of_mem_erase hj), ?_, h.freshA, h.ctxFresh, h.ansFresh, h.own, h.own2, h.own3, h.agree⟩
      · intro j hj
        obtain ⟨hne, hj⟩ := h.nodup.mem_erase_iff.1 hj
        obtain ⟨c, h1, h2, h3⟩ := h.listed j hj
        refine ⟨c, h1, ?_, h3⟩
        intro t ht e
        rcases List.mem_append.1 ht with ht | ht
        · exact h2 t ht e
        · simp only [List.mem_singleton] at ht; subst ht; exact absurd e.symm hne
      · intro t ht
        rcases List.mem_append.1 ht with ht | ht
        · exact h.freshT t ht
        · simp only [List.mem_singleton] at ht; subst ht; exact h.fresh i hi
    · simp only [hi, if_false] at ha; cases ha
  | load t =>
    unfold exec at ha
    cases ht : s.threads[t]? with
    | none => simp only [ht] at ha; cases ha
    | some x =>
      obtain ⟨i, b, ph⟩ := x
      have hm := mem_get ht
      cases ph with
      | missed => simp only [ht] at ha; cases ha
      | held c => simp only [ht] at ha; cases ha
      | before =>
        simp only [ht] at ha
        cases hl : s.load i with
        | none =>
          simp only [hl, Option.some.injEq] at ha; subst ha
          refine ⟨?_, h.nodup, h.fresh, ?_, h.freshA, h.ctxFresh, h.ansFresh, h.own, h.own2, h.own3, h.agree⟩
          · intro j hj
            obtain ⟨c, h1, h2, h3⟩ := h.listed j hj
            refine ⟨c, h1, ?_, h3⟩
            intro y hy e
            rcases mem_set hy with hy | rfl
            · exact h2 y hy e
            · have e : i = j := e
              subst e
              rw [hl] at h1; cases h1
          · intro y hy
            rcases mem_set hy with hy | rfl
            · exact h.freshT y hy
            · have hf := h.freshT _ hm; exact hf
        | some c =>
          simp only [hl, Option.some.injEq] at ha; subst ha
          have hc := mem_load hl
          refine ⟨?_, h.nodup, h.fresh, ?_, ?_, h.ctxFresh, ?_, ?_, h.own2, ?_, ?_⟩
          · intro j hj
            obtain ⟨c', h1, h2, h3⟩ := h.listed j hj
            refine ⟨c', h1, ?_, ?_⟩
            · intro y hy e
              rcases mem_set hy with hy | rfl
              · exact h2 y hy e
              · exact ⟨by simp, (h2 _ hm e).2⟩
            · intro a ha e
              rcases List.mem_cons.1 ha with rfl | ha
              · have e : i = j := e
                subst e
                rw [hl] at h1; exact Option.some.inj h1
              · exact h3 a ha e
          · intro y hy
            rcases mem_set hy with hy | rfl
            · exact h.freshT y hy
            · have hf := h.freshT _ hm; exact hf
          · intro a ha
            rcases List.mem_cons.1 ha with rfl | ha
            · exact h.freshT _ hm
            · exact h.freshA a ha
          · intro a ha
            rcases List.mem_cons.1 ha with rfl | ha
            · exact h.ctxFresh _ hc
            · exact h.ansFresh a ha
          · intro e he a ha hea
            rcases List.mem_cons.1 ha with rfl | ha
            · exact h.own2 e he (i, c) hc hea
            · exact h.own e he a ha hea
          · intro a ha b hb hab
            rcases List.mem_cons.1 ha with rfl | ha <;> rcases List.mem_cons.1 hb with rfl | hb
            · rfl
            · exact h.own (i, c) hc b hb hab
            · exact (h.own (i, c) hc a ha hab.symm).symm
            · exact h.own3 a ha b hb hab
          · intro a ha b hb hab h1 h2
            rcases List.mem_cons.1 ha with rfl | ha <;> rcases List.mem_cons.1 hb with rfl | hb
            · rfl
            · have hin : i ∈ s.list := by simpa using h1
              obtain ⟨c', hc', _, h3⟩ := h.listed i hin
              rw [hl] at hc'; cases hc'
              exact (h3 b hb hab.symm).symm
            · have hin : i ∈ s.list := by simpa using h2
              obtain ⟨c', hc', _, h3⟩ := h.listed i hin
              rw [hl] at hc'; cases hc'
              exact h3 a ha hab
            · exact h.agree a ha b hb hab h1 h2
  | store t =>
    unfold exec at ha
    cases ht : s.threads[t]? with
    | none => simp only [ht] at ha; cases ha
    | some x =>
      obtain ⟨i, b, ph⟩ := x
      have hm := mem_get ht
      cases ph with
      | before => simp only [ht] at ha; cases ha
      | held c => simp only [ht] at ha; cases ha
      | missed =>
        simp only [ht, Option.some.injEq] at ha; subst ha
        have hni : i ∉ s.list := by
          intro hi
          obtain ⟨_, _, h2, _⟩ := h.listed i hi
          exact (h2 _ hm rfl).1 rfl
        refine ⟨?_, h.nodup, h.fresh, ?_, ?_, ?_, ?_, ?_, ?_, ?_, ?_⟩
        · intro j hj
          obtain ⟨c', h1, h2, h3⟩ := h.listed j hj
          have hne : j ≠ i := fun e => hni (e ▸ hj)
          refine ⟨c', ?_, ?_, ?_⟩
          · exact (load_store s i s.madeCtx j).trans (by rw [if_neg hne]; exact h1)
          · intro y hy e
            rcases mem_set hy with hy | rfl
            · exact h2 y hy e
            · exact absurd e.symm hne
          · intro a ha e
            rcases List.mem_cons.1 ha with rfl | ha
            · exact absurd e.symm hne
            · exact h3 a ha e
        · intro y hy
          rcases mem_set hy with hy | rfl
          · exact h.freshT y hy
          · have hf := h.freshT _ hm; exact hf
        · intro a ha
          rcases List.mem_cons.1 ha with rfl | ha
          · exact h.freshT _ hm
          · exact h.freshA a ha
        · intro e he
          rcases mem_store he with rfl | he
          · exact Nat.lt_succ_self _
          · exact Nat.lt_succ_of_lt (h.ctxFresh e he)
        · intro a ha
          rcases List.mem_cons.1 ha with rfl | ha
          · exact Nat.lt_succ_self _
          · exact Nat.lt_succ_of_lt (h.ansFresh a ha)
        · intro e he a ha hea
          rcases mem_store he with rfl | he <;> rcases List.mem_cons.1 ha with rfl | ha
          · rfl
          · have := h.ansFresh a ha; have hea : s.madeCtx = a.2.1 := hea; omega
          · have := h.ctxFresh e he; have hea : e.2 = s.madeCtx := hea; omega
          · exact h.own e he a ha hea
        · intro e he e' he' hee
          rcases mem_store he with rfl | he <;> rcases mem_store he' with rfl | he'
          · rfl
          · have := h.ctxFresh e' he'; have hee : s.madeCtx = e'.2 := hee; omega
          · have := h.ctxFresh e he; have hee : e.2 = s.madeCtx := hee; omega
          · exact h.own2 e he e' he' hee
        · intro a ha b hb hab
          rcases List.mem_cons.1 ha with rfl | ha <;> rcases List.mem_cons.1 hb with rfl | hb
          · rfl
          · have := h.ansFresh b hb; have hab : s.madeCtx = b.2.1 := hab; omega
          · have := h.ansFresh a ha; have hab : a.2.1 = s.madeCtx := hab; omega
          · exact h.own3 a ha b hb hab
        · intro a ha b hb hab h1 h2
          rcases List.mem_cons.1 ha with rfl | ha <;> rcases List.mem_cons.1 hb with rfl | hb
          · rfl
          · exact absurd (by simpa using h1) hni
          · exact absurd (by simpa using h2) hni
          · exact h.agree a ha b hb hab h1 h2
  | stopped t ok =>
    unfold exec at ha
    cases ht : s.threads[t]? with
    | none => simp only [ht] at ha; cases ha
    | some x =>
      obtain ⟨i, b, ph⟩ := x
      have hm := mem_get ht
      cases b with
      | false => simp only [ht] at ha; cases ha
      | true =>
        cases ph with
        | before => simp only [ht] at ha; cases ha
        | missed => simp only [ht] at ha; cases ha
        | held c =>
          simp only [ht, Option.some.injEq] at ha; subst ha
          have hni : i ∉ s.list := by
            intro hi
            obtain ⟨_, _, h2, _⟩ := h.listed i hi
            exact absurd (h2 _ hm rfl).2 (by simp)
          have hsub : ∀ e ∈ (if ok = true then s.ctxs.filter (fun e => decide (e.1 ≠ i)) else s.ctxs), e ∈ s.ctxs := by
            intro e he
            cases ok with
            | false => exact he
            | true => exact (List.mem_filter.1 he).1
          refine ⟨?_, h.nodup, h.fresh, ?_, h.freshA, fun e he => h.ctxFresh e (hsub e he), h.ansFresh, fun e he => h.own e (hsub e he),
            fun e he e' he' => h.own2 e (hsub e he) e' (hsub e' he'), h.own3, h.agree⟩
          · intro j hj
            obtain ⟨c', h1, h2, h3⟩ := h.listed j hj
            have hne : j ≠ i := fun e => hni (e ▸ hj)
            refine ⟨c', ?_, ?_, h3⟩
            · cases ok with
              | false => exact h1
              | true => exact (load_delete s i j).trans (by rw [if_neg hne]; exact h1)
            · intro y hy e
              rcases mem_set hy with hy | rfl
              · exact h2 y hy e
              · exact absurd e.symm hne
          · intro y hy
            rcases mem_set hy with hy | rfl
            · exact h.freshT y hy
            · have hf := h.freshT _ hm; exact hf

theorem inv_reach {g : St → Act → Prop} {s : St} (h : Reach g s) : Inv s := by
  induction h with
  | init => exact ⟨by simp, by simp, by simp, by simp, by simp, by simp, by simp, by simp, by simp, by simp, by simp⟩
  | step _ _ ha ih => exact inv_step ih ha

/-- every schedule -/
def any : St → Act → Prop := fun _ _ => True

/-- **C244** Everybody who asks for the context of an instance while the plugin has the instance is given the same, however the calls
interleave. -/
theorem C244_same {s : St} (h : Reach any s) {i c c' : Nat} (h1 : (i, c, true) ∈ s.answers) (h2 : (i, c', true) ∈ s.answers) : c = c' :=
  (inv_reach h).agree _ h1 _ h2 rfl rfl rfl

/-- **C244** It is the one stored for it, which is there for every instance the plugin has. -/
theorem C244_stored {s : St} (h : Reach any s) {i : Nat} (hi : i ∈ s.list) : ∃ c, s.load i = some c ∧ ∀ c' b, (i, c', b) ∈ s.answers → c' = c := by
  obtain ⟨c, h1, _, h3⟩ := (inv_reach h).listed i hi
  exact ⟨c, h1, fun c' b hm => h3 _ hm rfl⟩

/-- **C244** No two instances share a context, so what one sets is not seen by the other. -/
theorem C244_own {s : St} (h : Reach any s) {i j c : Nat} {b b' : Bool} (h1 : (i, c, b) ∈ s.answers) (h2 : (j, c, b') ∈ s.answers) : i = j :=
  (inv_reach h).own3 _ h1 _ h2 rfl

/-! ### C245 -/

/-- starting and stopping does not fail, and an instance is dropped only when nobody is about to ask for its context -/
def orderly : St → Act → Prop
  | _, .startFail => False
  | _, .stopped _ ok => ok = true
  | s, .drop i => ∀ t ∈ s.threads, t.inst = i → ∃ c, t.ph = .held c
  | _, _ => True

/-- what is kept in orderly runs -/
structure Inv2 (s : St) : Prop where
  kept : ∀ e ∈ s.ctxs, e.1 ∈ s.list ∨ ∃ t ∈ s.threads, t.inst = e.1 ∧ t.stop = true
  calls : ∀ t ∈ s.threads, t.inst ∉ s.list → (∃ c, t.ph = .held c) ∨ t.stop = true ∧ t.ph = .before
  live : ∀ t ∈ s.threads, t.stop = true → ∃ c, s.load t.inst = some c
  once : ∀ (m n : Nat) (a b : Thread), s.threads[m]? = some a → s.threads[n]? = some b → a.stop = true → b.stop = true → a.inst = b.inst → m = n

theorem mem_set_or {l : List Thread} {n : Nat} {a b x : Thread} (hn : l[n]? = some b) (hx : x ∈ l) : x ∈ l.set n a ∨ x = b := by
  obtain ⟨m, hm⟩ := List.getElem?_of_mem hx
  by_cases hmn : n = m
  · subst hmn; rw [hn] at hm; exact .inr (Option.some.inj hm).symm
  · exact .inl (List.mem_of_getElem? (i := m) (by rw [List.getElem?_set_ne hmn]; exact hm))

theorem self_mem_set {l : List Thread} {n : Nat} {a b : Thread} (hn : l[n]? = some b) : a ∈ l.set n a := by
  obtain ⟨hlt, _⟩ := List.getElem?_eq_some_iff.1 hn
  exact List.mem_of_getElem? (i := n) (by rw [List.getElem?_set_self hlt])

/-- what a place holds after a change that keeps the instance and does not begin a stop -/
theorem get_set {l : List Thread} {n m : Nat} {a b x : Thread} (hn : l[n]? = some b) (hx : (l.set n a)[m]? = some x) (hi : a.inst = b.inst)
    (hs : a.stop = true → b.stop = true) : ∃ y, l[m]? = some y ∧ y.inst = x.inst ∧ (x.stop = true → y.stop = true) := by
  by_cases hmn : n = m
  · subst hmn
    obtain ⟨hlt, _⟩ := List.getElem?_eq_some_iff.1 hn
    rw [List.getElem?_set_self hlt] at hx
    cases hx
    exact ⟨b, hn, hi.symm, hs⟩
  · rw [List.getElem?_set_ne hmn] at hx
    exact ⟨x, hx, rfl, id⟩

theorem once_set {l : List Thread} {n : Nat} {a b : Thread} (hn : l[n]? = some b) (hi : a.inst = b.inst) (hs : a.stop = true → b.stop = true)
    (h : ∀ (m n : Nat) (a b : Thread), l[m]? = some a → l[n]? = some b → a.stop = true → b.stop = true → a.inst = b.inst → m = n) :
    ∀ (m k : Nat) (x y : Thread), (l.set n a)[m]? = some x → (l.set n a)[k]? = some y → x.stop = true → y.stop = true → x.inst = y.inst → m = k := by
  intro m k x y hx hy h1 h2 h3
  obtain ⟨x', e1, e2, e3⟩ := get_set hn hx hi hs
  obtain ⟨y', f1, f2, f3⟩ := get_set hn hy hi hs
  exact h m k x' y' e1 f1 (e3 h1) (f3 h2) (by rw [e2, f2, h3])

theorem get_append_one {l : List Thread} {a x : Thread} {m : Nat} (h : (l ++ [a])[m]? = some x) : l[m]? = some x ∨ m = l.length ∧ x = a := by
  by_cases hm : m < l.length
  · rw [List.getElem?_append_left hm] at h; exact .inl h
  · rw [List.getElem?_append_right (by omega)] at h
    have : m - l.length = 0 := by
      obtain ⟨hlt, _⟩ := List.getElem?_eq_some_iff.1 h
      simp only [List.length_singleton] at hlt; omega
    rw [this] at h
    exact .inr ⟨by omega, (Option.some.inj h).symm⟩

theorem inv2_step {s s' : St} {a : Act} (h1 : Inv s) (h : Inv2 s) (hg : orderly s a) (ha : exec s a = some s') : Inv2 s' := by
  cases a with
  | startNone =>
    simp only [exec, Option.some.injEq] at ha; subst ha
    exact ⟨h.kept, h.calls, h.live, h.once⟩
  | startFail => exact absurd hg id
  | startOk =>
    simp only [exec, Option.some.injEq] at ha; subst ha
    refine ⟨?_, ?_, ?_, h.once⟩
    · intro e he
      rcases mem_store he with rfl | he
      · exact .inl (by simp)
      · rcases h.kept e he with hl | ht
        · exact .inl (List.mem_append_left _ hl)
        · exact .inr ht
    · intro t ht hn
      exact h.calls t ht fun hl => hn (List.mem_append_left _ hl)
    · intro t ht hs
      have := h1.freshT t ht
      obtain ⟨c, hc⟩ := h.live t ht hs
      exact ⟨c, (load_store s s.made s.madeCtx t.inst).trans (by rw [if_neg (by omega)]; exact hc)⟩
  | get i =>
    unfold exec at ha
    by_cases hi : i ∈ s.list
    · simp only [hi, if_true, Option.some.injEq] at ha; subst ha
      refine ⟨?_, ?_, ?_, ?_⟩
      · intro e he
        rcases h.kept e he with hl | ⟨t, ht, h2⟩
        · exact .inl hl
        · exact .inr ⟨t, List.mem_append_left _ ht, h2⟩
      · intro t ht hn
        rcases List.mem_append.1 ht with ht | ht
        · exact h.calls t ht hn
        · simp only [List.mem_singleton] at ht; subst ht; exact absurd hi hn
      · intro t ht hs
        rcases List.mem_append.1 ht with ht | ht
        · exact h.live t ht hs
        · simp only [List.mem_singleton] at ht; subst ht; cases hs
      · intro m n x y hx hy hsx hsy he
        rcases get_append_one hx with hx | ⟨_, rfl⟩
        · rcases get_append_one hy with hy | ⟨_, rfl⟩
          · exact h.once m n x y hx hy hsx hsy he
          · cases hsy
        · cases hsx
    · simp only [hi, if_false] at ha; cases ha
  | drop i =>
    unfold exec at ha
    by_cases hi : i ∈ s.list
    · simp only [hi, if_true, Option.some.injEq] at ha; subst ha
      obtain ⟨c, hc, hth, _⟩ := h1.listed i hi
      have hnew : (⟨i, true, .before⟩ : Thread) ∈ s.threads ++ [⟨i, true, .before⟩] := List.mem_append_right _ (List.mem_singleton.2 rfl)
      refine ⟨?_, ?_, ?_, ?_⟩
      · intro e he
        rcases h.kept e he with hl | ⟨t, ht, h2⟩
        · by_cases hei : e.1 = i
          · exact .inr ⟨_, hnew, hei.symm, rfl⟩
          · exact .inl ((List.mem_erase_of_ne hei).2 hl)
        · exact .inr ⟨t, List.mem_append_left _ ht, h2⟩
      · intro t ht hn
        rcases List.mem_append.1 ht with ht | ht
        · by_cases hti : t.inst = i
          · exact .inl (hg t ht hti)
          · exact h.calls t ht fun hl => hn ((List.mem_erase_of_ne hti).2 hl)
        · simp only [List.mem_singleton] at ht; subst ht; exact .inr ⟨rfl, rfl⟩
      · intro t ht hs
        rcases List.mem_append.1 ht with ht | ht
        · exact h.live t ht hs
        · simp only [List.mem_singleton] at ht; subst ht; exact ⟨c, hc⟩
      · intro m n x y hx hy hsx hsy he
        rcases get_append_one hx with hx | ⟨hm, rfl⟩ <;> rcases get_append_one hy with hy | ⟨hn, rfl⟩
        · exact h.once m n x y hx hy hsx hsy he
        · have := (hth x (mem_get hx) he).2; rw [this] at hsx; cases hsx
        · have := (hth y (mem_get hy) he.symm).2; rw [this] at hsy; cases hsy
        · omega
    · simp only [hi, if_false] at ha; cases ha
  | load t =>
    unfold exec at ha
    cases ht : s.threads[t]? with
    | none => simp only [ht] at ha; cases ha
    | some x =>
      obtain ⟨i, b, ph⟩ := x
      have hm := mem_get ht
      cases ph with
      | missed => simp only [ht] at ha; cases ha
      | held c => simp only [ht] at ha; cases ha
      | before =>
        simp only [ht] at ha
        have hload : ∃ c, s.load i = some c := by
          by_cases hi : i ∈ s.list
          · obtain ⟨c, hc, _⟩ := h1.listed i hi; exact ⟨c, hc⟩
          · rcases h.calls _ hm hi with ⟨c, hc⟩ | ⟨hs, _⟩
            · cases hc
            · exact h.live _ hm hs
        obtain ⟨c, hl⟩ := hload
        simp only [hl, Option.some.injEq] at ha; subst ha
        refine ⟨?_, ?_, ?_, ?_⟩
        · intro e he
          rcases h.kept e he with hl | ⟨y, hy, h2, h3⟩
          · exact .inl hl
          · rcases mem_set_or (a := ⟨i, b, .held c⟩) ht hy with hy | rfl
            · exact .inr ⟨y, hy, h2, h3⟩
            · exact .inr ⟨_, self_mem_set ht, h2, h3⟩
        · intro y hy hn
          rcases mem_set hy with hy | rfl
          · exact h.calls y hy hn
          · exact .inl ⟨c, rfl⟩
        · intro y hy hs
          rcases mem_set hy with hy | rfl
          · exact h.live y hy hs
          · exact ⟨c, hl⟩
        · exact once_set ht rfl id h.once
  | store t =>
    unfold exec at ha
    cases ht : s.threads[t]? with
    | none => simp only [ht] at ha; cases ha
    | some x =>
      obtain ⟨i, b, ph⟩ := x
      have hm := mem_get ht
      cases ph with
      | before => simp only [ht] at ha; cases ha
      | held c => simp only [ht] at ha; cases ha
      | missed =>
        by_cases hi : i ∈ s.list
        · obtain ⟨_, _, h2, _⟩ := h1.listed i hi
          exact absurd rfl (h2 _ hm rfl).1
        · rcases h.calls _ hm hi with ⟨c, hc⟩ | ⟨_, hc⟩ <;> cases hc
  | stopped t ok =>
    have hok : ok = true := hg
    subst hok
    unfold exec at ha
    cases ht : s.threads[t]? with
    | none => simp only [ht] at ha; cases ha
    | some x =>
      obtain ⟨i, b, ph⟩ := x
      have hm := mem_get ht
      cases b with
      | false => simp only [ht] at ha; cases ha
      | true =>
        cases ph with
        | before => simp only [ht] at ha; cases ha
        | missed => simp only [ht] at ha; cases ha
        | held c =>
          simp only [ht, Option.some.injEq, if_true] at ha; subst ha
          refine ⟨?_, ?_, ?_, ?_⟩
          · intro e he
            obtain ⟨he, hne⟩ := List.mem_filter.1 he
            have hne : e.1 ≠ i := by simpa using hne
            rcases h.kept e he with hl | ⟨y, hy, h2, h3⟩
            · exact .inl hl
            · rcases mem_set_or (a := ⟨i, false, .held c⟩) ht hy with hy | rfl
              · exact .inr ⟨y, hy, h2, h3⟩
              · exact absurd h2.symm hne
          · intro y hy hn
            rcases mem_set hy with hy | rfl
            · exact h.calls y hy hn
            · exact .inl ⟨c, rfl⟩
          · intro y hy hs
            have hne : y.inst ≠ i := by
              intro e
              obtain ⟨m, hm'⟩ := List.getElem?_of_mem hy
              by_cases hmt : t = m
              · subst hmt
                obtain ⟨hlt, _⟩ := List.getElem?_eq_some_iff.1 ht
                rw [List.getElem?_set_self hlt] at hm'
                cases hm'; cases hs
              · rw [List.getElem?_set_ne hmt] at hm'
                exact hmt (h.once t m _ y ht hm' rfl hs e.symm)
            rcases mem_set hy with hy | rfl
            · obtain ⟨c', hc'⟩ := h.live y hy hs
              exact ⟨c', (load_delete s i y.inst).trans (by rw [if_neg hne]; exact hc')⟩
            · cases hs
          · exact once_set ht rfl (fun e => by cases e) h.once

theorem inv2_reach {s : St} (h : Reach orderly s) : Inv2 s := by
  induction h with
  | init => exact ⟨by simp, by simp, by simp, by simp⟩
  | step h hg ha ih => exact inv2_step (inv_reach h) ih hg ha

/-- **C245** (partial: starting and stopping an instance does not fail, and an instance is dropped only when nobody who was given it has still to
ask for its context) When no stop is in progress, a context is kept for the instances the plugin has, and for no others. -/
theorem C245_kept_partial {s : St} (h : Reach orderly s) (hs : ∀ t ∈ s.threads, t.stop = false) (i : Nat) : (∃ c, s.load i = some c) ↔ i ∈ s.list := by
  have h2 : Inv2 s := inv2_reach h
  constructor
  · rintro ⟨c, hc⟩
    rcases h2.kept _ (mem_load hc) with hl | ⟨t, ht, _, h3⟩
    · exact hl
    · rw [hs t ht] at h3; cases h3
  · intro hi
    obtain ⟨c, hc, _⟩ := (inv_reach h).listed i hi
    exact ⟨c, hc⟩

/-- **C245** What was made for an instance whose code fails to start is kept for ever: whatever happens afterwards, it is there. -/
theorem C245_failed_false : ∃ s, Reach any s ∧ s.list = [] ∧ s.threads = [] ∧ (∃ c, s.load 0 = some c) := by
  refine ⟨_, .step .init trivial (a := .startFail) rfl, rfl, rfl, 0, rfl⟩

/-- **C245** It is kept as well for an instance whose code fails to stop. -/
theorem C245_stop_false : ∃ s, Reach any s ∧ s.list = [] ∧ (∀ t ∈ s.threads, t.stop = false) ∧ (∃ c, s.load 0 = some c) := by
  refine ⟨_, .step (.step (.step (.step .init trivial (a := .startOk) rfl) trivial (a := .drop 0) rfl) trivial (a := .load 0) rfl) trivial
    (a := .stopped 0 false) rfl, rfl, ?_, 0, rfl⟩
  decide

/-- **C245** A stream that was given an instance just before the instance is dropped is given a second context for it, without what the instance
had set, and this context is kept for ever. -/
theorem C245_late_false : ∃ s, Reach any s ∧ s.list = [] ∧ (∀ t ∈ s.threads, ∃ c, t.stop = false ∧ t.ph = .held c) ∧ s.load 0 = some 1 ∧
    (0, 0, false) ∈ s.answers ∧ (0, 1, false) ∈ s.answers := by
  refine ⟨_, .step (.step (.step (.step (.step (.step (.step .init trivial (a := .startOk) rfl) trivial (a := .get 0) rfl) trivial (a := .drop 0) rfl)
    trivial (a := .load 1) rfl) trivial (a := .stopped 1 true) rfl) trivial (a := .load 0) rfl) trivial (a := .store 0) rfl, rfl, ?_, rfl, ?_, ?_⟩
  · intro t ht
    have : t = ⟨0, false, .held 1⟩ ∨ t = ⟨0, false, .held 0⟩ := by simpa using ht
    rcases this with rfl | rfl
    · exact ⟨1, rfl, rfl⟩
    · exact ⟨0, rfl, rfl⟩
  · simp
  · simp

/-- the context of an instance that is no longer there is never deleted if nobody is stopping it -/
theorem leak_step {s s' : St} {a : Act} {i : Nat} (h1 : Inv s) (hi : i ∉ s.list ∧ i < s.made) (ht : ∀ t ∈ s.threads, t.inst = i → t.stop = false)
    (hl : ∃ c, s.load i = some c) (ha : exec s a = some s') :
    (i ∉ s'.list ∧ i < s'.made) ∧ (∀ t ∈ s'.threads, t.inst = i → t.stop = false) ∧ ∃ c, s'.load i = some c := by
  obtain ⟨c0, hc0⟩ := hl
  cases a with
  | startNone =>
    simp only [exec, Option.some.injEq] at ha; subst ha
    exact ⟨⟨hi.1, Nat.lt_succ_of_lt hi.2⟩, ht, c0, hc0⟩
  | startOk =>
    simp only [exec, Option.some.injEq] at ha; subst ha
    have hne : i ≠ s.made := by omega
    refine ⟨⟨?_, Nat.lt_succ_of_lt hi.2⟩, ht, c0, (load_store s s.made s.madeCtx i).trans (by rw [if_neg hne]; exact hc0)⟩
    simp [hi.1, hne]
  | startFail =>
    simp only [exec, Option.some.injEq] at ha; subst ha
    have hne : i ≠ s.made := by omega
    exact ⟨⟨hi.1, Nat.lt_succ_of_lt hi.2⟩, ht, c0, (load_store s s.made s.madeCtx i).trans (by rw [if_neg hne]; exact hc0)⟩
  | get j =>
    unfold exec at ha
    by_cases hj : j ∈ s.list
    · simp only [hj, if_true, Option.some.injEq] at ha; subst ha
      refine ⟨hi, ?_, c0, hc0⟩
      intro t h e
      rcases List.mem_append.1 h with h | h
      · exact ht t h e
      · simp only [List.mem_singleton] at h; subst h; rfl
    · simp only [hj, if_false] at ha; cases ha
  | drop j =>
    unfold exec at ha
    by_cases hj : j ∈ s.list
    · simp only [hj, if_true, Option.some.injEq] at ha; subst ha
      refine ⟨⟨fun h => hi.1 (List.mem_of_mem_erase h), hi.2⟩, ?_, c0, hc0⟩
      intro t h e
      rcases List.mem_append.1 h with h | h
      · exact ht t h e
      · simp only [List.mem_singleton] at h; subst h
        have e : j = i := e
        subst e; exact absurd hj hi.1
    · simp only [hj, if_false] at ha; cases ha
  | load t =>
    unfold exec at ha
    cases hx : s.threads[t]? with
    | none => simp only [hx] at ha; cases ha
    | some x =>
      obtain ⟨j, b, ph⟩ := x
      have hm := mem_get hx
      cases ph with
      | missed => simp only [hx] at ha; cases ha
      | held c => simp only [hx] at ha; cases ha
      | before =>
        simp only [hx] at ha
        cases hl : s.load j with
        | none =>
          simp only [hl, Option.some.injEq] at ha; subst ha
          refine ⟨hi, ?_, c0, hc0⟩
          intro y hy e
          rcases mem_set hy with hy | rfl
          · exact ht y hy e
          · have hf := ht _ hm e; exact hf
        | some c =>
          simp only [hl, Option.some.injEq] at ha; subst ha
          refine ⟨hi, ?_, c0, hc0⟩
          intro y hy e
          rcases mem_set hy with hy | rfl
          · exact ht y hy e
          · have hf := ht _ hm e; exact hf
  | store t =>
    unfold exec at ha
    cases hx : s.threads[t]? with
    | none => simp only [hx] at ha; cases ha
    | some x =>
      obtain ⟨j, b, ph⟩ := x
      have hm := mem_get hx
      cases ph with
      | before => simp only [hx] at ha; cases ha
      | held c => simp only [hx] at ha; cases ha
      | missed =>
        simp only [hx, Option.some.injEq] at ha; subst ha
        refine ⟨hi, ?_, ?_⟩
        · intro y hy e
          rcases mem_set hy with hy | rfl
          · exact ht y hy e
          · have hf := ht _ hm e; exact hf
        · have := load_store s j s.madeCtx i
          by_cases hji : i = j
          · exact ⟨s.madeCtx, this.trans (by rw [if_pos hji])⟩
          · exact ⟨c0, this.trans (by rw [if_neg hji]; exact hc0)⟩
  | stopped t ok =>
    unfold exec at ha
    cases hx : s.threads[t]? with
    | none => simp only [hx] at ha; cases ha
    | some x =>
      obtain ⟨j, b, ph⟩ := x
      have hm := mem_get hx
      cases b with
      | false => simp only [hx] at ha; cases ha
      | true =>
        cases ph with
        | before => simp only [hx] at ha; cases ha
        | missed => simp only [hx] at ha; cases ha
        | held c =>
          simp only [hx, Option.some.injEq] at ha; subst ha
          have hne : i ≠ j := by
            rintro rfl
            have := ht _ hm rfl
            cases this
          refine ⟨hi, ?_, c0, ?_⟩
          · intro y hy e
            rcases mem_set hy with hy | rfl
            · exact ht y hy e
            · rfl
          · cases ok with
            | false => exact hc0
            | true => exact (load_delete s j i).trans (by rw [if_neg hne]; exact hc0)

/-- all states that can follow -/
inductive Later : St → St → Prop where
  | refl (s : St) : Later s s
  | step {s s1 s2 : St} {a : Act} : Later s s1 → exec s1 a = some s2 → Later s s2

/-- **C245** In each of these three cases the context is there for ever: once an instance has gone and nobody is stopping it, what is kept for it is
never deleted, whatever happens. -/
theorem C245_leak_false {s s' : St} (h : Reach any s) {i c : Nat} (hi : i ∉ s.list) (hm : i < s.made) (ht : ∀ t ∈ s.threads, t.inst = i → t.stop = false)
    (hl : s.load i = some c) (hs : Later s s') : ∃ c', s'.load i = some c' := by
  have key : Inv s' ∧ (i ∉ s'.list ∧ i < s'.made) ∧ (∀ t ∈ s'.threads, t.inst = i → t.stop = false) ∧ ∃ c, s'.load i = some c := by
    induction hs with
    | refl => exact ⟨inv_reach h, ⟨hi, hm⟩, ht, c, hl⟩
    | step _ ha ih =>
      obtain ⟨k1, k2, k3, k4⟩ := ih
      exact ⟨inv_step k1 ha, leak_step k1 k2 k3 k4 ha⟩
  exact key.2.2.2

/-! ### examples -/

/-- two streams and a second instance: the streams of the first instance have the same context, which is deleted when the instance is stopped -/
example : (run {} [.startOk, .startOk, .get 0, .get 0, .get 1, .load 1, .load 2, .load 0, .drop 0, .load 3, .stopped 3 true]).map
    (fun s => (s.list, s.ctxs, s.answers)) = some ([1], [(1, 1)], [(0, 0, false), (0, 0, true), (1, 1, true), (0, 0, true)]) := by decide

end Verif.Props.InstCtx
