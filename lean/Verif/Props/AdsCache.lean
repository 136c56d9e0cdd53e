import Verif.Ads.Client
/-
C26, C27: what the xDS cache holds, and what a rejected update leaves behind.
-/
namespace Verif.Ads

/-! ### Association lists -/

theorem AMap.mem_del {m : AMap} {k : String} {e} : e ∈ m.del k ↔ e ∈ m ∧ e.1 ≠ k := by
  simp [AMap.del]

theorem AMap.mem_put {m : AMap} {k v e} : e ∈ m.put k v ↔ e = (k, v) ∨ (e ∈ m ∧ e.1 ≠ k) := by
  simp [AMap.put, AMap.mem_del]

theorem AMap.mem_putAll {m : AMap} : ∀ {t : AMap} {e}, e ∈ m.putAll t → e ∈ t ∨ e ∈ m
  | [], e, h => Or.inr h
  | x :: t, e, h => by
    have h' : e ∈ (AMap.putAll m t).put x.1 x.2 := h
    rcases AMap.mem_put.mp h' with rfl | ⟨h', _⟩
    · exact Or.inl (by simp)
    · rcases AMap.mem_putAll h' with h' | h'
      · exact Or.inl (by simp [h'])
      · exact Or.inr h'

theorem AMap.get_mem {m : AMap} {k r} (h : m.get k = some r) : (k, r) ∈ m := by
  unfold AMap.get at h
  cases hf : m.find? (·.1 = k) with
  | none => rw [hf] at h; cases h
  | some e =>
    rw [hf] at h
    have h1 := List.find?_some hf
    simp only [decide_eq_true_eq] at h1
    have h2 := List.mem_of_find?_eq_some hf
    simp only [Option.map_some, Option.some.injEq] at h
    rw [← h1, ← h]
    exact h2

/-! ### What a response delivers -/

/-- The response contains the resource `r` under the name `n`. -/
def Delivers : Resp → String → Resource → Prop
  | .sotw _ _ _ _ res, n, r => (.good r ∈ res ∧ r.name = n) ∨ ∃ t, .table t ∈ res ∧ (n, some r) ∈ t
  | .delta _ _ _ res _, n, r => (n, .good r) ∈ res ∨ ∃ m t, (m, .table t) ∈ res ∧ (n, some r) ∈ t

theorem addLoop_mem {c : Cache} : ∀ {rs t t'}, addLoop c rs t = some t' → ∀ e ∈ t',
    e ∈ t ∨ ((e.1, AnyRes.good e.2) ∈ rs ∧ c.isSub e.1 = true)
  | [], t, t', h, e, he => by
    simp only [addLoop, Option.some.injEq] at h
    subst h; exact Or.inl he
  | (_, .null) :: rs, t, t', h, e, he => by
    simp only [addLoop] at h
    rcases addLoop_mem h e he with h' | ⟨h', hs⟩
    · exact Or.inl h'
    · exact Or.inr ⟨by simp [h'], hs⟩
  | (_, .bad) :: rs, t, t', h, e, he => by simp [addLoop] at h
  | (_, .table _) :: rs, t, t', h, e, he => by simp [addLoop] at h
  | (n, .good r) :: rs, t, t', h, e, he => by
    simp only [addLoop] at h
    split at h
    · rcases addLoop_mem h e he with h' | ⟨h', hs⟩
      · exact Or.inl h'
      · exact Or.inr ⟨by simp [h'], hs⟩
    · rename_i hsub
      split at h
      · cases h
      · rcases addLoop_mem h e he with h' | ⟨h', hs⟩
        · rcases AMap.mem_put.mp h' with rfl | ⟨h', _⟩
          · exact Or.inr ⟨by simp, by simpa using hsub⟩
          · exact Or.inl h'
        · exact Or.inr ⟨by simp [h'], hs⟩

theorem setLoop_mem {c : Cache} : ∀ {rs res t res' ot}, setLoop c rs res t = (res', ot) →
    (∀ e ∈ res', e ∈ res) ∧
    (∀ t', ot = some t' → ∀ e ∈ t', e ∈ t ∨ (AnyRes.good e.2 ∈ rs ∧ e.2.name = e.1 ∧ c.isSub e.1 = true))
  | [], res, t, res', ot, h => by
    simp only [setLoop, Prod.mk.injEq] at h
    obtain ⟨rfl, rfl⟩ := h
    refine ⟨fun e he => he, ?_⟩
    intro t' ht e he
    injection ht with ht
    subst ht; exact Or.inl he
  | .null :: rs, res, t, res', ot, h => by
    simp only [setLoop] at h
    obtain ⟨h1, h2⟩ := setLoop_mem h
    refine ⟨h1, fun t' ht e he => ?_⟩
    rcases h2 t' ht e he with h' | ⟨h', hs⟩
    · exact Or.inl h'
    · exact Or.inr ⟨by simp [h'], hs⟩
  | .bad :: rs, res, t, res', ot, h => by
    simp only [setLoop, Prod.mk.injEq] at h
    obtain ⟨rfl, rfl⟩ := h
    exact ⟨fun e he => he, by simp⟩
  | .table _ :: rs, res, t, res', ot, h => by
    simp only [setLoop, Prod.mk.injEq] at h
    obtain ⟨rfl, rfl⟩ := h
    exact ⟨fun e he => he, by simp⟩
  | .good r :: rs, res, t, res', ot, h => by
    simp only [setLoop] at h
    split at h
    · obtain ⟨h1, h2⟩ := setLoop_mem h
      refine ⟨fun e he => (AMap.mem_del.mp (h1 e he)).1, fun t' ht e he => ?_⟩
      rcases h2 t' ht e he with h' | ⟨h', hs⟩
      · exact Or.inl h'
      · exact Or.inr ⟨by simp [h'], hs⟩
    · rename_i hsub
      split at h
      · simp only [Prod.mk.injEq] at h
        obtain ⟨rfl, rfl⟩ := h
        exact ⟨fun e he => he, by simp⟩
      · obtain ⟨h1, h2⟩ := setLoop_mem h
        refine ⟨h1, fun t' ht e he => ?_⟩
        rcases h2 t' ht e he with h' | ⟨h', hs⟩
        · rcases AMap.mem_put.mp h' with rfl | ⟨h', _⟩
          · exact Or.inr ⟨by simp, rfl, by simpa using hsub⟩
          · exact Or.inl h'
        · exact Or.inr ⟨by simp [h'], hs⟩

theorem tableLoop_mem {del : Bool} {c : Cache} : ∀ {es res t res' ot}, tableLoop del c es res t = (res', ot) →
    (∀ e ∈ res', e ∈ res) ∧
    (∀ t', ot = some t' → ∀ e ∈ t', e ∈ t ∨ ((e.1, some e.2) ∈ es ∧ c.isSub e.1 = true))
  | [], res, t, res', ot, h => by
    simp only [tableLoop, Prod.mk.injEq] at h
    obtain ⟨rfl, rfl⟩ := h
    refine ⟨fun e he => he, ?_⟩
    intro t' ht e he
    injection ht with ht
    subst ht; exact Or.inl he
  | (_, none) :: rs, res, t, res', ot, h => by
    simp only [tableLoop] at h
    obtain ⟨h1, h2⟩ := tableLoop_mem h
    refine ⟨h1, fun t' ht e he => ?_⟩
    rcases h2 t' ht e he with h' | ⟨h', hs⟩
    · exact Or.inl h'
    · exact Or.inr ⟨by simp [h'], hs⟩
  | (n, some r) :: rs, res, t, res', ot, h => by
    simp only [tableLoop] at h
    split at h
    · obtain ⟨h1, h2⟩ := tableLoop_mem h
      refine ⟨fun e he => ?_, fun t' ht e he => ?_⟩
      · have := h1 e he
        split at this
        · exact (AMap.mem_del.mp this).1
        · exact this
      · rcases h2 t' ht e he with h' | ⟨h', hs⟩
        · exact Or.inl h'
        · exact Or.inr ⟨by simp [h'], hs⟩
    · rename_i hsub
      split at h
      · simp only [Prod.mk.injEq] at h
        obtain ⟨rfl, rfl⟩ := h
        exact ⟨fun e he => he, by simp⟩
      · obtain ⟨h1, h2⟩ := tableLoop_mem h
        refine ⟨h1, fun t' ht e he => ?_⟩
        rcases h2 t' ht e he with h' | ⟨h', hs⟩
        · rcases AMap.mem_put.mp h' with rfl | ⟨h', _⟩
          · exact Or.inr ⟨by simp, by simpa using hsub⟩
          · exact Or.inl h'
        · exact Or.inr ⟨by simp [h'], hs⟩

theorem istioLoop_mem {del : Bool} {c : Cache} : ∀ {rs res t res' ot}, istioLoop del c rs res t = (res', ot) →
    (∀ e ∈ res', e ∈ res) ∧
    (∀ t', ot = some t' → ∀ e ∈ t', e ∈ t ∨ ∃ tb, AnyRes.table tb ∈ rs ∧ (e.1, some e.2) ∈ tb ∧ c.isSub e.1 = true)
  | [], res, t, res', ot, h => by
    simp only [istioLoop, Prod.mk.injEq] at h
    obtain ⟨rfl, rfl⟩ := h
    refine ⟨fun e he => he, ?_⟩
    intro t' ht e he
    injection ht with ht
    subst ht; exact Or.inl he
  | .null :: rs, res, t, res', ot, h => by
    simp only [istioLoop] at h
    obtain ⟨h1, h2⟩ := istioLoop_mem h
    refine ⟨h1, fun t' ht e he => ?_⟩
    rcases h2 t' ht e he with h' | ⟨tb, h', hs⟩
    · exact Or.inl h'
    · exact Or.inr ⟨tb, by simp [h'], hs⟩
  | .bad :: rs, res, t, res', ot, h => by
    simp only [istioLoop, Prod.mk.injEq] at h
    obtain ⟨rfl, rfl⟩ := h
    exact ⟨fun e he => he, by simp⟩
  | .good _ :: rs, res, t, res', ot, h => by
    simp only [istioLoop, Prod.mk.injEq] at h
    obtain ⟨rfl, rfl⟩ := h
    exact ⟨fun e he => he, by simp⟩
  | .table es :: rs, res, t, res', ot, h => by
    simp only [istioLoop] at h
    split at h
    · rename_i res1 h1
      simp only [Prod.mk.injEq] at h
      obtain ⟨rfl, rfl⟩ := h
      exact ⟨(tableLoop_mem h1).1, by simp⟩
    · rename_i res1 t1 h1
      obtain ⟨a1, a2⟩ := tableLoop_mem h1
      obtain ⟨b1, b2⟩ := istioLoop_mem h
      refine ⟨fun e he => a1 e (b1 e he), fun t' ht e he => ?_⟩
      rcases b2 t' ht e he with h' | ⟨tb, h', hs⟩
      · rcases a2 t1 rfl e h' with h' | ⟨h', hs⟩
        · exact Or.inl h'
        · exact Or.inr ⟨es, by simp, h', hs⟩
      · exact Or.inr ⟨tb, by simp [h'], hs⟩

/-! ### One update -/

theorem remove_mem (c : Cache) (names : List String) : ∀ e ∈ (c.remove names).res, e ∈ c.res := by
  have : ∀ (names : List String) (m : AMap), ∀ e ∈ names.foldl (fun m n => AMap.del m n) m, e ∈ m := by
    intro names
    induction names with
    | nil => intro m e he; exact he
    | cons n ns ih =>
      intro m e he
      exact (AMap.mem_del.mp (ih _ e he)).1
  exact this names c.res

theorem sotwUpdate_mem (t : RType) (ca : Cache) (res : List AnyRes) :
    ∀ e ∈ (sotwUpdate t ca res).1.res, e ∈ ca.res ∨
      ((sotwUpdate t ca res).2 = true ∧ ca.isSub e.1 = true ∧
        ((AnyRes.good e.2 ∈ res ∧ e.2.name = e.1) ∨ ∃ tb, AnyRes.table tb ∈ res ∧ (e.1, some e.2) ∈ tb)) := by
  have hset : ∀ rep, ∀ e ∈ (ca.setRes res rep).1.res, e ∈ ca.res ∨
      ((ca.setRes res rep).2 = true ∧ ca.isSub e.1 = true ∧ (AnyRes.good e.2 ∈ res ∧ e.2.name = e.1)) := by
    intro rep e he
    unfold Cache.setRes at he ⊢
    split at he
    · cases he
    · rename_i hne
      rw [if_neg hne]
      cases hl : setLoop ca res (if rep then [] else ca.res) [] with
      | mk r ot =>
        rw [hl] at he
        obtain ⟨m1, m2⟩ := setLoop_mem hl
        have m1' : ∀ e ∈ r, e ∈ ca.res := by
          intro e he
          have := m1 e he
          split at this
          · cases this
          · exact this
        cases ot with
        | none => exact Or.inl (m1' e he)
        | some t =>
          simp only at he ⊢
          have hin : e ∈ t ∨ e ∈ r := by
            split at he
            · exact Or.inl he
            · exact AMap.mem_putAll he
          rcases hin with h | h
          · rcases m2 t rfl e h with h | ⟨h1, h2, h3⟩
            · cases h
            · exact Or.inr ⟨trivial, h3, h1, h2⟩
          · exact Or.inl (m1' e h)
  have hist : ∀ e ∈ (ca.setIstio res).1.res, e ∈ ca.res ∨
      ((ca.setIstio res).2 = true ∧ ca.isSub e.1 = true ∧ ∃ tb, AnyRes.table tb ∈ res ∧ (e.1, some e.2) ∈ tb) := by
    intro e he
    unfold Cache.setIstio at he ⊢
    split at he
    · cases he
    · rename_i hne
      rw [if_neg hne]
      cases hl : istioLoop true ca res ca.res [] with
      | mk r ot =>
        rw [hl] at he
        obtain ⟨m1, m2⟩ := istioLoop_mem hl
        cases ot with
        | none => exact Or.inl (m1 e he)
        | some t =>
          simp only at he ⊢
          have hin : e ∈ t ∨ e ∈ r := by
            split at he
            · exact Or.inl he
            · exact AMap.mem_putAll he
          rcases hin with h | h
          · rcases m2 t rfl e h with h | ⟨tb, h1, h2, h3⟩
            · cases h
            · exact Or.inr ⟨trivial, h3, tb, h1, h2⟩
          · exact Or.inl (m1 e h)
  intro e he
  cases t with
  | cluster =>
    rcases hset true e he with h | ⟨a, b, c⟩
    · exact Or.inl h
    · exact Or.inr ⟨a, b, Or.inl c⟩
  | listener =>
    rcases hset true e he with h | ⟨a, b, c⟩
    · exact Or.inl h
    · exact Or.inr ⟨a, b, Or.inl c⟩
  | endpoint =>
    rcases hset false e he with h | ⟨a, b, c⟩
    · exact Or.inl h
    · exact Or.inr ⟨a, b, Or.inl c⟩
  | route =>
    rcases hset false e he with h | ⟨a, b, c⟩
    · exact Or.inl h
    · exact Or.inr ⟨a, b, Or.inl c⟩
  | nameTable =>
    rcases hist e he with h | ⟨a, b, c⟩
    · exact Or.inl h
    · exact Or.inr ⟨a, b, Or.inr c⟩
  | other u => exact Or.inl he

theorem add_mem (ca : Cache) (res : List (String × AnyRes)) :
    ∀ e ∈ (ca.add res).1.res, e ∈ ca.res ∨
      ((ca.add res).2 = true ∧ ca.isSub e.1 = true ∧ (e.1, AnyRes.good e.2) ∈ res) := by
  intro e he
  unfold Cache.add at he ⊢
  split at he
  · exact Or.inl he
  · rename_i hne
    rw [if_neg hne]
    cases hl : addLoop ca res [] with
    | none => rw [hl] at he; exact Or.inl he
    | some t =>
      rw [hl] at he
      simp only at he ⊢
      rcases AMap.mem_putAll he with h | h
      · rcases addLoop_mem hl e h with h | ⟨h1, h2⟩
        · cases h
        · exact Or.inr ⟨trivial, h2, h1⟩
      · exact Or.inl h

theorem addIstio_mem (ca : Cache) (res : List AnyRes) :
    ∀ e ∈ (ca.addIstio res).1.res, e ∈ ca.res ∨
      ((ca.addIstio res).2 = true ∧ ca.isSub e.1 = true ∧ ∃ tb, AnyRes.table tb ∈ res ∧ (e.1, some e.2) ∈ tb) := by
  intro e he
  unfold Cache.addIstio at he ⊢
  split at he
  · exact Or.inl he
  · rename_i hne
    rw [if_neg hne]
    cases hl : istioLoop false ca res ca.res [] with
    | mk r ot =>
      rw [hl] at he
      cases ot with
      | none => exact Or.inl he
      | some t =>
        simp only at he ⊢
        rcases AMap.mem_putAll he with h | h
        · rcases (istioLoop_mem hl).2 t rfl e h with h | ⟨tb, h1, h2, h3⟩
          · cases h
          · exact Or.inr ⟨trivial, h3, tb, h1, h2⟩
        · exact Or.inl h

theorem deltaUpdate_mem (t : RType) (ca : Cache) (res : List (String × AnyRes)) (removed : List String) :
    ∀ e ∈ (deltaUpdate t ca res removed).1.res, e ∈ ca.res ∨
      ((deltaUpdate t ca res removed).2 = true ∧ ca.isSub e.1 = true ∧
        ((e.1, AnyRes.good e.2) ∈ res ∨ ∃ m tb, (m, AnyRes.table tb) ∈ res ∧ (e.1, some e.2) ∈ tb)) := by
  have hadd : ∀ x : Cache × Bool,
      x = (match ca.add res with
        | (ca', true) => (ca'.remove removed, true)
        | (ca', false) => (ca', false)) →
      ∀ e ∈ x.1.res, e ∈ ca.res ∨ (x.2 = true ∧ ca.isSub e.1 = true ∧
        ((e.1, AnyRes.good e.2) ∈ res ∨ ∃ m tb, (m, AnyRes.table tb) ∈ res ∧ (e.1, some e.2) ∈ tb)) := by
    intro x hx e he
    have hm := add_mem ca res
    cases ha : ca.add res with
    | mk ca' ok =>
      rw [ha] at hx hm
      cases ok with
      | true =>
        subst hx
        rcases hm e (remove_mem _ _ e he) with h | ⟨_, h2, h3⟩
        · exact Or.inl h
        · exact Or.inr ⟨rfl, h2, Or.inl h3⟩
      | false =>
        subst hx
        rcases hm e he with h | ⟨h1, _⟩
        · exact Or.inl h
        · cases h1
  cases t with
  | nameTable =>
    intro e he
    simp only [deltaUpdate] at he ⊢
    rcases addIstio_mem _ _ e he with h | ⟨h1, h2, tb, h3, h4⟩
    · cases h
    · obtain ⟨⟨m, x⟩, hx1, hx2⟩ := List.mem_map.mp h3
      simp only at hx2
      subst hx2
      exact Or.inr ⟨h1, h2, Or.inr ⟨m, tb, hx1, h4⟩⟩
  | other u => intro e he; exact Or.inl he
  | cluster => exact hadd _ rfl
  | listener => exact hadd _ rfl
  | endpoint => exact hadd _ rfl
  | route => exact hadd _ rfl

/-! ### The client -/

/-- Caches of `c'` hold nothing that `c` does not hold. -/
def Shrinks (c c' : Client) : Prop := ∀ t, ∀ e ∈ ((c'.cache t).getD .empty).res, e ∈ ((c.cache t).getD .empty).res

theorem Shrinks.refl (c : Client) : Shrinks c c := fun _ _ h => h

theorem Shrinks.trans {a b c : Client} (h1 : Shrinks a b) (h2 : Shrinks b c) : Shrinks a c :=
  fun t e h => h1 t e (h2 t e h)

theorem cache_setCache (c : Client) (t : RType) (x : Cache) (h : t.supported = true) :
    (c.setCache t x).cache t = some x := by
  cases t <;> simp_all [Client.setCache, Client.cache, RType.supported]

theorem cache_setCache_ne (c : Client) {t t' : RType} (x : Cache) (h : t' ≠ t) :
    (c.setCache t x).cache t' = c.cache t' := by
  cases t <;> cases t' <;> simp_all [Client.setCache, Client.cache]

theorem cache_sent (c : Client) (s : List Req) (t : RType) : ({ c with sent := s } : Client).cache t = c.cache t := by
  cases t <;> rfl

theorem cache_stats (c : Client) (s : List String) (t : RType) : ({ c with stats := s } : Client).cache t = c.cache t := by
  cases t <;> rfl

theorem shrinks_setCache (c : Client) (t : RType) (x : Cache)
    (h : ∀ e ∈ x.res, e ∈ ((c.cache t).getD .empty).res) : Shrinks c (c.setCache t x) := by
  intro t' e he
  by_cases ht : t' = t
  · subst ht
    cases hs : t'.supported with
    | true =>
      rw [cache_setCache _ _ _ hs] at he
      exact h e he
    | false =>
      cases t' <;> simp_all [RType.supported, Client.cache, Cache.empty]
  · rw [cache_setCache_ne _ _ ht] at he
    exact he

theorem subscribe_res (c : Cache) (names : List String) : (c.subscribe names).res = c.res := by
  unfold Cache.subscribe; split <;> rfl

theorem shrinks_resubscribe (cfg : Cfg) (c : Client) (dep : RType) (names : List String) :
    Shrinks c (c.resubscribe cfg dep names).1 := by
  simp only [Client.resubscribe]
  split
  · exact Shrinks.refl c
  · intro t e he
    simp only [Client.subscribeReq, cache_sent] at he
    refine shrinks_setCache c dep _ ?_ t e he
    rw [subscribe_res]
    split
    · exact fun e he => he
    · exact remove_mem _ _

theorem shrinks_hooks (cfg : Cfg) (c : Client) (t : RType) : Shrinks c (c.hooks cfg t) := by
  cases t with
  | cluster =>
    simp only [Client.hooks, Client.onClusters]
    have := shrinks_resubscribe cfg c .endpoint (references clusterRef c.cl.res)
    split
    · rename_i h; rw [h] at this; exact this
    · rename_i h; rw [h] at this
      intro t e he
      rw [cache_stats] at he
      exact this t e he
  | listener => exact shrinks_resubscribe cfg c _ _
  | _ => exact Shrinks.refl c

theorem shrinks_ack (cfg : Cfg) (c : Client) (r : Resp) : Shrinks c (c.ack cfg r) := by
  cases r with
  | delta t n v rs rm => intro t' e he; simp only [Client.ack, cache_sent] at he; exact he
  | sotw t v n val rs =>
    simp only [Client.ack]
    split
    · intro t' e he; rw [cache_sent] at he; exact he
    · rename_i ca hca
      intro t' e he
      rw [cache_sent] at he
      refine shrinks_setCache c t _ ?_ t' e he
      rw [hca]
      exact fun e he => he

theorem shrinks_nack (cfg : Cfg) (c : Client) (r : Resp) : Shrinks c (c.nack cfg r) := by
  cases r <;> · intro t' e he; simp only [Client.nack, cache_sent] at he; exact he

theorem handleResponse_mem (c : Client) (r : Resp) (t : RType) :
    ∀ e ∈ (((c.handleResponse r).1.cache t).getD .empty).res,
      e ∈ ((c.cache t).getD .empty).res ∨
      (r.typ = t ∧ (c.handleResponse r).2 = true ∧ ((c.cache t).getD .empty).isSub e.1 = true ∧
        Delivers r e.1 e.2) := by
  intro e he
  cases r with
  | sotw t0 v n val rs =>
    simp only [Client.handleResponse] at he ⊢
    split at he
    · exact Or.inl he
    · rename_i hv
      rw [if_neg hv]
      cases hc : c.cache t0 with
      | none => rw [hc] at he; exact Or.inl he
      | some ca =>
        rw [hc] at he
        simp only at he ⊢
        by_cases ht : t = t0
        · subst ht
          have hs : t.supported = true := by cases t <;> simp_all [Client.cache, RType.supported]
          rw [cache_setCache _ _ _ hs] at he
          rcases sotwUpdate_mem t ca rs e he with h | ⟨h1, h2, h3⟩
          · rw [hc]; exact Or.inl h
          · right
            rw [hc]
            exact ⟨rfl, h1, h2, h3⟩
        · rw [cache_setCache_ne _ _ ht] at he
          exact Or.inl he
  | delta t0 n val rs rm =>
    simp only [Client.handleResponse] at he ⊢
    split at he
    · exact Or.inl he
    · rename_i hv
      rw [if_neg hv]
      cases hc : c.cache t0 with
      | none => rw [hc] at he; exact Or.inl he
      | some ca =>
        rw [hc] at he
        simp only at he ⊢
        by_cases ht : t = t0
        · subst ht
          have hs : t.supported = true := by cases t <;> simp_all [Client.cache, RType.supported]
          rw [cache_setCache _ _ _ hs] at he
          rcases deltaUpdate_mem t ca rs rm e he with h | ⟨h1, h2, h3⟩
          · rw [hc]; exact Or.inl h
          · right
            rw [hc]
            exact ⟨rfl, h1, h2, h3⟩
        · rw [cache_setCache_ne _ _ ht] at he
          exact Or.inl he

/-- What `GetResource` of type `t` returns to the application. -/
def Client.get (c : Client) (t : RType) (n : String) : Option Resource :=
  ((c.cache t).getD .empty).getRes n

/-- The client is subscribed for the name (or for everything) of type `t`. -/
def Client.subscribed (c : Client) (t : RType) (n : String) : Prop :=
  n ∈ ((c.cache t).getD .empty).sub ∨ "*" ∈ ((c.cache t).getD .empty).sub

/-- The requests put into the queue by the reception of `r`. -/
def Client.answer (cfg : Cfg) (c : Client) (r : Resp) : List Req :=
  (c.recv cfg r).sent.drop c.sent.length

/-- The request carries an error. -/
def Req.isNack : Req → Bool
  | .sotw _ _ _ _ e => e
  | .delta _ _ _ _ e => e

theorem shrinks_connect (cfg : Cfg) (c : Client) : Shrinks c (c.connect cfg) := by
  intro t e he
  cases t <;> simpa [Client.connect, Client.reset, Client.subscribeReq, Client.cache, Cache.subscribe,
    Cache.resetInit, Cache.resetSub] using he

theorem recv_mem (cfg : Cfg) (c : Client) (r : Resp) (t : RType) :
    ∀ e ∈ (((c.recv cfg r).cache t).getD .empty).res,
      e ∈ ((c.cache t).getD .empty).res ∨
      (r.typ = t ∧ (c.handleResponse r).2 = true ∧ ((c.cache t).getD .empty).isSub e.1 = true ∧
        Delivers r e.1 e.2) := by
  intro e he
  simp only [Client.recv] at he
  split at he
  · exact Or.inl he
  · split at he
    · left
      have : ∀ t, ({ c with receiving := false } : Client).cache t = c.cache t := by intro t; cases t <;> rfl
      rw [this] at he
      exact he
    · have h1 := shrinks_hooks cfg _ r.typ t e he
      have h2 : e ∈ (((c.handleResponse r).1.cache t).getD .empty).res := by
        split at h1
        · exact shrinks_ack cfg _ r t e h1
        · exact shrinks_nack cfg _ r t e h1
      exact handleResponse_mem c r t e h2

theorem isSub_iff (c : Cache) (n : String) : c.isSub n = true ↔ n ∈ c.sub ∨ "*" ∈ c.sub := by
  simp [Cache.isSub, Cache.isSubAll, Or.comm]

/-- **C26** After any history of connections and responses, everything `GetResource` returns was
delivered by a response of this type under this very name, the response was accepted, and the
client was subscribed for the name when it arrived. -/
theorem C26_cache_only_subscribed (cfg : Cfg) : ∀ (es : List Ev) (t : RType) (n : String) (x : Resource),
    (Client.run cfg es).get t n = some x →
    ∃ post r pre, es = post ++ .recv r :: pre ∧ r.typ = t ∧ Delivers r n x ∧
      (Client.run cfg pre).subscribed t n ∧ ((Client.run cfg pre).handleResponse r).2 = true := by
  intro es t n x h
  have key : ∀ (es : List Ev) (e : String × Resource),
      e ∈ (((Client.run cfg es).cache t).getD .empty).res →
      ∃ post r pre, es = post ++ .recv r :: pre ∧ r.typ = t ∧ Delivers r e.1 e.2 ∧
        (Client.run cfg pre).subscribed t e.1 ∧ ((Client.run cfg pre).handleResponse r).2 = true := by
    intro es
    induction es with
    | nil => intro e he; cases t <;> simp [Client.run, Client.new, Client.cache, Cache.empty] at he
    | cons ev es ih =>
      intro e he
      have hold : e ∈ (((Client.run cfg es).cache t).getD .empty).res →
          ∃ post r pre, ev :: es = post ++ .recv r :: pre ∧ r.typ = t ∧ Delivers r e.1 e.2 ∧
            (Client.run cfg pre).subscribed t e.1 ∧ ((Client.run cfg pre).handleResponse r).2 = true := by
        intro h
        obtain ⟨post, r, pre, h1, h2⟩ := ih e h
        exact ⟨ev :: post, r, pre, by rw [h1]; rfl, h2⟩
      cases ev with
      | connect => exact hold (shrinks_connect cfg _ t e he)
      | recv r =>
        rcases recv_mem cfg _ r t e he with h | ⟨h1, h2, h3, h4⟩
        · exact hold h
        · exact ⟨[], r, es, rfl, h1, h4, (isSub_iff _ _).mp h3, h2⟩
  exact key es (n, x) (AMap.get_mem h)

/-! ### Rejected updates -/

theorem recv_cases (cfg : Cfg) (c : Client) (r : Resp) (hr : c.receiving = true) (hs : r.typ.supported = true) :
    c.recv cfg r = ((if (c.handleResponse r).2 then (c.handleResponse r).1.ack cfg r
      else (c.handleResponse r).1.nack cfg r).hooks cfg r.typ) := by
  simp [Client.recv, hr, hs]

/-- `c` and `c'` serve the same resources. -/
def SameView (c c' : Client) : Prop := ∀ t n, c.get t n = c'.get t n

theorem sameView_of_res {c c' : Client}
    (h : ∀ t, ((c'.cache t).getD .empty).res = ((c.cache t).getD .empty).res) : SameView c c' := by
  intro t n
  simp only [Client.get, Cache.getRes, h t]

theorem resubscribe_res_incremental (cfg : Cfg) (c : Client) (dep : RType) (names : List String)
    (hi : cfg.incremental = true) (t : RType) :
    (((c.resubscribe cfg dep names).1.cache t).getD .empty).res = ((c.cache t).getD .empty).res := by
  simp only [Client.resubscribe, hi, if_true]
  split
  · rfl
  · simp only [Client.subscribeReq, cache_sent]
    by_cases ht : t = dep
    · subst ht
      cases hs : t.supported with
      | true => rw [cache_setCache _ _ _ hs]; simp [subscribe_res]
      | false => cases t <;> simp_all [RType.supported, Client.cache, Client.setCache]
    · rw [cache_setCache_ne _ _ ht]

theorem hooks_res_incremental (cfg : Cfg) (c : Client) (typ : RType) (hi : cfg.incremental = true) (t : RType) :
    (((c.hooks cfg typ).cache t).getD .empty).res = ((c.cache t).getD .empty).res := by
  cases typ with
  | cluster =>
    have := resubscribe_res_incremental cfg c .endpoint (references clusterRef c.cl.res) hi t
    simp only [Client.hooks, Client.onClusters]
    split
    · rename_i h; rw [h] at this; exact this
    · rename_i h; rw [h] at this; rw [cache_stats]; exact this
  | listener => exact resubscribe_res_incremental cfg c _ _ hi t
  | _ => rfl

/-- **C27** Incremental protocol: a rejected update of clusters, endpoints, listeners or routes
leaves every resource the application can see exactly as it was.  (Not name tables, see
`C228_nametable_delta_false`, and not the state-of-the-world protocol.) -/
theorem C27_delta (cfg : Cfg) (c : Client) (r : Resp) (hi : cfg.incremental = true)
    (hd : ∃ t n v rs rm, r = .delta t n v rs rm) (hnt : r.typ ≠ .nameTable)
    (hrej : (c.handleResponse r).2 = false) : SameView c (c.recv cfg r) := by
  obtain ⟨t0, n, v, rs, rm, rfl⟩ := hd
  cases hr : c.receiving with
  | false => intro t n; simp [Client.recv, hr]
  | true =>
    cases hs : t0.supported with
    | false =>
      apply sameView_of_res
      intro t
      simp only [Client.recv, hr, Resp.typ, hs]
      cases t <;> rfl
    | true =>
      apply sameView_of_res
      intro t
      rw [recv_cases cfg c (.delta t0 n v rs rm) hr hs, hrej, hooks_res_incremental cfg _ _ hi t]
      simp only [Bool.false_eq_true, if_false, Client.nack, cache_sent]
      simp only [Client.handleResponse] at hrej ⊢
      split
      · rfl
      · rename_i hv
        rw [if_neg hv] at hrej
        cases hc : c.cache t0 with
        | none => rfl
        | some ca =>
          rw [hc] at hrej
          simp only at hrej ⊢
          have hu : (deltaUpdate t0 ca rs rm).1.res = ca.res := by
            have hadd : (match ca.add rs with
                | (ca', true) => (ca'.remove rm, true)
                | (ca', false) => (ca', false)).2 = false →
                (match ca.add rs with
                | (ca', true) => (ca'.remove rm, true)
                | (ca', false) => (ca', false)).1.res = ca.res := by
              intro h
              unfold Cache.add at h ⊢
              by_cases h0 : rs = []
              · simp [h0] at h
              · simp only [if_neg h0] at h ⊢
                cases hl : addLoop ca rs [] with
                | none => rfl
                | some t => rw [hl] at h; simp at h
            cases t0 with
            | nameTable => exact absurd rfl hnt
            | other u => rfl
            | cluster => exact hadd hrej
            | listener => exact hadd hrej
            | endpoint => exact hadd hrej
            | route => exact hadd hrej
          by_cases ht : t = t0
          · subst ht
            rw [cache_setCache _ _ _ hs, hc]
            exact hu
          · rw [cache_setCache_ne _ _ ht]

theorem setLoop_subscribed {c : Cache} : ∀ {rs res t res' ot},
    (∀ r, AnyRes.good r ∈ rs → c.isSub r.name = true) → setLoop c rs res t = (res', ot) → res' = res
  | [], res, t, res', ot, _, h => by
    simp only [setLoop, Prod.mk.injEq] at h; exact h.1.symm
  | .null :: rs, res, t, res', ot, hs, h => by
    simp only [setLoop] at h
    exact setLoop_subscribed (fun r hr => hs r (by simp [hr])) h
  | .bad :: rs, res, t, res', ot, _, h => by
    simp only [setLoop, Prod.mk.injEq] at h; exact h.1.symm
  | .table _ :: rs, res, t, res', ot, _, h => by
    simp only [setLoop, Prod.mk.injEq] at h; exact h.1.symm
  | .good r :: rs, res, t, res', ot, hs, h => by
    simp only [setLoop, hs r (by simp), Bool.not_true, Bool.false_eq_true, if_false] at h
    split at h
    · simp only [Prod.mk.injEq] at h; exact h.1.symm
    · exact setLoop_subscribed (fun r hr => hs r (by simp [hr])) h

theorem tableLoop_all {c : Cache} (ha : c.isSubAll = true) : ∀ {es res t res' ot},
    tableLoop true c es res t = (res', ot) → res' = res
  | [], res, t, res', ot, h => by
    simp only [tableLoop, Prod.mk.injEq] at h; exact h.1.symm
  | (_, none) :: es, res, t, res', ot, h => by
    simp only [tableLoop] at h
    exact tableLoop_all ha h
  | (n, some r) :: es, res, t, res', ot, h => by
    have hsub : c.isSub n = true := by simp [Cache.isSub, ha]
    simp only [tableLoop, hsub, Bool.not_true, Bool.false_eq_true, if_false] at h
    split at h
    · simp only [Prod.mk.injEq] at h; exact h.1.symm
    · exact tableLoop_all ha h

theorem istioLoop_all {c : Cache} (ha : c.isSubAll = true) : ∀ {rs res t res' ot},
    istioLoop true c rs res t = (res', ot) → res' = res
  | [], res, t, res', ot, h => by
    simp only [istioLoop, Prod.mk.injEq] at h; exact h.1.symm
  | .null :: rs, res, t, res', ot, h => by
    simp only [istioLoop] at h
    exact istioLoop_all ha h
  | .bad :: rs, res, t, res', ot, h => by
    simp only [istioLoop, Prod.mk.injEq] at h; exact h.1.symm
  | .good _ :: rs, res, t, res', ot, h => by
    simp only [istioLoop, Prod.mk.injEq] at h; exact h.1.symm
  | .table es :: rs, res, t, res', ot, h => by
    simp only [istioLoop] at h
    split at h
    · rename_i res1 h1
      simp only [Prod.mk.injEq] at h
      rw [← h.1]; exact tableLoop_all ha h1
    · rename_i res1 t1 h1
      rw [istioLoop_all ha h, tableLoop_all ha h1]

/-- **C228** State-of-the-world protocol: a rejected update of endpoints or routes all of whose
resources are subscribed, or of name tables while subscribed for everything, leaves every
resource as it was.  (Partial: not clusters and listeners, see `C228_sotw_clusters_false`, and not
when the response contains names that are not subscribed, see `C228_sotw_endpoints_false`.) -/
theorem C228_sotw_partial (cfg : Cfg) (c : Client) (t0 : RType) (ver n : String) (valid : Bool)
    (rs : List AnyRes)
    (ht0 : (t0 = .nameTable ∧ c.nt.isSubAll = true) ∨ ((t0 = .endpoint ∨ t0 = .route) ∧
      ∀ x, AnyRes.good x ∈ rs → c.subscribed t0 x.name))
    (hrej : (c.handleResponse (.sotw t0 ver n valid rs)).2 = false) :
    SameView c (c.recv cfg (.sotw t0 ver n valid rs)) := by
  cases hr : c.receiving with
  | false => intro t n; simp [Client.recv, hr]
  | true =>
    have hs : t0.supported = true := by
      rcases ht0 with ⟨rfl, _⟩ | ⟨rfl | rfl, _⟩ <;> rfl
    have hh : ∀ c : Client, c.hooks cfg t0 = c := by
      intro c
      rcases ht0 with ⟨rfl, _⟩ | ⟨rfl | rfl, _⟩ <;> rfl
    apply sameView_of_res
    intro t
    rw [recv_cases cfg c (.sotw t0 ver n valid rs) hr hs, hrej]
    simp only [Resp.typ, hh]
    simp only [Bool.false_eq_true, if_false, Client.nack, cache_sent]
    simp only [Client.handleResponse] at hrej ⊢
    split
    · rfl
    · rename_i hv
      rw [if_neg hv] at hrej
      cases hc : c.cache t0 with
      | none => rfl
      | some ca =>
        rw [hc] at hrej
        simp only at hrej ⊢
        have hu : (sotwUpdate t0 ca rs).1.res = ca.res := by
          have hset : (ca.setRes rs false).2 = false → (∀ x, AnyRes.good x ∈ rs → c.subscribed t0 x.name) →
              (ca.setRes rs false).1.res = ca.res := by
            intro h hsub
            have hsub' : ∀ x, AnyRes.good x ∈ rs → ca.isSub x.name = true := by
              intro x hx
              have := hsub x hx
              rw [Client.subscribed, hc] at this
              exact (isSub_iff _ _).mpr this
            unfold Cache.setRes at h ⊢
            by_cases h0 : rs = []
            · simp [h0] at h
            · simp only [if_neg h0] at h ⊢
              cases hl : setLoop ca rs (if false = true then [] else ca.res) [] with
              | mk r ot =>
                rw [hl] at h
                cases ot with
                | none => simp only; exact setLoop_subscribed hsub' hl
                | some t => simp at h
          rcases ht0 with ⟨rfl, ha⟩ | ⟨rfl | rfl, hsub⟩
          · simp only [sotwUpdate] at hrej ⊢
            have hca : ca = c.nt := by simp only [Client.cache, Option.some.injEq] at hc; exact hc.symm
            unfold Cache.setIstio at hrej ⊢
            by_cases h0 : rs = []
            · simp [h0] at hrej
            · simp only [if_neg h0] at hrej ⊢
              cases hl : istioLoop true ca rs ca.res [] with
              | mk r ot =>
                rw [hl] at hrej
                cases ot with
                | none => simp only; exact istioLoop_all (by rw [hca]; exact ha) hl
                | some t => simp at hrej
          · exact hset hrej hsub
          · exact hset hrej hsub
        by_cases ht : t = t0
        · subst ht
          rw [cache_setCache _ _ _ hs, hc]
          exact hu
        · rw [cache_setCache_ne _ _ ht]

/-! ### Counterexamples -/

/-- State of the world without wildcards. -/
def sotwCfg : Cfg := { incremental := false, deltaWild := true, sotwWild := true }
/-- Incremental. -/
def deltaCfg : Cfg := { incremental := true, deltaWild := true, sotwWild := true }

/-- An EDS cluster. -/
def exCluster : Resource := { name := "web", eds := true, service := "", rds := [], tag := 1 }
/-- Its load assignment. -/
def exEndpoint : Resource := { name := "web", eds := false, service := "", rds := [], tag := 2 }

/-- Connect, receive the cluster and its endpoints. -/
def exHist : List Ev :=
  [.recv (.sotw .endpoint "1" "b" true [.good exEndpoint]),
   .recv (.sotw .cluster "1" "a" true [.good exCluster]), .connect]

/-- A response whose second resource cannot be decoded. -/
def exBad : Resp := .sotw .cluster "2" "c" true [.good exCluster, .bad]

/-- **C228 (fails)** A rejected state-of-the-world cluster update removes every cluster, and with
them all endpoints: the application loses its whole configuration. -/
theorem C228_sotw_clusters_false :
    (Client.run sotwCfg exHist).get .cluster "web" = some exCluster ∧
    (Client.run sotwCfg exHist).get .endpoint "web" = some exEndpoint ∧
    ((Client.run sotwCfg exHist).handleResponse exBad).2 = false ∧
    (Client.run sotwCfg (.recv exBad :: exHist)).get .cluster "web" = none ∧
    (Client.run sotwCfg (.recv exBad :: exHist)).get .endpoint "web" = none := by decide +kernel

/-- A response delivering an endpoint that is not subscribed and one that cannot be decoded. -/
def exBadEp : Resp := .sotw .endpoint "2" "c" true [.good exEndpoint, .bad]

/-- **C228 (fails)** A rejected state-of-the-world endpoint update removes resources that are
cached but no longer subscribed (here after a reconnection). -/
theorem C228_sotw_endpoints_false :
    (Client.run sotwCfg (.connect :: exHist)).get .endpoint "web" = some exEndpoint ∧
    ((Client.run sotwCfg (.connect :: exHist)).handleResponse exBadEp).2 = false ∧
    (Client.run sotwCfg (.recv exBadEp :: .connect :: exHist)).get .endpoint "web" = none := by
  decide +kernel

/-- **C228 (fails)** A rejected incremental name table update removes all names. -/
theorem C228_nametable_delta_false :
    (Client.run deltaCfg [.recv (.delta .nameTable "a" true [("", .table [("db", some exEndpoint)])] []), .connect]).get
      .nameTable "db" = some exEndpoint ∧
    ((Client.run deltaCfg [.recv (.delta .nameTable "a" true [("", .table [("db", some exEndpoint)])] []), .connect]).handleResponse
      (.delta .nameTable "b" true [("", .bad)] [])).2 = false ∧
    (Client.run deltaCfg [.recv (.delta .nameTable "b" true [("", .bad)] []),
      .recv (.delta .nameTable "a" true [("", .table [("db", some exEndpoint)])] []), .connect]).get
      .nameTable "db" = none := by decide +kernel

/-! ### The hypotheses are satisfiable -/

/-- A rejected incremental update with the previous resource still served. -/
example : ((Client.run deltaCfg [.recv (.delta .cluster "a" true [("web", .good exCluster)] []), .connect]).handleResponse
      (.delta .cluster "b" true [("db", .good exCluster), ("db", .good exCluster)] ["web"])).2 = false ∧
    (Client.run deltaCfg [.recv (.delta .cluster "b" true [("db", .good exCluster), ("db", .good exCluster)] ["web"]),
      .recv (.delta .cluster "a" true [("web", .good exCluster)] []), .connect]).get .cluster "web" = some exCluster := by
  decide +kernel

/-- A rejected endpoint update of subscribed names. -/
example : ((Client.run sotwCfg exHist).handleResponse exBadEp).2 = false ∧
    (Client.run sotwCfg (.recv exBadEp :: exHist)).get .endpoint "web" = some exEndpoint ∧
    (Client.run sotwCfg exHist).ep.sub = ["web"] := by decide +kernel

end Verif.Ads
