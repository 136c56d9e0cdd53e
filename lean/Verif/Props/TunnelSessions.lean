import Verif.Tunnel.Sessions
import Verif.Props.TunnelPorts
/-! # C37 Closing a tunnel session releases all its ports -/
namespace Verif.Tunnel

theorem upd_same {α : Type} (f : Nat → α) (i : Nat) (a : α) : upd f i a i = a := by simp [upd]
theorem upd_ne {α : Type} (f : Nat → α) {i j : Nat} (a : α) (h : j ≠ i) : upd f i a j = f j := by
  simp [upd, h]

theorem acquire_spec {p : PP} (hmin : 0 < p.min) (req : Int) :
    ((acquire p req).1.min = p.min) ∧
    ((acquire p req).2 = 0 → ∀ q, (acquire p req).1.held q = p.held q) ∧
    ((acquire p req).2 ≠ 0 → p.held (acquire p req).2 = false ∧
      ∀ q, (acquire p req).1.held q = if (acquire p req).2 = q then true else p.held q) := by
  unfold acquire
  split
  · rename_i hreq
    have hc := fun q => PP.call_spec p hmin (.get req) q
    have hr := PP.call_range p (.get req)
    simp only [PP.call] at hc hr
    cases hb : (p.getPort req).2 with
    | true =>
      rw [if_pos rfl]
      rw [hb] at hc
      refine ⟨hr.1, fun h => absurd h (by show req ≠ 0; omega), fun _ => ⟨((hc 0).2 req rfl).1, ?_⟩⟩
      intro q
      have := (hc q).1
      simp only [heldAfter, PEvent.acquires, Option.some.injEq] at this
      exact this
    | false =>
      rw [if_neg (by simp)]
      rw [hb] at hc
      refine ⟨hr.1, fun _ q => ?_, fun h => absurd rfl h⟩
      have := (hc q).1
      simpa [heldAfter, PEvent.acquires] using this
  · have hc := fun q => PP.call_spec p hmin .free q
    have hr := PP.call_range p .free
    simp only [PP.call] at hc hr
    refine ⟨hr.1, fun h0 q => ?_, fun h0 => ⟨((hc 0).2 _ (by simp [PEvent.acquires, h0])).1, ?_⟩⟩
    · have := (hc q).1
      rw [h0] at this
      simpa [heldAfter, PEvent.acquires] using this
    · intro q
      have := (hc q).1
      simp only [heldAfter, PEvent.acquires, if_neg h0, Option.some.injEq] at this
      exact this

/-- Entry of a session's map not yet given up by a `Close` in progress. -/
def Live (st : St) (s : Nat) (k : String) (p : Int) : Prop :=
  (k, p) ∈ st.ports s ∧ ∀ i todo, st.ths i ≠ .del s k p todo

structure Inv (st : St) : Prop where
  hmin : 0 < st.prov.min
  held : ∀ q, st.prov.held q = (holder st.tr q).isSome
  serial : ∀ i j s, (st.ths i).closes = some s → (st.ths j).closes = some s → i = j
  liveHolder : ∀ s k p, Live st s k p → holder st.tr p = some s
  liveUniq : ∀ s k k' p, Live st s k p → Live st s k' p → k = k'
  acqHolder : ∀ i s n p, st.ths i = .acq s n p → holder st.tr p = some s
  acqUniq : ∀ i j s s' n n' p, st.ths i = .acq s n p → st.ths j = .acq s' n' p → i = j
  acqLive : ∀ i s n p s' k, st.ths i = .acq s n p → Live st s' k p → False
  relHolder : ∀ i s k p todo, st.ths i = .rel s k p todo → holder st.tr p = some s
  relLive : ∀ i s k p todo s' k', st.ths i = .rel s k p todo → Live st s' k' p → s' = s ∧ k' = k
  relAcq : ∀ i j s k p todo s' n, st.ths i = .rel s k p todo → st.ths j = .acq s' n p → False
  nofor : NoForeignRelease st.tr

theorem mem_mapDel {m : List (String × Int)} {k k' : String} {p : Int} :
    (k', p) ∈ mapDel m k ↔ (k', p) ∈ m ∧ k' ≠ k := by
  simp [mapDel]

theorem mem_mapStore {m : List (String × Int)} {k k' : String} {p p' : Int} :
    (k', p') ∈ mapStore m k p ↔ (k' = k ∧ p' = p) ∨ ((k', p') ∈ m ∧ k' ≠ k) := by
  simp [mapStore, mem_mapDel]

theorem mem_of_mapGet {m : List (String × Int)} {k : String} {p : Int} (h : mapGet m k = some p) :
    (k, p) ∈ m := by
  induction m with
  | nil => simp [mapGet] at h
  | cons e m ih =>
    obtain ⟨k', p'⟩ := e
    simp only [mapGet] at h
    split at h
    · rename_i hk; injection h with h; subst hk; subst h; simp
    · exact List.mem_cons_of_mem _ (ih h)

theorem nofor_cons {e : Ev} {tr : List Ev} (h : NoForeignRelease tr)
    (he : ∀ s p, e = .released s p → holder tr p = some s) : NoForeignRelease (e :: tr) := by
  intro h1 h2 s p heq
  cases h1 with
  | nil =>
    simp only [List.nil_append, List.cons.injEq] at heq
    obtain ⟨a, b⟩ := heq
    subst b
    exact he s p a
  | cons x h1 =>
    simp only [List.cons_append, List.cons.injEq] at heq
    exact h h1 h2 s p heq.2

/-- holder is unaffected by events that are neither an assignment nor a release -/
theorem holder_requested (s n h q) : holder (.requested s n :: h) q = holder h q := rfl
theorem holder_closing (s h q) : holder (.closing s :: h) q = holder h q := rfl
theorem holder_closed (s h q) : holder (.closed s :: h) q = holder h q := rfl
theorem holder_assigned (s p h q) :
    holder (.assigned s p :: h) q = if p = q then some s else holder h q := rfl
theorem holder_released (s p h q) :
    holder (.released s p :: h) q = if p = q then none else holder h q := rfl

theorem Inv.init {p : PP} (hmin : 0 < p.min) (h0 : ∀ q, p.held q = false) : Inv (St.init p) where
  hmin := hmin
  held := by intro q; simp [St.init, holder, h0]
  serial := by intro i j s h; simp [St.init, Th.closes] at h
  liveHolder := by intro s k p h; simp [St.init, Live] at h
  liveUniq := by intro s k k' p h; simp [St.init, Live] at h
  acqHolder := by intro i s n p h; simp [St.init] at h
  acqUniq := by intro i j s s' n n' p h; simp [St.init] at h
  acqLive := by intro i s n p s' k h; simp [St.init] at h
  relHolder := by intro i s k p todo h; simp [St.init] at h
  relLive := by intro i s k p todo s' k' h; simp [St.init] at h
  relAcq := by intro i j s k p todo s' n h; simp [St.init] at h
  nofor := by intro h1 h2 s p h; simp [St.init] at h

/-- Changing one thread from `a` to `b`. -/
theorem upd_eq_iff {f : Nat → Th} {i j : Nat} {b t : Th} :
    upd f i b j = t ↔ (j = i ∧ b = t) ∨ (j ≠ i ∧ f j = t) := by
  by_cases h : j = i
  · subst h; simp [upd]
  · simp [upd, h]

theorem Inv.request {st : St} (hI : Inv st) {i s : Nat} {name : String} {req : Int} {st' : St}
    (hx : exec st (.request i s name req) = some st') : Inv st' := by
  have hacq := acquire_spec hI.hmin req
  simp only [exec] at hx
  split at hx
  · rename_i hidle
    split at hx
    · rename_i h0
      injection hx with hx; subst hx
      refine { hI with hmin := ?_, held := ?_, nofor := ?_ }
      · show 0 < (acquire st.prov req).1.min
        rw [hacq.1]; exact hI.hmin
      · intro q; show (acquire st.prov req).1.held q = _
        rw [hacq.2.1 h0 q, hI.held q]; rfl
      · exact nofor_cons hI.nofor (by intro _ _ h; cases h)
    · rename_i h0
      injection hx with hx; subst hx
      obtain ⟨hfree, hheld⟩ := hacq.2.2 h0
      generalize hp : (acquire st.prov req).2 = p at *
      have hnone : holder st.tr p = none := by
        have := hI.held p; rw [hfree] at this
        cases hh : holder st.tr p with
        | none => rfl
        | some _ => rw [hh] at this; simp at this
      have hlive : ∀ s' k q, Live
          { st with prov := (acquire st.prov req).1, ths := upd st.ths i (.acq s name p),
                    tr := .assigned s p :: .requested s name :: st.tr } s' k q → Live st s' k q := by
        rintro s' k q ⟨h1, h2⟩
        refine ⟨h1, fun j todo hj => ?_⟩
        apply h2 j todo
        rw [upd_eq_iff]
        right
        exact ⟨(by rintro rfl; rw [hidle] at hj; cases hj), hj⟩
      have hne : ∀ {q s'}, holder st.tr q = some s' → q ≠ p := by
        rintro q s' h rfl; rw [hnone] at h; cases h
      have hold : ∀ {q s'}, holder st.tr q = some s' →
          holder (.assigned s p :: .requested s name :: st.tr) q = some s' := by
        intro q s' h
        rw [holder_assigned, holder_requested, if_neg (fun e => hne h e.symm)]; exact h
      constructor
      · show 0 < (acquire st.prov req).1.min; rw [hacq.1]; exact hI.hmin
      · intro q
        show (acquire st.prov req).1.held q = _
        rw [hheld q, holder_assigned, holder_requested]
        split
        · rfl
        · exact hI.held q
      · intro a b t ha hb
        have hx : ∀ c, (upd st.ths i (.acq s name p) c).closes = some t → (st.ths c).closes = some t := by
          intro c hc
          by_cases h : c = i
          · subst h; rw [upd_same] at hc; cases hc
          · rw [upd_ne _ _ h] at hc; exact hc
        exact hI.serial a b t (hx a ha) (hx b hb)
      · intro s' k q h; exact hold (hI.liveHolder s' k q (hlive _ _ _ h))
      · intro s' k k' q h h'; exact hI.liveUniq s' k k' q (hlive _ _ _ h) (hlive _ _ _ h')
      · intro j s' n q hj
        rcases upd_eq_iff.mp hj with ⟨_, h⟩ | ⟨_, h⟩
        · injection h with h1 h2 h3; subst h1; subst h3; rw [holder_assigned, if_pos rfl]
        · exact hold (hI.acqHolder j s' n q h)
      · intro j j' s1 s2 n1 n2 q hj hj'
        rcases upd_eq_iff.mp hj with ⟨e, h⟩ | ⟨_, h⟩
        · rcases upd_eq_iff.mp hj' with ⟨e', h'⟩ | ⟨_, h'⟩
          · rw [e, e']
          · injection h with _ _ h3
            exact absurd h3.symm (hne (hI.acqHolder _ _ _ _ h'))
        · rcases upd_eq_iff.mp hj' with ⟨e', h'⟩ | ⟨_, h'⟩
          · injection h' with _ _ h3
            exact absurd h3.symm (hne (hI.acqHolder _ _ _ _ h))
          · exact hI.acqUniq _ _ _ _ _ _ _ h h'
      · intro j s' n q s'' k hj hl
        have hl := hlive _ _ _ hl
        rcases upd_eq_iff.mp hj with ⟨_, h⟩ | ⟨_, h⟩
        · injection h with _ _ h3
          exact absurd h3.symm (hne (hI.liveHolder _ _ _ hl))
        · exact hI.acqLive _ _ _ _ _ _ h hl
      · intro j s' k q todo hj
        rcases upd_eq_iff.mp hj with ⟨_, h⟩ | ⟨_, h⟩
        · cases h
        · exact hold (hI.relHolder _ _ _ _ _ h)
      · intro j s' k q todo s'' k' hj hl
        rcases upd_eq_iff.mp hj with ⟨_, h⟩ | ⟨_, h⟩
        · cases h
        · exact hI.relLive _ _ _ _ _ _ _ h (hlive _ _ _ hl)
      · intro j j' s' k q todo s'' n hj hj'
        rcases upd_eq_iff.mp hj with ⟨_, h⟩ | ⟨_, h⟩
        · cases h
        · rcases upd_eq_iff.mp hj' with ⟨_, h'⟩ | ⟨_, h'⟩
          · injection h' with _ _ h3
            exact absurd h3.symm (hne (hI.relHolder _ _ _ _ _ h))
          · exact hI.relAcq _ _ _ _ _ _ _ _ h h'
      · exact nofor_cons (nofor_cons hI.nofor (by intro _ _ h; cases h)) (by intro _ _ h; cases h)
  · cases hx

theorem Inv.store {st : St} (hI : Inv st) {i : Nat} {st' : St}
    (hx : exec st (.store i) = some st') : Inv st' := by
  simp only [exec] at hx
  split at hx
  · rename_i s name p hth
    injection hx with hx; subst hx
    have hlive : ∀ s' k q, Live
        { st with ports := upd st.ports s (mapStore (st.ports s) name p),
                  ths := upd st.ths i .idle } s' k q →
        (s' = s ∧ k = name ∧ q = p) ∨ Live st s' k q := by
      rintro s' k q ⟨h1, h2⟩
      have hnd : ∀ j todo, st.ths j ≠ .del s' k q todo := by
        intro j todo hj
        apply h2 j todo
        rw [upd_eq_iff]; right
        exact ⟨(by rintro rfl; rw [hth] at hj; cases hj), hj⟩
      by_cases hs : s' = s
      · subst hs
        simp only [upd_same] at h1
        rcases mem_mapStore.mp h1 with ⟨a, b⟩ | ⟨a, _⟩
        · exact Or.inl ⟨rfl, a, b⟩
        · exact Or.inr ⟨a, hnd⟩
      · simp only [upd_ne _ _ hs] at h1
        exact Or.inr ⟨h1, hnd⟩
    have hH := hI.acqHolder _ _ _ _ hth
    constructor
    · exact hI.hmin
    · exact hI.held
    · intro a b t ha hb
      have hx : ∀ c, (upd st.ths i .idle c).closes = some t → (st.ths c).closes = some t := by
        intro c hc
        by_cases h : c = i
        · subst h; rw [upd_same] at hc; cases hc
        · rw [upd_ne _ _ h] at hc; exact hc
      exact hI.serial a b t (hx a ha) (hx b hb)
    · intro s' k q h
      rcases hlive _ _ _ h with ⟨rfl, rfl, rfl⟩ | h
      · exact hH
      · exact hI.liveHolder _ _ _ h
    · intro s' k k' q h h'
      rcases hlive _ _ _ h with ⟨e1, e2, e3⟩ | h
      · rcases hlive _ _ _ h' with ⟨_, e2', _⟩ | h2
        · rw [e2, e2']
        · rw [e3] at h2; exact (hI.acqLive _ _ _ _ _ _ hth h2).elim
      · rcases hlive _ _ _ h' with ⟨_, e2', e3'⟩ | h2
        · rw [e3'] at h; exact (hI.acqLive _ _ _ _ _ _ hth h).elim
        · exact hI.liveUniq _ _ _ _ h h2
    · intro j s' n q hj
      rcases upd_eq_iff.mp hj with ⟨_, h⟩ | ⟨_, h⟩
      · cases h
      · exact hI.acqHolder j s' n q h
    · intro j j' s1 s2 n1 n2 q hj hj'
      rcases upd_eq_iff.mp hj with ⟨_, h⟩ | ⟨_, h⟩
      · cases h
      · rcases upd_eq_iff.mp hj' with ⟨_, h'⟩ | ⟨_, h'⟩
        · cases h'
        · exact hI.acqUniq _ _ _ _ _ _ _ h h'
    · intro j s' n q s'' k hj hl
      rcases upd_eq_iff.mp hj with ⟨_, h⟩ | ⟨hji, h⟩
      · cases h
      · rcases hlive _ _ _ hl with ⟨_, _, e3⟩ | hl
        · subst e3; exact hji (hI.acqUniq _ _ _ _ _ _ _ h hth)
        · exact hI.acqLive _ _ _ _ _ _ h hl
    · intro j s' k q todo hj
      rcases upd_eq_iff.mp hj with ⟨_, h⟩ | ⟨_, h⟩
      · cases h
      · exact hI.relHolder _ _ _ _ _ h
    · intro j s' k q todo s'' k' hj hl
      rcases upd_eq_iff.mp hj with ⟨_, h⟩ | ⟨_, h⟩
      · cases h
      · rcases hlive _ _ _ hl with ⟨_, _, e3⟩ | hl
        · subst e3; exact (hI.relAcq _ _ _ _ _ _ _ _ h hth).elim
        · exact hI.relLive _ _ _ _ _ _ _ h hl
    · intro j j' s' k q todo s'' n hj hj'
      rcases upd_eq_iff.mp hj with ⟨_, h⟩ | ⟨_, h⟩
      · cases h
      · rcases upd_eq_iff.mp hj' with ⟨_, h'⟩ | ⟨_, h'⟩
        · cases h'
        · exact hI.relAcq _ _ _ _ _ _ _ _ h h'
    · exact hI.nofor
  · cases hx

/-- A thread changes between `idle`/`rng` values, nothing else does: the invariant only
needs seriality of the result. -/
theorem Inv.reth {st : St} (hI : Inv st) {i : Nat} {b : Th} {tr : List Ev} {al : Nat → Bool}
    (hold : st.ths i = .idle ∨ ∃ s todo, st.ths i = .rng s todo)
    (hb : b = .idle ∨ ∃ s todo, b = .rng s todo)
    (hser : ∀ s, b.closes = some s → ∀ j, j ≠ i → (st.ths j).closes ≠ some s)
    (htr : ∀ q, holder tr q = holder st.tr q) (hnf : NoForeignRelease tr) :
    Inv { st with ths := upd st.ths i b, tr := tr, alive := al } := by
  have hlive : ∀ s' k q, Live { st with ths := upd st.ths i b, tr := tr, alive := al } s' k q →
      Live st s' k q := by
    rintro s' k q ⟨h1, h2⟩
    refine ⟨h1, fun j todo hj => ?_⟩
    apply h2 j todo
    rw [upd_eq_iff]; right
    refine ⟨?_, hj⟩
    rintro rfl
    rcases hold with h | ⟨_, _, h⟩ <;> (rw [h] at hj; cases hj)
  have hthr : ∀ j t, upd st.ths i b j = t → (∀ s' todo, t ≠ .rng s' todo) → t ≠ .idle → st.ths j = t := by
    intro j t h h1 h2
    rcases upd_eq_iff.mp h with ⟨_, h⟩ | ⟨_, h⟩
    · rcases hb with e | ⟨s', todo, e⟩
      · exact absurd (h.symm.trans e) h2
      · exact absurd (h.symm.trans e) (h1 s' todo)
    · exact h
  constructor
  · exact hI.hmin
  · intro q; rw [htr q]; exact hI.held q
  · intro a c t ha hc
    by_cases h : a = i
    · by_cases h' : c = i
      · rw [h, h']
      · subst h
        simp only [upd_same] at ha
        simp only [upd_ne _ _ h'] at hc
        exact absurd hc (hser t ha c h')
    · by_cases h' : c = i
      · subst h'
        simp only [upd_same] at hc
        simp only [upd_ne _ _ h] at ha
        exact absurd ha (hser t hc a h)
      · simp only [upd_ne _ _ h] at ha
        simp only [upd_ne _ _ h'] at hc
        exact hI.serial a c t ha hc
  · intro s' k q h; show holder tr q = _; rw [htr]; exact hI.liveHolder _ _ _ (hlive _ _ _ h)
  · intro s' k k' q h h'; exact hI.liveUniq _ _ _ _ (hlive _ _ _ h) (hlive _ _ _ h')
  · intro j s' n q hj
    show holder tr q = _; rw [htr]
    exact hI.acqHolder _ _ _ _ (hthr _ _ hj (by simp) (by simp))
  · intro j j' s1 s2 n1 n2 q hj hj'
    exact hI.acqUniq _ _ _ _ _ _ _ (hthr _ _ hj (by simp) (by simp)) (hthr _ _ hj' (by simp) (by simp))
  · intro j s' n q s'' k hj hl
    exact hI.acqLive _ _ _ _ _ _ (hthr _ _ hj (by simp) (by simp)) (hlive _ _ _ hl)
  · intro j s' k q todo hj
    show holder tr q = _; rw [htr]
    exact hI.relHolder _ _ _ _ _ (hthr _ _ hj (by simp) (by simp))
  · intro j s' k q todo s'' k' hj hl
    exact hI.relLive _ _ _ _ _ _ _ (hthr _ _ hj (by simp) (by simp)) (hlive _ _ _ hl)
  · intro j j' s' k q todo s'' n hj hj'
    exact hI.relAcq _ _ _ _ _ _ _ _ (hthr _ _ hj (by simp) (by simp)) (hthr _ _ hj' (by simp) (by simp))
  · exact hnf

theorem Inv.closeBegin {st : St} (hI : Inv st) {i s : Nat} {st' : St}
    (hg : ∀ j, (st.ths j).closes ≠ some s)
    (hx : exec st (.closeBegin i s) = some st') : Inv st' := by
  simp only [exec] at hx
  split at hx
  · rename_i hidle
    split at hx
    · injection hx with hx; subst hx
      refine hI.reth (Or.inl hidle) (Or.inr ⟨_, _, rfl⟩) ?_ (fun q => rfl)
        (nofor_cons hI.nofor (by intro _ _ h; cases h))
      intro t ht j _
      injection ht with ht; subst ht; exact hg j
    · injection hx with hx; subst hx; exact hI
  · cases hx

theorem Inv.closeEnd {st : St} (hI : Inv st) {i : Nat} {st' : St}
    (hx : exec st (.closeEnd i) = some st') : Inv st' := by
  simp only [exec] at hx
  split at hx
  · rename_i s hth
    injection hx with hx; subst hx
    refine hI.reth (Or.inr ⟨_, _, hth⟩) (Or.inl rfl) ?_ (fun q => rfl)
      (nofor_cons hI.nofor (by intro _ _ h; cases h))
    intro t ht; cases ht
  · cases hx

theorem Inv.visit {st : St} (hI : Inv st) {i : Nat} {k : String} {st' : St}
    (hx : exec st (.visit i k) = some st') : Inv st' := by
  simp only [exec] at hx
  split at hx
  · rename_i s todo hth
    have hser : ∀ j, j ≠ i → (st.ths j).closes ≠ some s := by
      intro j hj h
      exact hj (hI.serial j i s h (by rw [hth]; rfl))
    split at hx
    · split at hx
      · rename_i p hget
        injection hx with hx; subst hx
        have hl : Live st s k p := by
          refine ⟨mem_of_mapGet hget, fun j todo' hj => ?_⟩
          by_cases h : j = i
          · subst h; rw [hth] at hj; cases hj
          · exact hser j h (by rw [hj]; rfl)
        have hlive : ∀ s' k' q, Live { st with ths := upd st.ths i (.rel s k p (todo.filter (· ≠ k))) } s' k' q →
            Live st s' k' q := by
          rintro s' k' q ⟨h1, h2⟩
          refine ⟨h1, fun j todo' hj => ?_⟩
          apply h2 j todo'
          rw [upd_eq_iff]; right
          exact ⟨(by rintro rfl; rw [hth] at hj; cases hj), hj⟩
        constructor
        · exact hI.hmin
        · exact hI.held
        · intro a c t ha hc
          have hx : ∀ c, (upd st.ths i (.rel s k p (todo.filter (· ≠ k))) c).closes = some t → (st.ths c).closes = some t := by
            intro c hc
            by_cases h : c = i
            · subst h; rw [upd_same] at hc; rw [hth]; exact hc
            · rw [upd_ne _ _ h] at hc; exact hc
          exact hI.serial a c t (hx a ha) (hx c hc)
        · intro s' k q h; exact hI.liveHolder _ _ _ (hlive _ _ _ h)
        · intro s' k k' q h h'; exact hI.liveUniq _ _ _ _ (hlive _ _ _ h) (hlive _ _ _ h')
        · intro j s' n q hj
          rcases upd_eq_iff.mp hj with ⟨_, h⟩ | ⟨_, h⟩
          · cases h
          · exact hI.acqHolder _ _ _ _ h
        · intro j j' s1 s2 n1 n2 q hj hj'
          rcases upd_eq_iff.mp hj with ⟨_, h⟩ | ⟨_, h⟩
          · cases h
          · rcases upd_eq_iff.mp hj' with ⟨_, h'⟩ | ⟨_, h'⟩
            · cases h'
            · exact hI.acqUniq _ _ _ _ _ _ _ h h'
        · intro j s' n q s'' k' hj hl'
          rcases upd_eq_iff.mp hj with ⟨_, h⟩ | ⟨_, h⟩
          · cases h
          · exact hI.acqLive _ _ _ _ _ _ h (hlive _ _ _ hl')
        · intro j s' k' q todo' hj
          rcases upd_eq_iff.mp hj with ⟨_, h⟩ | ⟨_, h⟩
          · injection h with h1 h2 h3 _; subst h1; subst h3; exact hI.liveHolder _ _ _ hl
          · exact hI.relHolder _ _ _ _ _ h
        · intro j s' k' q todo' s'' k'' hj hl'
          rcases upd_eq_iff.mp hj with ⟨_, h⟩ | ⟨_, h⟩
          · injection h with h1 h2 h3 _; subst h1; subst h2; subst h3
            have hl' := hlive _ _ _ hl'
            have a := hI.liveHolder _ _ _ hl
            have b := hI.liveHolder _ _ _ hl'
            rw [a] at b; injection b with b; subst b
            exact ⟨rfl, hI.liveUniq _ _ _ _ hl' hl⟩
          · exact hI.relLive _ _ _ _ _ _ _ h (hlive _ _ _ hl')
        · intro j j' s' k' q todo' s'' n hj hj'
          rcases upd_eq_iff.mp hj' with ⟨_, h'⟩ | ⟨_, h'⟩
          · cases h'
          · rcases upd_eq_iff.mp hj with ⟨_, h⟩ | ⟨_, h⟩
            · injection h with h1 h2 h3 _; subst h3
              exact hI.acqLive _ _ _ _ _ _ h' hl
            · exact hI.relAcq _ _ _ _ _ _ _ _ h h'
        · exact hI.nofor
      · injection hx with hx; subst hx
        refine hI.reth (Or.inr ⟨_, _, hth⟩) (Or.inr ⟨_, _, rfl⟩) ?_ (fun q => rfl) hI.nofor
        intro t ht j hj
        injection ht with ht; subst ht; exact hser j hj
    · cases hx
  · cases hx

theorem Inv.release {st : St} (hI : Inv st) {i : Nat} {st' : St}
    (hx : exec st (.release i) = some st') : Inv st' := by
  simp only [exec] at hx
  split at hx
  · rename_i s k p todo hth
    injection hx with hx; subst hx
    have hH := hI.relHolder _ _ _ _ _ hth
    have hlive : ∀ s' k' q, Live { st with prov := st.prov.releasePort p, ths := upd st.ths i (.del s k p todo), tr := .released s p :: st.tr } s' k' q →
        Live st s' k' q ∧ q ≠ p := by
      rintro s' k' q ⟨h1, h2⟩
      have hl : Live st s' k' q := by
        refine ⟨h1, fun j todo' hj => ?_⟩
        apply h2 j todo'
        rw [upd_eq_iff]; right
        exact ⟨(by rintro rfl; rw [hth] at hj; cases hj), hj⟩
      refine ⟨hl, ?_⟩
      rintro rfl
      obtain ⟨rfl, rfl⟩ := hI.relLive _ _ _ _ _ _ _ hth hl
      exact h2 i todo (upd_same _ _ _)
    have hrel : ∀ {q s'}, holder st.tr q = some s' → q ≠ p →
        holder (.released s p :: st.tr) q = some s' := by
      intro q s' h hq
      rw [holder_released, if_neg (fun e => hq e.symm)]; exact h
    have hacq : ∀ {j s' n q}, st.ths j = .acq s' n q → q ≠ p := by
      rintro j s' n q h rfl
      exact hI.relAcq _ _ _ _ _ _ _ _ hth h
    have hrel' : ∀ {j s' k' q todo'}, j ≠ i → st.ths j = .rel s' k' q todo' → q ≠ p := by
      rintro j s' k' q todo' hj h rfl
      have := hI.relHolder _ _ _ _ _ h
      rw [hH] at this; injection this with this; subst this
      exact hj (hI.serial j i s (by rw [h]; rfl) (by rw [hth]; rfl))
    constructor
    · exact hI.hmin
    · intro q
      show (st.prov.releasePort p).held q = _
      rw [holder_released]
      simp only [PP.releasePort]
      by_cases hq : q = p
      · rw [if_pos hq, if_pos hq.symm]; rfl
      · rw [if_neg hq, if_neg (fun e => hq e.symm)]; exact hI.held q
    · intro a c t ha hc
      have hx : ∀ c, (upd st.ths i (.del s k p todo) c).closes = some t → (st.ths c).closes = some t := by
        intro c hc
        by_cases h : c = i
        · subst h; rw [upd_same] at hc; rw [hth]; exact hc
        · rw [upd_ne _ _ h] at hc; exact hc
      exact hI.serial a c t (hx a ha) (hx c hc)
    · intro s' k' q h
      obtain ⟨h, hq⟩ := hlive _ _ _ h
      exact hrel (hI.liveHolder _ _ _ h) hq
    · intro s' k' k'' q h h'; exact hI.liveUniq _ _ _ _ (hlive _ _ _ h).1 (hlive _ _ _ h').1
    · intro j s' n q hj
      rcases upd_eq_iff.mp hj with ⟨_, h⟩ | ⟨_, h⟩
      · cases h
      · exact hrel (hI.acqHolder _ _ _ _ h) (hacq h)
    · intro j j' s1 s2 n1 n2 q hj hj'
      rcases upd_eq_iff.mp hj with ⟨_, h⟩ | ⟨_, h⟩
      · cases h
      · rcases upd_eq_iff.mp hj' with ⟨_, h'⟩ | ⟨_, h'⟩
        · cases h'
        · exact hI.acqUniq _ _ _ _ _ _ _ h h'
    · intro j s' n q s'' k' hj hl'
      rcases upd_eq_iff.mp hj with ⟨_, h⟩ | ⟨_, h⟩
      · cases h
      · exact hI.acqLive _ _ _ _ _ _ h (hlive _ _ _ hl').1
    · intro j s' k' q todo' hj
      rcases upd_eq_iff.mp hj with ⟨_, h⟩ | ⟨hji, h⟩
      · cases h
      · exact hrel (hI.relHolder _ _ _ _ _ h) (hrel' hji h)
    · intro j s' k' q todo' s'' k'' hj hl'
      rcases upd_eq_iff.mp hj with ⟨_, h⟩ | ⟨_, h⟩
      · cases h
      · exact hI.relLive _ _ _ _ _ _ _ h (hlive _ _ _ hl').1
    · intro j j' s' k' q todo' s'' n hj hj'
      rcases upd_eq_iff.mp hj with ⟨_, h⟩ | ⟨_, h⟩
      · cases h
      · rcases upd_eq_iff.mp hj' with ⟨_, h'⟩ | ⟨_, h'⟩
        · cases h'
        · exact hI.relAcq _ _ _ _ _ _ _ _ h h'
    · refine nofor_cons hI.nofor ?_
      intro s' q h; injection h with h1 h2; subst h1; subst h2; exact hH
  · cases hx

theorem Inv.delete {st : St} (hI : Inv st) {i : Nat} {st' : St}
    (hx : exec st (.delete i) = some st') : Inv st' := by
  simp only [exec] at hx
  split at hx
  · rename_i s k p todo hth
    injection hx with hx; subst hx
    have hlive : ∀ s' k' q, Live { st with ports := upd st.ports s (mapDel (st.ports s) k), ths := upd st.ths i (.rng s todo) } s' k' q →
        Live st s' k' q := by
      rintro s' k' q ⟨h1, h2⟩
      have hmem : (k', q) ∈ st.ports s' ∧ ¬ (s' = s ∧ k' = k) := by
        by_cases hs : s' = s
        · subst hs
          simp only [upd_same] at h1
          have := mem_mapDel.mp h1
          exact ⟨this.1, fun h => this.2 h.2⟩
        · simp only [upd_ne _ _ hs] at h1
          exact ⟨h1, fun h => hs h.1⟩
      refine ⟨hmem.1, fun j todo' hj => ?_⟩
      apply h2 j todo'
      rw [upd_eq_iff]; right
      refine ⟨?_, hj⟩
      rintro rfl
      rw [hth] at hj
      injection hj with e1 e2 _ _
      exact hmem.2 ⟨e1.symm, e2.symm⟩
    constructor
    · exact hI.hmin
    · exact hI.held
    · intro a c t ha hc
      have hx : ∀ c, (upd st.ths i (.rng s todo) c).closes = some t → (st.ths c).closes = some t := by
        intro c hc
        by_cases h : c = i
        · subst h; rw [upd_same] at hc; rw [hth]; exact hc
        · rw [upd_ne _ _ h] at hc; exact hc
      exact hI.serial a c t (hx a ha) (hx c hc)
    · intro s' k q h; exact hI.liveHolder _ _ _ (hlive _ _ _ h)
    · intro s' k k' q h h'; exact hI.liveUniq _ _ _ _ (hlive _ _ _ h) (hlive _ _ _ h')
    · intro j s' n q hj
      rcases upd_eq_iff.mp hj with ⟨_, h⟩ | ⟨_, h⟩
      · cases h
      · exact hI.acqHolder _ _ _ _ h
    · intro j j' s1 s2 n1 n2 q hj hj'
      rcases upd_eq_iff.mp hj with ⟨_, h⟩ | ⟨_, h⟩
      · cases h
      · rcases upd_eq_iff.mp hj' with ⟨_, h'⟩ | ⟨_, h'⟩
        · cases h'
        · exact hI.acqUniq _ _ _ _ _ _ _ h h'
    · intro j s' n q s'' k' hj hl'
      rcases upd_eq_iff.mp hj with ⟨_, h⟩ | ⟨_, h⟩
      · cases h
      · exact hI.acqLive _ _ _ _ _ _ h (hlive _ _ _ hl')
    · intro j s' k' q todo' hj
      rcases upd_eq_iff.mp hj with ⟨_, h⟩ | ⟨_, h⟩
      · cases h
      · exact hI.relHolder _ _ _ _ _ h
    · intro j s' k' q todo' s'' k'' hj hl'
      rcases upd_eq_iff.mp hj with ⟨_, h⟩ | ⟨_, h⟩
      · cases h
      · exact hI.relLive _ _ _ _ _ _ _ h (hlive _ _ _ hl')
    · intro j j' s' k' q todo' s'' n hj hj'
      rcases upd_eq_iff.mp hj with ⟨_, h⟩ | ⟨_, h⟩
      · cases h
      · rcases upd_eq_iff.mp hj' with ⟨_, h'⟩ | ⟨_, h'⟩
        · cases h'
        · exact hI.relAcq _ _ _ _ _ _ _ _ h h'
    · exact hI.nofor
  · cases hx

theorem Inv.exec {st : St} (hI : Inv st) {a : Act} {st' : St} (hg : SerialClose st a)
    (hx : Tunnel.exec st a = some st') : Inv st' := by
  cases a with
  | request i s n r => exact hI.request hx
  | store i => exact hI.store hx
  | closeBegin i s => exact hI.closeBegin hg hx
  | visit i k => exact hI.visit hx
  | release i => exact hI.release hx
  | delete i => exact hI.delete hx
  | closeEnd i => exact hI.closeEnd hx

theorem Reach.inv {g : St → Act → Prop} (hg : ∀ st a, g st a → SerialClose st a) {p : PP}
    (hmin : 0 < p.min) (h0 : ∀ q, p.held q = false) {st : St} (h : Reach g p st) : Inv st := by
  induction h with
  | init => exact Inv.init hmin h0
  | step a _ hga hx ih => exact ih.exec (hg _ _ hga) hx

/-- **C37 (no other session's port is freed), partial.**  In every interleaving of port
requests and closes of any number of sessions, with any names, in which calls of `Close`
on one and the same session do not overlap in time, every port released by closing a
session was held by that session.  Missing: overlapping `Close` calls on one session, for
which it is false (`C37_overlapping_close_false`). -/
theorem C37_no_foreign_release_partial (min max : Int) (hmin : 0 < min) (p : PP)
    (hp : PP.new min max = some p) (st : St) (h : Reach SerialClose p st) :
    NoForeignRelease st.tr := by
  obtain ⟨_, e1, _, e3⟩ := PP.new_some hp
  exact (h.inv (fun _ _ h => h) (by rw [e1]; exact hmin) (by intro q; rw [e3])).nofor

/-! ### Everything is released -/

structure Inv2 (st : St) : Prop where
  inv : Inv st
  ref : ∀ s p, holder st.tr p = some s →
    (∃ i n, st.ths i = .acq s n p) ∨ (∃ k, Live st s k p) ∨ ∃ i k todo, st.ths i = .rel s k p todo
  reqKey : ∀ s k p, (k, p) ∈ st.ports s → .requested s k ∈ st.tr
  reqAcq : ∀ i s n p, st.ths i = .acq s n p → .requested s n ∈ st.tr
  acqKey : ∀ i s n p q, st.ths i = .acq s n p → (n, q) ∉ st.ports s
  acqName : ∀ i j s n p q, st.ths i = .acq s n p → st.ths j = .acq s n q → i = j
  noAcq : ∀ s, .closing s ∈ st.tr → ∀ i n p, st.ths i ≠ .acq s n p
  thClosing : ∀ i s, (st.ths i).closes = some s → .closing s ∈ st.tr
  func : ∀ s k p q, (k, p) ∈ st.ports s → (k, q) ∈ st.ports s → p = q
  cover : ∀ i s k p, (k, p) ∈ st.ports s →
    match st.ths i with
    | .rng s' todo => s' = s → k ∈ todo
    | .rel s' k' _ todo => s' = s → k ∈ todo ∨ k = k'
    | .del s' k' _ todo => s' = s → k ∈ todo ∨ k = k'
    | _ => True
  stored : ∀ i s k p todo, st.ths i = .rel s k p todo ∨ st.ths i = .del s k p todo →
    (k, p) ∈ st.ports s
  closedEmpty : ∀ s, .closed s ∈ st.tr → st.ports s = [] ∧ .closing s ∈ st.tr ∧
    st.alive s = false ∧ ∀ i, (st.ths i).closes ≠ some s

theorem Inv2.init {p : PP} (hmin : 0 < p.min) (h0 : ∀ q, p.held q = false) : Inv2 (St.init p) where
  inv := Inv.init hmin h0
  ref := by intro s p h; simp [St.init, holder] at h
  reqKey := by intro s k p h; simp [St.init] at h
  reqAcq := by intro i s n p h; simp [St.init] at h
  acqKey := by intro i s n p q h; simp [St.init] at h
  acqName := by intro i j s n p q h; simp [St.init] at h
  noAcq := by intro s h; simp [St.init] at h
  thClosing := by intro i s h; simp [St.init, Th.closes] at h
  func := by intro s k p q h; simp [St.init] at h
  cover := by intro i s k p h; simp [St.init] at h
  stored := by intro i s k p todo h; simp [St.init] at h
  closedEmpty := by intro s h; simp [St.init] at h

theorem OrderlyUse.serial {st : St} {a : Act} (h : OrderlyUse st a) : SerialClose st a := by
  cases a <;> first | exact trivial | exact h.1

theorem upd_closes_of {f : Nat → Th} {i : Nat} {b : Th} {s : Nat} (hb : b.closes = none ∨ b.closes = (f i).closes)
    {j : Nat} (h : (upd f i b j).closes = some s) : (f j).closes = some s := by
  by_cases hj : j = i
  · subst hj; rw [upd_same] at h
    rcases hb with e | e
    · rw [e] at h; cases h
    · rw [← e]; exact h
  · rw [upd_ne _ _ hj] at h; exact h

theorem Inv2.exec {st : St} (hI : Inv2 st) {a : Act} {st' : St} (hg : OrderlyUse st a)
    (hx : Tunnel.exec st a = some st') : Inv2 st' := by
  have hinv := hI.inv.exec hg.serial hx
  cases a with
  | request i s name req =>
    have hacq := acquire_spec hI.inv.hmin req
    simp only [Tunnel.exec] at hx
    split at hx
    · rename_i hidle
      split at hx
      · rename_i h0
        injection hx with hx; subst hx
        constructor
        · exact hinv
        · intro s' p h; exact hI.ref s' p h
        · intro s' k p h; exact List.mem_cons_of_mem _ (hI.reqKey _ _ _ h)
        · intro j s' n p h; exact List.mem_cons_of_mem _ (hI.reqAcq _ _ _ _ h)
        · exact hI.acqKey
        · exact hI.acqName
        · intro s' h j n p
          have : Ev.closing s' ∈ st.tr := by simpa using h
          exact hI.noAcq s' this j n p
        · intro j s' h; exact List.mem_cons_of_mem _ (hI.thClosing _ _ h)
        · exact hI.func
        · exact hI.cover
        · exact hI.stored
        · intro s' h
          have : Ev.closed s' ∈ st.tr := by simpa using h
          obtain ⟨a, b, c⟩ := hI.closedEmpty s' this
          exact ⟨a, List.mem_cons_of_mem _ b, c⟩
      · rename_i h0
        injection hx with hx; subst hx
        obtain ⟨hfree, hheld⟩ := hacq.2.2 h0
        generalize hpp : (acquire st.prov req).2 = p at *
        have hkeep : ∀ {j t}, st.ths j = t → t ≠ .idle → upd st.ths i (.acq s name p) j = t := by
          intro j t h ht
          rw [upd_eq_iff]; right
          exact ⟨(by rintro rfl; exact ht (h.symm.trans hidle)), h⟩
        have hlive : ∀ {s' k q}, Live st s' k q → Live
          { st with prov := (acquire st.prov req).1, ths := upd st.ths i (.acq s name p),
                    tr := .assigned s p :: .requested s name :: st.tr } s' k q := by
          rintro s' k q ⟨h1, h2⟩
          refine ⟨h1, fun j todo hj => ?_⟩
          rcases upd_eq_iff.mp hj with ⟨_, h⟩ | ⟨_, h⟩
          · cases h
          · exact h2 j todo h
        constructor
        · exact hinv
        · intro s' q h
          rw [holder_assigned, holder_requested] at h
          split at h
          · rename_i e; subst e; injection h with h; subst h
            exact Or.inl ⟨i, name, by simp [upd]⟩
          · rcases hI.ref s' q h with ⟨j, n, hj⟩ | ⟨k, hk⟩ | ⟨j, k, todo, hj⟩
            · exact Or.inl ⟨j, n, hkeep hj (by simp)⟩
            · exact Or.inr (Or.inl ⟨k, hlive hk⟩)
            · exact Or.inr (Or.inr ⟨j, k, todo, hkeep hj (by simp)⟩)
        · intro s' k q h; exact List.mem_cons_of_mem _ (List.mem_cons_of_mem _ (hI.reqKey _ _ _ h))
        · intro j s' n q h
          rcases upd_eq_iff.mp h with ⟨_, h⟩ | ⟨_, h⟩
          · injection h with e1 e2 _; subst e1; subst e2; simp
          · exact List.mem_cons_of_mem _ (List.mem_cons_of_mem _ (hI.reqAcq _ _ _ _ h))
        · intro j s' n q q' h hm
          rcases upd_eq_iff.mp h with ⟨_, h⟩ | ⟨_, h⟩
          · injection h with e1 e2 _; subst e1; subst e2
            exact hg.1 (hI.reqKey _ _ _ hm)
          · exact hI.acqKey _ _ _ _ _ h hm
        · intro j j' s' n q q' h h'
          rcases upd_eq_iff.mp h with ⟨e, h⟩ | ⟨_, h⟩
          · rcases upd_eq_iff.mp h' with ⟨e', h'⟩ | ⟨_, h'⟩
            · rw [e, e']
            · injection h with e1 e2 _; subst e1; subst e2
              exact absurd (hI.reqAcq _ _ _ _ h') hg.1
          · rcases upd_eq_iff.mp h' with ⟨e', h'⟩ | ⟨_, h'⟩
            · injection h' with e1 e2 _; subst e1; subst e2
              exact absurd (hI.reqAcq _ _ _ _ h) hg.1
            · exact hI.acqName _ _ _ _ _ _ h h'
        · intro s' hc j n q h
          have hc : Ev.closing s' ∈ st.tr := by simpa using hc
          rcases upd_eq_iff.mp h with ⟨_, h⟩ | ⟨_, h⟩
          · injection h with e1 _ _; subst e1; exact hg.2 hc
          · exact hI.noAcq s' hc j n q h
        · intro j s' h
          exact List.mem_cons_of_mem _ (List.mem_cons_of_mem _ (hI.thClosing _ _ (upd_closes_of (Or.inl rfl) h)))
        · exact hI.func
        · intro j s' k q h
          show match upd st.ths i (.acq s name p) j with | .rng _ _ => _ | .rel _ _ _ _ => _ | .del _ _ _ _ => _ | _ => _
          by_cases hj : j = i
          · subst hj; rw [upd_same]; trivial
          · rw [upd_ne _ _ hj]; exact hI.cover j s' k q h
        · intro j s' k q todo h
          apply hI.stored j s' k q todo
          rcases h with h | h <;> rcases upd_eq_iff.mp h with ⟨_, h⟩ | ⟨_, h⟩
          · cases h
          · exact Or.inl h
          · cases h
          · exact Or.inr h
        · intro s' h
          have : Ev.closed s' ∈ st.tr := by simpa using h
          obtain ⟨a, b, c, d⟩ := hI.closedEmpty s' this
          exact ⟨a, List.mem_cons_of_mem _ (List.mem_cons_of_mem _ b), c,
            fun j hj => d j (upd_closes_of (Or.inl rfl) hj)⟩
    · cases hx
  | store i =>
    simp only [Tunnel.exec] at hx
    split at hx
    · rename_i s name p hth
      injection hx with hx; subst hx
      have hnc : .closing s ∉ st.tr := fun h => hI.noAcq s h i name p hth
      have hnth : ∀ j, (st.ths j).closes ≠ some s := fun j h => hnc (hI.thClosing j s h)
      have hkey := fun q => hI.acqKey i s name p q hth
      have hkeep : ∀ {j t}, st.ths j = t → j ≠ i → upd st.ths i .idle j = t := by
        intro j t h ht
        rw [upd_eq_iff]; right
        exact ⟨ht, h⟩
      have hmem : ∀ {s' k q}, (k, q) ∈ upd st.ports s (mapStore (st.ports s) name p) s' →
          (s' = s ∧ k = name ∧ q = p) ∨ (k, q) ∈ st.ports s' := by
        intro s' k q h
        by_cases hs : s' = s
        · subst hs; rw [upd_same] at h
          rcases mem_mapStore.mp h with ⟨a, b⟩ | ⟨a, _⟩
          · exact Or.inl ⟨rfl, a, b⟩
          · exact Or.inr a
        · rw [upd_ne _ _ hs] at h; exact Or.inr h
      have hmem' : ∀ {s' k q}, (k, q) ∈ st.ports s' →
          (k, q) ∈ upd st.ports s (mapStore (st.ports s) name p) s' := by
        intro s' k q h
        by_cases hs : s' = s
        · subst hs; rw [upd_same]
          refine mem_mapStore.mpr (Or.inr ⟨h, ?_⟩)
          rintro rfl; exact hkey q h
        · rw [upd_ne _ _ hs]; exact h
      constructor
      · exact hinv
      · intro s' q h
        rcases hI.ref s' q h with ⟨j, n, hj⟩ | ⟨k, hk⟩ | ⟨j, k, todo, hj⟩
        · by_cases hji : j = i
          · subst hji; rw [hth] at hj; injection hj with e1 e2 e3
            subst e1; subst e2; subst e3
            refine Or.inr (Or.inl ⟨name, ?_, ?_⟩)
            · show (name, p) ∈ upd st.ports s (mapStore (st.ports s) name p) s
              rw [upd_same]; exact mem_mapStore.mpr (Or.inl ⟨rfl, rfl⟩)
            · intro j' todo hj'
              rcases upd_eq_iff.mp hj' with ⟨_, h⟩ | ⟨_, h⟩
              · cases h
              · exact hnth j' (by rw [h]; rfl)
          · exact Or.inl ⟨j, n, hkeep hj hji⟩
        · refine Or.inr (Or.inl ⟨k, hmem' hk.1, ?_⟩)
          intro j' todo hj'
          rcases upd_eq_iff.mp hj' with ⟨_, h⟩ | ⟨_, h⟩
          · cases h
          · exact hk.2 j' todo h
        · refine Or.inr (Or.inr ⟨j, k, todo, hkeep hj ?_⟩)
          rintro rfl; rw [hth] at hj; cases hj
      · intro s' k q h
        rcases hmem h with ⟨rfl, rfl, rfl⟩ | h
        · exact hI.reqAcq _ _ _ _ hth
        · exact hI.reqKey _ _ _ h
      · intro j s' n q h
        rcases upd_eq_iff.mp h with ⟨_, h⟩ | ⟨_, h⟩
        · cases h
        · exact hI.reqAcq _ _ _ _ h
      · intro j s' n q q' h hm
        rcases upd_eq_iff.mp h with ⟨_, h2⟩ | ⟨hji, h2⟩
        · cases h2
        · rcases hmem hm with ⟨e1, e2, _⟩ | hm2
          · rw [e1, e2] at h2; exact hji (hI.acqName _ _ _ _ _ _ h2 hth)
          · exact hI.acqKey _ _ _ _ _ h2 hm2
      · intro j j' s' n q q' h h'
        rcases upd_eq_iff.mp h with ⟨_, h⟩ | ⟨_, h⟩
        · cases h
        · rcases upd_eq_iff.mp h' with ⟨_, h'⟩ | ⟨_, h'⟩
          · cases h'
          · exact hI.acqName _ _ _ _ _ _ h h'
      · intro s' hc j n q h
        rcases upd_eq_iff.mp h with ⟨_, h⟩ | ⟨_, h⟩
        · cases h
        · exact hI.noAcq s' hc j n q h
      · intro j s' h; exact hI.thClosing _ _ (upd_closes_of (Or.inl rfl) h)
      · intro s' k q q' h h'
        rcases hmem h with ⟨e1, e2, e3⟩ | h2
        · rcases hmem h' with ⟨_, _, e3'⟩ | h2'
          · rw [e3, e3']
          · rw [e1, e2] at h2'; exact absurd h2' (hkey q')
        · rcases hmem h' with ⟨e1, e2, e3⟩ | h2'
          · rw [e1, e2] at h2; exact absurd h2 (hkey q)
          · exact hI.func _ _ _ _ h2 h2'
      · intro j s' k q h
        show match upd st.ths i .idle j with | .rng _ _ => _ | .rel _ _ _ _ => _ | .del _ _ _ _ => _ | _ => _
        by_cases hj : j = i
        · subst hj; rw [upd_same]; trivial
        · rw [upd_ne _ _ hj]
          rcases hmem h with ⟨rfl, rfl, rfl⟩ | h
          · have := hnth j
            cases hjt : st.ths j with
            | idle => trivial
            | acq _ _ _ => trivial
            | rng s'' _ => intro e; subst e; exact absurd (by rw [hjt]; rfl) this
            | rel s'' _ _ _ => intro e; subst e; exact absurd (by rw [hjt]; rfl) this
            | del s'' _ _ _ => intro e; subst e; exact absurd (by rw [hjt]; rfl) this
          · exact hI.cover j s' k q h
      · intro j s' k q todo h
        apply hmem'; apply hI.stored j s' k q todo
        rcases h with h | h <;> rcases upd_eq_iff.mp h with ⟨_, h⟩ | ⟨_, h⟩
        · cases h
        · exact Or.inl h
        · cases h
        · exact Or.inr h
      · intro s' h
        obtain ⟨a, b, c, d⟩ := hI.closedEmpty s' h
        have hs : s' ≠ s := by rintro rfl; exact hnc b
        exact ⟨by show upd st.ports s _ s' = []; rw [upd_ne _ _ hs]; exact a, b, c,
          fun j hj => d j (upd_closes_of (Or.inl rfl) hj)⟩
    · cases hx
  | closeBegin i s =>
    simp only [Tunnel.exec] at hx
    split at hx
    · rename_i hidle
      split at hx
      · rename_i halive
        injection hx with hx; subst hx
        have hkeep : ∀ {j t}, st.ths j = t → t ≠ .idle →
            upd st.ths i (.rng s ((st.ports s).map (·.1))) j = t := by
          intro j t h ht
          rw [upd_eq_iff]; right
          exact ⟨(by rintro rfl; exact ht (h.symm.trans hidle)), h⟩
        constructor
        · exact hinv
        · intro s' q h
          rcases hI.ref s' q h with ⟨j, n, hj⟩ | ⟨k, hk⟩ | ⟨j, k, todo, hj⟩
          · exact Or.inl ⟨j, n, hkeep hj (by simp)⟩
          · refine Or.inr (Or.inl ⟨k, hk.1, ?_⟩)
            intro j' todo hj'
            rcases upd_eq_iff.mp hj' with ⟨_, h⟩ | ⟨_, h⟩
            · cases h
            · exact hk.2 j' todo h
          · exact Or.inr (Or.inr ⟨j, k, todo, hkeep hj (by simp)⟩)
        · intro s' k p h; exact List.mem_cons_of_mem _ (hI.reqKey _ _ _ h)
        · intro j s' n q h
          rcases upd_eq_iff.mp h with ⟨_, h⟩ | ⟨_, h⟩
          · cases h
          · exact List.mem_cons_of_mem _ (hI.reqAcq _ _ _ _ h)
        · intro j s' n q q' h hm
          rcases upd_eq_iff.mp h with ⟨_, h⟩ | ⟨hji, h⟩
          · cases h
          · exact hI.acqKey _ _ _ _ _ h hm
        · intro j j' s' n q q' h h'
          rcases upd_eq_iff.mp h with ⟨_, h⟩ | ⟨_, h⟩
          · cases h
          · rcases upd_eq_iff.mp h' with ⟨_, h'⟩ | ⟨_, h'⟩
            · cases h'
            · exact hI.acqName _ _ _ _ _ _ h h'
        · intro s' hc j n q h
          rcases upd_eq_iff.mp h with ⟨_, h2⟩ | ⟨_, h2⟩
          · cases h2
          · rcases List.mem_cons.mp hc with hc | hc
            · injection hc with hc; rw [hc] at h2; exact hg.2 j n q h2
            · exact hI.noAcq s' hc j n q h2
        · intro j s' h
          by_cases hj : j = i
          · subst hj; simp only [upd_same] at h
            injection h with h; subst h; simp
          · simp only [upd_ne _ _ hj] at h
            exact List.mem_cons_of_mem _ (hI.thClosing _ _ h)
        · exact hI.func
        · intro j s' k q h
          show match upd st.ths i (.rng s ((st.ports s).map (·.1))) j with | .rng _ _ => _ | .rel _ _ _ _ => _ | .del _ _ _ _ => _ | _ => _
          by_cases hj : j = i
          · subst hj; rw [upd_same]
            intro e; subst e
            exact List.mem_map.mpr ⟨(k, q), h, rfl⟩
          · rw [upd_ne _ _ hj]; exact hI.cover j s' k q h
        · intro j s' k q todo h
          apply hI.stored j s' k q todo
          rcases h with h | h <;> rcases upd_eq_iff.mp h with ⟨_, h⟩ | ⟨_, h⟩
          · cases h
          · exact Or.inl h
          · cases h
          · exact Or.inr h
        · intro s' h
          have : Ev.closed s' ∈ st.tr := by simpa using h
          obtain ⟨a, b, c, d⟩ := hI.closedEmpty s' this
          refine ⟨a, List.mem_cons_of_mem _ b, c, fun j hj => ?_⟩
          by_cases hji : j = i
          · subst hji; simp only [upd_same] at hj
            injection hj with hj; subst hj; rw [c] at halive; cases halive
          · simp only [upd_ne _ _ hji] at hj; exact d j hj
      · injection hx with hx; subst hx; exact hI
    · cases hx
  | visit i k =>
    simp only [Tunnel.exec] at hx
    split at hx
    · rename_i s todo hth
      split at hx
      · -- both outcomes: thread `i` moves to `b` with the same `closes`
        rename_i hk0
        have key : ∀ b : Th, b.closes = some s → (∀ s' n p, b ≠ .acq s' n p) →
            (∀ s' k p t, b ≠ .del s' k p t) →
            (∀ s' k p t, b = .rel s' k p t → (k, p) ∈ st.ports s') →
            (∀ k' q, (k', q) ∈ st.ports s → match b with
              | .rng s' todo => s' = s → k' ∈ todo
              | .rel s' k'' _ todo => s' = s → k' ∈ todo ∨ k' = k''
              | .del s' k'' _ todo => s' = s → k' ∈ todo ∨ k' = k''
              | _ => True) →
            Inv { st with ths := upd st.ths i b } → Inv2 { st with ths := upd st.ths i b } := by
          intro b hbc hba hbd hbs hcov hinv
          have hb' : b.closes = (st.ths i).closes := by rw [hth]; exact hbc
          constructor
          · exact hinv
          · intro s' q h
            rcases hI.ref s' q h with ⟨j, n, hj⟩ | ⟨k, hk⟩ | ⟨j, k, todo, hj⟩
            · refine Or.inl ⟨j, n, upd_eq_iff.mpr (Or.inr ⟨?_, hj⟩)⟩
              rintro rfl; rw [hth] at hj; cases hj
            · refine Or.inr (Or.inl ⟨k, hk.1, ?_⟩)
              intro j' todo hj'
              rcases upd_eq_iff.mp hj' with ⟨_, h⟩ | ⟨_, h⟩
              · exact hbd _ _ _ _ h
              · exact hk.2 j' todo h
            · refine Or.inr (Or.inr ⟨j, k, todo, upd_eq_iff.mpr (Or.inr ⟨?_, hj⟩)⟩)
              rintro rfl; rw [hth] at hj; cases hj
          · exact hI.reqKey
          · intro j s' n q h
            rcases upd_eq_iff.mp h with ⟨_, h⟩ | ⟨_, h⟩
            · exact absurd h (hba _ _ _)
            · exact hI.reqAcq _ _ _ _ h
          · intro j s' n q q' h hm
            rcases upd_eq_iff.mp h with ⟨_, h⟩ | ⟨hji, h⟩
            · exact absurd h (hba _ _ _)
            · exact hI.acqKey _ _ _ _ _ h hm
          · intro j j' s' n q q' h h'
            rcases upd_eq_iff.mp h with ⟨_, h⟩ | ⟨_, h⟩
            · exact absurd h (hba _ _ _)
            · rcases upd_eq_iff.mp h' with ⟨_, h'⟩ | ⟨_, h'⟩
              · exact absurd h' (hba _ _ _)
              · exact hI.acqName _ _ _ _ _ _ h h'
          · intro s' hc j n q h
            rcases upd_eq_iff.mp h with ⟨_, h⟩ | ⟨_, h⟩
            · exact absurd h (hba _ _ _)
            · exact hI.noAcq s' hc j n q h
          · intro j s' h; exact hI.thClosing _ _ (upd_closes_of (Or.inr hb') h)
          · exact hI.func
          · intro j s' k' q h
            show match upd st.ths i b j with | .rng _ _ => _ | .rel _ _ _ _ => _ | .del _ _ _ _ => _ | _ => _
            by_cases hj : j = i
            · subst hj; rw [upd_same]
              by_cases hs : s' = s
              · subst hs; exact hcov k' q h
              · cases b with
                | idle => trivial
                | acq _ _ _ => trivial
                | rng s2 _ => intro e; injection hbc with hbc; exact absurd (e.symm.trans hbc) hs
                | rel s2 _ _ _ => intro e; injection hbc with hbc; exact absurd (e.symm.trans hbc) hs
                | del s2 _ _ _ => intro e; injection hbc with hbc; exact absurd (e.symm.trans hbc) hs
            · rw [upd_ne _ _ hj]; exact hI.cover j s' k' q h
          · intro j s' k q todo h
            rcases h with h | h <;> rcases upd_eq_iff.mp h with ⟨_, h⟩ | ⟨_, h⟩
            · exact hbs _ _ _ _ h
            · exact hI.stored j s' k q todo (Or.inl h)
            · exact absurd h (hbd _ _ _ _)
            · exact hI.stored j s' k q todo (Or.inr h)
          · intro s' h
            obtain ⟨a, b, c, d⟩ := hI.closedEmpty s' h
            exact ⟨a, b, c, fun j hj => d j (upd_closes_of (Or.inr hb') hj)⟩
        have hc0 : ∀ k' q, (k', q) ∈ st.ports s → k' ∈ todo := by
          intro k' q h
          have := hI.cover i s k' q h
          rw [hth] at this
          exact this rfl
        split at hx
        · rename_i p hget
          injection hx with hx; subst hx
          refine key _ rfl (by simp) (by simp) ?_ ?_ hinv
          · intro s' k' p' t' h
            injection h with e1 e2 e3 _; subst e1; subst e2; subst e3
            exact mem_of_mapGet hget
          intro k' q h
          intro _
          by_cases hk : k' = k
          · exact Or.inr hk
          · exact Or.inl (List.mem_filter.mpr ⟨hc0 k' q h, by simpa using hk⟩)
        · rename_i hget
          injection hx with hx; subst hx
          refine key _ rfl (by simp) (by simp) (by simp) ?_ hinv
          intro k' q h
          intro _
          refine List.mem_filter.mpr ⟨hc0 k' q h, ?_⟩
          simp only [decide_eq_true_eq, ne_eq]
          rintro rfl
          clear hc0 hinv key
          generalize st.ports s = m at h hget
          induction m with
          | nil => simp at h
          | cons e m ih =>
            obtain ⟨k2, p2⟩ := e
            simp only [mapGet] at hget
            split at hget
            · cases hget
            · rename_i hne
              rcases List.mem_cons.mp h with h | h
              · injection h with h1 _; exact hne h1.symm
              · exact ih h hget
      · cases hx
    · cases hx
  | release i =>
    simp only [Tunnel.exec] at hx
    split at hx
    · rename_i s k p todo hth
      injection hx with hx; subst hx
      have hb' : (Th.del s k p todo).closes = (st.ths i).closes := by rw [hth]; rfl
      constructor
      · exact hinv
      · intro s' q h
        rw [holder_released] at h
        split at h
        · cases h
        · rename_i hpq
          rcases hI.ref s' q h with ⟨j, n, hj⟩ | ⟨k', hk⟩ | ⟨j, k', todo', hj⟩
          · refine Or.inl ⟨j, n, upd_eq_iff.mpr (Or.inr ⟨?_, hj⟩)⟩
            rintro rfl; rw [hth] at hj; cases hj
          · refine Or.inr (Or.inl ⟨k', hk.1, ?_⟩)
            intro j' todo hj'
            rcases upd_eq_iff.mp hj' with ⟨_, h⟩ | ⟨_, h⟩
            · injection h with _ _ e _; exact hpq e
            · exact hk.2 j' todo h
          · refine Or.inr (Or.inr ⟨j, k', todo', upd_eq_iff.mpr (Or.inr ⟨?_, hj⟩)⟩)
            rintro rfl; rw [hth] at hj; injection hj with _ _ e _; exact hpq e
      · intro s' k' q h; exact List.mem_cons_of_mem _ (hI.reqKey _ _ _ h)
      · intro j s' n q h
        rcases upd_eq_iff.mp h with ⟨_, h⟩ | ⟨_, h⟩
        · cases h
        · exact List.mem_cons_of_mem _ (hI.reqAcq _ _ _ _ h)
      · intro j s' n q q' h hm
        rcases upd_eq_iff.mp h with ⟨_, h⟩ | ⟨hji, h⟩
        · cases h
        · exact hI.acqKey _ _ _ _ _ h hm
      · intro j j' s' n q q' h h'
        rcases upd_eq_iff.mp h with ⟨_, h⟩ | ⟨_, h⟩
        · cases h
        · rcases upd_eq_iff.mp h' with ⟨_, h'⟩ | ⟨_, h'⟩
          · cases h'
          · exact hI.acqName _ _ _ _ _ _ h h'
      · intro s' hc j n q h
        have hc : Ev.closing s' ∈ st.tr := by simpa using hc
        rcases upd_eq_iff.mp h with ⟨_, h⟩ | ⟨_, h⟩
        · cases h
        · exact hI.noAcq s' hc j n q h
      · intro j s' h; exact List.mem_cons_of_mem _ (hI.thClosing _ _ (upd_closes_of (Or.inr hb') h))
      · exact hI.func
      · intro j s' k' q h
        show match upd st.ths i (.del s k p todo) j with | .rng _ _ => _ | .rel _ _ _ _ => _ | .del _ _ _ _ => _ | _ => _
        have := hI.cover j s' k' q h
        by_cases hj : j = i
        · subst hj; rw [upd_same]; rw [hth] at this; exact this
        · rw [upd_ne _ _ hj]; exact this
      · intro j s' k' q todo' h
        rcases h with h | h <;> rcases upd_eq_iff.mp h with ⟨_, h⟩ | ⟨_, h⟩
        · cases h
        · exact hI.stored j s' k' q todo' (Or.inl h)
        · injection h with e1 e2 e3 _; subst e1; subst e2; subst e3
          exact hI.stored i s k p todo (Or.inl hth)
        · exact hI.stored j s' k' q todo' (Or.inr h)
      · intro s' h
        have : Ev.closed s' ∈ st.tr := by simpa using h
        obtain ⟨a, b, c, d⟩ := hI.closedEmpty s' this
        exact ⟨a, List.mem_cons_of_mem _ b, c, fun j hj => d j (upd_closes_of (Or.inr hb') hj)⟩
    · cases hx
  | delete i =>
    simp only [Tunnel.exec] at hx
    split at hx
    · rename_i s k p todo hth
      injection hx with hx; subst hx
      have hb' : (Th.rng s todo).closes = (st.ths i).closes := by rw [hth]; rfl
      have hmem : ∀ {s' k' q}, (k', q) ∈ upd st.ports s (mapDel (st.ports s) k) s' ↔
          (k', q) ∈ st.ports s' ∧ ¬ (s' = s ∧ k' = k) := by
        intro s' k' q
        by_cases hs : s' = s
        · subst hs; rw [upd_same, mem_mapDel]; simp
        · rw [upd_ne _ _ hs]; simp [hs]
      constructor
      · exact hinv
      · intro s' q h
        rcases hI.ref s' q h with ⟨j, n, hj⟩ | ⟨k', hk⟩ | ⟨j, k', todo', hj⟩
        · refine Or.inl ⟨j, n, upd_eq_iff.mpr (Or.inr ⟨?_, hj⟩)⟩
          rintro rfl; rw [hth] at hj; cases hj
        · refine Or.inr (Or.inl ⟨k', ?_, ?_⟩)
          · refine hmem.mpr ⟨hk.1, ?_⟩
            rintro ⟨rfl, rfl⟩
            have hqp := hI.func _ _ _ _ hk.1 (hI.stored i s' k' p todo (Or.inr hth))
            subst hqp; exact hk.2 i todo hth
          · intro j' todo hj'
            rcases upd_eq_iff.mp hj' with ⟨_, h⟩ | ⟨_, h⟩
            · cases h
            · exact hk.2 j' todo h
        · refine Or.inr (Or.inr ⟨j, k', todo', upd_eq_iff.mpr (Or.inr ⟨?_, hj⟩)⟩)
          rintro rfl; rw [hth] at hj; cases hj
      · intro s' k' q h; exact hI.reqKey _ _ _ (hmem.mp h).1
      · intro j s' n q h
        rcases upd_eq_iff.mp h with ⟨_, h⟩ | ⟨_, h⟩
        · cases h
        · exact hI.reqAcq _ _ _ _ h
      · intro j s' n q q' h hm
        rcases upd_eq_iff.mp h with ⟨_, h⟩ | ⟨hji, h⟩
        · cases h
        · exact hI.acqKey _ _ _ _ _ h (hmem.mp hm).1
      · intro j j' s' n q q' h h'
        rcases upd_eq_iff.mp h with ⟨_, h⟩ | ⟨_, h⟩
        · cases h
        · rcases upd_eq_iff.mp h' with ⟨_, h'⟩ | ⟨_, h'⟩
          · cases h'
          · exact hI.acqName _ _ _ _ _ _ h h'
      · intro s' hc j n q h
        rcases upd_eq_iff.mp h with ⟨_, h⟩ | ⟨_, h⟩
        · cases h
        · exact hI.noAcq s' hc j n q h
      · intro j s' h; exact hI.thClosing _ _ (upd_closes_of (Or.inr hb') h)
      · intro s' k' q q' h h'; exact hI.func _ _ _ _ (hmem.mp h).1 (hmem.mp h').1
      · intro j s' k' q h
        show match upd st.ths i (.rng s todo) j with | .rng _ _ => _ | .rel _ _ _ _ => _ | .del _ _ _ _ => _ | _ => _
        have hm := hmem.mp h
        have := hI.cover j s' k' q hm.1
        by_cases hj : j = i
        · subst hj; rw [upd_same]; rw [hth] at this
          intro e
          rcases this e with h' | h'
          · exact h'
          · exact absurd ⟨e.symm, h'⟩ hm.2
        · rw [upd_ne _ _ hj]; exact this
      · intro j s' k' q todo' h
        have hold : st.ths j = .rel s' k' q todo' ∨ st.ths j = .del s' k' q todo' ∧ j ≠ i := by
          rcases h with h | h <;> rcases upd_eq_iff.mp h with ⟨_, h⟩ | ⟨hji, h⟩
          · cases h
          · exact Or.inl h
          · cases h
          · exact Or.inr ⟨h, hji⟩
        have hcl : (st.ths j).closes = some s' := by
          rcases hold with h | ⟨h, _⟩ <;> (rw [h]; rfl)
        refine hmem.mpr ⟨hI.stored j s' k' q todo' (hold.imp id And.left), ?_⟩
        rintro ⟨rfl, rfl⟩
        have hji := hI.inv.serial j i s' hcl (by rw [hth]; rfl)
        rcases hold with h | ⟨_, h⟩
        · rw [hji, hth] at h; cases h
        · exact h hji
      · intro s' h
        obtain ⟨a, b, c, d⟩ := hI.closedEmpty s' h
        refine ⟨?_, b, c, fun j hj => d j (upd_closes_of (Or.inr hb') hj)⟩
        have hs : s' ≠ s := by
          rintro rfl; exact d i (by rw [hth]; rfl)
        show upd st.ports s _ s' = []
        rw [upd_ne _ _ hs]; exact a
    · cases hx
  | closeEnd i =>
    simp only [Tunnel.exec] at hx
    split at hx
    · rename_i s hth
      injection hx with hx; subst hx
      have hkeep : ∀ {j t}, st.ths j = t → (∀ s t', t ≠ .rng s t') → upd st.ths i .idle j = t := by
        intro j t h ht
        rw [upd_eq_iff]; right
        exact ⟨(by rintro rfl; exact ht _ _ (h.symm.trans hth)), h⟩
      constructor
      · exact hinv
      · intro s' q h
        rcases hI.ref s' q h with ⟨j, n, hj⟩ | ⟨k, hk⟩ | ⟨j, k, todo, hj⟩
        · exact Or.inl ⟨j, n, hkeep hj (by simp)⟩
        · refine Or.inr (Or.inl ⟨k, hk.1, ?_⟩)
          intro j' todo hj'
          rcases upd_eq_iff.mp hj' with ⟨_, h⟩ | ⟨_, h⟩
          · cases h
          · exact hk.2 j' todo h
        · exact Or.inr (Or.inr ⟨j, k, todo, hkeep hj (by simp)⟩)
      · intro s' k p h; exact List.mem_cons_of_mem _ (hI.reqKey _ _ _ h)
      · intro j s' n q h
        rcases upd_eq_iff.mp h with ⟨_, h⟩ | ⟨_, h⟩
        · cases h
        · exact List.mem_cons_of_mem _ (hI.reqAcq _ _ _ _ h)
      · intro j s' n q q' h hm
        rcases upd_eq_iff.mp h with ⟨_, h⟩ | ⟨hji, h⟩
        · cases h
        · exact hI.acqKey _ _ _ _ _ h hm
      · intro j j' s' n q q' h h'
        rcases upd_eq_iff.mp h with ⟨_, h⟩ | ⟨_, h⟩
        · cases h
        · rcases upd_eq_iff.mp h' with ⟨_, h'⟩ | ⟨_, h'⟩
          · cases h'
          · exact hI.acqName _ _ _ _ _ _ h h'
      · intro s' hc j n q h
        have hc : Ev.closing s' ∈ st.tr := by simpa using hc
        rcases upd_eq_iff.mp h with ⟨_, h⟩ | ⟨_, h⟩
        · cases h
        · exact hI.noAcq s' hc j n q h
      · intro j s' h; exact List.mem_cons_of_mem _ (hI.thClosing _ _ (upd_closes_of (Or.inl rfl) h))
      · exact hI.func
      · intro j s' k' q h
        show match upd st.ths i .idle j with | .rng _ _ => _ | .rel _ _ _ _ => _ | .del _ _ _ _ => _ | _ => _
        by_cases hj : j = i
        · subst hj; rw [upd_same]; trivial
        · rw [upd_ne _ _ hj]; exact hI.cover j s' k' q h
      · intro j s' k q todo h
        apply hI.stored j s' k q todo
        rcases h with h | h <;> rcases upd_eq_iff.mp h with ⟨_, h⟩ | ⟨_, h⟩
        · cases h
        · exact Or.inl h
        · cases h
        · exact Or.inr h
      · intro s' h
        by_cases hs : s' = s
        · subst hs
          refine ⟨?_, List.mem_cons_of_mem _ (hI.thClosing i s' (by rw [hth]; rfl)), upd_same _ _ _, ?_⟩
          · show st.ports s' = []
            cases hp : st.ports s' with
            | nil => rfl
            | cons e m =>
              have := hI.cover i s' e.1 e.2 (by rw [hp]; simp)
              rw [hth] at this
              simpa using this rfl
          · intro j hj
            by_cases hji : j = i
            · subst hji; simp only [upd_same] at hj; cases hj
            · simp only [upd_ne _ _ hji] at hj
              exact hji (hI.inv.serial j i s' hj (by rw [hth]; rfl))
        · have : Ev.closed s' ∈ st.tr := by simpa [hs] using h
          obtain ⟨a, b, c, d⟩ := hI.closedEmpty s' this
          exact ⟨a, List.mem_cons_of_mem _ b, by show upd st.alive s false s' = false; rw [upd_ne _ _ hs]; exact c,
            fun j hj => d j (upd_closes_of (Or.inl rfl) hj)⟩
    · cases hx

theorem Reach.inv2 {p : PP} (hmin : 0 < p.min) (h0 : ∀ q, p.held q = false) {st : St}
    (h : Reach OrderlyUse p st) : Inv2 st := by
  induction h with
  | init => exact Inv2.init hmin h0
  | step a _ hga hx ih => exact ih.exec hga hx

/-- **C37, partial.**  In every interleaving of any number of sessions in which each session
uses a new name for every port it requests, makes no request once its `Close` has begun and
has none in flight then, and does not run two `Close` calls at the same time: once `Close`
of session `s` has finished, `s` holds no port (then or ever after), and no other session's
port was released.  Missing: the same name requested twice, requests racing with `Close`,
overlapping `Close` calls -- for each of them the claim is false (theorems below). -/
theorem C37_close_releases_partial (min max : Int) (hmin : 0 < min) (p : PP)
    (hp : PP.new min max = some p) (st : St) (h : Reach OrderlyUse p st) :
    NoForeignRelease st.tr ∧ ∀ s, .closed s ∈ st.tr → ∀ q, holder st.tr q ≠ some s := by
  obtain ⟨_, e1, _, e3⟩ := PP.new_some hp
  have hI := h.inv2 (by rw [e1]; exact hmin) (by intro q; rw [e3])
  refine ⟨hI.inv.nofor, fun s hc q hq => ?_⟩
  obtain ⟨a, b, _, d⟩ := hI.closedEmpty s hc
  rcases hI.ref s q hq with ⟨i, n, hi⟩ | ⟨k, hk⟩ | ⟨i, k, todo, hi⟩
  · exact hI.noAcq s b i n q hi
  · rw [Live, a] at hk; simp at hk
  · exact d i (by rw [hi]; rfl)

/-- The provider agrees with the trace: a port is free for the next requester iff nobody
holds it. -/
theorem C37_free_iff_unheld (min max : Int) (hmin : 0 < min) (p : PP)
    (hp : PP.new min max = some p) (st : St) (h : Reach SerialClose p st) (q : Int) :
    st.prov.held q = false ↔ holder st.tr q = none := by
  obtain ⟨_, e1, _, e3⟩ := PP.new_some hp
  have hI := h.inv (fun _ _ h => h) (by rw [e1]; exact hmin) (by intro q; rw [e3])
  rw [hI.held q]
  cases holder st.tr q <;> simp

/-! ### Witnesses -/

/-- Run a list of actions. -/
def execs (st : St) : List Act → Option St
  | [] => some st
  | a :: as => match exec st a with
    | some st' => execs st' as
    | none => none

theorem Reach.execs {p : PP} (as : List Act) : ∀ {st st' : St}, Reach (fun _ _ => True) p st →
    Tunnel.execs st as = some st' → Reach (fun _ _ => True) p st' := by
  induction as with
  | nil => intro st st' h hx; injection hx with hx; subst hx; exact h
  | cons a as ih =>
    intro st st' h hx
    simp only [Tunnel.execs] at hx
    split at hx
    · rename_i st1 h1; exact ih (.step a h trivial h1) hx
    · cases hx

def pp10 : PP := { min := 10, max := 20, held := fun _ => false }

/-- Trace of a run from a fresh provider of ports 10..20. -/
def traceOf (as : List Act) : Option (List Ev) := (Tunnel.execs (St.init pp10) as).map (·.tr)

theorem traceOf_reach {as : List Act} {tr : List Ev} (h : traceOf as = some tr) :
    ∃ p, PP.new 10 20 = some p ∧ ∃ st, Reach (fun _ _ => True) p st ∧ st.tr = tr := by
  refine ⟨pp10, rfl, ?_⟩
  simp only [traceOf, Option.map_eq_some_iff] at h
  obtain ⟨st, h1, h2⟩ := h
  exact ⟨st, Reach.execs as .init h1, h2⟩

/-- **C37 is false when a session requests the same name twice**: the second port replaces
the first in the session's map and closing releases only the second; port 10 stays held by
the closed session. -/
theorem C37_same_name_false : ∃ p, PP.new 10 20 = some p ∧ ∃ st, Reach (fun _ _ => True) p st ∧
    .closed 0 ∈ st.tr ∧ holder st.tr 10 = some 0 := by
  have h : traceOf [.request 0 0 "web" 0, .store 0, .request 0 0 "web" 0, .store 0,
      .closeBegin 0 0, .visit 0 "web", .release 0, .delete 0, .closeEnd 0] = some
      [.closed 0, .released 0 11, .closing 0, .assigned 0 11, .requested 0 "web",
       .assigned 0 10, .requested 0 "web"] := by decide +kernel
  obtain ⟨p, hp, st, hr, ht⟩ := traceOf_reach h
  exact ⟨p, hp, st, hr, by rw [ht]; decide, by rw [ht]; decide⟩

/-- **C37 is false when a request races with `Close`**: a port assigned while the session is
being closed is stored after the release loop and never released. -/
theorem C37_late_request_false : ∃ p, PP.new 10 20 = some p ∧ ∃ st, Reach (fun _ _ => True) p st ∧
    .closed 0 ∈ st.tr ∧ holder st.tr 10 = some 0 := by
  have h : traceOf [.request 1 0 "web" 0, .closeBegin 0 0, .closeEnd 0, .store 1] = some
      [.closed 0, .closing 0, .assigned 0 10, .requested 0 "web"] := by decide +kernel
  obtain ⟨p, hp, st, hr, ht⟩ := traceOf_reach h
  exact ⟨p, hp, st, hr, by rw [ht]; decide, by rw [ht]; decide⟩

/-- **C37 is false when `Close` is called twice concurrently** (e.g. a stream handler and the
connection handler): both calls release port 10, and session 1, which got it in between,
loses it although it was never closed. -/
theorem C37_overlapping_close_false : ∃ p, PP.new 10 20 = some p ∧
    ∃ st, Reach (fun _ _ => True) p st ∧ ¬ NoForeignRelease st.tr := by
  have h : traceOf [.request 0 0 "web" 0, .store 0, .closeBegin 0 0, .closeBegin 1 0,
      .visit 0 "web", .visit 1 "web", .release 0, .request 2 1 "db" 0, .release 1] = some
      [.released 0 10, .assigned 1 10, .requested 1 "db", .released 0 10, .closing 0, .closing 0,
       .assigned 0 10, .requested 0 "web"] := by decide +kernel
  obtain ⟨p, hp, st, hr, ht⟩ := traceOf_reach h
  refine ⟨p, hp, st, hr, fun hn => ?_⟩
  have := hn [] _ 0 10 ht
  revert this
  decide

/-- Runs in which every action is checked against a (decidable) guard. -/
theorem Reach.cons {g : St → Act → Prop} {p : PP} {st st' : St} (h : Reach g p st) (a : Act)
    (hg : g st a) (hx : Tunnel.exec st a = some st') : Reach g p st' := .step a h hg hx

/-- Non-vacuity of `C37_close_releases_partial`: two sessions with several ports; session 0
closes while session 1 goes on and takes over a released port. -/
example : ∃ st, Reach OrderlyUse pp10 st ∧ .closed 0 ∈ st.tr ∧
    holder st.tr 10 = some 1 ∧ holder st.tr 11 = none ∧ holder st.tr 15 = some 1 := by
  have g1 : Reach OrderlyUse pp10 (St.init pp10) := .init
  have g2 := Reach.cons g1 (.request 0 0 "web" 0) ⟨by decide +kernel, by decide +kernel⟩ rfl
  have g3 := Reach.cons g2 (.store 0) trivial rfl
  have g4 := Reach.cons g3 (.request 1 0 "db" 0) ⟨by decide +kernel, by decide +kernel⟩ rfl
  have g5 := Reach.cons g4 (.request 2 1 "web" 15) ⟨by decide +kernel, by decide +kernel⟩ rfl
  have g6 := Reach.cons g5 (.store 1) trivial rfl
  have g7 := Reach.cons g6 (.closeBegin 0 0)
    (by
      constructor
      · intro j
        rcases j with _ | _ | _ | j
        · decide +kernel
        · decide +kernel
        · decide +kernel
        · exact (by simp : (none : Option Nat) ≠ some 0)
      · intro j n p
        rcases j with _ | _ | _ | j
        · exact Th.noConfusion
        · exact Th.noConfusion
        · intro h
          exact absurd (Th.acq.inj h).1 (by decide)
        · exact Th.noConfusion) rfl
  have g8 := Reach.cons g7 (.visit 0 "web") trivial rfl
  have g9 := Reach.cons g8 (.release 0) trivial rfl
  have g10 := Reach.cons g9 (.request 3 1 "extra" 0) ⟨by decide +kernel, by decide +kernel⟩ rfl
  have g11 := Reach.cons g10 (.delete 0) trivial rfl
  have g12 := Reach.cons g11 (.visit 0 "db") trivial rfl
  have g13 := Reach.cons g12 (.release 0) trivial rfl
  have g14 := Reach.cons g13 (.delete 0) trivial rfl
  have g15 := Reach.cons g14 (.closeEnd 0) trivial rfl
  exact ⟨_, g15, by decide +kernel, by decide +kernel, by decide +kernel, by decide +kernel⟩

end Verif.Tunnel
