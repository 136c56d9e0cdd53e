import Verif.Pool.Registry
/-! # C41 The pool registry count is exact (when no call is half done) -/
namespace Verif.Pool
open Verif.Tunnel (upd)

structure RInv (st : RSt) : Prop where
  cnt : (st.count + st.nInc) % M64 = (st.store.length + st.nDec) % M64
  lt : st.count < M64
  nd : (st.store.map (·.1)).Nodup

theorem lookup_congr {st st' : RSt} {id : Nat} (h : st'.store = st.store) :
    st'.lookup id = st.lookup id := by simp only [RSt.lookup, h]

theorem lookup_none {st : RSt} {id : Nat} (h : st.lookup id = none) : ∀ e ∈ st.store, e.1 ≠ id := by
  intro e he hid
  simp only [RSt.lookup, Option.map_eq_none_iff, List.find?_eq_none, beq_iff_eq] at h
  exact h e he hid

theorem lookup_some {st : RSt} {id p : Nat} (h : st.lookup id = some p) : (id, p) ∈ st.store := by
  simp only [RSt.lookup, Option.map_eq_some_iff] at h
  obtain ⟨e, he, hp⟩ := h
  have h1 := List.mem_of_find?_eq_some he
  have h2 := List.find?_some he
  simp only [beq_iff_eq] at h2
  obtain ⟨a, b⟩ := e
  simp only at h2 hp
  rw [← h2, ← hp]; exact h1

theorem filter_len {l : List (Nat × Nat)} {id p : Nat} (hn : (l.map (·.1)).Nodup) (h : (id, p) ∈ l) :
    (l.filter (fun e => e.1 != id)).length + 1 = l.length := by
  induction l with
  | nil => cases h
  | cons x l ih =>
    simp only [List.map_cons, List.nodup_cons, List.mem_map, not_exists, not_and] at hn
    rcases List.mem_cons.1 h with h | h
    · subst h
      have : l.filter (fun e => e.1 != id) = l := by
        apply List.filter_eq_self.2
        intro a ha
        simp only [bne_iff_ne, ne_eq]
        exact hn.1 a ha
      simp [this]
    · have hx : x.1 ≠ id := fun hx => hn.1 (id, p) h hx.symm
      simp only [List.filter_cons, bne_iff_ne, ne_eq, hx, not_false_eq_true, ite_true,
        List.length_cons, ih hn.2 h]

theorem RInv.delete {st : RSt} (h : RInv st) (id : Nat) : RInv (st.delete id) := by
  simp only [RSt.delete]
  split
  · exact h
  · rename_i p hp
    have := filter_len h.nd (lookup_some hp)
    refine ⟨?_, h.lt, ?_⟩
    · have := h.cnt
      simp only
      rw [this]
      congr 1
      omega
    · exact h.nd.sublist ((List.filter_sublist).map _)

theorem RInv.stop {st : RSt} (h : RInv st) : RInv st.stop := by
  simp only [RSt.stop]
  split
  · exact h
  · exact ⟨h.cnt, h.lt, h.nd⟩

theorem RInv.step {st st' a} (h : RInv st) (hx : rexec st a = some st') : RInv st' := by
  cases a with
  | add id p =>
    simp only [rexec] at hx
    split at hx
    · injection hx with hx; exact hx ▸ h
    · split at hx
      · injection hx with hx; exact hx ▸ h
      · rename_i hl
        injection hx with hx; subst hx
        refine ⟨?_, h.lt, ?_⟩
        · have := h.cnt
          simp only [List.length_append, List.length_cons, List.length_nil]
          simp only [M64] at *
          omega
        · simp only [List.map_append, List.map_cons, List.map_nil]
          rw [List.nodup_append]
          refine ⟨h.nd, by simp, ?_⟩
          intro a ha b hb
          simp only [List.mem_singleton] at hb
          obtain ⟨e, he, hea⟩ := List.mem_map.1 ha
          rw [hb, ← hea]
          exact lookup_none hl e he
  | inc =>
    simp only [rexec] at hx
    split at hx
    · injection hx with hx; subst hx
      have := h.cnt
      have := h.lt
      refine ⟨?_, ?_, h.nd⟩ <;> simp only [M64] at * <;> omega
    · cases hx
  | addChk =>
    simp only [rexec] at hx
    split at hx
    · injection hx with hx; subst hx; exact ⟨h.cnt, h.lt, h.nd⟩
    · cases hx
  | rem id =>
    simp only [rexec] at hx
    injection hx with hx; subst hx; exact h.delete id
  | dec =>
    simp only [rexec] at hx
    split at hx
    · injection hx with hx; subst hx
      have := h.cnt
      have := h.lt
      refine ⟨?_, ?_, h.nd⟩ <;> simp only [M64] at * <;> omega
    · cases hx
  | remChk =>
    simp only [rexec] at hx
    split at hx
    · injection hx with hx; subst hx; exact ⟨h.cnt, h.lt, h.nd⟩
    · cases hx
  | stop =>
    simp only [rexec] at hx
    split at hx
    · injection hx with hx; subst hx
      exact RInv.stop ⟨h.cnt, h.lt, h.nd⟩
    · cases hx
  | poolClose p =>
    simp only [rexec] at hx
    injection hx with hx; subst hx; exact ⟨h.cnt, h.lt, h.nd⟩
  | start1 =>
    simp only [rexec] at hx
    split at hx
    · injection hx with hx; subst hx
      exact RInv.stop ⟨h.cnt, h.lt, h.nd⟩
    · cases hx
  | start2 =>
    simp only [rexec] at hx
    split at hx
    · injection hx with hx; subst hx; exact ⟨h.cnt, h.lt, h.nd⟩
    · cases hx
  | see id =>
    simp only [rexec] at hx
    split at hx
    · cases hx
    · split at hx
      · split at hx
        · injection hx with hx; subst hx; exact ⟨h.cnt, h.lt, h.nd⟩
        · cases hx
      · cases hx
  | wantRem id =>
    simp only [rexec] at hx
    split at hx
    · injection hx with hx; subst hx
      exact RInv.delete (st := { st with want := st.want.erase id }) ⟨h.cnt, h.lt, h.nd⟩ id
    · cases hx

theorem RReach.inv {g st} (h : RReach g st) : RInv st := by
  induction h with
  | init => exact ⟨rfl, by decide, List.nodup_nil⟩
  | step a _ _ hx ih => exact ih.step hx

/-- **C41** (partial: only when no `AddPool`/`RemovePool` is between its map operation and its
counter update)  For every interleaving of every number of calls, `Len` is the number of
registered pools. -/
theorem C41_len_partial {st : RSt} (h : RReach RAny st) (hq : st.counted)
    (hsz : st.store.length < 9223372036854775808) : st.len = st.store.length := by
  have h1 := h.inv.cnt
  have h2 := h.inv.lt
  obtain ⟨h3, h4⟩ := hq
  rw [h3, h4] at h1
  simp only [M64] at *
  have : st.count = st.store.length := by omega
  simp only [RSt.len, this]
  rw [if_pos hsz]

/-- **C186** While calls are half done, `Len` is off by at most their number. -/
theorem C186_len_drift {st : RSt} (h : RReach RAny st)
    (hsz : st.store.length + st.nDec < 9223372036854775808) (hi : st.nInc < 9223372036854775808) :
    st.len + st.nInc = st.store.length + st.nDec := by
  have h1 := h.inv.cnt
  have h2 := h.inv.lt
  simp only [M64] at *
  simp only [RSt.len]
  split <;> omega

/-- **C186** A registered id keeps its pool in every step except one that removes it: adding
never replaces. -/
theorem C186_add_never_replaces {st st' : RSt} {a : RAct} {id p : Nat} (_ : RReach RAny st)
    (hx : rexec st a = some st') (hl : st.lookup id = some p)
    (hr : a ≠ .rem id ∧ a ≠ .wantRem id) : st'.lookup id = some p := by
  have hd : ∀ st : RSt, st.lookup id = some p → ∀ id', id' ≠ id → (st.delete id').lookup id = some p := by
    intro st hl id' hne
    simp only [RSt.delete]
    split
    · exact hl
    · simp only [RSt.lookup, List.find?_filter]
      rw [← hl]
      simp only [RSt.lookup]
      congr 2
      funext e
      by_cases he : e.1 = id
      · simp [he, Ne.symm hne]
      · simp [he]
  have hs : ∀ st : RSt, st.stop.lookup id = st.lookup id := by
    intro st; simp only [RSt.stop]; split <;> rfl
  cases a with
  | add id' p' =>
    simp only [rexec] at hx
    split at hx
    · injection hx with hx; exact hx ▸ hl
    · split at hx
      · injection hx with hx; exact hx ▸ hl
      · injection hx with hx; subst hx
        simp only [RSt.lookup, Option.map_eq_some_iff] at hl ⊢
        obtain ⟨e, he, hp⟩ := hl
        exact ⟨e, by rw [List.find?_append, he]; rfl, hp⟩
  | rem id' =>
    simp only [rexec] at hx
    injection hx with hx; subst hx
    exact hd st hl id' (fun h => hr.1 (by rw [h]))
  | wantRem id' =>
    simp only [rexec] at hx
    split at hx
    · injection hx with hx; subst hx
      exact hd { st with want := st.want.erase id' } hl id' (fun h => hr.2 (by rw [h]))
    · cases hx
  | stop =>
    simp only [rexec] at hx
    split at hx
    · injection hx with hx; subst hx; rw [hs]; exact hl
    · cases hx
  | start1 =>
    simp only [rexec] at hx
    split at hx
    · injection hx with hx; subst hx; rw [hs]; exact hl
    · cases hx
  | _ =>
    simp only [rexec] at hx
    repeat' split at hx
    all_goals first
      | (cases hx; done)
      | (injection hx with hx; subst hx; refine Eq.trans (lookup_congr (st := st) ?_) hl; dsimp only)

/-- **C186** A closed pool is never added, and adding a pool registers exactly it. -/
theorem C186_add_spec {st st' : RSt} {id p : Nat} (hx : rexec st (.add id p) = some st') :
    (st.pclosed p = true → st'.store = st.store) ∧
    (st.pclosed p = false → st.lookup id = none → st'.lookup id = some p) := by
  simp only [rexec] at hx
  split at hx
  · rename_i hp
    injection hx with hx; subst hx
    exact ⟨fun _ => rfl, fun h => by rw [hp] at h; cases h⟩
  · rename_i hp
    refine ⟨fun h => absurd h hp, fun _ hl => ?_⟩
    rw [hl] at hx
    injection hx with hx; subst hx
    have : st.store.find? (fun e => e.1 == id) = none := by
      simpa only [RSt.lookup, Option.map_eq_none_iff] using hl
    simp [RSt.lookup, List.find?_append, this]

/-! ### Close -/

theorem stop_live (s : RSt) : s.stop = { s with live := s.stop.live } := by
  simp only [RSt.stop]; split <;> rfl

theorem stopIf_live (s : RSt) : s.stopIf = { s with live := s.stopIf.live } := by
  simp only [RSt.stopIf]
  split
  · rw [← stop_live]
  · rfl

theorem closeAll_false {fails : Nat → Bool} : ∀ (order : List (Nat × Nat)) (st : RSt),
    (∃ e ∈ order, fails e.2 = true) → (RSt.closeAll fails order st).2 = false
  | [], st, h => by obtain ⟨_, h, _⟩ := h; cases h
  | (id, p) :: rest, st, h => by
    simp only [RSt.closeAll]
    split
    · rfl
    · rename_i hp
      apply closeAll_false
      obtain ⟨e, he, hf⟩ := h
      rcases List.mem_cons.1 he with he | he
      · subst he; exact absurd hf hp
      · exact ⟨e, he, hf⟩

theorem closeAll_ok {fails : Nat → Bool} : ∀ (order : List (Nat × Nat)) (st : RSt),
    RInv st → st.counted → (∀ e ∈ st.store, e ∈ order) → (∀ e ∈ order, fails e.2 = false) →
    let st' := (RSt.closeAll fails order st).1
    (RSt.closeAll fails order st).2 = true ∧ st'.store = [] ∧ st'.closed = true ∧ st'.count = 0
      ∧ (∀ e ∈ order, st'.pclosed e.2 = true) ∧ (∀ p, st.pclosed p = true → st'.pclosed p = true)
  | [], st, hi, hc, h, _ => by
    have hs : st.store = [] := by
      cases hst : st.store with
      | nil => rfl
      | cons x l => exact absurd (h x (by rw [hst]; simp)) (by simp)
    refine ⟨rfl, hs, rfl, ?_, by simp, fun p h => h⟩
    have h1 := hi.cnt
    have h2 := hi.lt
    rw [hc.1, hc.2, hs] at h1
    simp only [RSt.closeAll, M64, List.length_nil] at *
    omega
  | (id, p) :: rest, st, hi, hc, h, hf => by
    have hp : fails p = false := hf (id, p) (by simp)
    have hlk : ({ st with pclosed := upd st.pclosed p true } : RSt).lookup id = st.lookup id := rfl
    simp only [RSt.closeAll, hp, hlk]
    cases hl : st.lookup id with
    | none =>
      have ih := closeAll_ok (fails := fails) rest { st with pclosed := upd st.pclosed p true }
        ⟨hi.cnt, hi.lt, hi.nd⟩ hc
        (by
          intro e he
          rcases List.mem_cons.1 (h e he) with h1 | h1
          · exact absurd (by rw [h1]) (lookup_none hl e he)
          · exact h1)
        (fun e he => hf e (List.mem_cons_of_mem _ he))
      obtain ⟨i1, i2, i3, i4, i5, i6⟩ := ih
      refine ⟨i1, i2, i3, i4, ?_, ?_⟩
      · intro e he
        rcases List.mem_cons.1 he with h1 | h1
        · subst h1; exact i6 p (by simp [upd])
        · exact i5 e h1
      · intro q hq
        apply i6
        simp only [upd]
        split
        · rfl
        · exact hq
    | some q =>
      have hlen := filter_len hi.nd (lookup_some hl)
      simp only
      rw [stopIf_live]
      generalize RSt.live (RSt.stopIf _) = lv
      have ih := closeAll_ok (fails := fails) rest
        { st with pclosed := upd st.pclosed p true, store := st.store.filter (fun e => e.1 != id)
                  count := (st.count + (M64 - 1)) % M64, live := lv }
        (by
          have h1 := hi.cnt
          have h2 := hi.lt
          have h3 := hc.1
          have h4 := hc.2
          refine ⟨?_, ?_, hi.nd.sublist ((List.filter_sublist).map _)⟩
          · simp only [M64] at *; omega
          · simp only [M64] at *; omega)
        hc
        (by
          intro e he
          obtain ⟨h1, h2⟩ := List.mem_filter.1 he
          rcases List.mem_cons.1 (h e h1) with h3 | h3
          · subst h3; simp at h2
          · exact h3)
        (fun e he => hf e (List.mem_cons_of_mem _ he))
      obtain ⟨i1, i2, i3, i4, i5, i6⟩ := ih
      refine ⟨i1, i2, i3, i4, ?_, ?_⟩
      · intro e he
        rcases List.mem_cons.1 he with h1 | h1
        · subst h1; exact i6 p (by simp [upd])
        · exact i5 e h1
      · intro q hq
        apply i6
        simp only [upd]
        split
        · rfl
        · exact hq

/-- **C41** (partial: `Close` not overlapping with other calls)  `Close` closes and removes
every registered pool and reports success exactly if no pool failed to close; whatever the
order in which the map is visited. -/
theorem C41_close_partial {st : RSt} (h : RReach RAny st) (hc : st.counted)
    (fails : Nat → Bool) (order : List (Nat × Nat)) (ho : ∀ e, e ∈ order ↔ e ∈ st.store) :
    ((RSt.closeAll fails order st).2 = true ↔ ∀ e ∈ st.store, fails e.2 = false) ∧
    ((∀ e ∈ st.store, fails e.2 = false) →
      (RSt.closeAll fails order st).1.store = [] ∧ (RSt.closeAll fails order st).1.len = 0 ∧
      ∀ e ∈ st.store, (RSt.closeAll fails order st).1.pclosed e.2 = true) := by
  refine ⟨⟨?_, ?_⟩, ?_⟩
  · intro ht e he
    cases hf : fails e.2 with
    | false => rfl
    | true =>
      rw [closeAll_false order st ⟨e, (ho e).2 he, hf⟩] at ht; cases ht
  · intro hf
    exact (closeAll_ok order st h.inv hc (fun e he => (ho e).2 he)
      (fun e he => hf e ((ho e).1 he))).1
  · intro hf
    obtain ⟨_, i2, _, i4, i5, _⟩ := closeAll_ok order st h.inv hc (fun e he => (ho e).2 he)
      (fun e he => hf e ((ho e).1 he))
    exact ⟨i2, by simp [RSt.len, i4], fun e he => i5 e ((ho e).2 he)⟩

/-! ### The cleanup goroutine -/

structure LInv (st : RSt) : Prop where
  one : st.nInc + st.nAddChk + st.nDec + st.nRemChk + st.nStop + st.nSpawn + st.nStarted ≤ 1
  quiet : st.quiet → st.store ≠ [] → st.live ≠ []
  inc : 0 < st.nInc → 2 ≤ st.store.length → st.live ≠ []
  inc1 : 0 < st.nInc → 1 ≤ st.store.length
  chk : 0 < st.nAddChk → 2 ≤ st.store.length → st.live ≠ []
  chk1 : 0 < st.nAddChk → 1 ≤ st.store.length
  dec : 0 < st.nDec → st.store ≠ [] → st.live ≠ []
  rchk : 0 < st.nRemChk → st.store ≠ [] → st.live ≠ []
  stp : 0 < st.nStop → st.store = []
  bnd : st.store.length < 9223372036854775808

theorem length_pos_iff' {α} (l : List α) : l ≠ [] ↔ 1 ≤ l.length := by
  cases l <;> simp

theorem LInv.delete {st : RSt} (hr : RInv st) (h : LInv st) (hq : st.quiet) (id : Nat) :
    LInv (st.delete id) := by
  simp only [RSt.delete]
  split
  · exact h
  · rename_i p hp
    have hl := filter_len hr.nd (lookup_some hp)
    obtain ⟨q1, q2, q3, q4, q5, q6, q7⟩ := hq
    have h1 := h.quiet ⟨q1, q2, q3, q4, q5, q6, q7⟩ (by rw [length_pos_iff']; omega)
    have h2 := h.bnd
    constructor <;> simp only [q1, q2, q3, q4, q5, q6, q7, RSt.quiet] <;> try omega
    all_goals first
      | (intro h; omega)
      | exact fun _ _ => h1

theorem LInv.step {st st' a} (hr : RInv st) (h : LInv st) (hg : Serial st a)
    (hx : rexec st a = some st') : LInv st' := by
  have hcnt := hr.cnt
  have hlt := hr.lt
  cases a with
  | add id p =>
    obtain ⟨hq, hb⟩ := hg
    simp only [rexec] at hx
    split at hx
    · injection hx with hx; exact hx ▸ h
    · split at hx
      · injection hx with hx; exact hx ▸ h
      · injection hx with hx; subst hx
        have h1 := h.quiet hq
        rw [length_pos_iff'] at h1
        obtain ⟨q1, q2, q3, q4, q5, q6, q7⟩ := hq
        constructor <;> simp only [q1, q2, q3, q4, q5, q6, q7, RSt.quiet, List.length_append,
          List.length_cons, List.length_nil]
        case bnd => exact hb
        all_goals first
          | omega
          | (intro h; omega)
          | exact fun _ h2 => h1 (by omega)
  | rem id =>
    simp only [rexec] at hx
    injection hx with hx; subst hx; exact h.delete hr hg id
  | wantRem id =>
    simp only [rexec] at hx
    split at hx
    · injection hx with hx; subst hx
      exact LInv.delete (st := { st with want := st.want.erase id }) ⟨hr.cnt, hr.lt, hr.nd⟩
        ⟨h.one, h.quiet, h.inc, h.inc1, h.chk, h.chk1, h.dec, h.rchk, h.stp, h.bnd⟩ hg id
    · cases hx
  | poolClose p =>
    simp only [rexec] at hx
    injection hx with hx; subst hx
    exact ⟨h.one, h.quiet, h.inc, h.inc1, h.chk, h.chk1, h.dec, h.rchk, h.stp, h.bnd⟩
  | see id =>
    simp only [rexec] at hx
    repeat' split at hx
    all_goals first
      | (cases hx; done)
      | (injection hx with hx; subst hx
         exact ⟨h.one, h.quiet, h.inc, h.inc1, h.chk, h.chk1, h.dec, h.rchk, h.stp, h.bnd⟩)
  | inc =>
    simp only [rexec] at hx
    split at hx
    · rename_i hp
      injection hx with hx; subst hx
      have h1 := h.one
      have h2 := h.inc hp
      have h3 := h.bnd
      have h4 := h.inc1 hp
      simp only [M64] at *
      constructor <;> simp only [RSt.quiet]
      case bnd => exact h3
      all_goals first
        | omega
        | (intro h; omega)
        | exact fun _ => h2
        | (intro _; omega)
    · cases hx
  | addChk =>
    simp only [rexec] at hx
    split at hx
    · rename_i hp
      injection hx with hx; subst hx
      have h1 := h.one
      have h2 := h.chk hp
      have h3 := h.bnd
      have h4 := h.chk1 hp
      simp only [M64] at *
      constructor <;> simp only [RSt.quiet]
      case bnd => exact h3
      all_goals first
        | omega
        | (split <;> omega)
        | (intro h; omega)
        | (intro h _
           split at h
           · omega
           · exact h2 (by omega))
    · cases hx
  | dec =>
    simp only [rexec] at hx
    split at hx
    · rename_i hp
      injection hx with hx; subst hx
      have h1 := h.one
      have h2 := h.dec hp
      have h3 := h.bnd
      simp only [M64] at *
      constructor <;> simp only [RSt.quiet]
      case bnd => exact h3
      all_goals first
        | omega
        | (intro h; omega)
        | exact fun _ => h2
    · cases hx
  | remChk =>
    simp only [rexec] at hx
    split at hx
    · rename_i hp
      injection hx with hx; subst hx
      have h1 := h.one
      have h2 := h.rchk hp
      have h3 := h.bnd
      simp only [M64] at *
      constructor <;> simp only [RSt.quiet]
      case bnd => exact h3
      all_goals first
        | omega
        | (split <;> omega)
        | (intro h; omega)
        | (intro _; exact h2)
        | (intro h
           split at h
           · apply List.eq_nil_of_length_eq_zero
             omega
           · omega)
    · cases hx
  | stop =>
    simp only [rexec] at hx
    split at hx
    · rename_i hp
      injection hx with hx; subst hx
      have h1 := h.one
      have h2 := h.stp hp
      have hs : ∀ s : RSt, s.stop = { s with live := s.stop.live } := by
        intro s; simp only [RSt.stop]; split <;> rfl
      rw [hs]
      simp only [M64] at *
      constructor <;> simp only [RSt.quiet, h2]
      all_goals first
        | omega
        | (intro h; omega)
        | simp
    · cases hx
  | start1 =>
    simp only [rexec] at hx
    split at hx
    · rename_i hp
      injection hx with hx; subst hx
      have h1 := h.one
      have h3 := h.bnd
      have hs : ∀ s : RSt, s.stop = { s with live := s.stop.live } := by
        intro s; simp only [RSt.stop]; split <;> rfl
      rw [hs]
      simp only [M64] at *
      constructor <;> simp only [RSt.quiet]
      case bnd => exact h3
      all_goals first
        | omega
        | (intro h; omega)
    · cases hx
  | start2 =>
    simp only [rexec] at hx
    split at hx
    · rename_i hp
      injection hx with hx; subst hx
      have h1 := h.one
      have h3 := h.bnd
      simp only [M64] at *
      constructor <;> simp only [RSt.quiet]
      case bnd => exact h3
      all_goals first
        | omega
        | (intro h; omega)
        | (intro _ _; simp)
    · cases hx

/-- **C41** (partial: calls do not overlap, see `Serial`)  Whenever no call is under way and a
pool is registered, a cleanup goroutine is running. -/
theorem C41_cleanup_running_partial {st : RSt} (h : RReach Serial st) (hq : st.quiet)
    (hs : st.store ≠ []) : st.live ≠ [] := by
  suffices hh : LInv st from hh.quiet hq hs
  clear hq hs
  induction h with
  | init => constructor <;> simp [RSt.init]
  | step a hr ga hx ih => exact ih.step hr.inv ga hx

/-- All running cleanup loops can be stopped, and there is none without a reason. -/
structure KInv (st : RSt) : Prop where
  own : ∀ k ∈ st.live, st.cancel = some k
  started : 0 < st.nStarted → st.live = []
  spawn : 0 < st.nSpawn ∨ 0 < st.nStarted → st.store ≠ []
  idle : st.store = [] → st.live ≠ [] → 0 < st.nDec ∨ 0 < st.nRemChk ∨ 0 < st.nStop

theorem KInv.stopped {s : RSt} (h : ∀ k ∈ s.live, s.cancel = some k) : s.stop.live = [] := by
  simp only [RSt.stop]
  split
  · rename_i hc
    cases hl : s.live with
    | nil => rfl
    | cons k l => have := h k (by rw [hl]; simp); rw [hc] at this; cases this
  · rename_i k hc
    simp only [List.filter_eq_nil_iff]
    intro a ha
    have := h a ha
    rw [hc] at this
    injection this with this
    simp [this]

theorem KInv.delete {st : RSt} (h : KInv st) (hq : st.quiet) (id : Nat) : KInv (st.delete id) := by
  simp only [RSt.delete]
  split
  · exact h
  · obtain ⟨q1, q2, q3, q4, q5, q6, q7⟩ := hq
    exact ⟨h.own, h.started, fun hp => by simp only [q6, q7] at hp; omega,
      fun _ _ => Or.inl (Nat.succ_pos _)⟩

theorem KInv.step {st st' a} (hr : RInv st) (hl : LInv st) (h : KInv st) (hg : Serial st a)
    (hx : rexec st a = some st') : KInv st' := by
  have hcnt := hr.cnt
  have hlt := hr.lt
  have hb := hl.bnd
  have h1 := hl.one
  cases a with
  | rem id =>
    simp only [rexec] at hx
    injection hx with hx; subst hx; exact h.delete hg id
  | wantRem id =>
    simp only [rexec] at hx
    split at hx
    · injection hx with hx; subst hx
      exact KInv.delete (st := { st with want := st.want.erase id }) ⟨h.own, h.started, h.spawn, h.idle⟩ hg id
    · cases hx
  | add id p =>
    simp only [rexec] at hx
    repeat' split at hx
    all_goals
      injection hx with hx; subst hx
      first
      | exact h
      | exact ⟨h.own, h.started, fun _ => by simp, fun hs => by simp at hs⟩
  | inc =>
    simp only [rexec] at hx
    split at hx
    · injection hx with hx; subst hx
      exact ⟨h.own, h.started, h.spawn, h.idle⟩
    · cases hx
  | addChk =>
    simp only [rexec] at hx
    split at hx
    · rename_i hp
      injection hx with hx; subst hx
      refine ⟨h.own, h.started, fun _ => ?_, h.idle⟩
      rw [length_pos_iff']; exact hl.chk1 hp
    · cases hx
  | dec =>
    simp only [rexec] at hx
    split at hx
    · injection hx with hx; subst hx
      exact ⟨h.own, h.started, h.spawn, fun _ _ => Or.inr (Or.inl (Nat.succ_pos _))⟩
    · cases hx
  | remChk =>
    simp only [rexec] at hx
    split at hx
    · rename_i hp
      injection hx with hx; subst hx
      refine ⟨h.own, h.started, h.spawn, fun hs _ => Or.inr (Or.inr ?_)⟩
      simp only at hs
      rw [hs] at hcnt
      simp only [M64, List.length_nil] at *
      have h0 : st.count = 0 := by omega
      simp only [h0, if_true]
      omega
    · cases hx
  | stop =>
    simp only [rexec] at hx
    split at hx
    · rename_i hp
      injection hx with hx; subst hx
      have := KInv.stopped (s := { st with nStop := st.nStop - 1 }) h.own
      rw [stop_live]
      refine ⟨?_, fun _ => this, h.spawn, fun _ hn => absurd this hn⟩
      simp only [this]; intro k hk; cases hk
    · cases hx
  | poolClose p =>
    simp only [rexec] at hx
    injection hx with hx; subst hx
    exact ⟨h.own, h.started, h.spawn, h.idle⟩
  | start1 =>
    simp only [rexec] at hx
    split at hx
    · rename_i hp
      injection hx with hx; subst hx
      have := KInv.stopped (s := { st with nSpawn := st.nSpawn - 1, nStarted := st.nStarted + 1 }) h.own
      rw [stop_live]
      refine ⟨?_, fun _ => this, fun _ => h.spawn (Or.inl hp), fun _ hn => absurd this hn⟩
      simp only [this]; intro k hk; cases hk
    · cases hx
  | start2 =>
    simp only [rexec] at hx
    split at hx
    · rename_i hp
      injection hx with hx; subst hx
      have h2 := h.started hp
      have h3 := h.spawn (Or.inr hp)
      refine ⟨?_, ?_, fun _ => h3, fun hs => absurd hs h3⟩
      · simp only [h2]; intro k hk; simp only [List.mem_singleton] at hk; rw [hk]
      · simp only; intro h4; omega
    · cases hx
  | see id =>
    simp only [rexec] at hx
    repeat' split at hx
    all_goals first
      | (cases hx; done)
      | (injection hx with hx; subst hx
         exact ⟨h.own, h.started, h.spawn, h.idle⟩)

theorem serial_inv {st : RSt} (h : RReach Serial st) : LInv st ∧ KInv st := by
  induction h with
  | init => exact ⟨by constructor <;> simp [RSt.init], by constructor <;> simp [RSt.init]⟩
  | step a hr ga hx ih => exact ⟨ih.1.step hr.inv ga hx, ih.2.step hr.inv ih.1 ga hx⟩

/-- **C41** (partial: calls do not overlap, see `Serial`)  Whenever no call is under way, no
cleanup goroutine is left running without a registered pool, and never more than one runs. -/
theorem C41_cleanup_stopped_partial {st : RSt} (h : RReach Serial st) (hq : st.quiet) :
    (st.store = [] → st.live = []) ∧ ∀ a ∈ st.live, ∀ b ∈ st.live, a = b := by
  obtain ⟨_, hk⟩ := serial_inv h
  constructor
  · intro hs
    cases hl : st.live with
    | nil => rfl
    | cons k l =>
      obtain ⟨q1, q2, q3, q4, q5, q6, q7⟩ := hq
      have := hk.idle hs (by rw [hl]; simp)
      omega
  · intro a ha b hb
    have := (hk.own a ha).symm.trans (hk.own b hb)
    injection this

theorem mod_zero_of {cn l : Nat} (h : cn % M64 = l % M64) (h2 : cn < M64) (h3 : l = 0) : cn = 0 := by
  subst h3
  simp only [M64] at *
  omega

theorem rinv_of {s : RSt} {cn l : Nat} (h : cn % M64 = l % M64) (h2 : cn < M64) (hc : s.counted)
    (h3 : s.count = cn) (h4 : s.store.length = l) (h5 : (s.store.map (·.1)).Nodup) : RInv s := by
  subst h3 h4
  have e1 : s.count + s.nInc = s.count := by have := hc.1; omega
  have e2 : s.store.length + s.nDec = s.store.length := by have := hc.2; omega
  exact ⟨by rw [e1, e2]; exact h, h2, h5⟩

theorem dec_mod {c n f : Nat} (h1 : c % M64 = n % M64) (h3 : f + 1 = n) :
    ((c + (M64 - 1)) % M64) % M64 = f % M64 ∧ (c + (M64 - 1)) % M64 < M64 := by
  simp only [M64] at *; omega

theorem closeAll_cons_none {fails : Nat → Bool} {id p : Nat} {rest : List (Nat × Nat)} {st : RSt}
    (hp : fails p = false) (hl : st.lookup id = none) :
    RSt.closeAll fails ((id, p) :: rest) st =
      RSt.closeAll fails rest { st with pclosed := upd st.pclosed p true } := by
  have hlk : ({ st with pclosed := upd st.pclosed p true } : RSt).lookup id = st.lookup id := rfl
  simp only [RSt.closeAll, hp, hlk, hl]
  simp only [Bool.false_eq_true, if_false]

theorem closeAll_cons_some {fails : Nat → Bool} {id p q : Nat} {rest : List (Nat × Nat)} {st : RSt}
    (hp : fails p = false) (hl : st.lookup id = some q) {cn : Nat} (hcn : (st.count + (M64 - 1)) % M64 = cn) :
    RSt.closeAll fails ((id, p) :: rest) st =
      RSt.closeAll fails rest
        ({ st with pclosed := upd st.pclosed p true, store := st.store.filter (fun e => e.1 != id)
                   count := cn } : RSt).stopIf := by
  have hlk : ({ st with pclosed := upd st.pclosed p true } : RSt).lookup id = st.lookup id := rfl
  simp only [RSt.closeAll, hp, hlk, hl, hcn]
  simp only [Bool.false_eq_true, if_false]

theorem stopIf_cases {s : RSt} (hown : ∀ k ∈ s.live, s.cancel = some k) :
    s.stopIf.live = [] ∨ (s.count ≠ 0 ∧ s.stopIf = s) := by
  simp only [RSt.stopIf]
  split
  · exact Or.inl (KInv.stopped hown)
  · rename_i h0; exact Or.inr ⟨h0, rfl⟩

theorem stopIf_rinv {s : RSt} (h : RInv s) : RInv s.stopIf := by
  rw [stopIf_live]; exact ⟨h.cnt, h.lt, h.nd⟩

theorem stopIf_counted {s : RSt} (h : s.counted) : s.stopIf.counted := by
  rw [stopIf_live]; exact h

theorem stopIf_store (s : RSt) : s.stopIf.store = s.store := by
  rw [stopIf_live]

/-- **C41** (partial: `Close` not overlapping with other calls and only non-overlapping calls
before)  A successful `Close` of a registry with pools also stops the cleanup goroutine. -/
theorem closeAll_stops {fails : Nat → Bool} (order : List (Nat × Nat)) : ∀ (st : RSt),
    RInv st → st.counted → (∀ k ∈ st.live, st.cancel = some k) → (st.store = [] → st.live = []) →
    (∀ e ∈ st.store, e ∈ order) → (∀ e ∈ order, fails e.2 = false) →
    (RSt.closeAll fails order st).1.live = [] := by
  induction order with
  | nil =>
    intro st _ _ _ hz h _
    have hs : st.store = [] := by
      cases hst : st.store with
      | nil => rfl
      | cons x l => exact absurd (h x (by rw [hst]; simp)) (by simp)
    exact hz hs
  | cons e0 rest ih =>
    intro st hi hc ho hz h hf
    obtain ⟨id, p⟩ := e0
    have hp : fails p = false := hf (id, p) (by simp)
    cases hl : st.lookup id with
    | none =>
      rw [closeAll_cons_none hp hl]
      refine ih _ ⟨hi.cnt, hi.lt, hi.nd⟩ hc ho hz ?_ (fun e he => hf e (List.mem_cons_of_mem _ he))
      intro e he
      rcases List.mem_cons.1 (h e he) with h1 | h1
      · exact absurd (by rw [h1]) (lookup_none hl e he)
      · exact h1
    | some q =>
      have hlen := filter_len hi.nd (lookup_some hl)
      have e1 : st.count + st.nInc = st.count := by have := hc.1; omega
      have e2 : st.store.length + st.nDec = st.store.length := by have := hc.2; omega
      have h1 := hi.cnt
      rw [e1, e2] at h1
      have hcn' := dec_mod h1 hlen
      generalize hcn : (st.count + (M64 - 1)) % M64 = cn at hcn'
      rw [closeAll_cons_some hp hl hcn]
      clear hcn h1
      generalize hs' : ({ st with pclosed := upd st.pclosed p true, store := st.store.filter (fun e => e.1 != id)
                                  count := cn } : RSt) = s'
      have hown : ∀ k ∈ s'.live, s'.cancel = some k := by rw [← hs']; exact ho
      have hst : s'.store = st.store.filter (fun e => e.1 != id) := by rw [← hs']
      have hcs : s'.counted := by rw [← hs']; exact hc
      have hcnt' : s'.count = cn := by rw [← hs']
      have hri : RInv s' := by
        refine rinv_of hcn'.1 hcn'.2 hcs hcnt' (by rw [hst]) ?_
        rw [hst]; exact hi.nd.sublist ((List.filter_sublist).map _)
      refine ih _ (stopIf_rinv hri) (stopIf_counted hcs) ?_ ?_ ?_ (fun e he => hf e (List.mem_cons_of_mem _ he))
      · rcases stopIf_cases hown with h5 | ⟨_, h5⟩
        · rw [h5]; intro k hk; cases hk
        · rw [h5]; exact hown
      · rcases stopIf_cases hown with h5 | ⟨h0, h5⟩
        · intro _; exact h5
        · rw [h5]
          intro he
          exfalso
          have e2 : (st.store.filter (fun e => e.1 != id)).length = 0 := by rw [← hst, he]; rfl
          exact h0 (hcnt'.trans (mod_zero_of hcn'.1 hcn'.2 e2))
      · rw [stopIf_store, hst]
        intro e he
        obtain ⟨h5, h6⟩ := List.mem_filter.1 he
        rcases List.mem_cons.1 (h e h5) with h7 | h7
        · subst h7; simp at h6
        · exact h7

/-- **C41** (partial: calls do not overlap, see `Serial`)  A successful `Close` also stops the
cleanup goroutine. -/
theorem C41_close_stops_partial {st : RSt} (h : RReach Serial st) (hq : st.quiet)
    (fails : Nat → Bool) (order : List (Nat × Nat)) (ho : ∀ e, e ∈ order ↔ e ∈ st.store)
    (hf : ∀ e ∈ st.store, fails e.2 = false) : (RSt.closeAll fails order st).1.live = [] :=
  closeAll_stops order st h.inv ⟨hq.1, hq.2.1⟩ (serial_inv h).2.own (C41_cleanup_stopped_partial h hq).1
    (fun e he => (ho e).mpr he) (fun e he => hf e ((ho e).mp he))

/-! ### Concrete runs -/

instance (st : RSt) : Decidable st.quiet := by unfold RSt.quiet; infer_instance

instance (st : RSt) (a : RAct) : Decidable (Serial st a) := by
  cases a <;> (simp only [Serial]; infer_instance)

/-- A run in which every step satisfies `Serial`. -/
def srun (st : RSt) : List RAct → Option RSt
  | [] => some st
  | a :: as => if Serial st a then (rexec st a).bind fun st' => srun st' as else none

theorem srun_reach : ∀ {as st st'}, RReach Serial st → srun st as = some st' → RReach Serial st'
  | [], _, _, h, hx => by injection hx with hx; exact hx ▸ h
  | a :: as, st, st', h, hx => by
    simp only [srun] at hx
    split at hx
    · rename_i hg
      cases he : rexec st a with
      | none => rw [he] at hx; cases hx
      | some st1 => rw [he] at hx; exact srun_reach (.step a h hg he) hx
    · cases hx

theorem exists_of_map {α β} {o : Option α} {f : α → β} {b : β} (h : o.map f = some b) :
    ∃ a, o = some a ∧ f a = b := by
  cases o with
  | none => cases h
  | some a => injection h with h; exact ⟨a, rfl, h⟩

/-- After adding and removing pools one after the other the cleanup goroutine is gone; the
hypotheses of the two theorems above are met before and after. -/
example : ∃ st, RReach Serial st ∧ st.quiet ∧ st.store = [(2, 20)] ∧ st.live = [0] ∧
    (RSt.closeAll (fun _ => false) [(2, 20)] st).1.live = [] := by
  have h : (srun .init [.add 1 10, .inc, .addChk, .start1, .start2, .add 2 20, .inc, .addChk, .rem 1, .dec,
      .remChk]).map (fun st => (decide st.quiet, st.store, st.live,
        (RSt.closeAll (fun _ => false) [(2, 20)] st).1.live)) = some (true, [(2, 20)], [0], []) := by
    decide +kernel
  obtain ⟨st, h1, h2⟩ := exists_of_map h
  simp only [Prod.mk.injEq, decide_eq_true_eq] at h2
  exact ⟨st, srun_reach .init h1, h2⟩

def rrun (st : RSt) : List RAct → Option RSt
  | [] => some st
  | a :: as => (rexec st a).bind fun st' => rrun st' as

theorem rrun_reach : ∀ {as st st'}, RReach RAny st → rrun st as = some st' → RReach RAny st'
  | [], _, _, h, hx => by injection hx with hx; exact hx ▸ h
  | a :: as, st, st', h, hx => by
    simp only [rrun] at hx
    cases he : rexec st a with
    | none => rw [he] at hx; cases hx
    | some st1 => rw [he] at hx; exact rrun_reach (.step a h trivial he) hx

/-- Overlapping calls leave a cleanup goroutine running without any pool registered: it was not
yet running when the registry was emptied. -/
theorem C41_cleanup_stopped_false : ∃ st, RReach RAny st ∧ st.quiet ∧ st.store = [] ∧ st.live = [0] := by
  have h : (rrun .init [.add 1 10, .inc, .addChk, .rem 1, .dec, .remChk, .stop, .start1, .start2]).map
      (fun st => (decide st.quiet, st.store, st.live)) = some (true, [], [0]) := by
    decide +kernel
  obtain ⟨st, h1, h2⟩ := exists_of_map h
  simp only [Prod.mk.injEq, decide_eq_true_eq] at h2
  exact ⟨st, rrun_reach .init h1, h2⟩

/-- The hypotheses of `C41_len_partial` are met with two registered pools. -/
example : ∃ st, RReach RAny st ∧ st.counted ∧ st.store.length = 2 ∧ st.len = 2 :=
  ⟨_, rrun_reach (as := [.add 1 10, .inc, .addChk, .add 2 20, .add 1 30, .inc, .addChk]) .init rfl,
    ⟨rfl, rfl⟩, rfl, rfl⟩

/-- While a removal overtakes an addition, `Len` is −1. -/
theorem C41_len_negative_false : ∃ st, RReach RAny st ∧ st.store = [] ∧ st.len = -1 :=
  ⟨_, rrun_reach (as := [.add 1 10, .rem 1, .dec]) .init rfl, rfl, by decide⟩

/-- A registered pool while `Len` is 0. -/
theorem C41_len_false : ∃ st, RReach RAny st ∧ st.lookup 1 = some 10 ∧ st.len = 0 :=
  ⟨_, rrun_reach (as := [.add 1 10]) .init rfl, rfl, by decide⟩

/-- Two overlapping `AddPool` calls: nobody starts the cleanup goroutine, so closed pools stay
registered although no call is under way. -/
theorem C41_cleanup_running_false : ∃ st, RReach RAny st ∧ st.quiet ∧ st.live = [] ∧
    st.lookup 1 = some 10 ∧ st.pclosed 10 = true :=
  ⟨_, rrun_reach (as := [.add 1 10, .add 2 20, .inc, .inc, .addChk, .addChk, .poolClose 10]) .init rfl,
    ⟨rfl, rfl, rfl, rfl, rfl, rfl, rfl⟩, rfl, rfl, rfl⟩

/-- A cleanup goroutine removes an open pool that was registered after it looked. -/
theorem C41_cleanup_removes_open_false : ∃ st st', RReach RAny st ∧
    rexec st (.wantRem 1) = some st' ∧ st.lookup 1 = some 20 ∧ st.pclosed 20 = false ∧
    st'.lookup 1 = none :=
  ⟨_, _, rrun_reach (as := [.add 1 10, .inc, .addChk, .start1, .start2, .poolClose 10, .see 1,
    .rem 1, .dec, .remChk, .add 1 20]) .init rfl, rfl, rfl, rfl, rfl⟩

/-- After `Close` the registry still accepts pools. -/
theorem C41_add_after_close_false :
    ∃ st', rexec (RSt.closeAll (fun _ => false) [] RSt.init).1 (.add 1 10) = some st' ∧
      (RSt.closeAll (fun _ => false) [] RSt.init).1.closed = true ∧ st'.lookup 1 = some 10 :=
  ⟨_, rfl, rfl, rfl⟩

end Verif.Pool
