import Verif.Pool.Timed
/-! # C152, C271: idle pools and idle pooled connections expire on time, used ones do not -/
namespace Verif.Pool.Timed

def bound (d : Nat) (st : St) : Nat := max (st.lastUsed + st.idleTO) d + 1000

/-- what the clocks of the pool satisfy -/
structure TInv (d : Nat) (st : St) : Prop where
  used : st.lastUsed ≤ st.now
  use : lastUse st.tr = some st.lastUsed
  opn : st.isOpen = true ↔ ¬ closedIn st.tr
  tick : st.isOpen = true → ∃ t, st.nextTick = some t ∧ st.now ≤ t ∧ st.now ≤ bound d st ∧
    (t ≤ bound d st ∨ st.pend = true)

theorem lastUse_cons {e : Nat × Ev} {tr : List (Nat × Ev)} :
    lastUse (e :: tr) = if e.2.isUse then some e.1 else lastUse tr := by
  unfold lastUse
  cases h : e.2.isUse <;> simp [h]

theorem closedIn_cons {e : Nat × Ev} {tr : List (Nat × Ev)} (h1 : e.2 ≠ .closed) (h2 : e.2 ≠ .idleClosed) :
    closedIn (e :: tr) ↔ closedIn tr := by
  unfold closedIn
  constructor
  · rintro ⟨t, h | h⟩
    · rcases List.mem_cons.1 h with h | h
      · exact absurd (by rw [← h]) h1
      · exact ⟨t, .inl h⟩
    · rcases List.mem_cons.1 h with h | h
      · exact absurd (by rw [← h]) h2
      · exact ⟨t, .inr h⟩
  · rintro ⟨t, h | h⟩
    · exact ⟨t, .inl (List.mem_cons_of_mem _ h)⟩
    · exact ⟨t, .inr (List.mem_cons_of_mem _ h)⟩

/-- a step that uses the pool and leaves clocks and openness alone -/
theorem TInv.touch {d : Nat} {st st' : St} (h : TInv d st) (e : Ev) (h1 : e.isUse = true) (h2 : st'.now = st.now)
    (h3 : st'.idleTO = st.idleTO) (h4 : st'.isOpen = st.isOpen) (h5 : st'.lastUsed = st.now)
    (h6 : st'.nextTick = st.nextTick) (h7 : st'.pend = st.pend) (h8 : st'.tr = (st.now, e) :: st.tr) : TInv d st' := by
  have hu := h.used
  refine ⟨by omega, ?_, ?_, ?_⟩
  · rw [h8, lastUse_cons, h5]; simp [h1]
  · rw [h8, h4, closedIn_cons (by rintro rfl; simp [Ev.isUse] at h1) (by rintro rfl; simp [Ev.isUse] at h1)]
    exact h.opn
  · intro ho
    obtain ⟨t, a, b, c, e⟩ := h.tick (h4 ▸ ho)
    have hb : bound d st ≤ bound d st' := by unfold bound; omega
    refine ⟨t, by rw [h6, a], by omega, by omega, ?_⟩
    rcases e with e | e
    · exact .inl (by omega)
    · exact .inr (by rw [h7, e])

theorem TInv.step {d : Nat} {st st' : St} {a : Act} (h : TInv d st) (hx : exec st a = some st') : TInv d st' := by
  cases a with
  | tick =>
    simp only [exec] at hx
    cases hd : st.due
    · rw [hd] at hx; simp at hx
      subst hx
      have hu := h.used
      refine ⟨by show st.lastUsed ≤ st.now + 1; omega, h.use, h.opn, fun ho => ?_⟩
      obtain ⟨t, h1, h2, h3, h4⟩ := h.tick ho
      simp only [St.due, Bool.or_eq_false_iff, beq_eq_false_iff_ne] at hd
      have hp : st.pend = false := hd.1.2
      have ht : st.nextTick ≠ some st.now := hd.1.1
      have : t ≠ st.now := by rintro rfl; exact ht h1
      rw [hp] at h4; simp at h4
      have e : bound d { st with now := st.now + 1 } = bound d st := rfl
      refine ⟨t, h1, by show st.now + 1 ≤ t; omega, ?_, .inl (by rw [e]; exact h4)⟩
      rw [e]; show st.now + 1 ≤ _; omega
    · rw [hd] at hx; simp at hx
  | get ok =>
    simp only [exec] at hx
    cases ho : st.isOpen
    · rw [ho] at hx; simp at hx; subst hx
      exact h.touch .getErr rfl rfl rfl ho.symm rfl rfl rfl rfl
    · rw [ho] at hx; simp only [if_true] at hx
      cases hi : st.idle with
      | cons e rest =>
        obtain ⟨c, o⟩ := e
        rw [hi] at hx; simp at hx; subst hx
        exact h.touch (.got c) rfl rfl rfl ho.symm rfl rfl rfl rfl
      | nil =>
        rw [hi] at hx
        cases ok
        · simp at hx; subst hx
          exact h.touch .getErr rfl rfl rfl ho.symm rfl rfl rfl rfl
        · simp at hx; subst hx
          exact h.touch (.got st.nextC) rfl rfl rfl ho.symm rfl rfl rfl rfl
  | put c =>
    simp only [exec] at hx
    by_cases hc : c ∈ st.out
    · rw [if_pos hc] at hx
      split at hx
      · cases hx
        exact h.touch (.kept c) rfl rfl rfl rfl rfl rfl rfl rfl
      · cases hx
        exact h.touch (.refused c) rfl rfl rfl rfl rfl rfl rfl rfl
    · rw [if_neg hc] at hx; cases hx
  | drop c =>
    simp only [exec] at hx
    by_cases hc : c ∈ st.out
    · rw [if_pos hc] at hx; cases hx
      refine ⟨h.used, ?_, ?_, h.tick⟩
      · show lastUse ((st.now, Ev.dropped c) :: st.tr) = _
        rw [lastUse_cons]; exact h.use
      · show _ ↔ ¬ closedIn ((st.now, Ev.dropped c) :: st.tr)
        rw [closedIn_cons (by simp) (by simp)]; exact h.opn
    · rw [if_neg hc] at hx; cases hx
  | check =>
    simp only [exec] at hx
    by_cases ht : st.nextTick = some st.now
    · rw [if_pos ht] at hx
      cases ho : st.isOpen
      · rw [ho] at hx; simp at hx; subst hx
        exact ⟨h.used, h.use, by simpa [ho] using h.opn, fun k => by simp [ho] at k⟩
      · rw [ho] at hx; simp only [if_true] at hx; cases hx
        obtain ⟨t, h1, h2, h3, h4⟩ := h.tick ho
        refine ⟨h.used, h.use, by simpa [ho] using h.opn, fun _ => ⟨st.now + 1000, rfl, by simp, h3, ?_⟩⟩
        by_cases hp : st.idleTO < st.now - st.lastUsed
        · exact .inr (by simp [hp])
        · left
          show st.now + 1000 ≤ max (st.lastUsed + st.idleTO) d + 1000
          omega
    · rw [if_neg ht] at hx; cases hx
  | idleClose =>
    simp only [exec] at hx
    cases hp : st.pend
    · rw [hp] at hx; simp at hx
    · rw [hp] at hx; simp only [if_true] at hx
      cases ho : st.isOpen
      · rw [ho] at hx; simp at hx; subst hx
        exact ⟨h.used, h.use, by simpa [ho] using h.opn, fun k => by simp [ho] at k⟩
      · rw [ho] at hx; simp at hx; subst hx
        refine ⟨h.used, ?_, ?_, fun k => by simp at k⟩
        · show lastUse ((st.now, Ev.idleClosed) :: st.tr) = _
          rw [lastUse_cons]; exact h.use
        · exact ⟨fun k => by simp at k, fun k => absurd ⟨st.now, .inr (List.mem_cons_self ..)⟩ k⟩
  | close =>
    simp only [exec] at hx
    cases ho : st.isOpen
    · rw [ho] at hx; simp at hx; subst hx; exact h
    · rw [ho] at hx; simp at hx; subst hx
      refine ⟨h.used, ?_, ?_, fun k => by simp at k⟩
      · show lastUse ((st.now, Ev.closed) :: st.tr) = _
        rw [lastUse_cons]; exact h.use
      · exact ⟨fun k => by simp at k, fun k => absurd ⟨st.now, .inl (List.mem_cons_self ..)⟩ k⟩
  | expire c =>
    simp only [exec] at hx
    split at hx
    · split at hx
      · cases hx
        refine ⟨h.used, ?_, ?_, h.tick⟩
        · show lastUse ((st.now, Ev.expired c) :: st.tr) = _
          rw [lastUse_cons]; exact h.use
        · show _ ↔ ¬ closedIn ((st.now, Ev.expired c) :: st.tr)
          rw [closedIn_cons (by simp) (by simp)]; exact h.opn
      · cases hx
    · cases hx

theorem lastUse_initial (d : Nat) : ∀ l : List Nat, lastUse ((l.map (fun c => (d, Ev.initial c))) ++ [(0, Ev.made)]) = some 0
  | [] => rfl
  | c :: l => by
    show lastUse ((d, Ev.initial c) :: _) = _
    rw [lastUse_cons]; exact lastUse_initial d l

theorem TInv.init (idleTO connTO cap n d : Nat) : TInv d (St.init idleTO connTO cap n d) := by
  refine ⟨Nat.zero_le _, lastUse_initial d _, ⟨fun _ => ?_, fun _ => rfl⟩, fun _ => ⟨d + 1000, rfl, ?_, ?_, .inl ?_⟩⟩
  · rintro ⟨t, h | h⟩ <;> simp [St.init] at h
  all_goals simp only [St.init, bound]; omega

theorem exec_const {st st' : St} {a : Act} (hx : exec st a = some st') :
    st'.idleTO = st.idleTO ∧ st'.connTO = st.connTO ∧ st'.cap = st.cap := by
  cases a <;> simp only [exec] at hx <;> (repeat' split at hx) <;> cases hx <;> exact ⟨rfl, rfl, rfl⟩

theorem reach_const {g : St → Act → Prop} {s0 st : St} (h : Reach g s0 st) :
    st.idleTO = s0.idleTO ∧ st.connTO = s0.connTO ∧ st.cap = s0.cap := by
  induction h with
  | init => exact ⟨rfl, rfl, rfl⟩
  | step a _ _ hx ih =>
    obtain ⟨a1, a2, a3⟩ := exec_const hx
    exact ⟨a1.trans ih.1, a2.trans ih.2.1, a3.trans ih.2.2⟩

theorem Reach.tinv {g : St → Act → Prop} {idleTO connTO cap n d : Nat} {st : St}
    (h : Reach g (St.init idleTO connTO cap n d) st) : TInv d st := by
  induction h with
  | init => exact TInv.init ..
  | step a _ _ hx ih => exact ih.step hx

/-- **C152**. An unused pool is closed in time: as long as the pool has not been closed, its last use (its creation, a `Get`
or a `Put`) is at most the idle timeout plus one second ago - or its creation, when making the initial connections took
longer (`d`), is at most one second ago. -/
theorem C152_pool_expires {idleTO connTO cap n d : Nat} {st : St} (h : Reach Free (St.init idleTO connTO cap n d) st)
    (ho : ¬ closedIn st.tr) {s : Nat} (hs : lastUse st.tr = some s) : st.now ≤ max (s + idleTO) d + 1000 := by
  have hi := h.tinv
  obtain ⟨t, _, _, hb, _⟩ := hi.tick (hi.opn.2 ho)
  have hc : st.idleTO = idleTO := (reach_const h).1
  rw [hi.use] at hs; cases hs
  unfold bound at hb; rw [hc] at hb; exact hb

/-! ### not too early -/

structure EInv (st : St) : Prop where
  pend : st.pend = true → st.lastUsed + st.idleTO < st.now
  early : NotEarly st.idleTO st.tr

theorem NotEarly.cons {idleTO t : Nat} {e : Ev} {tr : List (Nat × Ev)} (h : NotEarly idleTO tr) (hn : e ≠ .idleClosed) :
    NotEarly idleTO ((t, e) :: tr) := by
  intro h1 h2 t' s he hs
  cases h1 with
  | nil => simp at he; exact absurd he.1.2 hn
  | cons x h1 => simp at he; exact h h1 h2 t' s he.2 hs

theorem EInv.step {d : Nat} {st st' : St} {a : Act} (ht : TInv d st) (h : EInv st) (hg : Prompt st a)
    (hx : exec st a = some st') : EInv st' := by
  cases a with
  | tick =>
    simp only [exec] at hx
    cases hd : st.due
    · rw [hd] at hx; simp at hx; subst hx
      simp only [St.due, Bool.or_eq_false_iff] at hd
      exact ⟨fun k => (by rw [show st.pend = false from hd.1.2] at k; cases k), h.early⟩
    · rw [hd] at hx; simp at hx
  | get ok =>
    have hp : st.pend = false := hg
    simp only [exec] at hx
    (repeat' split at hx) <;> cases hx <;>
      exact ⟨fun k => by simp [hp] at k, h.early.cons (by simp)⟩
  | put c =>
    have hp : st.pend = false := hg
    simp only [exec] at hx
    (repeat' split at hx) <;> cases hx <;>
      exact ⟨fun k => by simp [hp] at k, h.early.cons (by simp)⟩
  | drop c =>
    simp only [exec] at hx
    split at hx <;> cases hx
    exact ⟨h.pend, h.early.cons (by simp)⟩
  | check =>
    simp only [exec] at hx
    split at hx
    · split at hx
      · cases hx
        refine ⟨fun k => ?_, h.early⟩
        have : st.idleTO < st.now - st.lastUsed := by simpa using k
        show st.lastUsed + st.idleTO < st.now
        omega
      · cases hx; exact ⟨h.pend, h.early⟩
    · cases hx
  | idleClose =>
    simp only [exec] at hx
    split at hx
    · split at hx
      · cases hx
        refine ⟨fun k => by simp at k, ?_⟩
        intro h1 h2 t s he hs
        cases h1 with
        | nil =>
          simp at he
          obtain ⟨rfl, rfl⟩ := he
          rw [ht.use] at hs; cases hs
          exact h.pend ‹_›
        | cons x h1 => simp at he; exact h.early h1 h2 t s he.2 hs
      · cases hx; exact ⟨fun k => by simp at k, h.early⟩
    · cases hx
  | close =>
    simp only [exec] at hx
    split at hx <;> cases hx
    · exact ⟨h.pend, h.early.cons (by simp)⟩
    · exact h
  | expire c =>
    simp only [exec] at hx
    (repeat' split at hx) <;> cases hx
    exact ⟨h.pend, h.early.cons (by simp)⟩

theorem EInv.init (idleTO connTO cap n d : Nat) : EInv (St.init idleTO connTO cap n d) := by
  refine ⟨fun k => by simp [St.init] at k, ?_⟩
  intro h1 h2 t s he hs
  have : (t, Ev.idleClosed) ∈ (St.init idleTO connTO cap n d).tr := by rw [he]; simp
  simp [St.init] at this

/-- **C160** (not early; partial). If nobody uses the pool between the decision of the idle check and the `Close` that
follows it, the pool is closed for idleness only when its last use is more than the idle timeout ago.
`C160_early_false` shows that the restriction is needed. -/
theorem C160_not_early_partial {idleTO connTO cap n d : Nat} {st : St}
    (h : Reach Prompt (St.init idleTO connTO cap n d) st) : NotEarly idleTO st.tr := by
  have : EInv st := by
    induction h with
    | init => exact EInv.init ..
    | step a hr hg hx ih => exact ih.step hr.tinv hg hx
  have hc : st.idleTO = idleTO := (reach_const h).1
  exact hc ▸ this.early

/-! ### the connections -/

theorem lastOf_cons {c : Nat} {e : Nat × Ev} {tr : List (Nat × Ev)} :
    lastOf c (e :: tr) = if e.2.about c then some e else lastOf c tr := by
  unfold lastOf
  cases h : e.2.about c <;> simp [h]

structure CInv (st : St) : Prop where
  nodup : (st.idle.map (·.1) ++ st.out).Nodup
  lt : ∀ c ∈ st.idle.map (·.1) ++ st.out, c < st.nextC
  fut : ∀ c t, (c, some t) ∈ st.idle → st.now ≤ t ∧ 0 < st.connTO ∧
    ∃ s, lastOf c st.tr = some (s, .kept c) ∧ t = s + st.connTO
  kept : st.isOpen = true → ∀ c s, lastOf c st.tr = some (s, .kept c) →
    (c, if 0 < st.connTO then some (s + st.connTO) else none) ∈ st.idle
  exact' : ConnExact st.connTO st.tr

theorem ConnExact.cons {k t : Nat} {e : Ev} {tr : List (Nat × Ev)} (h : ConnExact k tr) (hn : ∀ c, e ≠ .expired c) :
    ConnExact k ((t, e) :: tr) := by
  intro h1 h2 t' c he
  cases h1 with
  | nil => simp at he; exact absurd he.1.2 (hn c)
  | cons x h1 => simp at he; exact h h1 h2 t' c he.2

theorem nodup_append {α} {a b : List α} : (a ++ b).Nodup ↔ a.Nodup ∧ b.Nodup ∧ ∀ x ∈ a, x ∉ b := by
  rw [List.nodup_append]
  refine and_congr_right fun _ => and_congr_right fun _ => ⟨fun h x hx hb => h x hx x hb rfl, fun h x hx y hy e => ?_⟩
  exact h x hx (e ▸ hy)

theorem nodup_filter' {l : List Nat} (p : Nat → Bool) (h : l.Nodup) : (l.filter p).Nodup := h.sublist List.filter_sublist

/-- a new event about nothing but `c`, which is not among the idle connections afterwards -/
theorem CInv.away {st st' : St} (h : CInv st) (c : Nat) (t : Nat) (e : Ev) (hne : ∀ x, e ≠ .expired x)
    (hnk : ∀ x, e ≠ .kept x) (ha : ∀ x, e.about x = true → x = c) (hsub : st'.idle.Sublist st.idle)
    (hrest : ∀ x o, (x, o) ∈ st.idle → x ≠ c → (x, o) ∈ st'.idle) (hnot : c ∉ st'.idle.map (·.1))
    (hc : e.about c = true)
    (hnd : (st'.idle.map (·.1) ++ st'.out).Nodup) (hlt : ∀ c ∈ st'.idle.map (·.1) ++ st'.out, c < st'.nextC)
    (hto : st'.connTO = st.connTO) (hnow : st'.now = st.now) (hop : st'.isOpen = true → st.isOpen = true)
    (htr : st'.tr = (t, e) :: st.tr) : CInv st' := by
  refine ⟨hnd, hlt, ?_, ?_, ?_⟩
  · intro x t' hx
    obtain ⟨a1, a2, s, a3, a4⟩ := h.fut x t' (hsub.subset hx)
    have hxc : x ≠ c := by rintro rfl; exact hnot (List.mem_map_of_mem (f := (·.1)) hx)
    refine ⟨by omega, by omega, s, ?_, by rw [hto]; exact a4⟩
    rw [htr, lastOf_cons, if_neg]; · exact a3
    · intro hh; exact hxc (ha x hh)
  · intro ho x s hs
    rw [htr, lastOf_cons] at hs
    by_cases hx : e.about x = true
    · rw [if_pos hx] at hs; simp at hs; exact absurd hs.2 (hnk x)
    · rw [if_neg hx] at hs
      have := h.kept (hop ho) x s hs
      rw [hto]
      refine hrest _ _ this ?_
      rintro rfl; exact hx hc
  · rw [htr, hto]; exact h.exact'.cons hne

theorem CInv.step {st st' : St} {a : Act} (h : CInv st) (hx : exec st a = some st') : CInv st' := by
  cases a with
  | tick =>
    simp only [exec] at hx
    cases hd : st.due
    · rw [hd] at hx; simp at hx; subst hx
      simp only [St.due, Bool.or_eq_false_iff] at hd
      refine ⟨h.nodup, h.lt, fun c t hc => ?_, h.kept, h.exact'⟩
      obtain ⟨a1, a2, a3⟩ := h.fut c t hc
      refine ⟨?_, a2, a3⟩
      have : ¬ (some t = some st.now) := by
        intro he
        have := List.any_eq_false.1 hd.2 (c, some t) hc
        simp [he] at this
      have : t ≠ st.now := fun he => this (by rw [he])
      show st.now + 1 ≤ t
      omega
    · rw [hd] at hx; simp at hx
  | get ok =>
    simp only [exec] at hx
    have hnone : ∀ (e : Ev) (st' : St), (∀ x, e.about x = false) → st'.idle = st.idle → st'.out = st.out →
        st'.nextC = st.nextC → st'.connTO = st.connTO → st'.now = st.now → st'.isOpen = st.isOpen →
        st'.tr = (st.now, e) :: st.tr → CInv st' := by
      intro e st' ha b1 b2 b3 b4 b5 b6 b7
      have hl : ∀ x, lastOf x st'.tr = lastOf x st.tr := by
        intro x; rw [b7, lastOf_cons]; simp [ha x]
      refine ⟨by rw [b1, b2]; exact h.nodup, by rw [b1, b2, b3]; exact h.lt, ?_, ?_, ?_⟩
      · intro c t hc
        rw [b1] at hc; rw [b4, b5, hl]; exact h.fut c t hc
      · intro ho c s hs
        rw [hl] at hs; rw [b1, b4]; exact h.kept (b6 ▸ ho) c s hs
      · rw [b7, b4]
        refine h.exact'.cons ?_
        rintro c rfl; have := ha c; simp [Ev.about] at this
    cases ho : st.isOpen
    · rw [ho] at hx; simp at hx; subst hx
      exact hnone .getErr _ (fun _ => rfl) rfl rfl rfl rfl rfl ho.symm rfl
    · rw [ho] at hx; simp only [if_true] at hx
      cases hi : st.idle with
      | cons e rest =>
        obtain ⟨c, o⟩ := e
        rw [hi] at hx; simp at hx; subst hx
        have hn := h.nodup
        have hl := h.lt
        rw [hi] at hn hl
        simp only [List.map_cons, List.cons_append, List.nodup_cons] at hn
        refine h.away c st.now (.got c) (by simp) (by simp) (by simp only [Ev.about, beq_iff_eq]; exact fun x hx => hx.symm)
          (by rw [hi]; exact List.sublist_cons_self ..) ?_ ?_ (by simp [Ev.about]) ?_ ?_ rfl rfl (fun _ => ho) rfl
        · intro x o' hx hxc
          rw [hi] at hx
          rcases List.mem_cons.1 hx with hx | hx
          · simp at hx; exact absurd hx.1 hxc
          · exact hx
        · intro hm; exact hn.1 (List.mem_append.2 (.inl hm))
        · show (rest.map (·.1) ++ c :: st.out).Nodup
          refine (List.perm_middle.nodup_iff).2 ?_
          exact List.nodup_cons.2 hn
        · intro x hx
          refine hl x ?_
          have hx' : x ∈ rest.map (·.1) ++ c :: st.out := hx
          exact (List.perm_middle.mem_iff).1 hx'
      | nil =>
        rw [hi] at hx
        cases ok
        · simp at hx; subst hx
          exact hnone .getErr _ (fun _ => rfl) hi.symm rfl rfl rfl rfl ho.symm rfl
        · simp at hx; subst hx
          have hn := h.nodup
          have hl := h.lt
          rw [hi] at hn hl
          refine h.away st.nextC st.now (.got st.nextC) (by simp) (by simp)
            (by simp only [Ev.about, beq_iff_eq]; exact fun x hx => hx.symm)
            (by rw [hi]; exact List.Sublist.refl _) ?_ ?_ (by simp [Ev.about]) ?_ ?_ rfl rfl (fun _ => ho) rfl
          · intro x o' hx hxc
            rw [hi] at hx; cases hx
          · simp
          · show ([] ++ st.nextC :: st.out).Nodup
            simp only [List.nil_append, List.nodup_cons]
            refine ⟨fun hm => ?_, by simpa using hn⟩
            have := hl st.nextC (by simpa using hm)
            omega
          · intro x hx
            have hx' : x ∈ st.nextC :: st.out := by simpa using hx
            show x < st.nextC + 1
            rcases List.mem_cons.1 hx' with rfl | hx'
            · omega
            · have := hl x (by simpa using hx'); omega
  | put c =>
    simp only [exec] at hx
    have hn := h.nodup
    have hl := h.lt
    rw [nodup_append] at hn
    obtain ⟨n1, n2, n3⟩ := hn
    by_cases hc : c ∈ st.out
    · rw [if_pos hc] at hx
      have hci : c ∉ st.idle.map (·.1) := fun hm => n3 c hm hc
      split at hx
      · cases hx
        refine ⟨?_, ?_, ?_, ?_, ?_⟩
        · rw [nodup_append]
          refine ⟨?_, nodup_filter' _ n2, ?_⟩
          · show (List.map (fun x : Nat × Option Nat => x.1) (st.idle ++ [(c, _)])).Nodup
            rw [List.map_append, nodup_append]
            refine ⟨n1, by simp, ?_⟩
            intro x hx hxc
            simp at hxc; subst hxc; exact hci hx
          · intro x hx
            have hx' : x ∈ st.idle.map (·.1) ∨ x = c := by simpa using hx
            intro hf
            have hf' : x ∈ st.out ∧ x ≠ c := by simpa using hf
            rcases hx' with hx' | hx'
            · exact n3 x hx' hf'.1
            · exact hf'.2 hx'
        · intro x hx
          rcases List.mem_append.1 hx with hx | hx
          · have hx' : x ∈ st.idle.map (·.1) ∨ x = c := by simpa using hx
            rcases hx' with hx' | rfl
            · exact hl x (List.mem_append.2 (.inl hx'))
            · exact hl x (List.mem_append.2 (.inr hc))
          · have hf' : x ∈ st.out ∧ x ≠ c := by simpa using hx
            exact hl x (List.mem_append.2 (.inr hf'.1))
        · intro x t hx
          rcases List.mem_append.1 hx with hx | hx
          · obtain ⟨a1, a2, s, a3, a4⟩ := h.fut x t hx
            refine ⟨a1, a2, s, ?_, a4⟩
            show lastOf x ((st.now, Ev.kept c) :: st.tr) = _
            rw [lastOf_cons, if_neg]; · exact a3
            · intro hh
              have : c = x := by simpa [Ev.about] using hh
              subst this
              exact hci (List.mem_map_of_mem (f := (·.1)) hx)
          · have hx' : x = c ∧ some t = (if 0 < st.connTO then some (st.now + st.connTO) else none) := by
              simpa using hx
            obtain ⟨rfl, hx'⟩ := hx'
            by_cases hp : 0 < st.connTO
            · rw [if_pos hp] at hx'; cases hx'
              refine ⟨by show st.now ≤ _; omega, hp, st.now, ?_, rfl⟩
              show lastOf x ((st.now, Ev.kept x) :: st.tr) = _
              rw [lastOf_cons]; simp [Ev.about]
            · rw [if_neg hp] at hx'; cases hx'
        · intro ho x s hs
          have hs' : lastOf x ((st.now, Ev.kept c) :: st.tr) = some (s, .kept x) := hs
          rw [lastOf_cons] at hs'
          by_cases hxc : (Ev.kept c).about x = true
          · rw [if_pos hxc] at hs'
            simp at hs'
            obtain ⟨rfl, rfl⟩ := hs'
            exact List.mem_append.2 (.inr (List.mem_singleton.2 rfl))
          · rw [if_neg hxc] at hs'
            exact List.mem_append.2 (.inl (h.kept ho x s hs'))
        · exact h.exact'.cons (by simp)
      · cases hx
        refine h.away c st.now (.refused c) (by simp) (by simp) (by simp only [Ev.about, beq_iff_eq]; exact fun x hx => hx.symm)
          (List.Sublist.refl _) (fun x o hx _ => hx) hci (by simp [Ev.about]) ?_ ?_ rfl rfl id rfl
        · rw [nodup_append]
          refine ⟨n1, nodup_filter' _ n2, fun x hx hf => ?_⟩
          have hf' : x ∈ st.out ∧ x ≠ c := by simpa using hf
          exact n3 x hx hf'.1
        · intro x hx
          rcases List.mem_append.1 hx with hx | hx
          · exact hl x (List.mem_append.2 (.inl hx))
          · have hf' : x ∈ st.out ∧ x ≠ c := by simpa using hx
            exact hl x (List.mem_append.2 (.inr hf'.1))
    · rw [if_neg hc] at hx; cases hx
  | drop c =>
    simp only [exec] at hx
    have hn := h.nodup
    have hl := h.lt
    rw [nodup_append] at hn
    obtain ⟨n1, n2, n3⟩ := hn
    by_cases hc : c ∈ st.out
    · rw [if_pos hc] at hx
      have hci : c ∉ st.idle.map (·.1) := fun hm => n3 c hm hc
      cases hx
      refine h.away c st.now (.dropped c) (by simp) (by simp) (by simp only [Ev.about, beq_iff_eq]; exact fun x hx => hx.symm)
        (List.Sublist.refl _) (fun x o hx _ => hx) hci (by simp [Ev.about]) ?_ ?_ rfl rfl id rfl
      · rw [nodup_append]
        refine ⟨n1, nodup_filter' _ n2, fun x hx hf => ?_⟩
        have hf' : x ∈ st.out ∧ x ≠ c := by simpa using hf
        exact n3 x hx hf'.1
      · intro x hx
        rcases List.mem_append.1 hx with hx | hx
        · exact hl x (List.mem_append.2 (.inl hx))
        · have hf' : x ∈ st.out ∧ x ≠ c := by simpa using hx
          exact hl x (List.mem_append.2 (.inr hf'.1))
    · rw [if_neg hc] at hx; cases hx
  | check =>
    simp only [exec] at hx
    split at hx
    · split at hx <;> cases hx <;> exact ⟨h.nodup, h.lt, h.fut, h.kept, h.exact'⟩
    · cases hx
  | idleClose =>
    simp only [exec] at hx
    split at hx
    · split at hx <;> cases hx
      · refine ⟨?_, ?_, by simp, by simp, h.exact'.cons (by simp)⟩
        · have := h.nodup; rw [nodup_append] at this
          simpa using this.2.1
        · intro x hx; exact h.lt x (List.mem_append.2 (.inr (by simpa using hx)))
      · exact ⟨h.nodup, h.lt, h.fut, h.kept, h.exact'⟩
    · cases hx
  | close =>
    simp only [exec] at hx
    split at hx <;> cases hx
    · refine ⟨?_, ?_, by simp, by simp, h.exact'.cons (by simp)⟩
      · have := h.nodup; rw [nodup_append] at this
        simpa using this.2.1
      · intro x hx; exact h.lt x (List.mem_append.2 (.inr (by simpa using hx)))
    · exact h
  | expire c =>
    simp only [exec] at hx
    have hn := h.nodup
    rw [nodup_append] at hn
    obtain ⟨n1, n2, n3⟩ := hn
    cases hf : st.idle.find? (fun e => e.1 == c) with
    | none => rw [hf] at hx; cases hx
    | some e =>
      obtain ⟨c', o⟩ := e
      cases o with
      | none => rw [hf] at hx; cases hx
      | some t =>
        rw [hf] at hx
        simp only at hx
        have hm : (c', some t) ∈ st.idle := List.mem_of_find?_eq_some hf
        have hcc : c' = c := by have := List.find?_some hf; simpa using this
        subst hcc
        by_cases ht : t = st.now
        · rw [if_pos ht] at hx; cases hx
          obtain ⟨a1, a2, s, a3, a4⟩ := h.fut c' t hm
          have hsub : (st.idle.filter (fun e => e.1 != c')).Sublist st.idle := List.filter_sublist
          refine ⟨?_, ?_, ?_, ?_, ?_⟩
          · rw [nodup_append]
            refine ⟨n1.sublist (hsub.map _), n2, fun x hx => n3 x ((hsub.map _).subset hx)⟩
          · intro x hx
            rcases List.mem_append.1 hx with hx | hx
            · exact h.lt x (List.mem_append.2 (.inl ((hsub.map _).subset hx)))
            · exact h.lt x (List.mem_append.2 (.inr hx))
          · intro x t' hx
            have hx' : (x, some t') ∈ st.idle ∧ x ≠ c' := by simpa using hx
            obtain ⟨b1, b2, s', b3, b4⟩ := h.fut x t' hx'.1
            refine ⟨b1, b2, s', ?_, b4⟩
            show lastOf x ((st.now, Ev.expired c') :: st.tr) = _
            rw [lastOf_cons, if_neg]; · exact b3
            · intro hh
              have : c' = x := by simpa [Ev.about] using hh
              exact hx'.2 this.symm
          · intro ho x s' hs
            have hs' : lastOf x ((st.now, Ev.expired c') :: st.tr) = some (s', .kept x) := hs
            rw [lastOf_cons] at hs'
            by_cases hxc : (Ev.expired c').about x = true
            · rw [if_pos hxc] at hs'; simp at hs'
            · rw [if_neg hxc] at hs'
              refine List.mem_filter.2 ⟨h.kept ho x s' hs', ?_⟩
              have : c' ≠ x := by simpa [Ev.about] using hxc
              simpa using this.symm
          · intro h1 h2 t' x he
            cases h1 with
            | nil =>
              simp at he
              obtain ⟨⟨rfl, rfl⟩, rfl⟩ := he
              exact ⟨s, a3, by rw [← ht, a4]⟩
            | cons y h1 => simp at he; exact h.exact' h1 h2 t' x he.2
        · rw [if_neg ht] at hx; cases hx

theorem lastOf_initial (d c : Nat) : ∀ (l : List Nat) (s : Nat) (e : Ev),
    lastOf c ((l.map (fun c => (d, Ev.initial c))) ++ [(0, Ev.made)]) = some (s, e) → e = .initial c
  | [], s, e, h => by simp [lastOf, Ev.about] at h
  | x :: l, s, e, h => by
    have h' : lastOf c ((d, Ev.initial x) :: (l.map (fun c => (d, Ev.initial c)) ++ [(0, Ev.made)])) = some (s, e) := h
    rw [lastOf_cons] at h'
    by_cases hx : (Ev.initial x).about c = true
    · rw [if_pos hx] at h'
      simp at h'
      have : x = c := by simpa [Ev.about] using hx
      rw [← h'.2, this]
    · rw [if_neg hx] at h'; exact lastOf_initial d c l s e h'

theorem CInv.init (idleTO connTO cap n d : Nat) : CInv (St.init idleTO connTO cap n d) := by
  have hmap : (List.range n).map ((fun x : Nat × Option Nat => x.1) ∘ fun c => (c, none)) = List.range n := by
    conv => rhs; rw [← List.map_id (List.range n)]
    rfl
  refine ⟨?_, ?_, ?_, ?_, ?_⟩
  · simp only [St.init, List.map_map, List.append_nil, hmap]
    exact List.nodup_range
  · simp only [St.init, List.map_map, List.append_nil, hmap]
    intro c hc; exact List.mem_range.1 hc
  · intro c t h; simp [St.init] at h
  · intro _ c s h
    have := lastOf_initial d c _ _ _ h
    cases this
  · intro h1 h2 t c he
    have : (t, Ev.expired c) ∈ (St.init idleTO connTO cap n d).tr := by rw [he]; simp
    simp [St.init] at this

theorem Reach.cinv {g : St → Act → Prop} {idleTO connTO cap n d : Nat} {st : St}
    (h : Reach g (St.init idleTO connTO cap n d) st) : CInv st := by
  induction h with
  | init => exact CInv.init ..
  | step a _ _ hx ih => exact ih.step hx

/-- **C152**. A connection that was given back and not asked for since has been in the pool for at most the connection idle
timeout (if there is one), or the pool has been closed (which closes it). -/
theorem C152_conn_expires {idleTO connTO cap n d : Nat} {st : St} (h : Reach Free (St.init idleTO connTO cap n d) st)
    (ho : ¬ closedIn st.tr) (hc : 0 < connTO) {c s : Nat} (hs : lastOf c st.tr = some (s, .kept c)) :
    st.now ≤ s + connTO := by
  have hi := h.cinv
  have ht := h.tinv
  have hk : st.connTO = connTO := (reach_const h).2.1
  have := hi.kept (ht.opn.2 ho) c s hs
  rw [hk, if_pos hc] at this
  exact (hi.fut _ _ this).1

/-- **C152**. A connection is dropped by its idle timer exactly the connection idle timeout after it was given back, and only
if nobody asked for it in between. -/
theorem C152_conn_exact {idleTO connTO cap n d : Nat} {st : St} (h : Reach Free (St.init idleTO connTO cap n d) st) :
    ConnExact connTO st.tr := by
  have hk : st.connTO = connTO := (reach_const h).2.1
  exact hk ▸ h.cinv.exact'

/-! ### runs -/

def run (st : St) : List Act → Option St
  | [] => some st
  | a :: as => (exec st a).bind (fun st' => run st' as)

theorem run_free {s0 : St} : ∀ {as : List Act} {st st' : St}, Reach Free s0 st → run st as = some st' → Reach Free s0 st'
  | [], _, _, h, he => by cases he; exact h
  | a :: as, st, st', h, he => by
    unfold run at he
    cases hx : exec st a with
    | none => rw [hx] at he; cases he
    | some s1 => rw [hx] at he; exact run_free (.step a h trivial hx) he

def promptB (st : St) : Act → Bool
  | .get _ | .put _ => !st.pend
  | _ => true

def runP (st : St) : List Act → Option St
  | [] => some st
  | a :: as => if promptB st a then (exec st a).bind (fun st' => runP st' as) else none

theorem run_prompt {s0 : St} : ∀ {as : List Act} {st st' : St}, Reach Prompt s0 st → runP st as = some st' → Reach Prompt s0 st'
  | [], _, _, h, he => by cases he; exact h
  | a :: as, st, st', h, he => by
    unfold runP at he
    by_cases hp : promptB st a = true
    · rw [if_pos hp] at he
      cases hx : exec st a with
      | none => rw [hx] at he; cases he
      | some s1 =>
        rw [hx] at he
        refine run_prompt (.step a h ?_ hx) he
        cases a <;> simp_all [Prompt, promptB]
    · rw [if_neg hp] at he; cases he

theorem of_map {α β} {o : Option α} {f : α → β} {b : β} (h : o.map f = some b) : ∃ a, o = some a ∧ f a = b := by
  cases o with
  | none => cases h
  | some a => exact ⟨a, rfl, by simpa using h⟩

def wait (n : Nat) : List Act := List.replicate n .tick

/-- **C160** is false in full: a pool can be closed for idleness right after it was used. The idle timeout is 1.5 s; after 2 s
the check finds it elapsed, `Get` comes in between and gets a connection, then the pool is closed. -/
theorem C160_early_false : ∃ st, Reach Free (St.init 1500 90 2 0 0) st ∧ (2000, .idleClosed) ∈ st.tr ∧
    (2000, .got 0) ∈ st.tr ∧ ¬ NotEarly 1500 st.tr := by
  have h : (run (St.init 1500 90 2 0 0)
      (wait 1000 ++ [.check] ++ wait 1000 ++ [.check, .get true, .idleClose])).map (·.tr) = some [(2000, .idleClosed), (2000, .got 0), (0, .made)] := by
    decide +kernel
  obtain ⟨st, h1, h2⟩ := of_map h
  refine ⟨st, run_free .init h1, by rw [h2]; simp, by rw [h2]; simp, fun hn => ?_⟩
  have := hn [] [(2000, .got 0), (0, .made)] 2000 2000 (by rw [h2]; rfl) rfl
  omega

/-- **C160** is false in full: the pool is closed for idleness while a connection of it is in use, when the connection is
used for longer than the idle timeout; the connection is not reused when it is given back. -/
theorem C160_in_use_false : ∃ st, Reach Prompt (St.init 1500 90 2 0 0) st ∧
    st.tr = [(2000, .refused 0), (2000, .idleClosed), (0, .got 0), (0, .made)] := by
  have h : (runP (St.init 1500 90 2 0 0)
      ([.get true] ++ wait 1000 ++ [.check] ++ wait 1000 ++ [.check, .idleClose, .put 0])).map (·.tr) = some [(2000, .refused 0), (2000, .idleClosed), (0, .got 0), (0, .made)] := by
    decide +kernel
  obtain ⟨st, h1, h2⟩ := of_map h
  exact ⟨st, run_prompt .init h1, h2⟩

/-- **C160** is false in full: a pool the initial connections of which took longer to make than the idle timeout is closed one
second after it was created, although the idle timeout since its creation has not elapsed. -/
theorem C160_slow_start_false : ∃ st, Reach Prompt (St.init 1500 90 2 2 1200) st ∧
    st.tr = [(2200, .idleClosed), (1200, .initial 0), (1200, .initial 1), (0, .made)] := by
  have h : (runP (St.init 1500 90 2 2 1200)
      (wait 1000 ++ [.check, .idleClose])).map (·.tr) = some [(2200, .idleClosed), (1200, .initial 0), (1200, .initial 1), (0, .made)] := by
    decide +kernel
  obtain ⟨st, h1, h2⟩ := of_map h
  exact ⟨st, run_prompt .init h1, h2⟩

/-- **C160** is false in full: the initial connections have no idle timer; they stay in the pool for as long as the pool is
used otherwise. Connection timeout 90 ms; after 1 s the initial connection is still handed out. -/
theorem C160_initial_false : ∃ st, Reach Prompt (St.init 1500 90 2 1 0) st ∧
    st.tr = [(999, .got 0), (0, .initial 0), (0, .made)] := by
  have h : (runP (St.init 1500 90 2 1 0)
      (wait 999 ++ [.get true])).map (·.tr) = some [(999, .got 0), (0, .initial 0), (0, .made)] := by
    decide +kernel
  obtain ⟨st, h1, h2⟩ := of_map h
  exact ⟨st, run_prompt .init h1, h2⟩

/-- The hypotheses of the theorems are met: a connection is given back after 10 ms and dropped 90 ms later; then the pool is
closed for idleness at the first check more than 1.5 s after the `Put`. -/
example : ∃ st, Reach Prompt (St.init 1500 90 2 0 0) st ∧
    st.tr = [(2000, .idleClosed), (100, .expired 0), (10, .kept 0), (0, .got 0), (0, .made)] := by
  have h : (runP (St.init 1500 90 2 0 0)
      ([.get true] ++ wait 10 ++ [.put 0] ++ wait 90 ++ [.expire 0] ++ wait 900 ++
      [.check] ++ wait 1000 ++ [.check, .idleClose])).map (·.tr) = some [(2000, .idleClosed), (100, .expired 0), (10, .kept 0), (0, .got 0), (0, .made)] := by
    decide +kernel
  obtain ⟨st, h1, h2⟩ := of_map h
  exact ⟨st, run_prompt .init h1, h2⟩

example : ∃ st, Reach Free (St.init 1500 90 2 0 0) st ∧ ¬ closedIn st.tr ∧ lastUse st.tr = some 10 ∧
    lastOf 0 st.tr = some (10, .kept 0) ∧ st.now = 60 := by
  have h : ∃ st, run (St.init 1500 90 2 0 0) ([.get true] ++ wait 10 ++ [.put 0] ++ wait 50) = some st ∧
      st.tr = [(10, .kept 0), (0, .got 0), (0, .made)] ∧ st.now = 60 := ⟨_, rfl, rfl, rfl⟩
  obtain ⟨st, h1, h2, h3⟩ := h
  refine ⟨st, run_free .init h1, ?_, by rw [h2]; rfl, by rw [h2]; rfl, h3⟩
  rintro ⟨t, h | h⟩ <;> rw [h2] at h <;> simp at h

/-! ### C271: a closed pool comes to rest -/

/-- a close of the pool; specification -/
def Ev.isClose : Ev → Bool
  | .closed | .idleClosed => true
  | _ => false

/-- an event that leaves the connections of the pool alone: a refused `Get`, a refused `Put`, the end of a connection that
its user holds; specification -/
def Ev.quiet : Ev → Bool
  | .getErr | .refused _ | .dropped _ => true
  | _ => false

/-- closedness by the trace, and what a closed pool has -/
structure QInv (st : St) : Prop where
  opn : st.isOpen = true → ∀ e ∈ st.tr, e.2.isClose = false
  shut : st.isOpen = false → st.idle = [] ∧ ∃ h1 t e h2, st.tr = h1 ++ (t, e) :: h2 ∧ e.isClose = true ∧ t ≤ st.now ∧
    (∀ x ∈ h1, x.2.quiet = true) ∧ (∀ x ∈ h2, x.2.isClose = false) ∧ ∀ n, st.nextTick = some n → n ≤ t + 1000
  tick : ∀ n, st.nextTick = some n → st.now ≤ n ∧ n ≤ st.now + 1000

theorem QInv.add {st st' : St} (h : QInv st) (e : Ev) (hc : e.isClose = false) (ho : st'.isOpen = st.isOpen)
    (hn : st'.now = st.now) (ht : st'.nextTick = st.nextTick) (htr : st'.tr = (st.now, e) :: st.tr)
    (hq : st.isOpen = false → e.quiet = true ∧ st'.idle = []) : QInv st' := by
  refine ⟨fun h1 x hx => ?_, fun h1 => ?_, by rw [ht, hn]; exact h.tick⟩
  · rw [htr] at hx
    rcases List.mem_cons.1 hx with rfl | hx
    · exact hc
    · exact h.opn (ho ▸ h1) x hx
  · rw [ho] at h1
    obtain ⟨_, p, t, e', q, a1, a2, a3, a4, a5, a6⟩ := h.shut h1
    refine ⟨(hq h1).2, (st.now, e) :: p, t, e', q, by rw [htr, a1]; rfl, a2, by rw [hn]; exact a3, ?_, a5, by rw [ht]; exact a6⟩
    intro x hx
    rcases List.mem_cons.1 hx with rfl | hx
    · exact (hq h1).1
    · exact a4 x hx

theorem QInv.shutNow {st st' : St} (h : QInv st) (ho : st.isOpen = true) (e : Ev) (hc : e.isClose = true)
    (ho' : st'.isOpen = false) (hn : st'.now = st.now) (ht : st'.nextTick = st.nextTick)
    (hi : st'.idle = []) (htr : st'.tr = (st.now, e) :: st.tr) : QInv st' := by
  refine ⟨fun h1 => ?_, fun _ => ⟨hi, [], st.now, e, st.tr, htr, hc, by omega, ?_, h.opn ho, ?_⟩, by rw [ht, hn]; exact h.tick⟩
  · rw [ho'] at h1; cases h1
  · intro x hx; cases hx
  · intro n h1; rw [ht] at h1; exact (h.tick n h1).2

theorem QInv.step {st st' : St} {a : Act} (h : QInv st) (hx : exec st a = some st') : QInv st' := by
  cases a with
  | tick =>
    simp only [exec] at hx
    cases hd : st.due
    · rw [hd] at hx; simp at hx
      subst hx
      refine ⟨h.opn, fun h1 => ?_, fun n h1 => ?_⟩
      · obtain ⟨b, p, t, e', q, a1, a2, a3, a4, a5, a6⟩ := h.shut h1
        exact ⟨b, p, t, e', q, a1, a2, Nat.le_succ_of_le a3, a4, a5, a6⟩
      · have h2 := h.tick n h1
        have h3 : n ≠ st.now := by
          rintro rfl
          have h1' : st.nextTick = some st.now := h1
          simp [St.due, h1'] at hd
        show st.now + 1 ≤ n ∧ n ≤ st.now + 1 + 1000
        omega
    · rw [hd] at hx; simp at hx
  | get ok =>
    simp only [exec] at hx
    cases ho : st.isOpen
    · rw [ho] at hx; simp at hx; subst hx
      exact h.add .getErr rfl ho.symm rfl rfl rfl (fun h1 => ⟨rfl, (h.shut h1).1⟩)
    · rw [ho] at hx; simp only [if_true] at hx
      have no : ∀ {P : Prop}, st.isOpen = false → P := fun h1 => by rw [ho] at h1; cases h1
      cases hi : st.idle with
      | nil =>
        rw [hi] at hx
        cases ok <;> simp at hx <;> subst hx
        · exact h.add .getErr rfl ho.symm rfl rfl rfl no
        · exact h.add (.got st.nextC) rfl ho.symm rfl rfl rfl no
      | cons c l =>
        rw [hi] at hx; simp at hx; subst hx
        exact h.add (.got c.1) rfl ho.symm rfl rfl rfl no
  | put c =>
    simp only [exec] at hx
    by_cases hm : c ∈ st.out
    · rw [if_pos hm] at hx
      by_cases hk : (st.isOpen && decide (st.idle.length < st.cap)) = true
      · rw [if_pos hk] at hx; cases hx
        rw [Bool.and_eq_true] at hk
        exact h.add (.kept c) rfl rfl rfl rfl rfl (fun h1 => by rw [hk.1] at h1; cases h1)
      · rw [if_neg hk] at hx; cases hx
        exact h.add (.refused c) rfl rfl rfl rfl rfl (fun h1 => ⟨rfl, (h.shut h1).1⟩)
    · rw [if_neg hm] at hx; cases hx
  | drop c =>
    simp only [exec] at hx
    by_cases hm : c ∈ st.out
    · rw [if_pos hm] at hx; cases hx
      exact h.add (.dropped c) rfl rfl rfl rfl rfl (fun h1 => ⟨rfl, (h.shut h1).1⟩)
    · rw [if_neg hm] at hx; cases hx
  | check =>
    simp only [exec] at hx
    by_cases hm : st.nextTick = some st.now
    · rw [if_pos hm] at hx
      cases ho : st.isOpen
      · rw [ho] at hx; simp at hx; subst hx
        refine ⟨fun h1 => h.opn (ho ▸ h1), fun _ => ?_, fun n h1 => by cases h1⟩
        obtain ⟨b, p, t, e', q, a1, a2, a3, a4, a5, a6⟩ := h.shut ho
        exact ⟨b, p, t, e', q, a1, a2, a3, a4, a5, fun n h1 => by cases h1⟩
      · rw [ho] at hx; simp only [if_true] at hx; cases hx
        refine ⟨fun _ => h.opn ho, fun h1 => ?_, fun n h1 => ?_⟩
        · cases h1
        · cases h1; exact ⟨Nat.le_add_right _ _, Nat.le_refl _⟩
    · rw [if_neg hm] at hx; cases hx
  | idleClose =>
    simp only [exec] at hx
    by_cases hm : st.pend = true
    · rw [if_pos hm] at hx
      by_cases ho : st.isOpen = true
      · rw [if_pos ho] at hx; cases hx
        exact h.shutNow ho .idleClosed rfl rfl rfl rfl rfl rfl
      · rw [if_neg ho] at hx; cases hx
        exact ⟨h.opn, h.shut, h.tick⟩
    · rw [if_neg hm] at hx; cases hx
  | close =>
    simp only [exec] at hx
    by_cases ho : st.isOpen = true
    · rw [if_pos ho] at hx; cases hx
      exact h.shutNow ho .closed rfl rfl rfl rfl rfl rfl
    · rw [if_neg ho] at hx; cases hx; exact h
  | expire c =>
    have ho : st.isOpen = true := by
      cases ho : st.isOpen
      · have := (h.shut ho).1
        simp [exec, this] at hx
      · rfl
    simp only [exec] at hx
    repeat' split at hx
    all_goals cases hx
    exact h.add (.expired c) rfl rfl rfl rfl rfl (fun h1 => by rw [ho] at h1; cases h1)

theorem QInv.init (idleTO connTO cap n d : Nat) : QInv (St.init idleTO connTO cap n d) := by
  refine QInv.mk (fun _ e he => ?_) (fun h => (by cases h)) (fun m h => ?_)
  · simp only [St.init, List.mem_append, List.mem_map, List.mem_cons, List.not_mem_nil, or_false] at he
    rcases he with ⟨c, _, rfl⟩ | rfl <;> rfl
  · cases h; exact ⟨Nat.le_add_right _ _, Nat.le_refl _⟩

theorem Reach.qinv {g : St → Act → Prop} {idleTO connTO cap n d : Nat} {st : St}
    (h : Reach g (St.init idleTO connTO cap n d) st) : QInv st := by
  induction h with
  | init => exact QInv.init ..
  | step a _ _ hx ih => exact ih.step hx

theorem split_unique {p q p' q' : List (Nat × Ev)} {x y : Nat × Ev} (h : p ++ x :: q = p' ++ y :: q')
    (hx : x.2.isClose = true) (hy : y.2.isClose = true) (hp : ∀ z ∈ p, z.2.isClose = false)
    (hq : ∀ z ∈ q, z.2.isClose = false) : p' = p ∧ y = x ∧ q' = q := by
  induction p generalizing p' with
  | nil =>
    cases p' with
    | nil => cases h; exact ⟨rfl, rfl, rfl⟩
    | cons a p' =>
      cases h
      have := hq y (by simp)
      rw [hy] at this; cases this
  | cons b p ih =>
    cases p' with
    | nil =>
      cases h
      have := hp y (by simp)
      rw [hy] at this; cases this
    | cons a p' =>
      simp only [List.cons_append, List.cons.injEq] at h
      obtain ⟨rfl, h⟩ := h
      obtain ⟨rfl, rfl, rfl⟩ := ih h (fun z hz => hp z (List.mem_cons_of_mem _ hz))
      exact ⟨rfl, rfl, rfl⟩

theorem quiet_open {e : Ev} (h : e.quiet = true) : e.isClose = false := by cases e <;> first | rfl | cases h

/-- **C271**. A pool is closed once: after it was closed - by its user or for idleness - it hands out no connection, keeps
none, no idle timer of a connection fires and it is not closed again; it only refuses, and its users end the connections
they hold. -/
theorem C271_closed_is_quiet {idleTO connTO cap n d : Nat} {st : St} (h : Reach Free (St.init idleTO connTO cap n d) st)
    {h1 h2 : List (Nat × Ev)} {t : Nat} {e : Ev} (htr : st.tr = h1 ++ (t, e) :: h2) (he : e.isClose = true) :
    ∀ x ∈ h1, x.2.quiet = true := by
  have hi := h.qinv
  cases ho : st.isOpen
  · obtain ⟨_, p, t', e', q, a1, a2, _, a4, a5, _⟩ := hi.shut ho
    obtain ⟨rfl, _, _⟩ := split_unique (a1.symm.trans htr) a2 he (fun z hz => quiet_open (a4 z hz)) a5
    exact a4
  · have := hi.opn ho (t, e) (by rw [htr]; simp)
    rw [he] at this; cases this

/-- **C271**. … it holds no connection any more, and its checker ends: when the pool has been closed for more than a second,
the ticker has been stopped. -/
theorem C271_checker_ends {idleTO connTO cap n d : Nat} {st : St} (h : Reach Free (St.init idleTO connTO cap n d) st)
    {t : Nat} {e : Ev} (hm : (t, e) ∈ st.tr) (he : e.isClose = true) :
    st.idle = [] ∧ (t + 1000 < st.now → st.nextTick = none) := by
  have hi := h.qinv
  obtain ⟨h1, h2, htr⟩ := List.append_of_mem hm
  cases ho : st.isOpen
  · obtain ⟨b, p, t', e', q, a1, a2, _, a4, a5, a6⟩ := hi.shut ho
    obtain ⟨_, hte, _⟩ := split_unique (a1.symm.trans htr) a2 he (fun z hz => quiet_open (a4 z hz)) a5
    cases hte
    refine ⟨b, fun hl => ?_⟩
    cases hn : st.nextTick with
    | none => rfl
    | some m =>
      have := a6 m hn
      have := hi.tick m hn
      omega
  · have := hi.opn ho (t, e) hm
    rw [he] at this; cases this

/-- **C271**. … and closing it again does nothing at all. -/
theorem C271_close_again {idleTO connTO cap n d : Nat} {st : St} (h : Reach Free (St.init idleTO connTO cap n d) st)
    {t : Nat} {e : Ev} (hm : (t, e) ∈ st.tr) (he : e.isClose = true) : exec st .close = some st := by
  have hi := h.qinv
  cases ho : st.isOpen
  · simp [exec, ho]
  · have := hi.opn ho (t, e) hm
    rw [he] at this; cases this

/-- a pool that was closed with a connection out and one inside: the connection comes back and is refused, a `Get` fails, the
ticker is stopped at the next check -/
example : ∃ st, Reach Free (St.init 1500 90 2 2 0) st ∧
    st.tr = [(500, .getErr), (500, .refused 0), (400, .closed), (0, .got 0), (0, .initial 0), (0, .initial 1), (0, .made)] ∧
    st.now = 1500 ∧ st.nextTick = none ∧ st.idle = [] := by
  have h : (run (St.init 1500 90 2 2 0)
      ([.get true] ++ wait 400 ++ [.close] ++ wait 100 ++ [.put 0, .get true] ++ wait 500 ++ [.check] ++ wait 500)).map
      (fun s => (s.tr, s.now, s.nextTick, s.idle)) =
      some ([(500, .getErr), (500, .refused 0), (400, .closed), (0, .got 0), (0, .initial 0), (0, .initial 1), (0, .made)],
        1500, none, []) := by
    decide +kernel
  obtain ⟨st, h1, h2⟩ := of_map h
  simp only [Prod.mk.injEq] at h2
  exact ⟨st, run_free .init h1, h2⟩

end Verif.Pool.Timed
