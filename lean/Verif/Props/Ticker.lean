import Verif.Wasm.Ticker
/-
Property theorems C124 (ticks and calls exclude each other), C125 (ticks end, stopping does not hang).
-/
namespace Verif.Props.Ticker
open Verif.Wasm.Ticker

theorem set_get {l : List T} {i j : Nat} {t : T} : (l.set i t)[j]? = if i = j then (if i < l.length then some t else none) else l[j]? := by
  rw [List.getElem?_set]

/-- a ticker executes exactly if it holds the lock -/
def Inv (s : St) : Prop := ∀ i, s.ts[i]? = some .ticking ↔ s.lock = some (some i)

theorem inv_exec {s s' : St} {a : Act} (h : Inv s) (he : exec s a = some s') : Inv s' := by
  unfold exec at he
  by_cases hc : s.crashed
  · rw [if_pos hc] at he; cases he
  rw [if_neg hc] at he
  cases a <;> simp only at he
  case enter =>
    split at he
    · rename_i hl
      injection he with he; subst he
      intro i
      have := h i
      rw [hl] at this
      simp only [this]
      simp
    · cases he
  case leave =>
    split at he
    · rename_i hl
      injection he with he; subst he
      intro i
      have := h i
      rw [hl.1] at this
      simp only [this]
      simp
    · cases he
  case setTick p =>
    split at he
    · split at he
      · injection he with he; subst he
        intro i
        rw [← h i]
        show (s.ts ++ [T.starting])[i]? = _ ↔ _
        rw [List.getElem?_append]
        split
        · rfl
        · rename_i hi
          rw [List.getElem?_eq_none (l := s.ts) (by omega)]
          constructor
          · intro hh
            cases hx : i - s.ts.length with
            | zero => rw [hx] at hh; simp at hh
            | succ n => rw [hx] at hh; simp at hh
          · intro hh; cases hh
      · injection he with he; subst he; exact h
    · cases he
  case done =>
    split at he
    · split at he <;> (injection he with he; subst he; exact h)
    · cases he
  case start j =>
    split at he
    · rename_i hj
      injection he with he; subst he
      intro i
      show (s.ts.set j .waiting)[i]? = _ ↔ _
      rw [← h i, set_get]
      split
      · rename_i hij; subst hij
        rw [hj]; split <;> simp
      · rfl
    · cases he
  case fire j =>
    split at he
    · rename_i hj
      injection he with he; subst he
      intro i
      show (s.ts.set j .wants)[i]? = _ ↔ _
      rw [← h i, set_get]
      split
      · rename_i hij; subst hij
        rw [hj]; split <;> simp
      · rfl
    · cases he
  case take j =>
    split at he
    · rename_i hj
      injection he with he; subst he
      intro i
      show (s.ts.set j .ticking)[i]? = _ ↔ some (some j) = some (some i)
      rw [set_get]
      have hlen : j < s.ts.length := by
        have := hj.1
        rw [List.getElem?_eq_some_iff] at this
        exact this.1
      split
      · rename_i hij; subst hij; simp
      · rename_i hij
        have := h i
        rw [hj.2] at this
        simp only [this]
        simp [hij]
    · cases he
  case give j =>
    split at he
    · rename_i hj
      injection he with he; subst he
      intro i
      show (s.ts.set j .waiting)[i]? = _ ↔ none = some (some i)
      rw [set_get]
      split
      · split <;> simp
      · rename_i hij
        have := h i
        rw [hj.2.1] at this
        simp only [this]
        simp [hij]
    · cases he
  case recv j =>
    split at he
    · rename_i hj
      injection he with he; subst he
      intro i
      show (s.ts.set j .stopped)[i]? = _ ↔ _
      rw [← h i, set_get]
      split
      · rename_i hij; subst hij
        rw [hj.1]; split <;> simp
      · rfl
    · cases he

theorem inv_reach {g : St → Act → Prop} {s s' : St} (h : Inv s) (hr : Reach g s s') : Inv s' := by
  induction hr with
  | refl => exact h
  | step _ _ he ih => exact inv_exec ih he

theorem inv_init : Inv {} := by intro i; simp

/-- **C124** At every moment at most one tick runs, and while one runs the program executes no call in the instance; and a tick begins
only when no call is running. -/
theorem C124_exclusive (s : St) (h : Reach Any {} s) :
    (∀ i j : Nat, s.ts[i]? = some T.ticking → s.ts[j]? = some T.ticking → i = j) ∧
    (∀ i : Nat, s.ts[i]? = some T.ticking → s.lock ≠ some none) ∧
    (∀ s' i, exec s (.take i) = some s' → s.lock = none ∧ ∀ j : Nat, s.ts[j]? ≠ some T.ticking) := by
  have hi := inv_reach inv_init h
  refine ⟨?_, ?_, ?_⟩
  · intro i j h1 h2
    have h1 := (hi i).mp h1
    rw [(hi j).mp h2] at h1
    injection h1 with h1; injection h1 with h1; exact h1.symm
  · intro i h1 h2
    rw [(hi i).mp h1] at h2; cases h2
  · intro s' i he
    unfold exec at he
    by_cases hc : s.crashed
    · rw [if_pos hc] at he; cases he
    rw [if_neg hc] at he
    simp only at he
    split at he
    · rename_i hl
      refine ⟨hl.2, fun j hj => ?_⟩
      have := (hi j).mp hj
      rw [hl.2] at this; cases this
    · cases he

/-- **C124** A tick that has got its turn can always end, and other calls can then go on. -/
theorem C124_ends (s : St) (h : Reach Any {} s) (i : Nat) (ht : s.ts[i]? = some .ticking) (hs : s.sending = none) (hc : s.crashed = false) :
    ∃ s', exec s (.give i) = some s' ∧ ∃ s'', exec s' .enter = some s'' := by
  have hi := inv_reach inv_init h
  refine ⟨{ s with ts := s.ts.set i .waiting, lock := none }, ?_, { s with ts := s.ts.set i .waiting, lock := some none }, ?_⟩
  · unfold exec
    simp only [hc]
    rw [if_neg (by simp), if_pos ⟨ht, (hi i).mp ht, hs⟩]
  · unfold exec
    simp only [hc]
    rw [if_neg (by simp), if_pos trivial]

/-! ### C125 -/

/-- no further ticker is started in the run -/
def NoSet : St → Act → Prop := fun _ a => ∀ p, a ≠ .setTick p

/-- once stopped, for ever -/
theorem stopped_exec {s s' : St} {a : Act} {i : Nat} (h : s.ts[i]? = some .stopped) (he : exec s a = some s') :
    s'.ts[i]? = some .stopped ∧ (s'.log.filter (fun e => e = .inl i)) = s.log.filter (fun e => e = .inl i) := by
  have hlen : i < s.ts.length := by rw [List.getElem?_eq_some_iff] at h; exact h.1
  unfold exec at he
  by_cases hc : s.crashed
  · rw [if_pos hc] at he; cases he
  rw [if_neg hc] at he
  have S : ∀ (j : Nat) (t : T), s.ts[j]? ≠ some .stopped → (s.ts.set j t)[i]? = some .stopped := by
    intro j t hj
    rw [set_get, if_neg (by rintro rfl; exact hj h), h]
  cases a <;> simp only at he
  case enter => split at he; (injection he with he; subst he; exact ⟨h, rfl⟩); cases he
  case leave => split at he; (injection he with he; subst he; exact ⟨h, rfl⟩); cases he
  case setTick p =>
    split at he
    · split at he
      · injection he with he; subst he
        refine ⟨?_, rfl⟩
        show (s.ts ++ [T.starting])[i]? = _
        rw [List.getElem?_append_left hlen, h]
      · injection he with he; subst he; exact ⟨h, rfl⟩
    · cases he
  case done =>
    split at he
    · split at he
      · injection he with he; subst he; exact ⟨h, rfl⟩
      · injection he with he; subst he
        refine ⟨h, ?_⟩
        simp
    · cases he
  case start j =>
    split at he
    · rename_i hj; injection he with he; subst he
      exact ⟨S j _ (by rw [hj]; simp), rfl⟩
    · cases he
  case fire j =>
    split at he
    · rename_i hj; injection he with he; subst he
      exact ⟨S j _ (by rw [hj]; simp), rfl⟩
    · cases he
  case take j =>
    split at he
    · rename_i hj; injection he with he; subst he
      refine ⟨S j _ (by rw [hj.1]; simp), ?_⟩
      have : j ≠ i := by rintro rfl; rw [h] at hj; cases hj.1
      show List.filter _ (Sum.inl j :: s.log) = _
      rw [List.filter_cons_of_neg]
      simpa using this
    · cases he
  case give j =>
    split at he
    · rename_i hj; injection he with he; subst he
      exact ⟨S j _ (by rw [hj.1]; simp), rfl⟩
    · cases he
  case recv j =>
    split at he
    · rename_i hj; injection he with he; subst he
      refine ⟨S j _ (by rw [hj.1]; simp), ?_⟩
      show List.filter _ (Sum.inr (some j) :: s.log) = _
      simp
    · cases he

/-- what `Done` has stopped is stopped -/
theorem done_inv {s : St} (h : Reach Any {} s) : ∀ i, Sum.inr (some i) ∈ s.log → s.ts[i]? = some .stopped := by
  induction h with
  | refl => intro i hi; cases hi
  | @step s1 s2 a hr _ he ih =>
    intro i hi
    by_cases hold : Sum.inr (some i) ∈ s1.log
    · exact (stopped_exec (ih i hold) he).1
    · unfold exec at he
      by_cases hc : s1.crashed
      · rw [if_pos hc] at he; cases he
      rw [if_neg hc] at he
      cases a <;> simp only at he
      case recv j =>
        split at he
        · rename_i hj; injection he with he; subst he
          rcases List.mem_cons.mp hi with h1 | h1
          · injection h1 with h1; injection h1 with h1; subst h1
            show (s1.ts.set i .stopped)[i]? = _
            rw [set_get, if_pos rfl, if_pos]
            have := hj.1
            rw [List.getElem?_eq_some_iff] at this
            exact this.1
          · exact absurd h1 hold
        · cases he
      all_goals
        (repeat' split at he)
        all_goals first
          | (cases he; done)
          | (injection he with he; subst he; first | exact absurd hi hold | (rcases List.mem_cons.mp hi with h1 | h1; (cases h1); exact absurd h1 hold))

/-- **C125** When `Done` has returned, having found a ticker, this ticker never ticks again. -/
theorem C125_stops (s s' : St) (i : Nat) (h : Reach Any {} s) (hd : Sum.inr (some i) ∈ s.log) (hr : Reach Any s s') :
    s'.log.filter (fun e => e = .inl i) = s.log.filter (fun e => e = .inl i) := by
  have h0 := done_inv h i hd
  clear h hd
  suffices hh : s'.ts[i]? = some .stopped ∧ s'.log.filter (fun e => e = .inl i) = s.log.filter (fun e => e = .inl i) from hh.2
  induction hr with
  | refl => exact ⟨h0, rfl⟩
  | step _ _ he ih =>
    obtain ⟨h1, h2⟩ := ih
    obtain ⟨h3, h4⟩ := stopped_exec h1 he
    exact ⟨h3, h4.trans h2⟩

/-- **C210** (partial) `Done` ends at once if the ticker found is between two ticks. -/
theorem C210_returns_partial (s : St) (i : Nat) (hb : s.busy) (hc : s.crashed = false) (hch : s.chan = some i) (ht : s.ts[i]? = some .waiting) :
    ∃ s1 s2, exec s .done = some s1 ∧ exec s1 (.recv i) = some s2 ∧ s2.sending = none ∧ Sum.inr (some i) ∈ s2.log ∧ s2.lock = s.lock := by
  refine ⟨{ s with sending := some i }, { s with ts := s.ts.set i .stopped, sending := none, log := .inr (some i) :: s.log }, ?_, ?_, rfl,
    List.mem_cons_self, rfl⟩
  · unfold exec
    rw [if_neg (by simp [hc]), ]
    simp only [if_pos hb, hch]
  · unfold exec
    simp only [hc]
    rw [if_neg (by simp), if_pos ⟨ht, trivial⟩]

/-- a call is stuck: it sends to a ticker that waits for the lock the call holds, or that is the caller itself, or that has ended -/
def Stuck (s : St) : Prop :=
  s.lock.isSome ∧ ∃ i, s.sending = some i ∧ (s.ts[i]? = some .wants ∨ s.ts[i]? = some .ticking ∨ s.ts[i]? = some .stopped)

theorem stuck_exec {s s' : St} {a : Act} (h : Stuck s) (he : exec s a = some s') : Stuck s' := by
  obtain ⟨hl, i, hs, ht⟩ := h
  have hlen : i < s.ts.length := by
    rcases ht with h | h | h <;> (rw [List.getElem?_eq_some_iff] at h; exact h.1)
  have hb : ¬ s.busy := by intro hb; have h2 := hb.2; rw [hs] at h2; cases h2
  have hln : s.lock ≠ none := by intro hh; rw [hh] at hl; cases hl
  unfold exec at he
  by_cases hc : s.crashed
  · rw [if_pos hc] at he; cases he
  rw [if_neg hc] at he
  have S : ∀ (j : Nat) (t : T), s.ts[j]? = some .waiting ∨ s.ts[j]? = some .starting → (s.ts.set j t)[i]? = s.ts[i]? := by
    intro j t hj
    rw [set_get, if_neg]
    rintro rfl
    rcases hj with h | h <;> (rw [h] at ht; simp at ht)
  cases a <;> simp only at he
  case enter => rw [if_neg hln] at he; cases he
  case leave => rw [if_neg (by rw [hs]; simp)] at he; cases he
  case setTick p => rw [if_neg hb] at he; cases he
  case done => rw [if_neg hb] at he; cases he
  case start j =>
    split at he
    · rename_i hj; injection he with he; subst he
      refine ⟨hl, i, hs, ?_⟩
      show (s.ts.set j .waiting)[i]? = _ ∨ (s.ts.set j .waiting)[i]? = _ ∨ (s.ts.set j .waiting)[i]? = _
      rw [S j _ (.inr hj)]; exact ht
    · cases he
  case fire j =>
    split at he
    · rename_i hj; injection he with he; subst he
      refine ⟨hl, i, hs, ?_⟩
      show (s.ts.set j .wants)[i]? = _ ∨ (s.ts.set j .wants)[i]? = _ ∨ (s.ts.set j .wants)[i]? = _
      rw [S j _ (.inl hj)]; exact ht
    · cases he
  case take j => rw [if_neg (fun hh => hln hh.2)] at he; cases he
  case give j => rw [if_neg (by rw [hs]; simp)] at he; cases he
  case recv j =>
    rw [if_neg] at he
    · cases he
    · rw [hs]
      rintro ⟨h1, h2⟩
      injection h2 with h2; subst h2
      rw [h1] at ht; simp at ht

theorem stuck_for_ever {s s' : St} (h : Stuck s) (hr : Reach Any s s') : Stuck s' := by
  induction hr with
  | refl => exact h
  | step _ _ he ih => exact stuck_exec ih he

/-- a run given by its actions -/
def run (s : St) : List Act → Option St
  | [] => some s
  | a :: l => (exec s a).bind fun s => run s l

theorem reach_run {s s' : St} (l : List Act) (h : run s l = some s') : Reach Any s s' := by
  suffices ∀ (l : List Act) (s0 s : St), Reach Any s0 s → run s l = some s' → Reach Any s0 s' from this l s s .refl h
  intro l
  induction l with
  | nil => intro s0 s hr h; injection h with h; subst h; exact hr
  | cons a l ih =>
    intro s0 s hr h
    rw [run] at h
    cases he : exec s a with
    | none => rw [he] at h; cases h
    | some s1 => rw [he] at h; exact ih s0 s1 (.step hr trivial he) h

/-- **C210** fails: if the timer fires while the program stops the instance, stopping never ends, and neither does any later call into the
instance. -/
theorem C210_deadlock_false : ∃ s, Reach Any {} s ∧ s.ts = [.wants] ∧ s.lock = some none ∧
    ∀ s', Reach Any s s' → s'.lock.isSome ∧ exec s' .enter = none ∧ exec s' .leave = none ∧ exec s' (.take 0) = none := by
  refine ⟨_, reach_run (s' := ⟨some none, some 0, [.wants], some 0, false, []⟩)
    [.enter, .setTick 5, .leave, .start 0, .enter, .fire 0, .done] rfl, rfl, rfl, ?_⟩
  intro s' hr
  have hst : Stuck s' := stuck_for_ever ⟨rfl, 0, rfl, .inl rfl⟩ hr
  obtain ⟨hl, i, hs, -⟩ := hst
  have hln : s'.lock ≠ none := by intro hh; rw [hh] at hl; cases hl
  refine ⟨hl, ?_, ?_, ?_⟩
  · unfold exec; split
    · rfl
    · simp only [if_neg hln]
  · unfold exec; split
    · rfl
    · exact if_neg (by rw [hs]; simp)
  · unfold exec; split
    · rfl
    · exact if_neg (fun hh => hln hh.2)

/-- **C210** fails: a filter that asks to be ended in a tick, and one that is ended twice, hang as well. -/
theorem C210_self_false : (∃ s, run {} [.enter, .setTick 5, .leave, .start 0, .fire 0, .take 0, .done] = some s ∧ Stuck s) ∧
    ∃ s, run {} [.enter, .setTick 5, .leave, .start 0, .enter, .done, .recv 0, .done] = some s ∧ Stuck s :=
  ⟨⟨⟨some (some 0), some 0, [.ticking], some 0, false, [.inl 0]⟩, rfl, rfl, 0, rfl, .inr (.inl rfl)⟩,
    ⟨⟨some none, some 0, [.stopped], some 0, false, [.inr (some 0)]⟩, rfl, rfl, 0, rfl, .inr (.inr rfl)⟩⟩

/-- the first of two tickers goes on -/
def Forgotten (s : St) : Prop := s.ts[0]?.isSome ∧ s.ts[0]? ≠ some .stopped ∧ s.ts[0]? ≠ some .starting ∧ s.chan ≠ some 0 ∧ s.sending ≠ some 0

theorem forgotten_exec {s s' : St} {a : Act} (h : Forgotten s) (he : exec s a = some s') : Forgotten s' := by
  obtain ⟨h0, h1, h2, h3, h4⟩ := h
  have hlen : 0 < s.ts.length := by
    cases hts : s.ts with
    | nil => rw [hts] at h0; cases h0
    | cons => simp
  unfold exec at he
  by_cases hc : s.crashed
  · rw [if_pos hc] at he; cases he
  rw [if_neg hc] at he
  have S : ∀ (j : Nat) (t : T), t ≠ .stopped → t ≠ .starting →
      (s.ts.set j t)[0]?.isSome ∧ (s.ts.set j t)[0]? ≠ some .stopped ∧ (s.ts.set j t)[0]? ≠ some .starting := by
    intro j t ht ht'
    rw [set_get]
    split
    · rw [if_pos (by omega)]; simp [ht, ht']
    · exact ⟨h0, h1, h2⟩
  cases a <;> simp only at he
  case enter => split at he; (injection he with he; subst he; exact ⟨h0, h1, h2, h3, h4⟩); cases he
  case leave => split at he; (injection he with he; subst he; exact ⟨h0, h1, h2, h3, h4⟩); cases he
  case setTick p =>
    split at he
    · split at he
      · injection he with he; subst he
        refine ⟨?_, ?_, ?_, h3, h4⟩ <;> (show _; simp only [List.getElem?_append_left hlen]) <;> assumption
      · injection he with he; subst he; exact ⟨h0, h1, h2, h3, h4⟩
    · cases he
  case done =>
    split at he
    · split at he
      · rename_i c hch
        injection he with he; subst he
        exact ⟨h0, h1, h2, h3, by rw [hch] at h3; exact h3⟩
      · injection he with he; subst he; exact ⟨h0, h1, h2, h3, h4⟩
    · cases he
  case start j =>
    split at he
    · rename_i hj; injection he with he; subst he
      obtain ⟨a, b, c⟩ := S j .waiting (by simp) (by simp)
      refine ⟨a, b, c, ?_, h4⟩
      rintro hh
      injection hh with hh
      subst hh
      exact h2 hj
    · cases he
  case fire j =>
    split at he
    · injection he with he; subst he
      obtain ⟨a, b, c⟩ := S j .wants (by simp) (by simp)
      exact ⟨a, b, c, h3, h4⟩
    · cases he
  case take j =>
    split at he
    · injection he with he; subst he
      obtain ⟨a, b, c⟩ := S j .ticking (by simp) (by simp)
      exact ⟨a, b, c, h3, h4⟩
    · cases he
  case give j =>
    split at he
    · injection he with he; subst he
      obtain ⟨a, b, c⟩ := S j .waiting (by simp) (by simp)
      exact ⟨a, b, c, h3, h4⟩
    · cases he
  case recv j =>
    split at he
    · rename_i hj; injection he with he; subst he
      have hj0 : j ≠ 0 := by rintro rfl; exact h4 hj.2
      refine ⟨?_, ?_, ?_, h3, by simp⟩ <;>
        (show _; simp only [set_get, if_neg hj0]) <;> assumption
    · cases he

/-- **C210** fails: setting the period again starts a second ticker, and the first can never be stopped any more. -/
theorem C210_twice_false : ∃ s, Reach Any {} s ∧ s.ts = [.waiting, .waiting] ∧ ∀ s', Reach Any s s' → s'.ts[0]?.isSome ∧ s'.ts[0]? ≠ some .stopped := by
  refine ⟨_, reach_run (s' := ⟨none, none, [.waiting, .waiting], some 1, false, []⟩)
    [.enter, .setTick 5, .leave, .start 0, .enter, .setTick 7, .leave, .start 1] rfl, rfl, ?_⟩
  intro s' hr
  have : Forgotten s' := by
    induction hr with
    | refl => exact ⟨rfl, by simp, by simp, by simp, by simp⟩
    | step _ _ he ih => exact forgotten_exec ih he
  exact ⟨this.1, this.2.1⟩

/-- **C210** fails: a period of zero, with which a filter asks for no more ticks, crashes the program; and an instance stopped before its
ticker has registered is ticked for ever. -/
theorem C210_zero_false : (run {} [.enter, .setTick 0]).map (·.crashed) = some true ∧
    run {} [.enter, .setTick 5, .done, .leave, .start 0, .fire 0, .take 0] = some ⟨some (some 0), none, [.ticking], some 0, false, [.inl 0, .inr none]⟩ :=
  ⟨rfl, rfl⟩

/-- a run in which everything is well: two ticks, and the end -/
example : run {} [.enter, .setTick 5, .leave, .start 0, .fire 0, .take 0, .give 0, .fire 0, .take 0, .give 0, .enter, .done, .recv 0, .leave] =
    some ⟨none, none, [.stopped], some 0, false, [.inr (some 0), .inl 0, .inl 0]⟩ := rfl

end Verif.Props.Ticker
