import Verif.Ads.Picks

/-! # C280, C281: the picks of the load balancer and the connections -/

namespace Verif.Picks

variable {I R T : Type} [DecidableEq I]

/-- The state after any sequence of steps from a fresh observable. -/
def Reach (pick : I → T → R × T) (s : St I R T) : Prop := ∃ t as, run pick { lb := t } as = some s

theorem run_append (pick : I → T → R × T) : ∀ (as bs : List (Act I)) (s : St I R T),
    run pick s (as ++ bs) = (run pick s as).bind fun s' => run pick s' bs := by
  intro as
  induction as with
  | nil => intro bs s; rfl
  | cons a as ih =>
    intro bs s
    simp only [List.cons_append, run]
    cases exec pick s a with
    | none => rfl
    | some s' => exact ih bs s'

theorem Reach.induct {pick : I → T → R × T} {P : St I R T → Prop} (h0 : ∀ t, P { lb := t })
    (hs : ∀ s a s', P s → exec pick s a = some s' → P s') {s : St I R T} (h : Reach pick s) : P s := by
  obtain ⟨t, as, h⟩ := h
  suffices ∀ (as : List (Act I)) (s0 : St I R T), P s0 → run pick s0 as = some s → P s from this as _ (h0 t) h
  intro as
  induction as with
  | nil => intro s0 h0 h; cases h; exact h0
  | cons a as ih =>
    intro s0 h0 h
    simp only [run] at h
    cases he : exec pick s0 a with
    | none => rw [he] at h; cases h
    | some s1 => rw [he] at h; exact ih s1 (hs _ _ _ h0 he) h

/-- What was computed last for an input. -/
def lastFor (i : I) (calls : List (I × R)) : Option R := (calls.find? (fun e => e.1 = i)).map (·.2)

theorem results_computeOne (pick : I → T → R × T) (s : St I R T) (i : I)
    (h : ∀ j, s.results j = lastFor j s.calls) : ∀ j, (computeOne pick s i).results j = lastFor j (computeOne pick s i).calls := by
  intro j
  unfold computeOne lastFor
  simp only [List.find?_cons]
  by_cases hj : j = i
  · subst hj; simp
  · have : ¬ i = j := fun e => hj e.symm
    simp only [hj, if_false, this, decide_false]
    exact h j

theorem fold_keeps (pick : I → T → R × T) (P : St I R T → Prop) (h : ∀ s i, P s → P (computeOne pick s i)) :
    ∀ (order : List I) (s : St I R T), P s → P (order.foldl (computeOne pick) s) := by
  intro order
  induction order with
  | nil => intro s hs; exact hs
  | cons i r ih => intro s hs; exact ih _ (h s i hs)

theorem results_inv {pick : I → T → R × T} {s : St I R T} (h : Reach pick s) : ∀ j, s.results j = lastFor j s.calls := by
  refine Reach.induct (P := fun s => ∀ j, s.results j = lastFor j s.calls) (fun _ _ => rfl) ?_ h
  intro s a s' hs he
  cases a with
  | register c i =>
    simp only [exec, Option.some.injEq] at he
    subst he
    exact results_computeOne pick s i hs
  | read c =>
    simp only [exec] at he
    split at he
    · cases he
    · split at he
      · cases he
      · cases he; exact hs
  | refresh order =>
    simp only [exec] at he
    split at he
    · cases he
      exact fold_keeps pick _ (fun s i h => results_computeOne pick s i h) order s hs
    · cases he

/-- **C280 (partial)** A connection gets what the load balancer picked last for its destination when it
looks: after a registration or a refresh, whichever was later. -/
theorem C280_latest_partial {pick : I → T → R × T} {s s' : St I R T} (h : Reach pick s) {c : Nat}
    (he : exec pick s (.read c) = some s') :
    ∃ i r, (c, i) ∈ s.waiting ∧ s'.got = (c, i, r) :: s.got ∧ lastFor i s.calls = some r := by
  simp only [exec] at he
  cases hf : s.waiting.find? (fun w => decide (w.1 = c)) with
  | none => rw [hf] at he; cases he
  | some w =>
    obtain ⟨c', i⟩ := w
    rw [hf] at he
    have h1 := List.mem_of_find?_eq_some hf
    have h2 : c' = c := by simpa using List.find?_some hf
    subst h2
    simp only at he
    cases hr : s.results i with
    | none => rw [hr] at he; cases he
    | some r =>
      rw [hr] at he
      cases he
      exact ⟨i, r, h1, rfl, by rw [← results_inv h, hr]⟩

/-- **C280 (partial)** A connection that reads its result right after it registered, with no other
connection to the same destination registering and no refresh in between, gets its own pick. -/
theorem C280_own_partial {pick : I → T → R × T} {s : St I R T} (c : Nat) (i : I) :
    ∃ s', run pick s [.register c i, .read c] = some s' ∧ s'.got = (c, i, (pick i s.lb).1) :: s.got ∧
      s'.lb = (pick i s.lb).2 := by
  cases h : run pick s [.register c i, .read c] with
  | none => simp [run, exec, computeOne] at h
  | some s' =>
    refine ⟨s', rfl, ?_⟩
    simp only [run, exec, computeOne, List.find?_cons, decide_true, if_true, Option.some.injEq] at h
    subst h
    exact ⟨rfl, rfl⟩

/-- The connections one after the other: each registers and reads. -/
def oneByOne (i : I) : List Nat → List (Act I)
  | [] => []
  | c :: cs => .register c i :: .read c :: oneByOne i cs

/-- The first picks of a load balancer. -/
def firstPicks (pick : I → T → R × T) (i : I) : Nat → T → List R
  | 0, _ => []
  | n + 1, t => (pick i t).1 :: firstPicks pick i n (pick i t).2

/-- **C280 (partial)** Connections one after the other, with no refresh: they get the picks of the load
balancer in order, one each — so what holds of the shares of its picks holds of the connections. -/
theorem C280_sequence_partial (pick : I → T → R × T) (i : I) : ∀ (cs : List Nat) (s : St I R T),
    ∃ s', run pick s (oneByOne i cs) = some s' ∧
      s'.got.map (·.2.2) = (firstPicks pick i cs.length s.lb).reverse ++ s.got.map (·.2.2) := by
  intro cs
  induction cs with
  | nil => intro s; exact ⟨s, rfl, by simp [firstPicks]⟩
  | cons c cs ih =>
    intro s
    obtain ⟨s1, h1, h2, h3⟩ := C280_own_partial (pick := pick) (s := s) c i
    obtain ⟨s2, h4, h5⟩ := ih s1
    refine ⟨s2, ?_, ?_⟩
    · have : oneByOne i (c :: cs) = [.register c i, .read c] ++ oneByOne i cs := rfl
      rw [this, run_append, h1]
      exact h4
    · rw [h5, h2, h3]
      simp [firstPicks]

/-- Two endpoints in turn. -/
def inTurn : Unit → Bool → Bool × Bool := fun _ t => (t, !t)

/-- Each connection is followed by a refresh (an update of any kind from the control plane). -/
def withRefresh : Nat → List (Act Unit)
  | 0 => []
  | n + 1 => .register n () :: .read n :: .refresh [()] :: withRefresh n

/-- **C280 (fails)** Two endpoints in turn, and an update from the control plane after each connection:
the refresh takes every second pick for nobody, and all connections, however many, get the same
endpoint. -/
theorem C280_wasted_false (n : Nat) : ∃ s, run inTurn ({ lb := true } : St Unit Bool Bool) (withRefresh n) = some s ∧
    s.got.length = n ∧ ∀ g ∈ s.got, g.2.2 = true := by
  suffices ∀ (n : Nat) (s : St Unit Bool Bool), s.lb = true → (s.asked = [] ∨ s.asked = [()]) →
      ∃ s', run inTurn s (withRefresh n) = some s' ∧ s'.got.length = s.got.length + n ∧
        ((∀ g ∈ s.got, g.2.2 = true) → ∀ g ∈ s'.got, g.2.2 = true) by
    obtain ⟨s', h1, h2, h3⟩ := this n { lb := true } rfl (Or.inl rfl)
    exact ⟨s', h1, by simpa using h2, h3 (by simp)⟩
  intro n
  induction n with
  | zero => intro s _ _; exact ⟨s, rfl, rfl, fun h => h⟩
  | succ n ih =>
    intro s hl ha
    have hs : ∃ s1, run inTurn s [.register n (), .read n, .refresh [()]] = some s1 ∧ s1.lb = true ∧ s1.asked = [()] ∧
        s1.got = (n, (), true) :: s.got := by
      have ha' : addKey () s.asked = [()] := by
        rcases ha with ha | ha <;> simp [addKey, ha]
      cases h : run inTurn s [.register n (), .read n, .refresh [()]] with
      | none => simp [run, exec, computeOne, inTurn, ha'] at h
      | some s' =>
        refine ⟨s', rfl, ?_⟩
        simp only [run, exec, computeOne, inTurn, hl, ha', List.find?_cons, decide_true, if_true, List.mem_singleton,
          implies_true, List.foldl_cons, List.foldl_nil, Bool.not_true, Bool.not_false, and_self,
          List.length_singleton, Option.some.injEq] at h
        subst h
        exact ⟨rfl, rfl, rfl⟩
    obtain ⟨s1, h1, h2, h3, h4⟩ := hs
    obtain ⟨s2, h5, h6, h7⟩ := ih s1 h2 (Or.inr h3)
    refine ⟨s2, ?_, ?_, ?_⟩
    · have : withRefresh (n + 1) = [.register n (), .read n, .refresh [()]] ++ withRefresh n := rfl
      rw [this, run_append, h1]
      exact h5
    · rw [h6, h4, List.length_cons]; omega
    · intro hg
      refine h7 ?_
      rw [h4]
      intro g hm
      rcases List.mem_cons.mp hm with rfl | hm
      · rfl
      · exact hg g hm

/-- **C280 (fails)** Two connections at the same time: both read the pick of the second one; the first
endpoint is counted and gets none. -/
theorem C280_shared_false :
    (run inTurn ({ lb := true } : St Unit Bool Bool) [.register 1 (), .register 2 (), .read 1, .read 2]).map
      (fun s => (s.got.map (·.2.2), s.calls.map (·.2))) = some ([false, false], [false, true]) := by decide +kernel

/-- The round robin of the code over two healthy endpoints of equal weight. -/
def twoEps : Bal.Cla := [⟨"r", 0, none, [⟨some "a", .healthy, none⟩, ⟨some "b", .healthy, none⟩]⟩]
/-- `newClientProperties`' choice for it -/
def rr : Unit → Bal.Table → Bal.Pick × Bal.Table :=
  fun _ t => Bal.nextEndpoint .roundRobin twoEps Bal.defaultOpf t (fun _ => 0)

/-- **C280 (fails)** The same with the code's weighted round robin: four connections, each followed by a
refresh, go to one of the two endpoints; without the refreshes they alternate. -/
theorem C280_roundRobin_false :
    (run rr { lb := fun n => if n = "a" ∨ n = "b" then some {} else none } (withRefresh 4)).map
      (fun s => s.got.map (·.2.2)) = some [.addr "a", .addr "a", .addr "a", .addr "a"] ∧
    (run rr { lb := fun n => if n = "a" ∨ n = "b" then some {} else none } (oneByOne () [1, 2, 3, 4])).map
      (fun s => s.got.map (·.2.2)) = some [.addr "b", .addr "a", .addr "b", .addr "a"] := by decide +kernel

/-! ### C281 -/

theorem fold_calls (pick : I → T → R × T) : ∀ (order : List I) (s : St I R T),
    (order.foldl (computeOne pick) s).calls.map (·.1) = order.reverse ++ s.calls.map (·.1) ∧
    (order.foldl (computeOne pick) s).asked = s.asked ∧ (order.foldl (computeOne pick) s).waiting = s.waiting ∧
    (order.foldl (computeOne pick) s).got = s.got := by
  intro order
  induction order with
  | nil => intro s; simp
  | cons i r ih =>
    intro s
    obtain ⟨h1, h2, h3, h4⟩ := ih (computeOne pick s i)
    simp only [List.foldl_cons]
    refine ⟨?_, h2, h3, h4⟩
    rw [h1]
    simp [computeOne]

/-- **C281 (partial)** A refresh computes each destination ever asked for once, and no other. -/
theorem C281_once_partial {pick : I → T → R × T} {s s' : St I R T} {order : List I}
    (he : exec pick s (.refresh order) = some s') :
    s'.calls.map (·.1) = order.reverse ++ s.calls.map (·.1) ∧ order.length = s.asked.length ∧
      (∀ i, i ∈ order ↔ i ∈ s.asked) ∧ s'.asked = s.asked ∧ s'.got = s.got := by
  simp only [exec] at he
  split at he
  · rename_i h
    cases he
    obtain ⟨h1, h2, _, h4⟩ := fold_calls pick order s
    exact ⟨h1, h.2.1, fun i => ⟨h.1 i, h.2.2 i⟩, h2, h4⟩
  · cases he

theorem fold_mem (pick : I → T → R × T) (order : List I) (s : St I R T) (h1 : ∀ i ∈ order, i ∈ s.asked)
    (h : ∀ i, i ∈ s.asked ↔ i ∈ s.calls.map (·.1)) (i : I) :
    i ∈ s.asked ↔ i ∈ (order.foldl (computeOne pick) s).calls.map (·.1) := by
  rw [(fold_calls pick order s).1, List.mem_append, List.mem_reverse, ← h i]
  exact ⟨Or.inr, fun h => h.elim (h1 i) id⟩

/-- **C281 (partial)** The destinations a refresh recomputes are those asked for, each listed once: so
their number is at most that of the different destinations ever asked for. -/
theorem C281_asked_partial {pick : I → T → R × T} {s : St I R T} (h : Reach pick s) :
    s.asked.Nodup ∧ ∀ i, i ∈ s.asked ↔ i ∈ s.calls.map (·.1) := by
  refine Reach.induct (P := fun s => s.asked.Nodup ∧ ∀ i, i ∈ s.asked ↔ i ∈ s.calls.map (·.1))
    (fun _ => ⟨List.nodup_nil, by simp⟩) ?_ h
  rintro s a s' ⟨hn, hm⟩ he
  cases a with
  | register c i =>
    simp only [exec, Option.some.injEq] at he
    subst he
    simp only [computeOne, List.map_cons, List.mem_cons]
    by_cases hi : i ∈ s.asked
    · rw [show addKey i s.asked = s.asked from if_pos hi]
      refine ⟨hn, fun j => ?_⟩
      rw [← hm j]
      exact ⟨Or.inr, fun h => h.elim (fun e => e ▸ hi) id⟩
    · rw [show addKey i s.asked = i :: s.asked from if_neg hi]
      refine ⟨List.nodup_cons.mpr ⟨hi, hn⟩, fun j => ?_⟩
      rw [List.mem_cons, hm j]
  | read c =>
    simp only [exec] at he
    split at he
    · cases he
    · split at he
      · cases he
      · cases he; exact ⟨hn, hm⟩
  | refresh order =>
    simp only [exec] at he
    split at he
    · rename_i hc
      cases he
      rw [(fold_calls pick order s).2.1]
      exact ⟨hn, fold_mem pick order s hc.1 hm⟩
    · cases he

/-- **C281 (fails)** A destination once asked for is recomputed by every refresh for ever: no step
removes it, … -/
theorem C281_forever_false {pick : I → T → R × T} {s s' : St I R T} {as : List (Act I)}
    (h : run pick s as = some s') (i : I) (hi : i ∈ s.asked) : i ∈ s'.asked := by
  induction as generalizing s with
  | nil => cases h; exact hi
  | cons a as ih =>
    simp only [run] at h
    cases he : exec pick s a with
    | none => rw [he] at h; cases h
    | some s1 =>
      rw [he] at h
      refine ih h ?_
      cases a with
      | register c j =>
        simp only [exec, Option.some.injEq] at he
        subst he
        simp only [computeOne, addKey]
        by_cases hj : j ∈ s.asked
        · simpa [hj] using hi
        · simp [hj, hi]
      | read c =>
        simp only [exec] at he
        split at he
        · cases he
        · split at he
          · cases he
          · cases he; exact hi
      | refresh order =>
        simp only [exec] at he
        split at he
        · cases he
          rw [(fold_calls pick order s).2.1]; exact hi
        · cases he

/-- One connection to each of the destinations `0, …, n-1`. -/
def toEach : Nat → List (Act Nat)
  | 0 => []
  | n + 1 => toEach n ++ [.register n n, .read n]

/-- **C281 (fails)** … so after one connection to each of `n` destinations, all of them served, every
refresh makes `n` picks that nobody waits for. -/
theorem C281_unbounded_false (pick : Nat → T → R × T) (t : T) (n : Nat) :
    ∃ s, run pick { lb := t } (toEach n) = some s ∧ s.waiting = [] ∧ s.got.length = n ∧
      ∃ order s', exec pick s (.refresh order) = some s' ∧ s'.calls.length = s.calls.length + n := by
  suffices ∃ s, run pick { lb := t } (toEach n) = some s ∧ s.waiting = [] ∧ s.got.length = n ∧ s.asked.length = n ∧
      ∀ i ∈ s.asked, i < n by
    obtain ⟨s, h1, h2, h3, h4, _⟩ := this
    have he : ∃ s', exec pick s (.refresh s.asked) = some s' := by
      simp only [exec]
      rw [if_pos ⟨fun _ h => h, trivial, fun _ h => h⟩]
      exact ⟨_, rfl⟩
    obtain ⟨s', he⟩ := he
    refine ⟨s, h1, h2, h3, s.asked, s', he, ?_⟩
    have := congrArg List.length (C281_once_partial he).1
    simp only [List.length_map, List.length_append, List.length_reverse, h4] at this
    omega
  induction n with
  | zero => exact ⟨{ lb := t }, rfl, rfl, rfl, rfl, fun i hi => nomatch hi⟩
  | succ n ih =>
    obtain ⟨s, h1, h2, h3, h4, h5⟩ := ih
    have hn : n ∉ s.asked := fun h => Nat.lt_irrefl _ (h5 n h)
    simp only [toEach, run_append, h1, Option.bind_some]
    cases h : run pick s [.register n n, .read n] with
    | none => simp [run, exec, computeOne] at h
    | some s' =>
      refine ⟨s', rfl, ?_⟩
      simp only [run, exec, computeOne, List.find?_cons, decide_true, if_true, Option.some.injEq, addKey, hn, if_false, h2] at h
      subst h
      refine ⟨by simp, by simp [h3], by simp [h4], ?_⟩
      intro i hi
      rcases List.mem_cons.mp hi with rfl | hi
      · omega
      · exact Nat.lt_succ_of_lt (h5 i hi)

end Verif.Picks
