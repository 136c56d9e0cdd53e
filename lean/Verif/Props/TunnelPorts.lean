import Verif.Tunnel.PortProvider
/-! # C36 Tunnel ports are exclusive and within range -/
namespace Verif.Tunnel

theorem PP.scan_some {p : PP} : ∀ {n : Nat} {i j : Int}, p.scan n i = some j →
    i ≤ j ∧ j < i + n ∧ p.held j = false ∧ ∀ k, i ≤ k → k < j → p.held k = true := by
  intro n
  induction n with
  | zero => intro i j h; simp [PP.scan] at h
  | succ n ih =>
    intro i j h
    simp only [PP.scan] at h
    split at h
    · rename_i hh
      obtain ⟨a, b, c, d⟩ := ih h
      refine ⟨by omega, by omega, c, ?_⟩
      intro k hk hk2
      by_cases hki : k = i
      · subst hki; exact hh
      · exact d k (by omega) hk2
    · rename_i hh
      injection h with h
      subst h
      refine ⟨by omega, by omega, by simpa using hh, ?_⟩
      intro k h1 h2; omega

theorem PP.scan_none {p : PP} : ∀ {n : Nat} {i : Int}, p.scan n i = none →
    ∀ k, i ≤ k → k < i + n → p.held k = true := by
  intro n
  induction n with
  | zero => intro i _ k h1 h2; omega
  | succ n ih =>
    intro i h k h1 h2
    simp only [PP.scan] at h
    split at h
    · rename_i hh
      by_cases hki : k = i
      · subst hki; exact hh
      · exact ih h k (by omega) (by omega)
    · simp at h

theorem PP.call_range (p : PP) (c : PCall) : (p.call c).1.min = p.min ∧ (p.call c).1.max = p.max := by
  cases c with
  | free =>
    simp only [PP.call, PP.getFreePort]; split <;> exact ⟨rfl, rfl⟩
  | get q =>
    simp only [PP.call, PP.getPort]
    split
    · exact ⟨rfl, rfl⟩
    · split <;> exact ⟨rfl, rfl⟩
  | release q => exact ⟨rfl, rfl⟩

/-- One call: what is observed, and how the held set follows it.  `0 < min`. -/
theorem PP.call_spec (p : PP) (hmin : 0 < p.min) (c : PCall) (q : Int) :
    (p.call c).1.held q = heldAfter [(p.call c).2] q (p.held q) ∧
    (∀ r, (p.call c).2.acquires = some r → p.held r = false ∧ p.min ≤ r ∧ r ≤ p.max) := by
  cases c with
  | free =>
    simp only [PP.call, PP.getFreePort]
    split
    · rename_i i hs
      obtain ⟨a, b, c, _⟩ := PP.scan_some hs
      have hi : i ≠ 0 := by omega
      refine ⟨?_, ?_⟩
      · simp only [PP.take, heldAfter, PEvent.acquires, if_neg hi, Option.some.injEq]
        by_cases h : q = i
        · rw [if_pos h, if_pos h.symm]
        · rw [if_neg h, if_neg (fun e => h e.symm)]
      · intro r hr
        simp only [PEvent.acquires, if_neg hi, Option.some.injEq] at hr
        subst hr
        exact ⟨c, a, by omega⟩
    · refine ⟨by simp [heldAfter, PEvent.acquires], ?_⟩
      intro r hr; simp [PEvent.acquires] at hr
  | get g =>
    simp only [PP.call, PP.getPort]
    split
    · refine ⟨by simp [heldAfter, PEvent.acquires], ?_⟩
      intro r hr; simp [PEvent.acquires] at hr
    · rename_i hr0
      split
      · refine ⟨by simp [heldAfter, PEvent.acquires], ?_⟩
        intro r hr; simp [PEvent.acquires] at hr
      · rename_i hh
        refine ⟨?_, ?_⟩
        · simp only [PP.take, heldAfter, PEvent.acquires, Option.some.injEq]
          by_cases h : q = g
          · rw [if_pos h, if_pos h.symm]
          · rw [if_neg h, if_neg (fun e => h e.symm)]
        · intro r hr
          simp only [PEvent.acquires, Option.some.injEq] at hr
          subst hr
          exact ⟨by simpa using hh, by omega, by omega⟩
  | release g =>
    refine ⟨?_, ?_⟩
    · simp only [PP.call, PP.releasePort, heldAfter]
      by_cases h : q = g
      · rw [if_pos h, if_pos h.symm]
      · rw [if_neg h, if_neg (fun e => h e.symm)]
    · intro r hr; simp [PP.call, PEvent.acquires] at hr

theorem heldAfter_cons (e : PEvent) (h : List PEvent) (q : Int) (b : Bool) :
    heldAfter (e :: h) q b = heldAfter h q (heldAfter [e] q b) := by
  cases e <;> rfl

theorem PP.run_held (cs : List PCall) : ∀ (p : PP), 0 < p.min → ∀ q,
    (p.run cs).1.held q = heldAfter (p.run cs).2 q (p.held q) := by
  induction cs with
  | nil => intro p _ q; rfl
  | cons c cs ih =>
    intro p hp q
    have hr := PP.call_range p c
    show ((p.call c).1.run cs).1.held q = heldAfter ((p.call c).2 :: ((p.call c).1.run cs).2) q (p.held q)
    rw [heldAfter_cons, ih (p.call c).1 (by rw [hr.1]; exact hp) q, (PP.call_spec p hp c q).1]

theorem PP.run_range (cs : List PCall) : ∀ (p : PP),
    (p.run cs).1.min = p.min ∧ (p.run cs).1.max = p.max := by
  induction cs with
  | nil => intro p; exact ⟨rfl, rfl⟩
  | cons c cs ih =>
    intro p
    have h1 := PP.call_range p c
    have h2 := ih (p.call c).1
    exact ⟨h2.1.trans h1.1, h2.2.trans h1.2⟩

theorem PP.run_append (cs ds : List PCall) : ∀ (p : PP),
    (p.run (cs ++ ds)).2 = (p.run cs).2 ++ ((p.run cs).1.run ds).2 := by
  induction cs with
  | nil => intro p; rfl
  | cons c cs ih => intro p; show (p.call c).2 :: ((p.call c).1.run (cs ++ ds)).2 = _; rw [ih]; rfl

/-- The state and observations a provider made with `NewPortProvider(min,max)` reaches. -/
theorem PP.new_some {min max : Int} {p : PP} (h : PP.new min max = some p) :
    min ≤ max ∧ p.min = min ∧ p.max = max ∧ p.held = fun _ => false := by
  simp only [PP.new] at h
  split at h
  · simp at h
  · injection h with h; subst h; exact ⟨by omega, rfl, rfl, rfl⟩

/-- **C36 (exclusive, in range).**  For every provider with a range of positive ports,
every sequence of calls `cs` and every next call `c`: if the next call hands out port `r`,
then `r` is not held according to the history observed so far, and lies in the range. -/
theorem C36_exclusive_in_range (min max : Int) (hmin : 0 < min) (p : PP)
    (hp : PP.new min max = some p) (cs : List PCall) (c : PCall) (r : Int)
    (hr : ((p.run cs).1.call c).2.acquires = some r) :
    heldAfter (p.run cs).2 r false = false ∧ min ≤ r ∧ r ≤ max := by
  obtain ⟨_, h1, h2, h3⟩ := PP.new_some hp
  have hR := PP.run_range cs p
  have hs := (PP.call_spec (p.run cs).1 (by rw [hR.1, h1]; exact hmin) c 0).2 r hr
  have hh := PP.run_held cs p (by rw [h1]; exact hmin) r
  rw [h3] at hh
  rw [hR.1, hR.2, h1, h2] at hs
  exact ⟨by rw [← hh]; exact hs.1, hs.2.1, hs.2.2⟩

/-- **C36 (released ports are available again).** Whatever happened before, a port of the
range that is not held is handed out when it is asked for; in particular one that has just
been released. -/
theorem C36_released_available (min max : Int) (hmin : 0 < min) (p : PP)
    (hp : PP.new min max = some p) (cs : List PCall) (r : Int) (h1 : min ≤ r) (h2 : r ≤ max)
    (hfree : heldAfter (p.run cs).2 r false = false) :
    ((p.run cs).1.call (.get r)).2 = .get r true := by
  obtain ⟨_, e1, e2, e3⟩ := PP.new_some hp
  have hR := PP.run_range cs p
  have hh := PP.run_held cs p (by rw [e1]; exact hmin) r
  rw [e3, hfree] at hh
  simp only [PP.call, PP.getPort, hR.1, hR.2, e1, e2]
  rw [if_neg (by omega), hh]
  rfl

theorem heldAfter_append (h1 h2 : List PEvent) (q : Int) (b : Bool) :
    heldAfter (h1 ++ h2) q b = heldAfter h2 q (heldAfter h1 q b) := by
  induction h1 generalizing b with
  | nil => rfl
  | cons e h1 ih => rw [List.cons_append, heldAfter_cons, ih, heldAfter_cons e h1]

theorem C36_release_then_get (min max : Int) (hmin : 0 < min) (p : PP)
    (hp : PP.new min max = some p) (cs : List PCall) (r : Int) (h1 : min ≤ r) (h2 : r ≤ max) :
    ((p.run (cs ++ [.release r])).1.call (.get r)).2 = .get r true := by
  apply C36_released_available min max hmin p hp _ r h1 h2
  rw [PP.run_append, heldAfter_append]
  simp [PP.run, PP.call, heldAfter]

/-- **C157 (exhaustion), partial.**  `GetFreePort` reports exhaustion only when every port of
`[min, max)` is held.  Missing: the last port `max` of the range, which `GetFreePort` never
hands out although `GetPort` does (`C157_exhaustion_false`). -/
theorem C157_exhaustion_partial (min max : Int) (hmin : 0 < min) (p : PP)
    (hp : PP.new min max = some p) (cs : List PCall)
    (hex : ((p.run cs).1.call .free).2 = .free 0) (r : Int) (h1 : min ≤ r) (h2 : r < max) :
    heldAfter (p.run cs).2 r false = true := by
  obtain ⟨_, e1, e2, e3⟩ := PP.new_some hp
  have hR := PP.run_range cs p
  have hh := PP.run_held cs p (by rw [e1]; exact hmin) r
  rw [e3] at hh
  rw [← hh]
  simp only [PP.call, PP.getFreePort] at hex
  split at hex
  · rename_i i hs
    injection hex with hex
    have := (PP.scan_some hs).1
    rw [hR.1, e1] at this
    have hx : i = 0 := hex
    omega
  · rename_i hs
    exact PP.scan_none hs r (by rw [hR.1, e1]; exact h1) (by rw [hR.1, hR.2, e1, e2]; omega)

/-- `GetFreePort` succeeds whenever a port of `[min,max)` is free, and hands out the
smallest one. -/
theorem C157_free_smallest_partial (min max : Int) (hmin : 0 < min) (p : PP)
    (hp : PP.new min max = some p) (cs : List PCall) (r : Int) (h1 : min ≤ r) (h2 : r < max)
    (hfree : heldAfter (p.run cs).2 r false = false) :
    ∃ i, ((p.run cs).1.call .free).2 = .free i ∧ min ≤ i ∧ i ≤ r ∧
      heldAfter (p.run cs).2 i false = false := by
  obtain ⟨_, e1, e2, e3⟩ := PP.new_some hp
  have hR := PP.run_range cs p
  have hh := fun r => PP.run_held cs p (by rw [e1]; exact hmin) r
  simp only [e3] at hh
  simp only [PP.call, PP.getFreePort]
  split
  · rename_i i hs
    obtain ⟨a, b, c, d⟩ := PP.scan_some hs
    refine ⟨i, rfl, by rw [hR.1, e1] at a; exact a, ?_, by rw [← hh]; exact c⟩
    by_cases hle : i ≤ r
    · exact hle
    · have := d r (by rw [hR.1, e1]; exact h1) (by omega)
      rw [hh, hfree] at this; simp at this
  · rename_i hs
    have := PP.scan_none hs r (by rw [hR.1, e1]; exact h1) (by rw [hR.1, hR.2, e1, e2]; omega)
    rw [hh, hfree] at this; simp at this

/-- **C157 (exhaustion) is false of the code**: a fresh provider for the range `[p,p]` of one
port reports exhaustion at once although the port is free. -/
theorem C157_exhaustion_false (port : Int) : ∃ p, PP.new port port = some p ∧
    ((p.run []).1.call .free).2 = .free 0 ∧ heldAfter (p.run []).2 port false = false ∧
    ((p.run []).1.call (.get port)).2 = .get port true := by
  refine ⟨{ min := port, max := port, held := fun _ => false }, ?_, ?_, rfl, ?_⟩
  · simp [PP.new]
  · simp [PP.run, PP.call, PP.getFreePort, PP.scan]
  · simp [PP.run, PP.call, PP.getPort]

/-- More generally: whatever the history, `GetFreePort` never hands out the last port of
the range. -/
theorem C157_max_never_free (min max : Int) (hmin : 0 < min) (p : PP)
    (hp : PP.new min max = some p) (cs : List PCall) :
    ((p.run cs).1.call .free).2 ≠ .free max := by
  obtain ⟨_, e1, e2, e3⟩ := PP.new_some hp
  have hR := PP.run_range cs p
  simp only [PP.call, PP.getFreePort]
  split
  · rename_i i hs
    have h2 := (PP.scan_some hs)
    rw [hR.1, hR.2, e1, e2] at h2
    intro he; injection he with he
    have hx : i = max := he
    omega
  · intro he; injection he with he
    have hx : (0:Int) = max := he
    omega

/-- Non-vacuity: the default server range, a history with successes, failures and a reuse. -/
example : ∃ p, PP.new 50000 55000 = some p ∧
    (p.run [.free, .free, .get 50001, .get 55000, .release 50000, .free, .get 55001]).2 =
      [.free 50000, .free 50001, .get 50001 false, .get 55000 true, .release 50000,
       .free 50000, .get 55001 false] := by
  exact ⟨_, rfl, by decide +kernel⟩

end Verif.Tunnel
