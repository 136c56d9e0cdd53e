import Verif.Heimdall.Cert
/-
C99, C100: the certificates of the webhook server.
-/
namespace Verif.Props
open Verif Verif.Heimdall Verif.Heimdall.Cert

/-! ### C99 -/

/-- what the webhook server and its clients need at time `t`: certificate, key and CA belong together, cover the names and are valid
now and for six more months -/
def Serves (cal : Calendar) (d : Dir) (names : List Str) (t : Nat) : Prop :=
  ∃ g, d .caCrt = .of g ∧ d .tlsCrt = .of g ∧ d .tlsKey = .of g ∧ (∀ n ∈ names, n ∈ g.names) ∧
    g.notBefore ≤ t ∧ cal.plus6 t ≤ g.notAfter

structure CInv (s : St) : Prop where
  fresh : ∀ g ∈ s.hist, g.id < s.next
  past : ∀ g ∈ s.hist, g.notBefore ≤ s.now
  uniq : ∀ g ∈ s.hist, ∀ g' ∈ s.hist, g.id = g'.id → g = g'
  known : ∀ f g, s.dir f = .of g → g ∈ s.hist

theorem set_known {d : Dir} {f : Name} {c : File} {P : Gen → Prop} (hd : ∀ f g, d f = .of g → P g) (hc : ∀ g, c = .of g → P g) :
    ∀ f' g, d.set f c f' = .of g → P g := by
  intro f' g h
  unfold Dir.set at h
  split at h
  · exact hc g h
  · exact hd f' g h

theorem apply_known {P : Gen → Prop} (l : List (Name × File)) (d : Dir) (hd : ∀ f g, d f = .of g → P g)
    (hl : ∀ x ∈ l, ∀ g, x.2 = .of g → P g) : ∀ f g, apply d l f = .of g → P g := by
  induction l generalizing d with
  | nil => exact hd
  | cons x l ih => exact ih _ (set_known hd (hl x (by simp))) (fun y hy => hl y (by simp [hy]))

theorem cinv_reach {cal : Calendar} {s : St} (h : Reach cal s) : CInv s := by
  induction h with
  | init => exact ⟨by simp, by simp, by simp, by intro f g h; cases h⟩
  | step _ he ih =>
    rename_i s s' a _
    cases a with
    | check names order n =>
      simp only [exec, check] at he
      injection he with he
      by_cases ha : accepted cal s.dir names s.now = true
      · rw [if_pos ha] at he; subst he; exact ih
      · rw [if_neg ha] at he; subst he
        refine ⟨?_, ?_, ?_, ?_⟩
        · intro g hg
          rcases List.mem_cons.mp hg with rfl | hg
          · exact Nat.lt_succ_self _
          · exact Nat.lt_succ_of_lt (ih.fresh g hg)
        · intro g hg
          rcases List.mem_cons.mp hg with rfl | hg
          · exact Nat.le_refl _
          · exact ih.past g hg
        · intro g hg g' hg' hid
          rcases List.mem_cons.mp hg with rfl | hg <;> rcases List.mem_cons.mp hg' with rfl | hg'
          · rfl
          · exact absurd (ih.fresh g' hg') (by simp only at hid; omega)
          · exact absurd (ih.fresh g hg) (by simp only at hid; omega)
          · exact ih.uniq g hg g' hg' hid
        · refine apply_known _ _ (fun f g h => List.mem_cons_of_mem _ (ih.known f g h)) ?_
          intro x hx g hxg
          have := List.mem_of_mem_take hx
          simp only [micro, List.mem_flatMap, List.mem_cons, List.not_mem_nil, or_false] at this
          obtain ⟨f, _, rfl | rfl⟩ := this
          · cases hxg
          · injection hxg with hxg; subst hxg; simp
    | touch f c =>
      cases c with
      | absent =>
        simp only [exec] at he; injection he with he; subst he
        exact ⟨ih.fresh, ih.past, ih.uniq, set_known ih.known (by intro g h; cases h)⟩
      | junk =>
        simp only [exec] at he; injection he with he; subst he
        exact ⟨ih.fresh, ih.past, ih.uniq, set_known ih.known (by intro g h; cases h)⟩
      | of g =>
        simp only [exec] at he
        by_cases hm : g ∈ s.hist
        · rw [if_pos hm] at he; injection he with he; subst he
          exact ⟨ih.fresh, ih.past, ih.uniq, set_known ih.known (by intro g' h; injection h with h; exact h ▸ hm)⟩
        · rw [if_neg hm] at he; cases he
    | pass d =>
      simp only [exec] at he; injection he with he; subst he
      exact ⟨ih.fresh, fun g hg => Nat.le_trans (ih.past g hg) (Nat.le_add_right _ _), ih.uniq, ih.known⟩

theorem verify_parts {d : Dir} {n : Option Str} {t : Nat} (h : verify d n t = true) : ∃ a b k, d .caCrt = .of a ∧ d .tlsCrt = .of b ∧
    d .tlsKey = .of k ∧ b.id = k.id ∧ a.id = b.id ∧ t ≤ b.notAfter ∧ ∀ x, n = some x → x ∈ b.names := by
  unfold verify at h
  cases h1 : d .tlsCrt <;> cases h2 : d .tlsKey <;> cases h3 : d .caCrt <;> rw [h1, h2, h3] at h <;>
    first | (simp only at h; cases h; done) | skip
  simp only [Bool.and_eq_true, decide_eq_true_eq] at h
  refine ⟨_, _, _, rfl, rfl, rfl, h.1.1.1.1.1.1, h.1.1.1.1.1.2, h.1.1.1.2, ?_⟩
  intro x hx; subst hx; simpa using h.2

/-- **C99** A directory that is accepted serves: no mixture of generations, whatever happened before, is ever accepted. -/
theorem C99_accepted (cal : Calendar) (s : St) (hr : Reach cal s) (names : List Str) (h : accepted cal s.dir names s.now = true) :
    Serves cal s.dir names s.now := by
  have hI := cinv_reach hr
  unfold accepted at h
  rw [Bool.and_eq_true, List.all_eq_true] at h
  have hone : ∃ n, n ∈ (if names.length = 0 then [none] else names.map some) := by
    cases names with
    | nil => exact ⟨none, by simp⟩
    | cons x l => exact ⟨some x, by simp⟩
  obtain ⟨n0, hn0⟩ := hone
  obtain ⟨a, b, k, ha, hb, hk, h1, h2, h3, _⟩ := verify_parts (h.2 n0 hn0)
  have e1 := hI.uniq _ (hI.known _ _ ha) _ (hI.known _ _ hb) h2
  have e2 := hI.uniq _ (hI.known _ _ hb) _ (hI.known _ _ hk) h1
  subst e1 e2
  refine ⟨a, ha, hb, hk, ?_, hI.past _ (hI.known _ _ ha), h3⟩
  intro n hn
  have hm : some n ∈ (if names.length = 0 then [none] else names.map some) := by
    rw [if_neg (by have := List.length_pos_of_mem hn; omega)]
    exact List.mem_map.mpr ⟨n, hn, rfl⟩
  obtain ⟨a', b', k', _, hb', _, _, _, _, hx⟩ := verify_parts (h.2 _ hm)
  rw [hb] at hb'; injection hb' with hb'; subst hb'
  exact hx n rfl

theorem apply_append (d : Dir) (l l' : List (Name × File)) : apply d (l ++ l') = apply (apply d l) l' := by simp [apply]

theorem apply_other (l : List (Name × File)) (d : Dir) (f : Name) (h : ∀ x ∈ l, x.1 ≠ f) : apply d l f = d f := by
  induction l generalizing d with
  | nil => rfl
  | cons x l ih =>
    show apply (d.set x.1 x.2) l f = d f
    rw [ih _ (fun y hy => h y (by simp [hy]))]
    unfold Dir.set
    rw [if_neg (fun he => h x (by simp) he.symm)]

theorem apply_micro (order : List Name) (g : Gen) (d : Dir) (f : Name) (hf : f ∈ order) : apply d (micro order g) f = .of g := by
  induction order generalizing d with
  | nil => cases hf
  | cons x order ih =>
    have hm : micro (x :: order) g = [(x, .junk), (x, .of g)] ++ micro order g := rfl
    rw [hm, apply_append]
    by_cases h : f ∈ order
    · exact ih _ h
    · rw [apply_other]
      · have : f = x := by rcases List.mem_cons.mp hf with h1 | h1; exact h1; exact absurd h1 h
        subst this
        simp [apply, Dir.set]
      · intro y hy
        simp only [micro, List.mem_flatMap, List.mem_cons, List.not_mem_nil, or_false] at hy
        obtain ⟨z, hz, rfl | rfl⟩ := hy <;> exact fun he => h (by simp only at he; exact he ▸ hz)

theorem micro_length (order : List Name) (g : Gen) : (micro order g).length = 2 * order.length := by
  induction order with
  | nil => rfl
  | cons x o ih => have : micro (x :: o) g = [(x, .junk), (x, .of g)] ++ micro o g := rfl
                   rw [this, List.length_append, ih]; simp; omega

/-- **C99** Whatever was in the directory – leftovers of a crash at any point of any earlier renewal, in any order of the files, damaged
or restored files – a check that runs to its end leaves a directory that serves and that the next check accepts. -/
theorem C99_recovers (cal : Calendar) (s : St) (hr : Reach cal s) (names : List Str) (order : List Name) (n : Nat)
    (hall : ∀ f, f ∈ order) (hn : 2 * order.length ≤ n) :
    let s' := check cal names order n s
    Serves cal s'.dir names s'.now ∧ accepted cal s'.dir names s'.now = true := by
  intro s'
  have hacc : accepted cal s'.dir names s'.now = true := by
    show accepted cal (check cal names order n s).dir names (check cal names order n s).now = true
    unfold check
    by_cases ha : accepted cal s.dir names s.now = true
    · rw [if_pos ha]; exact ha
    · rw [if_neg ha]
      simp only
      generalize hg : (⟨s.next, names, s.now, cal.plus12 s.now⟩ : Gen) = g
      rw [List.take_of_length_le (by rw [micro_length]; exact hn)]
      have hf : ∀ f, apply s.dir (micro order g) f = .of g := fun f => apply_micro order g s.dir f (hall f)
      unfold accepted readable
      rw [Bool.and_eq_true, List.all_eq_true]
      refine ⟨by simp [hf], ?_⟩
      intro x hx
      unfold verify
      simp only [hf]
      have h6 := cal.le6 s.now
      have h12 := cal.le12 s.now
      subst hg
      simp only [Bool.and_eq_true, decide_eq_true_eq]
      refine ⟨⟨⟨⟨⟨⟨trivial, trivial⟩, h6⟩, h12⟩, h6⟩, h12⟩, ?_⟩
      cases x with
      | none => rfl
      | some x =>
        by_cases hz : names.length = 0
        · rw [if_pos hz] at hx; simp at hx
        · rw [if_neg hz] at hx
          obtain ⟨y, hy, he⟩ := List.mem_map.mp hx
          injection he with he; subst he; simpa using hy
  exact ⟨C99_accepted cal s' (Reach.step (a := .check names order n) hr rfl) names hacc, hacc⟩

/-- **C99** A directory that is still good is left alone. -/
theorem C99_kept (cal : Calendar) (s : St) (names : List Str) (order : List Name) (n : Nat) (h : accepted cal s.dir names s.now = true) :
    check cal names order n s = s := by unfold check; rw [if_pos h]

/-- **C99** A good directory is recognised: if the three files belong together, cover the names and last six more months, and the CA key
is present, nothing is renewed. -/
theorem C99_recognised (cal : Calendar) (d : Dir) (names : List Str) (t : Nat) (h : Serves cal d names t) (hk : d .caKey ≠ .absent) :
    accepted cal d names t = true := by
  obtain ⟨g, h1, h2, h3, h4, h5, h6⟩ := h
  unfold accepted readable
  rw [Bool.and_eq_true, List.all_eq_true]
  refine ⟨by simp [h1, h2, h3, hk], ?_⟩
  intro x hx
  unfold verify
  simp only [h1, h2, h3]
  have := cal.le6 t
  simp only [Bool.and_eq_true, decide_eq_true_eq]
  refine ⟨⟨⟨⟨⟨⟨trivial, trivial⟩, by omega⟩, h6⟩, by omega⟩, h6⟩, ?_⟩
  cases x with
  | none => rfl
  | some x =>
    by_cases hz : names.length = 0
    · rw [if_pos hz] at hx; simp at hx
    · rw [if_neg hz] at hx
      obtain ⟨y, hy, he⟩ := List.mem_map.mp hx
      injection he with he; subst he; simpa using h4 _ hy

/-- a calendar of months -/
def months : Calendar := ⟨(· + 6), (· + 12), fun t => by omega, fun t => by omega⟩

/-- a run: the first renewal, seven months later a second one that dies after three of eight steps, then one that ends -/
def certRun : St :=
  let o := [Name.tlsKey, .caCrt, .caKey, .tlsCrt]
  let s1 := check months ["a.b.svc".toList] o 8 {}
  let s2 := check months ["a.b.svc".toList] o 3 { s1 with now := 7 }
  check months ["a.b.svc".toList] o 8 s2

example : Reach months certRun :=
  .step (a := .check _ _ 8) (.step (a := .check _ _ 3) (.step (a := .pass 7) (.step (a := .check _ _ 8) .init rfl) rfl) rfl) rfl
example : certRun.dir .caCrt = .of ⟨2, ["a.b.svc".toList], 7, 19⟩ := by decide

/-- The CA key is not part of this: after a crash it may stay behind (nothing uses it). -/
theorem C99_ca_key : ∃ s : St, Reach months s ∧ accepted months s.dir [] s.now = true ∧ s.dir .caKey = .junk ∧ ∃ g, s.dir .caCrt = .of g :=
  ⟨check months [] [.tlsKey, .caCrt, .tlsCrt, .caKey] 7 {}, .step (a := .check [] [.tlsKey, .caCrt, .tlsCrt, .caKey] 7) .init rfl,
    by decide, by decide, ⟨⟨0, [], 0, 12⟩, by decide⟩⟩

/-! ### C100 -/

/-- every update of the configuration succeeds -/
def UpdatesSucceed : HAct → Prop
  | .start _ u => u = true
  | .trigger _ u => u = true
  | .tick _ u => u = true
  | _ => True

theorem hcheck_bundle (needs renewed : Bool) (s : HSt) (m : Cert.Config) (hm : s.mem = some m) (hn : needs = true ∨ s.ca = none) :
    (hcheck needs renewed true s).crashed = true ∨
      ∃ g, (hcheck needs renewed true s).ca = some g ∧ (hcheck needs renewed true s).api.bundle = g := by
  unfold hcheck
  rw [hm]
  simp only
  cases hc : s.ca with
  | some g =>
    rcases hn with rfl | hn
    · simp only [Bool.true_and]
      by_cases hd : (⟨g, m.spec⟩ : Cert.Config) = s.api
      · rw [if_neg (by simpa using hd)]; exact .inr ⟨g, rfl, by rw [← hd]⟩
      · rw [if_pos (by simpa using hd)]; exact .inr ⟨g, rfl, rfl⟩
    · rw [hn] at hc; cases hc
  | none =>
    cases renewed
    · exact .inl rfl
    · simp only [if_true, Bool.true_and]
      by_cases hd : (⟨s.next, m.spec⟩ : Cert.Config) = s.api
      · rw [if_neg (by simpa using hd)]; exact .inr ⟨s.next, rfl, by rw [← hd]⟩
      · rw [if_pos (by simpa using hd)]; exact .inr ⟨s.next, rfl, rfl⟩

theorem hcheck_valid (renewed updated : Bool) (s : HSt) (m : Cert.Config) (g : Nat) (hm : s.mem = some m) (hc : s.ca = some g) :
    hcheck false renewed updated s = { s with mem := some ⟨g, m.spec⟩ } := by
  unfold hcheck
  rw [hm]
  simp only [hc, Bool.false_and]
  rfl

/-- **C100** As long as no update fails: whenever the certifier runs, no change is waiting to be handled and the directory is good, the
cluster trusts the CA of the directory. -/
theorem C100_bundle_partial (s : HSt) (h : HReach UpdatesSucceed s) (hm : s.mem.isSome) (ht : s.triggers = 0) (hc : s.crashed = false)
    (g : Nat) (hg : s.ca = some g) : s.api.bundle = g := by
  have key : s.mem.isSome → s.crashed = false → s.triggers = 0 → ∀ g, s.ca = some g → s.api.bundle = g := by
    clear hm ht hc hg g
    induction h with
    | init => intro h; cases h
    | step _ hgd he ih =>
      rename_i s s' a _
      unfold hexec at he
      cases hcr : s.crashed with
      | true => rw [hcr] at he; cases he
      | false =>
      rw [hcr] at he
      simp only [Bool.false_eq_true, if_false] at he
      intro hm' hc' ht' g hg
      have fin : ∀ {needs r : Bool} {s0 : HSt} {m : Cert.Config}, s0.mem = some m → (needs = true ∨ s0.ca = none) →
          s' = hcheck needs r true s0 → s'.api.bundle = g := by
        intro needs r s0 m h1 h2 h3
        rcases hcheck_bundle needs r s0 m h1 h2 with h | ⟨g', h4, h5⟩
        · rw [← h3, hc'] at h; cases h
        · rw [← h3] at h4 h5; rw [hg] at h4; injection h4 with h4; rw [h5, h4]
      cases a with
      | start r u =>
        cases hgd
        simp only at he
        split at he
        · cases he
        · injection he with he
          exact fin (m := s.api) rfl (.inl rfl) he.symm
      | trigger r u =>
        cases hgd
        simp only at he
        split at he
        · cases he
        · rename_i hx
          injection he with he
          cases hmm : s.mem with
          | none => exact absurd (.inr (by rw [hmm]; rfl)) hx
          | some m => exact fin (s0 := { s with triggers := s.triggers - 1 }) (m := m) hmm (.inl rfl) (by rw [← he, hcr])
      | tick r u =>
        cases hgd
        simp only at he
        cases hmm : s.mem with
        | none => rw [hmm] at he; cases he
        | some m =>
          rw [hmm] at he
          simp only [Option.isNone_some, Bool.false_eq_true, if_false] at he
          injection he with he
          cases hca : s.ca with
          | none => exact fin (m := m) hmm (.inr hca) he.symm
          | some g0 =>
            rw [hcheck_valid _ _ _ _ _ hmm hca] at he
            subst he
            simp only at hg ht' ⊢
            exact ih (by rw [hmm]; rfl) hcr ht' g hg
      | edit c =>
        simp only at he
        cases hmm : s.mem with
        | none => rw [hmm] at he; simp only [Option.isNone_none, if_true] at he; injection he with he; subst he; simp at hm'
        | some m => rw [hmm] at he; simp only [Option.isNone_some, Bool.false_eq_true, if_false] at he; injection he with he; subst he; simp at ht'
      | lose =>
        simp only at he
        injection he with he; subst he; cases hg
  exact key hm hc ht g hg

/-- **C100** A change of the bundle by someone else is corrected when it is handled and the update succeeds. -/
theorem C100_corrected_partial (s s' : HSt) (r : Bool) (h : hexec s (.trigger r true) = some s') :
    s'.crashed = true ∨ ∃ g, s'.ca = some g ∧ s'.api.bundle = g := by
  unfold hexec at h
  split at h
  · cases h
  · simp only at h
    split at h
    · cases h
    · rename_i hx
      injection h with h; subst h
      cases hmm : s.mem with
      | none => exact absurd (.inr (by rw [hmm]; rfl)) hx
      | some m => exact hcheck_bundle true r _ m rfl (.inl rfl)

def ticks (s : HSt) : Nat → Option HSt
  | 0 => some s
  | n + 1 => match hexec s (.tick true true) with
    | none => none
    | some s' => ticks s' n

/-- the certificate was renewed, but the update of the configuration failed -/
def missed : HSt := { ca := some 2, next := 3, api := ⟨1, 0⟩, mem := some ⟨2, 0⟩, triggers := 0 }

example : HReach (fun _ => True) missed :=
  .step (a := .tick true false) (.step (a := .lose) (.step (a := .trigger true true) (.step (a := .start true true) .init trivial rfl) trivial rfl)
    trivial rfl) trivial rfl

/-- **C100 is false of the code**: an update that failed after a renewal is not tried again: however often the certificate is checked
afterwards, with every update succeeding, the cluster does not trust the CA of the directory. -/
theorem C100_not_retried_false (n : Nat) : ticks missed n = some missed ∧ missed.ca = some 2 ∧ missed.api.bundle = 1 := by
  refine ⟨?_, rfl, rfl⟩
  induction n with
  | zero => rfl
  | succ n ih =>
    have : hexec missed (.tick true true) = some missed := by decide
    simp only [ticks, this]; exact ih

def hrun (s : HSt) : List HAct → Option HSt
  | [] => some s
  | a :: as => match hexec s a with
    | none => none
    | some s' => hrun s' as

/-- **C100 is false of the code**: changes of the configuration made while the certifier runs are undone: it writes back what it read
when it started, -/
theorem C100_edit_lost_false : ∃ s, hrun {} [.start true true, .trigger true true, .edit ⟨1, 5⟩, .trigger true true] = some s ∧
    s.api = ⟨1, 0⟩ := ⟨_, rfl, by decide⟩

/-- and a renewal that fails ends the process. -/
theorem C100_crash_false : ∃ s, hrun {} [.start true true, .trigger true true, .lose, .tick false true] = some s ∧ s.crashed = true :=
  ⟨_, rfl, by decide⟩

example : ∃ s, HReach UpdatesSucceed s ∧ s.mem.isSome ∧ s.triggers = 0 ∧ s.crashed = false ∧ s.ca = some 1 ∧ s.api = ⟨1, 7⟩ :=
  ⟨_, .step (a := .trigger true true) (.step (a := .start true true) (.step (a := .edit ⟨9, 7⟩) .init trivial rfl) rfl rfl) rfl rfl,
    by decide, by decide, by decide, by decide, by decide⟩

end Verif.Props
