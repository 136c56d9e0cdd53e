import Verif.Heimdall.Token
/-
C92: access tokens of workload groups.
-/
namespace Verif.Props
open Verif Verif.Heimdall

/-- the usual operation: reconciliations succeed, at least every five minutes (the controller asks for it,
workloadgroup.go:102-105), with tokens of at least the ten minutes the API server demands; nobody else writes the secret -/
def UsualT (s : TSt) : TAct → Prop
  | .tick n => s.now + n ≤ s.last + 300
  | .setDur d => ∃ n, d = some n
  | .tamper _ => False
  | .reconcile g => ∃ n, g = some n ∧ 600 ≤ n
  | _ => True

/-- states since the first reconciliation of a labelled group -/
inductive ReachT (g : Ref) : TSt → Prop
  | start (s : TSt) : s.group = g → s.label = true → s.secret = none → s.dur.isSome → s.crashed = false → (n : Nat) → 600 ≤ n →
      ReachT g (texec s (.reconcile (some n)))
  | step {s : TSt} (a : TAct) : ReachT g s → UsualT s a → ReachT g (texec s a)

/-- the group's token as a client needs it: for this group, valid for `m` more seconds -/
def HasToken (s : TSt) (m : Nat) : Prop :=
  ∃ sa exp, s.secret = some ⟨some (.jwt (generate s.group) sa exp)⟩ ∧ s.now + m ≤ exp

structure TInv (g : Ref) (s : TSt) : Prop where
  group : s.group = g
  dur : s.dur.isSome
  tok : ∀ t, s.secret = some t → ∃ sa exp, t = ⟨some (.jwt (generate g) sa exp)⟩ ∧ s.last + 600 ≤ exp
  time : s.last ≤ s.now ∧ s.now ≤ s.last + 300
  fine : s.crashed = false ∧ s.failed = false

theorem tinv_rec {g : Ref} {s : TSt} {n : Nat} (hg : s.group = g) (hd : s.dur.isSome) (hc : s.crashed = false) (hn : 600 ≤ n)
    (ht : ∀ t, s.secret = some t → ∃ sa exp, t = ⟨some (.jwt (generate g) sa exp)⟩) :
    TInv g (texec s (.reconcile (some n))) ∧ (s.label = true → (texec s (.reconcile (some n))).secret.isSome) ∧
      (s.label = false → (texec s (.reconcile (some n))).secret = none) := by
  obtain ⟨d, hd⟩ := Option.isSome_iff_exists.mp hd
  cases hl : s.label with
  | false =>
    simp only [texec, hl, deleteToken, Option.isSome_some, if_true]
    refine ⟨⟨hg, by simp [hd], by simp, by simp, by simp [hc]⟩, by simp, by simp⟩
  | true =>
    simp only [texec, hl, if_true]
    cases hs : s.secret with
    | none =>
      have : createToken s (some n) = { s with secret := some ⟨some (.jwt (generate s.group) s.sa (s.now + n))⟩, failed := false } := by
        unfold createToken; rw [if_neg (by simp [hs])]; simp only [hs, needsToken, hd]
      rw [this]
      refine ⟨⟨hg, by simp [hd], ?_, by simp, by simp [hc]⟩, by simp, by simp⟩
      intro t htt
      injection htt with htt; subst htt
      exact ⟨s.sa, s.now + n, by simp only [hg], by simp only; omega⟩
    | some t =>
      obtain ⟨sa, exp, rfl⟩ := ht t hs
      by_cases hx : s.now + 600 > exp
      · have : createToken s (some n) = { s with secret := some ⟨some (.jwt (generate s.group) s.sa (s.now + n))⟩, failed := false } := by
          unfold createToken; rw [if_neg (by simp [hs])]; simp only [hs, needsToken, hd, decide_eq_true hx]
        rw [this]
        refine ⟨⟨hg, by simp [hd], ?_, by simp, by simp [hc]⟩, by simp, by simp⟩
        intro t htt
        injection htt with htt; subst htt
        exact ⟨s.sa, s.now + n, by simp only [hg], by simp only; omega⟩
      · have : createToken s (some n) = { s with failed := false } := by
          unfold createToken; rw [if_neg (by simp [hs])]; simp only [hs, needsToken, decide_eq_false hx]
        rw [this]
        refine ⟨⟨hg, by simp [hd], ?_, by simp, by simp [hc]⟩, by simp [hs], by simp⟩
        intro t htt
        simp only [hs] at htt
        injection htt with htt; subst htt
        exact ⟨_, _, rfl, by simp only; omega⟩

theorem tinv_reach {g : Ref} {s : TSt} (h : ReachT g s) : TInv g s := by
  induction h with
  | start s hg hl hs hd hc n hn => exact (tinv_rec hg hd hc hn (by simp [hs])).1
  | step a _ hu ih =>
    rename_i s _
    obtain ⟨h1, h2, h3, h4, h5⟩ := ih
    cases a with
    | tick n => exact ⟨h1, h2, h3, ⟨Nat.le_trans h4.1 (Nat.le_add_right _ _), hu⟩, h5⟩
    | setLabel b => exact ⟨h1, h2, h3, h4, h5⟩
    | setSa n => exact ⟨h1, h2, h3, h4, h5⟩
    | setDur d => obtain ⟨n, rfl⟩ := hu; exact ⟨h1, rfl, h3, h4, h5⟩
    | tamper x => exact absurd hu id
    | reconcile x =>
      obtain ⟨n, rfl, hn⟩ := hu
      refine (tinv_rec h1 h2 h5.1 hn ?_).1
      intro t ht
      obtain ⟨sa, exp, he, _⟩ := h3 t ht
      exact ⟨sa, exp, he⟩

/-- **C92** In the usual operation the controller never fails, and whenever the secret exists it holds a token of the group that
is valid for five more minutes at least. -/
theorem C92_valid {g : Ref} {s : TSt} (h : ReachT g s) : s.failed = false ∧ s.crashed = false ∧ (s.secret ≠ none → HasToken s 300) := by
  have hi := tinv_reach h
  refine ⟨hi.fine.2, hi.fine.1, ?_⟩
  intro hn
  cases hs : s.secret with
  | none => exact absurd hs hn
  | some t =>
    obtain ⟨sa, exp, rfl, he⟩ := hi.tok t hs
    refine ⟨sa, exp, by rw [hs, hi.group], ?_⟩
    have := hi.time
    omega

/-- **C92** A reconciliation of a labelled group leaves a token that is valid for ten minutes at least; one of a group without the
label leaves no secret. -/
theorem C92_reconciled {g : Ref} {s : TSt} (h : ReachT g s) (n : Nat) (hn : 600 ≤ n) :
    (s.label = true → HasToken (texec s (.reconcile (some n))) 600) ∧
    (s.label = false → (texec s (.reconcile (some n))).secret = none) := by
  have hi := tinv_reach h
  obtain ⟨h1, h2, h3⟩ := tinv_rec hi.group hi.dur hi.fine.1 hn (fun t ht => by
    obtain ⟨sa, exp, he, _⟩ := hi.tok t ht; exact ⟨sa, exp, he⟩)
  refine ⟨fun hl => ?_, h3⟩
  obtain ⟨t, ht⟩ := Option.isSome_iff_exists.mp (h2 hl)
  obtain ⟨sa, exp, rfl, he⟩ := h1.tok t ht
  refine ⟨sa, exp, by rw [ht, h1.group], ?_⟩
  have hnl : (texec s (.reconcile (some n))).last = (texec s (.reconcile (some n))).now := by
    simp only [texec, hl, if_true]
    unfold createToken
    split
    · rfl
    · split
      · rfl
      · rfl
      · split <;> rfl
  rw [← hnl]; exact he

/-- **C92** A secret deleted by somebody, or one that lost its token, is restored by the next reconciliation. -/
theorem C92_restored (s : TSt) (n : Nat) (hl : s.label = true) (hd : s.dur.isSome) (hn : 600 ≤ n)
    (hs : s.secret = none ∨ s.secret = some ⟨none⟩) : HasToken (texec s (.reconcile (some n))) 600 := by
  obtain ⟨d, hd⟩ := Option.isSome_iff_exists.mp hd
  have : createToken s (some n) = { s with secret := some ⟨some (.jwt (generate s.group) s.sa (s.now + n))⟩, failed := false } := by
    unfold createToken
    rcases hs with hs | hs <;> rw [if_neg (by simp [hs])] <;> simp only [hs, needsToken, hd]
  simp only [texec, hl, if_true, this]
  exact ⟨_, _, rfl, by simp only; omega⟩

/-- **C92** A reconciliation whose requests the cluster refuses leaves the secret as it was, and if there was something to do -
no secret, no token or one of less than ten minutes in a labelled group, or a group without label - it returns an error, so it is repeated. -/
theorem C92_refused (s : TSt) :
    (texec s (.reconcile none)).secret = s.secret ∧
    ((s.label = false ∨ s.secret = none ∨ s.secret = some ⟨none⟩ ∨ ∃ a b e, s.secret = some ⟨some (.jwt a b e)⟩ ∧ e < s.now + 600) →
      (texec s (.reconcile none)).failed = true) := by
  constructor
  · simp only [texec]
    split
    · simp only [createToken]
      split
      · rfl
      · cases needsToken s.now s.secret with
        | none => rfl
        | some b => cases b <;> cases s.dur <;> rfl
    · simp [deleteToken]
  · intro h
    simp only [texec]
    cases hl : s.label with
    | false => simp [deleteToken]
    | true =>
      rcases h with h | h | h | ⟨a, b, e, h, he⟩
      · rw [hl] at h; cases h
      · simp only [if_true, createToken, h, needsToken]; cases s.dur <;> rfl
      · simp only [if_true, createToken, h, needsToken]; cases s.dur <;> rfl
      · simp only [if_true, createToken, h, needsToken, gt_iff_lt, he, decide_true]; cases s.dur <;> rfl

/-- a labelled group after its first reconciliation and five quiet minutes -/
example : ∃ s, ReachT ⟨"a".toList, "b".toList⟩ s ∧ s.now = 300 ∧ s.label = true ∧ s.secret ≠ none :=
  ⟨_, .step (.tick 300) (.start { group := ⟨"a".toList, "b".toList⟩, label := true } rfl rfl rfl rfl rfl 3600 (by decide))
    (Nat.le_refl _), rfl, rfl, by decide⟩

/-! ### C93 -/

/-- **C93** (negation) A secret whose token is not a JWT is never repaired: as long as nobody else changes it, every reconciliation
of the labelled group fails. -/
theorem C93_not_repaired_false : ∀ (as : List TAct) (s : TSt), s.secret = some ⟨some .garbage⟩ → s.label = true →
    (∀ a ∈ as, (∀ x, a ≠ .tamper x) ∧ ∀ b, a ≠ .setLabel b) →
    (truns as s).secret = some ⟨some .garbage⟩ ∧ ((∃ g, TAct.reconcile g ∈ as) → (truns as s).failed = true) := by
  have one : ∀ (s : TSt) (a : TAct), s.secret = some ⟨some .garbage⟩ → s.label = true → (∀ x, a ≠ .tamper x) →
      (∀ b, a ≠ .setLabel b) → (texec s a).secret = some ⟨some .garbage⟩ ∧ (texec s a).label = true ∧
        ((∃ g, a = .reconcile g) ∨ s.failed = true → (texec s a).failed = true) := by
    intro s a hs hl h1 h2
    cases a with
    | tick n => exact ⟨hs, hl, fun h => by rcases h with ⟨_, h⟩ | h; cases h; exact h⟩
    | setLabel b => exact absurd rfl (h2 b)
    | setSa n => exact ⟨hs, hl, fun h => by rcases h with ⟨_, h⟩ | h; cases h; exact h⟩
    | setDur d => exact ⟨hs, hl, fun h => by rcases h with ⟨_, h⟩ | h; cases h; exact h⟩
    | tamper x => exact absurd rfl (h1 x)
    | reconcile g =>
      have : createToken s g = { s with failed := true } := by
        unfold createToken; rw [if_neg (by simp [hs])]; simp only [hs, needsToken]
      simp only [texec]
      rw [if_pos hl, this]
      exact ⟨hs, hl, fun _ => rfl⟩
  have gen : ∀ (as : List TAct) (s : TSt), s.secret = some ⟨some .garbage⟩ → s.label = true →
      (∀ a ∈ as, (∀ x, a ≠ .tamper x) ∧ ∀ b, a ≠ .setLabel b) →
      (truns as s).secret = some ⟨some .garbage⟩ ∧ ((∃ g, TAct.reconcile g ∈ as) ∨ s.failed = true → (truns as s).failed = true) := by
    intro as
    induction as with
    | nil => intro s hs _ _; exact ⟨hs, fun h => by rcases h with ⟨_, h⟩ | h; cases h; exact h⟩
    | cons a as ih =>
      intro s hs hl h
      obtain ⟨h1, h2, h3⟩ := one s a hs hl (h a (by simp)).1 (h a (by simp)).2
      obtain ⟨i1, i2⟩ := ih _ h1 h2 (fun b hb => h b (by simp [hb]))
      refine ⟨i1, ?_⟩
      rintro (⟨g, hg⟩ | hf)
      · rcases List.mem_cons.mp hg with hg | hg
        · exact i2 (Or.inr (h3 (Or.inl ⟨g, hg.symm⟩)))
        · exact i2 (Or.inl ⟨g, hg⟩)
      · exact i2 (Or.inr (h3 (Or.inr hf)))
  intro as s hs hl h
  exact ⟨(gen as s hs hl h).1, fun hg => (gen as s hs hl h).2 (Or.inl hg)⟩

/-- **C93** (negation) When the service account of the group changes the token of the old one stays in use until it expires. -/
theorem C93_old_account_false :
    (truns [.reconcile (some 86400), .setSa 1, .tick 300, .reconcile (some 86400)]
      { group := ⟨"a".toList, "b".toList⟩, label := true }).secret =
      some ⟨some (.jwt (generate ⟨"a".toList, "b".toList⟩) 0 86400)⟩ := by decide +kernel

/-- **C93** (negation) A secret with a token that has no expiry crashes the controller. -/
theorem C93_crash_false :
    (truns [.tamper (some ⟨some .noExpiry⟩), .reconcile (some 86400)] { group := ⟨"a".toList, "b".toList⟩, label := true }).crashed =
      true := by decide +kernel

/-- **C93** (partial) If the account does not change, the token is the token of the group's account. -/
theorem C93_account_partial : ∀ (as : List TAct) (s : TSt), (∀ a ∈ as, (∀ x, a ≠ .tamper x) ∧ ∀ n, a ≠ .setSa n) →
    (∀ aud sa exp, s.secret = some ⟨some (.jwt aud sa exp)⟩ → sa = s.sa) →
    ∀ aud sa exp, (truns as s).secret = some ⟨some (.jwt aud sa exp)⟩ → sa = (truns as s).sa := by
  intro as
  induction as with
  | nil => intro s _ h; exact h
  | cons a as ih =>
    intro s hk h
    refine ih (texec s a) (fun b hb => hk b (by simp [hb])) ?_
    · intro aud sa exp hs
      cases a with
      | tick n => exact h aud sa exp hs
      | setLabel b => exact h aud sa exp hs
      | setSa n => exact absurd rfl ((hk _ (by simp)).2 n)
      | setDur d => exact h aud sa exp hs
      | tamper x => exact absurd rfl ((hk _ (by simp)).1 x)
      | reconcile gr =>
        simp only [texec] at hs ⊢
        split at hs
        · rename_i hl
          rw [if_pos hl]
          simp only [createToken] at hs ⊢
          split at hs
          · rename_i hc; rw [if_pos hc]; exact h aud sa exp hs
          · rename_i hc
            rw [if_neg hc]
            cases hn : needsToken s.now s.secret with
            | none => simp only [hn] at hs ⊢; exact h aud sa exp hs
            | some b =>
              cases b with
              | false => simp only [hn] at hs ⊢; exact h aud sa exp hs
              | true =>
                simp only [hn] at hs ⊢
                cases hd : s.dur with
                | none => simp only [hd] at hs ⊢; exact h aud sa exp hs
                | some d =>
                  cases gr with
                  | none => simp only [hd] at hs ⊢; exact h aud sa exp hs
                  | some n =>
                    simp only [hd] at hs ⊢
                    simp only [Option.some.injEq, Secret.mk.injEq, Tok.jwt.injEq] at hs
                    exact hs.2.1.symm
        · rename_i hl
          rw [if_neg hl]
          simp only [deleteToken] at hs ⊢
          split at hs
          · cases hs
          · rename_i hg'; rw [if_neg hg']; exact h aud sa exp hs

end Verif.Props
