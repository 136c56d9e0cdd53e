import Verif.Net.OutHttp
/-
Property theorems C63: outgoing HTTP requests are secured as the mesh wants.
-/
namespace Verif.Props
open Verif.Net.OutHttp

namespace OutHttp

theorem put_eq {α : Type} (f : Nat → α) (i : Nat) (a : α) (j : Nat) : put f i a j = if j = i then a else f j := rfl

/-- the request's recorded address and settings are what the mesh wanted -/
def wantOf (q : Req) : Sec :=
  match q.tls with
  | some i => .mesh i i
  | none => if q.https then .pub q.addr else .plain

/-- Invariant when discovery does not fail. -/
structure Inv (st : St) : Prop where
  asked : ∀ r a w, Ev.asked r a w ∈ st.tr → ∃ q, st.reqs r = some q ∧
    ((st.phase r = .done ∧ st.pending r = false ∧ ∀ c, Ev.sent r c ∉ st.tr) ∨ (q.addr = a ∧ wantOf q = w))
  enc : ∀ r q, st.reqs r = some q → (wantOf q).https = q.https
  real : ∀ r q, st.reqs r = some q → (st.phase r ≠ .done ∨ st.pending r = true) → Ev.asked r q.addr (wantOf q) ∈ st.tr
  sent : ∀ r c, Ev.sent r c ∈ st.tr → ∃ q k, st.reqs r = some q ∧ st.conns c = some k ∧ k.https = q.https ∧ k.addr = q.addr
  made : ∀ c k, st.conns c = some k → Ev.made c k.addr k.sec ∈ st.tr ∧ (k.https = true → k.sec ≠ .plain)
  live : ∀ r, (st.phase r ≠ .done ∨ st.pending r = true) → (st.reqs r).isSome

theorem Inv.init : Inv St.init := by
  constructor <;> simp [St.init]

/-- steps that add no request and no event -/
theorem Inv.quiet {st st' : St} (h : Inv st) (hr : st'.reqs = st.reqs) (ht : st'.tr = st.tr) (hc : st'.conns = st.conns)
    (hp : ∀ r, (st'.phase r ≠ .done ∨ st'.pending r = true) → (st.phase r ≠ .done ∨ st.pending r = true)) :
    Inv st' := by
  constructor
  · intro r a w ha
    rw [ht] at ha
    obtain ⟨q, hq, h1⟩ := h.asked r a w ha
    refine ⟨q, by rw [hr]; exact hq, ?_⟩
    rcases h1 with ⟨h1, h2, h3⟩ | h1
    · left
      refine ⟨?_, ?_, by rw [ht]; exact h3⟩
      · apply Classical.byContradiction
        intro hne
        rcases hp r (Or.inl hne) with h4 | h4
        · exact h4 h1
        · rw [h2] at h4; simp at h4
      · cases hpe : st'.pending r with
        | false => rfl
        | true =>
          rcases hp r (Or.inr hpe) with h4 | h4
          · exact absurd h1 h4
          · rw [h2] at h4; simp at h4
    · exact Or.inr h1
  · rw [hr]; exact h.enc
  · rw [hr, ht]; intro r q hq hl; exact h.real r q hq (hp r hl)
  · rw [hr, ht, hc]; exact h.sent
  · rw [hc, ht]; exact h.made
  · rw [hr]; intro r hl; exact h.live r (hp r hl)

theorem active_put {st : St} {r j : Nat} {v : Phase} (hv : st.phase r ≠ .done ∨ st.pending r = true)
    (h : put st.phase r v j ≠ .done ∨ st.pending j = true) : st.phase j ≠ .done ∨ st.pending j = true := by
  rw [put_eq] at h
  split at h
  · rename_i hj; subst hj; exact hv
  · exact h

theorem Inv.exec {st st' : St} (h : Inv st) (a : Act) (hg : Discovering st a) (he : exec st a = some st') : Inv st' := by
  cases a with
  | config host p =>
    simp only [Net.OutHttp.exec, Option.some.injEq] at he
    subst he
    exact h.quiet rfl rfl rfl (fun r h => h)
  | begin r host https err =>
    simp only [Discovering] at hg
    subst hg
    simp only [Net.OutHttp.exec, Bool.false_eq_true, if_false] at he
    split at he
    · simp at he
    · rename_i hk
      have hdone : st.phase r = .done ∧ st.pending r = false := by
        constructor
        · apply Classical.byContradiction
          intro hne
          have := h.live r (Or.inl hne)
          rw [hk] at this; simp at this
        · cases hp : st.pending r with
          | false => rfl
          | true =>
            have := h.live r (Or.inr hp)
            rw [hk] at this; simp at this
      have hnew : ∀ c, Ev.sent r c ∉ st.tr := by
        intro c hc
        obtain ⟨q, _, hq, _⟩ := h.sent r c hc
        rw [hk] at hq; simp at hq
      have go : ∀ (q : Req) (ph : Phase) (a : Nat) (w : Sec), (wantOf q).https = q.https →
          (ph = .done ∨ (q.addr = a ∧ wantOf q = w)) →
          Inv { st with
            reqs := put st.reqs r (some q), phase := put st.phase r ph, tr := Ev.asked r a w :: st.tr } := by
        intro q ph a w henc hqa
        have old : ∀ {j : Nat} {q' : Req}, st.reqs j = some q' → put st.reqs r (some q) j = some q' ∧ j ≠ r := by
          intro j q' hj
          have : j ≠ r := by rintro rfl; rw [hk] at hj; simp at hj
          exact ⟨by rw [put_eq, if_neg this]; exact hj, this⟩
        constructor
        · intro j b s hj
          rcases List.mem_cons.mp hj with hj | hj
          · simp only [Ev.asked.injEq] at hj
            obtain ⟨rfl, rfl, rfl⟩ := hj
            refine ⟨q, by simp [put_eq], ?_⟩
            rcases hqa with rfl | hqa
            · left
              refine ⟨by simp [put_eq], hdone.2, ?_⟩
              intro c hc
              exact hnew c (by simpa using hc)
            · exact Or.inr hqa
          · obtain ⟨q', hq', h1⟩ := h.asked j b s hj
            obtain ⟨h2, h3⟩ := old hq'
            refine ⟨q', h2, ?_⟩
            rcases h1 with ⟨h4, h5, h6⟩ | h1
            · left
              refine ⟨by simp [put_eq, h3, h4], h5, ?_⟩
              intro c hc
              exact h6 c (by simpa using hc)
            · exact Or.inr h1
        · intro j q' hq'
          simp only [put_eq] at hq'
          split at hq'
          · simp only [Option.some.injEq] at hq'; subst hq'; exact henc
          · exact h.enc j q' hq'
        · intro j q' hq' hl
          simp only [put_eq] at hq' hl
          split at hq'
          · rename_i hj
            simp only [Option.some.injEq] at hq'
            subst hq'; subst hj
            simp only [if_true, hdone.2, Bool.false_eq_true, or_false] at hl
            rcases hqa with hqa | ⟨h1, h2⟩
            · exact absurd hqa hl
            · rw [h1, h2]; simp
          · rename_i hj
            rw [if_neg hj] at hl
            have := h.real j q' hq' hl
            simp [this]
        · intro j c hj
          obtain ⟨q', k, h1, h2⟩ := h.sent j c (by simpa using hj)
          exact ⟨q', k, (old h1).1, h2⟩
        · intro c k hc
          obtain ⟨h1, h2⟩ := h.made c k hc
          exact ⟨by simp [h1], h2⟩
        · intro j hl
          simp only [put_eq] at hl ⊢
          split
          · rfl
          · rename_i hj
            rw [if_neg hj] at hl
            exact h.live j hl
      split at he
      · rename_i hm
        simp only [Option.some.injEq] at he
        subst he
        exact go _ _ _ _ (by simp only [wantOf]; cases https <;> rfl)
          (Or.inr (by simp [hm, wantOf, wantAddr, wantSec]))
      · simp only [Option.some.injEq] at he
        subst he
        exact go _ _ _ _ (by simp only [wantOf]; cases https <;> rfl) (Or.inl rfl)
      · rename_i a hm
        simp only [Option.some.injEq] at he
        subst he
        exact go _ _ _ _ (by simp only [wantOf]; cases https <;> rfl)
          (Or.inr (by simp [hm, wantOf, wantAddr, wantSec]))
      · rename_i a i hm
        simp only [Option.some.injEq] at he
        subst he
        exact go _ _ _ _ rfl (Or.inr (by simp [hm, wantOf, wantAddr, wantSec]))
  | setName r =>
    simp only [Net.OutHttp.exec] at he
    split at he
    · rename_i hp
      simp only [Option.some.injEq] at he
      subst he
      exact h.quiet rfl rfl rfl (fun j hj => active_put (Or.inl (by rw [hp]; simp)) hj)
    · simp at he
  | setVer r =>
    simp only [Net.OutHttp.exec] at he
    split at he
    · rename_i hp
      simp only [Option.some.injEq] at he
      subst he
      exact h.quiet rfl rfl rfl (fun j hj => active_put (Or.inl (by rw [hp]; simp)) hj)
    · simp at he
  | wrap1 r =>
    simp only [Net.OutHttp.exec] at he
    split at he
    · rename_i hp
      simp only [Option.some.injEq] at he
      subst he
      exact h.quiet rfl rfl rfl (fun j hj => active_put (Or.inl (by rw [hp]; simp)) hj)
    · simp at he
  | wrap2 r =>
    simp only [Net.OutHttp.exec] at he
    split at he
    · rename_i hp
      simp only [Option.some.injEq] at he
      subst he
      refine h.quiet rfl rfl rfl ?_
      intro j hj
      simp only [put_eq] at hj
      by_cases hjr : j = r
      · subst hjr; left; rw [hp]; simp
      · simpa [hjr] using hj
    · simp at he
  | dial r c =>
    simp only [Net.OutHttp.exec] at he
    split at he
    · rename_i q hq hp hcn
      simp only [Option.some.injEq] at he
      subst he
      have hact : ∀ j, (st.phase j ≠ .done ∨ put st.pending r false j = true) → (st.phase j ≠ .done ∨ st.pending j = true) := by
        intro j hj
        simp only [put_eq] at hj
        split at hj
        · simp only [Bool.false_eq_true, or_false] at hj; exact Or.inl hj
        · exact hj
      constructor
      · intro j b s hj
        obtain ⟨q', hq', h1⟩ := h.asked j b s (by simpa using hj)
        refine ⟨q', hq', ?_⟩
        rcases h1 with ⟨h4, h5, h6⟩ | h1
        · left
          refine ⟨h4, ?_, ?_⟩
          · simp only [put_eq]; split
            · rfl
            · exact h5
          · intro c hc; exact h6 c (by simpa using hc)
        · exact Or.inr h1
      · exact h.enc
      · intro j q' hq' hl
        have := h.real j q' hq' (hact j hl)
        simp [this]
      · intro j c' hj
        obtain ⟨q', k, h1, h2, h3⟩ := h.sent j c' (by simpa using hj)
        refine ⟨q', k, h1, ?_, h3⟩
        show put st.conns c _ c' = some k
        rw [put_eq, if_neg]
        · exact h2
        · rintro rfl; rw [hcn] at h2; simp at h2
      · intro c' k hc
        simp only [put_eq] at hc
        split at hc
        · rename_i hcc
          simp only [Option.some.injEq] at hc
          subst hc; subst hcc
          refine ⟨by simp, ?_⟩
          intro hs
          simp only [secNow] at hs ⊢
          rw [if_pos hs]
          split <;> simp
        · obtain ⟨h1, h2⟩ := h.made c' k hc
          exact ⟨by simp [h1], h2⟩
      · intro j hl
        exact h.live j (hact j hl)
    · simp at he
  | noDial r =>
    simp only [Net.OutHttp.exec, Option.some.injEq] at he
    subst he
    refine h.quiet rfl rfl rfl ?_
    intro j hj
    simp only [put_eq] at hj
    split at hj
    · simp only [Bool.false_eq_true, or_false] at hj; exact Or.inl hj
    · exact hj
  | use r c =>
    simp only [Net.OutHttp.exec] at he
    split at he
    · rename_i q k hq hp hk
      split at he
      · rename_i hc
        simp only [Option.some.injEq] at he
        subst he
        have hact : ∀ j, (put st.phase r .done j ≠ .done ∨ st.pending j = true) → (st.phase j ≠ .done ∨ st.pending j = true) := by
          intro j hj
          simp only [put_eq] at hj
          split at hj
          · exact Or.inr (by simpa using hj)
          · exact hj
        constructor
        · intro j b s hj
          obtain ⟨q', hq', h1⟩ := h.asked j b s (by simpa using hj)
          refine ⟨q', hq', ?_⟩
          rcases h1 with ⟨h4, h5, h6⟩ | h1
          · left
            refine ⟨?_, h5, ?_⟩
            · simp only [put_eq]; split
              · rfl
              · exact h4
            · intro c' hc'
              simp only [List.mem_cons, Ev.sent.injEq] at hc'
              rcases hc' with ⟨rfl, rfl⟩ | hc'
              · rw [hp] at h4; simp at h4
              · exact h6 c' hc'
          · exact Or.inr h1
        · exact h.enc
        · intro j q' hq' hl
          have := h.real j q' hq' (hact j hl)
          simp [this]
        · intro j c' hj
          simp only [List.mem_cons, Ev.sent.injEq] at hj
          rcases hj with ⟨rfl, rfl⟩ | hj
          · exact ⟨q, k, hq, hk, hc.2.1, hc.2.2⟩
          · exact h.sent j c' hj
        · intro c' k' hc'
          obtain ⟨h1, h2⟩ := h.made c' k' hc'
          exact ⟨by simp [h1], h2⟩
        · intro j hl
          exact h.live j (hact j hl)
      · simp at he
    · simp at he
  | giveBack c =>
    simp only [Net.OutHttp.exec, Option.some.injEq] at he
    subst he
    exact h.quiet rfl rfl rfl (fun r h => h)

/-- Invariant of serial use. -/
structure SInv (st : St) : Prop where
  inv : Inv st
  /-- at most one request is active -/
  one : ∀ r r', (st.phase r ≠ .done ∨ st.pending r = true) → (st.phase r' ≠ .done ∨ st.pending r' = true) → r = r'
  name : ∀ r q i, st.reqs r = some q → q.tls = some i → (st.phase r ≠ .done ∧ st.phase r ≠ .name ∨ st.pending r = true) →
    st.cfgName = i
  ver : ∀ r q i, st.reqs r = some q → q.tls = some i →
    (st.phase r = .wrap1 ∨ st.phase r = .wrap2 ∨ st.pending r = true) → st.cfgVer = i
  plain : ∀ r q, st.reqs r = some q → (st.phase r = .wrap2 ∨ st.pending r = true) → st.dialPlain = q.tls.isSome
  tls : ∀ r q, st.reqs r = some q → st.pending r = true → st.dialTls = q.tls.isSome
  /-- a pending dial belongs to a request past the wrapping -/
  pend : ∀ r, st.pending r = true → st.phase r = .wait ∨ st.phase r = .done
  /-- every connection was made as some request wanted -/
  conns : ∀ c k, st.conns c = some k → k.sec.https = k.https ∧ ∃ r, Ev.asked r k.addr k.sec ∈ st.tr

theorem SInv.init : SInv St.init := by
  refine ⟨Inv.init, ?_, ?_, ?_, ?_, ?_, ?_, ?_⟩ <;> simp [St.init]

theorem SInv.exec {st st' : St} (h : SInv st) (a : Act) (hg : Serial st a) (he : exec st a = some st') : SInv st' := by
  have hinv : Inv st' := h.inv.exec a (by cases a <;> first | exact hg.1 | trivial) he
  cases a with
  | config host p =>
    simp only [Net.OutHttp.exec, Option.some.injEq] at he
    subst he
    exact ⟨hinv, h.one, h.name, h.ver, h.plain, h.tls, h.pend, h.conns⟩
  | giveBack c =>
    simp only [Net.OutHttp.exec, Option.some.injEq] at he
    subst he
    exact ⟨hinv, h.one, h.name, h.ver, h.plain, h.tls, h.pend, h.conns⟩
  | begin r host https err =>
    obtain ⟨hg1, hg2⟩ := hg
    subst hg1
    simp only [Net.OutHttp.exec, Bool.false_eq_true, if_false] at he
    split at he
    · simp at he
    · rename_i hk
      have go : ∀ (q : Req) (ph : Phase) (a : Nat) (w : Sec),
          (ph = .done ∨ ph = .name ∨ ph = .wrap1 ∧ q.tls = none) →
          Inv { st with
            reqs := put st.reqs r (some q), phase := put st.phase r ph, tr := Ev.asked r a w :: st.tr } →
          SInv { st with
            reqs := put st.reqs r (some q), phase := put st.phase r ph, tr := Ev.asked r a w :: st.tr } := by
        intro q ph a w hph hinv
        have hact : ∀ j, (put st.phase r ph j ≠ .done ∨ st.pending j = true) → j = r := by
          intro j hj
          simp only [put_eq, hg2, Bool.false_eq_true, or_false] at hj
          split at hj
          · assumption
          · exact absurd rfl hj
        refine ⟨hinv, ?_, ?_, ?_, ?_, ?_, ?_, ?_⟩
        · intro j j' h1 h2; rw [hact j h1, hact j' h2]
        · intro j q' i hq hi hl
          simp only [put_eq, hg2, Bool.false_eq_true, or_false] at hq hl
          split at hl
          · rename_i hj
            rw [if_pos hj] at hq
            simp only [Option.some.injEq] at hq
            subst hq
            rcases hph with rfl | rfl | ⟨rfl, hn⟩
            · simp at hl
            · simp at hl
            · rw [hn] at hi; simp at hi
          · simp at hl
        · intro j q' i hq hi hl
          simp only [put_eq, hg2, Bool.false_eq_true, or_false] at hq hl
          split at hl
          · rename_i hj
            rw [if_pos hj] at hq
            simp only [Option.some.injEq] at hq
            subst hq
            rcases hph with rfl | rfl | ⟨rfl, hn⟩
            · simp at hl
            · simp at hl
            · rw [hn] at hi; simp at hi
          · simp at hl
        · intro j q' hq hl
          simp only [put_eq, hg2, Bool.false_eq_true, or_false] at hq hl
          split at hl
          · rcases hph with rfl | rfl | ⟨rfl, hn⟩ <;> simp at hl
          · simp at hl
        · intro j q' hq hl
          simp only [hg2, Bool.false_eq_true] at hl
        · intro j hl
          simp only [hg2, Bool.false_eq_true] at hl
        · intro c k hc
          obtain ⟨h1, r', h2⟩ := h.conns c k hc
          exact ⟨h1, r', by simp [h2]⟩
      split at he <;> (simp only [Option.some.injEq] at he; subst he)
      · exact go _ _ _ _ (Or.inr (Or.inr ⟨rfl, rfl⟩)) hinv
      · exact go _ _ _ _ (Or.inl rfl) hinv
      · exact go _ _ _ _ (Or.inr (Or.inr ⟨rfl, rfl⟩)) hinv
      · exact go _ _ _ _ (Or.inr (Or.inl rfl)) hinv
  | setName r =>
    simp only [Net.OutHttp.exec] at he
    split at he
    · rename_i ad hs i hq hp
      simp only [Option.some.injEq] at he
      subst he
      have only : ∀ j, (st.phase j ≠ .done ∨ st.pending j = true) → j = r :=
        fun j hj => h.one j r hj (Or.inl (by rw [hp]; simp))
      have hpr : st.pending r = false := by
        cases hpe : st.pending r with
        | false => rfl
        | true => rcases h.pend r hpe with h1 | h1 <;> (rw [hp] at h1; simp at h1)
      have hact : ∀ j, (put st.phase r .verifier j ≠ .done ∨ st.pending j = true) → j = r := by
        intro j hj
        apply only
        simp only [put_eq] at hj
        split at hj
        · rename_i hj'; subst hj'; left; rw [hp]; simp
        · exact hj
      refine ⟨hinv, fun j j' h1 h2 => by rw [hact j h1, hact j' h2], ?_, ?_, ?_, ?_, ?_, h.conns⟩
      · intro j q' i' hq' hi' hl
        have : j = r := hact j (by
          rcases hl with hl | hl
          · exact Or.inl hl.1
          · exact Or.inr hl)
        subst this
        simp only [hq, Option.some.injEq] at hq'
        subst hq'
        simpa using hi'
      · intro j q' i' hq' hi' hl
        have : j = r := hact j (hl.elim (fun e => Or.inl (fun d => nomatch e.symm.trans d)) (fun hl => hl.elim (fun e => Or.inl (fun d => nomatch e.symm.trans d)) Or.inr))
        subst this
        simp [put_eq, hpr] at hl
      · intro j q' hq' hl
        have : j = r := hact j (hl.elim (fun e => Or.inl (fun d => nomatch e.symm.trans d)) Or.inr)
        subst this
        simp [put_eq, hpr] at hl
      · intro j q' hq' hl
        have : j = r := hact j (Or.inr hl)
        subst this
        rw [hpr] at hl; simp at hl
      · intro j hl
        have : j = r := hact j (Or.inr hl)
        subst this
        rw [hpr] at hl; simp at hl
    · simp at he
  | setVer r =>
    simp only [Net.OutHttp.exec] at he
    split at he
    · rename_i ad hs i hq hp
      simp only [Option.some.injEq] at he
      subst he
      have only : ∀ j, (st.phase j ≠ .done ∨ st.pending j = true) → j = r :=
        fun j hj => h.one j r hj (Or.inl (by rw [hp]; simp))
      have hpr : st.pending r = false := by
        cases hpe : st.pending r with
        | false => rfl
        | true => rcases h.pend r hpe with h1 | h1 <;> (rw [hp] at h1; simp at h1)
      have hact : ∀ j, (put st.phase r .wrap1 j ≠ .done ∨ st.pending j = true) → j = r := by
        intro j hj
        apply only
        simp only [put_eq] at hj
        split at hj
        · rename_i hj'; subst hj'; left; rw [hp]; simp
        · exact hj
      refine ⟨hinv, fun j j' h1 h2 => by rw [hact j h1, hact j' h2], ?_, ?_, ?_, ?_, ?_, h.conns⟩
      · intro j q' i' hq' hi' hl
        have : j = r := hact j (by
          rcases hl with hl | hl
          · exact Or.inl hl.1
          · exact Or.inr hl)
        subst this
        exact h.name j q' i' hq' hi' (Or.inl (by rw [hp]; simp))
      · intro j q' i' hq' hi' hl
        have : j = r := hact j (hl.elim (fun e => Or.inl (fun d => nomatch e.symm.trans d)) (fun hl => hl.elim (fun e => Or.inl (fun d => nomatch e.symm.trans d)) Or.inr))
        subst this
        simp only [hq, Option.some.injEq] at hq'
        subst hq'
        simpa using hi'
      · intro j q' hq' hl
        have : j = r := hact j (hl.elim (fun e => Or.inl (fun d => nomatch e.symm.trans d)) Or.inr)
        subst this
        simp [put_eq, hpr] at hl
      · intro j q' hq' hl
        have : j = r := hact j (Or.inr hl)
        subst this
        rw [hpr] at hl; simp at hl
      · intro j hl
        have : j = r := hact j (Or.inr hl)
        subst this
        rw [hpr] at hl; simp at hl
    · simp at he
  | wrap1 r =>
    simp only [Net.OutHttp.exec] at he
    split at he
    · rename_i q hq hp
      simp only [Option.some.injEq] at he
      subst he
      have only : ∀ j, (st.phase j ≠ .done ∨ st.pending j = true) → j = r :=
        fun j hj => h.one j r hj (Or.inl (by rw [hp]; simp))
      have hpr : st.pending r = false := by
        cases hpe : st.pending r with
        | false => rfl
        | true => rcases h.pend r hpe with h1 | h1 <;> (rw [hp] at h1; simp at h1)
      have hact : ∀ j, (put st.phase r .wrap2 j ≠ .done ∨ st.pending j = true) → j = r := by
        intro j hj
        apply only
        simp only [put_eq] at hj
        split at hj
        · rename_i hj'; subst hj'; left; rw [hp]; simp
        · exact hj
      refine ⟨hinv, fun j j' h1 h2 => by rw [hact j h1, hact j' h2], ?_, ?_, ?_, ?_, ?_, h.conns⟩
      · intro j q' i' hq' hi' hl
        have : j = r := hact j (by
          rcases hl with hl | hl
          · exact Or.inl hl.1
          · exact Or.inr hl)
        subst this
        exact h.name j q' i' hq' hi' (Or.inl (by rw [hp]; simp))
      · intro j q' i' hq' hi' hl
        have : j = r := hact j (hl.elim (fun e => Or.inl (fun d => nomatch e.symm.trans d)) (fun hl => hl.elim (fun e => Or.inl (fun d => nomatch e.symm.trans d)) Or.inr))
        subst this
        exact h.ver j q' i' hq' hi' (Or.inl hp)
      · intro j q' hq' hl
        have : j = r := hact j (hl.elim (fun e => Or.inl (fun d => nomatch e.symm.trans d)) Or.inr)
        subst this
        simp only [hq, Option.some.injEq] at hq'
        subst hq'
        rfl
      · intro j q' hq' hl
        have : j = r := hact j (Or.inr hl)
        subst this
        rw [hpr] at hl; simp at hl
      · intro j hl
        have : j = r := hact j (Or.inr hl)
        subst this
        rw [hpr] at hl; simp at hl
    · simp at he
  | wrap2 r =>
    simp only [Net.OutHttp.exec] at he
    split at he
    · rename_i q hq hp
      simp only [Option.some.injEq] at he
      subst he
      have only : ∀ j, (st.phase j ≠ .done ∨ st.pending j = true) → j = r :=
        fun j hj => h.one j r hj (Or.inl (by rw [hp]; simp))
      have hact : ∀ j, (put st.phase r .wait j ≠ .done ∨ put st.pending r true j = true) → j = r := by
        intro j hj
        by_cases hjr : j = r
        · exact hjr
        · apply only
          simpa [put_eq, hjr] using hj
      refine ⟨hinv, fun j j' h1 h2 => by rw [hact j h1, hact j' h2], ?_, ?_, ?_, ?_, ?_, h.conns⟩
      · intro j q' i' hq' hi' hl
        have : j = r := hact j (by
          rcases hl with hl | hl
          · exact Or.inl hl.1
          · exact Or.inr hl)
        subst this
        exact h.name j q' i' hq' hi' (Or.inl (by rw [hp]; simp))
      · intro j q' i' hq' hi' hl
        have : j = r := hact j (hl.elim (fun e => Or.inl (fun d => nomatch e.symm.trans d)) (fun hl => hl.elim (fun e => Or.inl (fun d => nomatch e.symm.trans d)) Or.inr))
        subst this
        exact h.ver j q' i' hq' hi' (Or.inr (Or.inl hp))
      · intro j q' hq' hl
        have : j = r := hact j (hl.elim (fun e => Or.inl (fun d => nomatch e.symm.trans d)) Or.inr)
        subst this
        exact h.plain j q' hq' (Or.inl hp)
      · intro j q' hq' hl
        have : j = r := hact j (Or.inr hl)
        subst this
        simp only [hq, Option.some.injEq] at hq'
        subst hq'
        rfl
      · intro j hl
        have : j = r := hact j (Or.inr hl)
        subst this
        simp [put_eq]
    · simp at he
  | dial r c =>
    simp only [Net.OutHttp.exec] at he
    split at he
    · rename_i q hq hp hcn
      simp only [Option.some.injEq] at he
      subst he
      have hact : ∀ j, (st.phase j ≠ .done ∨ put st.pending r false j = true) → (st.phase j ≠ .done ∨ st.pending j = true) := by
        intro j hj
        simp only [put_eq] at hj
        split at hj
        · simp only [Bool.false_eq_true, or_false] at hj; exact Or.inl hj
        · exact hj
      have hpd : ∀ j, put st.pending r false j = true → st.pending j = true := by
        intro j hj
        simp only [put_eq] at hj
        split at hj
        · simp at hj
        · exact hj
      have hsec : secNow st q = wantOf q := by
        simp only [secNow, h.tls r q hq hp, h.plain r q hq (Or.inr hp), wantOf]
        have henc := h.inv.enc r q hq
        cases ht : q.tls with
        | none => simp
        | some i =>
          have hn := h.name r q i hq ht (Or.inr hp)
          have hv := h.ver r q i hq ht (Or.inr (Or.inr hp))
          simp [hn, hv]
      have hreal := h.inv.real r q hq (Or.inr hp)
      refine ⟨hinv, fun j j' h1 h2 => h.one j j' (hact j h1) (hact j' h2), ?_, ?_, ?_, ?_, ?_, ?_⟩
      · intro j q' i' hq' hi' hl
        exact h.name j q' i' hq' hi' (by
          rcases hl with hl | hl
          · exact Or.inl hl
          · exact Or.inr (hpd j hl))
      · intro j q' i' hq' hi' hl
        exact h.ver j q' i' hq' hi' (by
          rcases hl with hl | hl | hl
          · exact Or.inl hl
          · exact Or.inr (Or.inl hl)
          · exact Or.inr (Or.inr (hpd j hl)))
      · intro j q' hq' hl
        exact h.plain j q' hq' (by
          rcases hl with hl | hl
          · exact Or.inl hl
          · exact Or.inr (hpd j hl))
      · intro j q' hq' hl
        exact h.tls j q' hq' (hpd j hl)
      · intro j hl
        exact h.pend j (hpd j hl)
      · intro c' k hc
        simp only [put_eq] at hc
        split at hc
        · simp only [Option.some.injEq] at hc
          subst hc
          refine ⟨?_, r, ?_⟩
          · show (secNow st q).https = q.https
            rw [hsec]; exact h.inv.enc r q hq
          · show Ev.asked r q.addr (secNow st q) ∈ Ev.made c q.addr (secNow st q) :: st.tr
            rw [hsec]; exact List.mem_cons_of_mem _ hreal
        · obtain ⟨h1, r', h2⟩ := h.conns c' k hc
          exact ⟨h1, r', by simp [h2]⟩
    · simp at he
  | noDial r =>
    simp only [Net.OutHttp.exec, Option.some.injEq] at he
    subst he
    have hact : ∀ j, (st.phase j ≠ .done ∨ put st.pending r false j = true) → (st.phase j ≠ .done ∨ st.pending j = true) := by
      intro j hj
      simp only [put_eq] at hj
      split at hj
      · simp only [Bool.false_eq_true, or_false] at hj; exact Or.inl hj
      · exact hj
    have hpd : ∀ j, put st.pending r false j = true → st.pending j = true := by
      intro j hj
      simp only [put_eq] at hj
      split at hj
      · simp at hj
      · exact hj
    refine ⟨hinv, fun j j' h1 h2 => h.one j j' (hact j h1) (hact j' h2), ?_, ?_, ?_, ?_, ?_, h.conns⟩
    · intro j q' i' hq' hi' hl
      exact h.name j q' i' hq' hi' (by
        rcases hl with hl | hl
        · exact Or.inl hl
        · exact Or.inr (hpd j hl))
    · intro j q' i' hq' hi' hl
      exact h.ver j q' i' hq' hi' (by
        rcases hl with hl | hl | hl
        · exact Or.inl hl
        · exact Or.inr (Or.inl hl)
        · exact Or.inr (Or.inr (hpd j hl)))
    · intro j q' hq' hl
      exact h.plain j q' hq' (by
        rcases hl with hl | hl
        · exact Or.inl hl
        · exact Or.inr (hpd j hl))
    · intro j q' hq' hl
      exact h.tls j q' hq' (hpd j hl)
    · intro j hl
      exact h.pend j (hpd j hl)
  | use r c =>
    simp only [Net.OutHttp.exec] at he
    split at he
    · rename_i q k hq hp hk
      split at he
      · rename_i hc
        simp only [Option.some.injEq] at he
        subst he
        have hact : ∀ j, (put st.phase r .done j ≠ .done ∨ st.pending j = true) → (st.phase j ≠ .done ∨ st.pending j = true) := by
          intro j hj
          simp only [put_eq] at hj
          split at hj
          · exact Or.inr (by simpa using hj)
          · exact hj
        refine ⟨hinv, fun j j' h1 h2 => h.one j j' (hact j h1) (hact j' h2), ?_, ?_, ?_, h.tls, ?_, ?_⟩
        · intro j q' i' hq' hi' hl
          refine h.name j q' i' hq' hi' ?_
          simp only [put_eq] at hl
          split at hl
          · simp only [ne_eq, not_true, false_and, false_or] at hl; exact Or.inr hl
          · exact hl
        · intro j q' i' hq' hi' hl
          refine h.ver j q' i' hq' hi' ?_
          simp only [put_eq] at hl
          split at hl
          · simp only [reduceCtorEq, false_or] at hl; exact Or.inr (Or.inr hl)
          · exact hl
        · intro j q' hq' hl
          refine h.plain j q' hq' ?_
          simp only [put_eq] at hl
          split at hl
          · simp only [reduceCtorEq, false_or] at hl; exact Or.inr hl
          · exact hl
        · intro j hl
          simp only [put_eq]
          split
          · exact Or.inr rfl
          · exact h.pend j hl
        · intro c' k' hc'
          obtain ⟨h1, r', h2⟩ := h.conns c' k' hc'
          exact ⟨h1, r', by simp [h2]⟩
      · simp at he
    · simp at he

theorem Reach.mono {g g' : St → Act → Prop} (hgg : ∀ st a, g st a → g' st a) {st : St} (h : Reach g st) : Reach g' st := by
  induction h with
  | init => exact .init
  | step a _ hg he ih => exact .step a ih (hgg _ _ hg) he

theorem reach_inv {st : St} (h : Reach Discovering st) : Inv st := by
  induction h with
  | init => exact Inv.init
  | step a _ hg he ih => exact ih.exec a hg he
theorem reach_sinv {st : St} (h : Reach Serial st) : SInv st := by
  induction h with
  | init => exact SInv.init
  | step a _ hg he ih => exact ih.exec a hg he

/-- which `asked` events a step adds -/
theorem asked_new {st st' : St} {a : Act} (he : exec st a = some st') {r b : Nat} {w : Sec}
    (h : Ev.asked r b w ∈ st'.tr) :
    Ev.asked r b w ∈ st.tr ∨ ∃ host https err, a = .begin r host https err ∧ b = wantAddr (st.mesh host) host ∧
      w = wantSec (st.mesh host) host https := by
  cases a with
  | begin r' host https err =>
    simp only [Net.OutHttp.exec] at he
    split at he
    · simp at he
    · split at he <;> (simp only [Option.some.injEq] at he; subst he) <;>
        simp only [List.mem_cons, Ev.asked.injEq] at h <;>
        (rcases h with ⟨rfl, rfl, rfl⟩ | h
         · exact Or.inr ⟨host, https, err, rfl, rfl, rfl⟩
         · exact Or.inl h)
  | config host p => simp only [Net.OutHttp.exec, Option.some.injEq] at he; subst he; exact Or.inl h
  | noDial r => simp only [Net.OutHttp.exec, Option.some.injEq] at he; subst he; exact Or.inl h
  | giveBack r => simp only [Net.OutHttp.exec, Option.some.injEq] at he; subst he; exact Or.inl h
  | setName r' =>
    simp only [Net.OutHttp.exec] at he
    split at he
    · simp only [Option.some.injEq] at he; subst he; exact Or.inl h
    · simp at he
  | setVer r' =>
    simp only [Net.OutHttp.exec] at he
    split at he
    · simp only [Option.some.injEq] at he; subst he; exact Or.inl h
    · simp at he
  | wrap1 r' =>
    simp only [Net.OutHttp.exec] at he
    split at he
    · simp only [Option.some.injEq] at he; subst he; exact Or.inl h
    · simp at he
  | wrap2 r' =>
    simp only [Net.OutHttp.exec] at he
    split at he
    · simp only [Option.some.injEq] at he; subst he; exact Or.inl h
    · simp at he
  | dial r' c =>
    simp only [Net.OutHttp.exec] at he
    split at he
    · simp only [Option.some.injEq] at he; subst he; exact Or.inl (by simpa using h)
    · simp at he
  | use r' c =>
    simp only [Net.OutHttp.exec] at he
    split at he
    · split at he
      · simp only [Option.some.injEq] at he; subst he; exact Or.inl (by simpa using h)
      · simp at he
    · simp at he

/-- with settled settings, all requests to a scheme and address want the same -/
theorem agree {st : St} (h : Reach Settled st) (r r' a : Nat) (w w' : Sec) (h1 : Ev.asked r a w ∈ st.tr)
    (h2 : Ev.asked r' a w' ∈ st.tr) (hs : w.https = w'.https) : w = w' := by
  induction h generalizing r r' a w w' with
  | init => simp [St.init] at h1
  | step act hre hg he ih =>
    rcases asked_new he h1 with h1 | ⟨host, https, err, rfl, ha, ht⟩
    · rcases asked_new he h2 with h2 | ⟨host, https, err, rfl, ha, ht⟩
      · exact ih r r' a w w' h1 h2 hs
      · rw [ht]; exact hg.2 _ _ _ h1 ha (by rw [hs, ht])
    · rcases asked_new he h2 with h2 | ⟨host', https', err', he', ha', ht'⟩
      · rw [ht]; exact (hg.2 _ _ _ h2 ha (by rw [← hs, ht])).symm
      · simp only [Act.begin.injEq] at he'
        obtain ⟨_, rfl, rfl, _⟩ := he'
        rw [ht, ht']

end OutHttp

open OutHttp

/-- C63: as long as discovery answers, a request that the mesh or the user wants encrypted is sent only on an encrypted
connection to the endpoint chosen for it, for every interleaving of requests, dials, reuse and configuration changes. -/
theorem C63_encrypted_partial (st : St) (h : Reach Discovering st) : Encrypted st.tr := by
  intro r c a w hs ha hw
  have hi := reach_inv h
  obtain ⟨q, k, hq, hk, h1, h2⟩ := hi.sent r c hs
  obtain ⟨q', hq', h3⟩ := hi.asked r a w ha
  rw [hq] at hq'
  simp only [Option.some.injEq] at hq'
  subst hq'
  rcases h3 with ⟨_, _, h3⟩ | ⟨h3, h4⟩
  · exact absurd hs (h3 c)
  · obtain ⟨h5, h6⟩ := hi.made c k hk
    refine ⟨k.sec, h6 ?_, by rw [← h3, ← h2]; exact h5⟩
    rw [h1, ← hi.enc r q hq, h4]
    cases w <;> simp_all [Sec.https]

/-- C63: if requests are made one after the other and the settings of an address do not change, every request is sent on a
connection with exactly the server name and certificate verifier the mesh wants for its host. -/
theorem C63_secured_partial (st : St) (h : Reach Settled st) : Secured st.tr := by
  intro r c a w hs ha
  have hi := reach_sinv (OutHttp.Reach.mono (g' := Serial) (fun _ _ h => h.1) h)
  obtain ⟨q, k, hq, hk, h1, h2⟩ := hi.inv.sent r c hs
  obtain ⟨q', hq', h3⟩ := hi.inv.asked r a w ha
  rw [hq] at hq'
  simp only [Option.some.injEq] at hq'
  subst hq'
  rcases h3 with ⟨_, _, h3⟩ | ⟨h3, h4⟩
  · exact absurd hs (h3 c)
  · obtain ⟨h5, r', h6⟩ := hi.conns c k hk
    rw [h2, h3] at h6
    have h7 : k.sec = w := by
      refine agree h _ _ _ _ _ h6 ha ?_
      rw [h5, h1, ← hi.inv.enc r q hq, h4]
    have h8 := (hi.inv.made c k hk).1
    rw [h7, h2, h3] at h8
    exact h8

/-- C63 is false with two concurrent requests: request 1, for a host of identity 1, is sent on a connection verified against
identity 2 (the other request's cluster), because both write to one shared TLS configuration before the first dials. -/
theorem C63_concurrent_false : ∃ st, Reach Discovering st ∧ Ev.sent 1 7 ∈ st.tr ∧ Ev.asked 1 5 (.mesh 1 1) ∈ st.tr ∧
    Ev.made 7 5 (.mesh 2 2) ∈ st.tr := by
  refine ⟨_, .step (.use 1 7) (.step (.dial 1 7) (.step (.setVer 2) (.step (.setName 2) (.step (.begin 2 20 false false)
    (.step (.wrap2 1) (.step (.wrap1 1) (.step (.setVer 1) (.step (.setName 1) (.step (.begin 1 10 false false)
    (.step (.config 20 (some ⟨some 6, some 2⟩)) (.step (.config 10 (some ⟨some 5, some 1⟩)) .init
    trivial rfl) trivial rfl) rfl rfl) trivial rfl) trivial rfl) trivial rfl) trivial rfl) rfl rfl) trivial rfl) trivial rfl)
    trivial rfl) trivial rfl, ?_, ?_, ?_⟩ <;> decide

/-- C63 is false with two concurrent requests: a request for a mesh host is sent on a connection made with the default TLS
configuration (no mesh certificate, verified against the address by the system's roots), because a request to a host
outside the mesh replaced the dial functions. -/
theorem C63_functions_false : ∃ st, Reach Discovering st ∧ Ev.sent 1 7 ∈ st.tr ∧ Ev.asked 1 5 (.mesh 1 1) ∈ st.tr ∧
    Ev.made 7 5 (.pub 5) ∈ st.tr := by
  refine ⟨_, .step (.use 1 7) (.step (.dial 1 7) (.step (.wrap2 2) (.step (.wrap1 2) (.step (.begin 2 20 false false)
    (.step (.wrap2 1) (.step (.wrap1 1) (.step (.setVer 1) (.step (.setName 1) (.step (.begin 1 10 false false)
    (.step (.config 10 (some ⟨some 5, some 1⟩)) .init
    trivial rfl) rfl rfl) trivial rfl) trivial rfl) trivial rfl) trivial rfl) rfl rfl) trivial rfl) trivial rfl)
    trivial rfl) trivial rfl, ?_, ?_, ?_⟩ <;> decide

/-- C63 is false when settings change, even for serial requests: an idle connection verified against the old identity is
reused for the new one. -/
theorem C63_stale_false : ∃ st, Reach Serial st ∧ Ev.sent 2 7 ∈ st.tr ∧ Ev.asked 2 5 (.mesh 2 2) ∈ st.tr ∧
    Ev.made 7 5 (.mesh 1 1) ∈ st.tr := by
  refine ⟨_, .step (.use 2 7) (.step (.wrap2 2) (.step (.wrap1 2) (.step (.setVer 2) (.step (.setName 2)
    (.step (.begin 2 10 false false) (.step (.config 10 (some ⟨some 5, some 2⟩)) (.step (.giveBack 7)
    (.step (.use 1 7) (.step (.dial 1 7)
    (.step (.wrap2 1) (.step (.wrap1 1) (.step (.setVer 1) (.step (.setName 1) (.step (.begin 1 10 false false)
    (.step (.config 10 (some ⟨some 5, some 1⟩)) .init
    trivial rfl) ?_ rfl) trivial rfl) trivial rfl) trivial rfl) trivial rfl) trivial rfl) trivial rfl) trivial rfl)
    trivial rfl) ?_ rfl) trivial rfl) trivial rfl) trivial rfl) trivial rfl) trivial rfl, ?_, ?_, ?_⟩
  · exact ⟨rfl, fun r => ⟨rfl, rfl⟩⟩
  · refine ⟨rfl, fun r => ?_⟩
    simp only [St.init, put]
    constructor
    · split <;> simp
    · split <;> simp
  · decide
  · decide
  · decide

/-- C63 is false when discovery fails: the error is ignored and the request is sent in plain text to the host itself. -/
theorem C63_discovery_error_false : ∃ st, Reach Anything st ∧ Ev.sent 1 7 ∈ st.tr ∧ Ev.asked 1 5 (.mesh 1 1) ∈ st.tr ∧
    Ev.made 7 10 .plain ∈ st.tr := by
  refine ⟨_, .step (.use 1 7) (.step (.dial 1 7)
    (.step (.wrap2 1) (.step (.wrap1 1) (.step (.begin 1 10 false true)
    (.step (.config 10 (some ⟨some 5, some 1⟩)) .init
    trivial rfl) trivial rfl) trivial rfl) trivial rfl) trivial rfl) trivial rfl, ?_, ?_, ?_⟩ <;> decide

/-! non-vacuity: a mesh request and a later request outside the mesh -/
example : ∃ st, Reach Settled st ∧ Ev.sent 1 7 ∈ st.tr ∧ Ev.asked 1 5 (.mesh 1 1) ∈ st.tr ∧ Ev.sent 2 8 ∈ st.tr := by
  refine ⟨_, .step (.use 2 8) (.step (.dial 2 8) (.step (.wrap2 2) (.step (.wrap1 2) (.step (.begin 2 20 false false)
    (.step (.use 1 7) (.step (.dial 1 7)
    (.step (.wrap2 1) (.step (.wrap1 1) (.step (.setVer 1) (.step (.setName 1) (.step (.begin 1 10 false false)
    (.step (.config 10 (some ⟨some 5, some 1⟩)) .init
    ?_ rfl) ?_ rfl) ?_ rfl) ?_ rfl) ?_ rfl) ?_ rfl) ?_ rfl) ?_ rfl) ?_ rfl) ?_ rfl) ?_ rfl) ?_ rfl) ?_ rfl, ?_, ?_, ?_⟩
  case refine_2 => exact ⟨⟨rfl, fun r => ⟨rfl, rfl⟩⟩, by simp [St.init]⟩
  case refine_9 =>
    refine ⟨⟨rfl, fun r => ?_⟩, ?_⟩
    · simp only [St.init, put]
      constructor
      · split <;> simp
      · split <;> simp
    · intro r a w hm ha
      simp [St.init, wantAddr, wantSec, put] at hm ha
      omega
  all_goals first | exact ⟨trivial, trivial⟩ | decide

end Verif.Props
