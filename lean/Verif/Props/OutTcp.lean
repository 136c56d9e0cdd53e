import Verif.Net.OutTcp
/-
Property theorems C61 (outgoing TCP connections: address and TLS identity) and C62 (whose context ends a dial).
-/
namespace Verif.Props
open Verif.Net.OutTcp

namespace OutTcp

theorem put_eq {α : Type} (f : Nat → α) (i : Nat) (a : α) (j : Nat) : put f i a j = if j = i then a else f j := rfl

theorem put_old {f : Nat → Option Call} {k p : Nat} {v : Option Call} {i : Call} (hk : f k = none) (hp : f p = some i) :
    put f k v p = some i := by
  rw [put_eq, if_neg]
  · exact hp
  · rintro rfl; rw [hk] at hp; simp at hp

/-- Invariant of all histories. -/
structure Inv (st : St) : Prop where
  asked : ∀ k x a t, Ev.asked k x a t ∈ st.tr → ∃ i, st.calls k = some i ∧ i.ctx = x
  ctx : ∀ k i, st.calls k = some i → ∃ a t, Ev.asked k i.ctx a t ∈ st.tr
  uniq : ∀ k x a t x' a' t', Ev.asked k x a t ∈ st.tr → Ev.asked k x' a' t' ∈ st.tr → x = x' ∧ a = a' ∧ t = t'
  pools : ∀ a p, st.pools a = some p → ∃ f, st.calls p = some f ∧ f.addr = a
  hold : ∀ k p, st.phase k = .get p → ∃ i f, st.calls k = some i ∧ st.calls p = some f ∧ f.addr = i.addr
  conns : ∀ c p, st.conns c = some p → ∃ f, st.calls p = some f ∧ Ev.made c f.addr f.tls ∈ st.tr
  idle : ∀ c p, st.idle c = some p → st.conns c = some p
  got : ∀ k c, Ev.got k c ∈ st.tr →
    ∃ i f p, st.calls k = some i ∧ st.conns c = some p ∧ st.calls p = some f ∧ f.addr = i.addr
  fail : ∀ k y, Ev.failed k (.cancelled y) ∈ st.tr →
    ∃ i f p, st.calls k = some i ∧ st.calls p = some f ∧ f.ctx = y ∧ f.addr = i.addr ∧ Ev.cancelled y ∈ st.tr
  canc : ∀ x, st.cancelled x = true → Ev.cancelled x ∈ st.tr

theorem Inv.init : Inv St.init := by
  constructor <;> simp [St.init]

/-- beginning a call -/
theorem Inv.begin {st : St} (h : Inv st) {k x a host : Nat} {t t' : Option Nat} {es : List Ev} (hk : st.calls k = none)
    (hes : ∀ e ∈ es, e = Ev.failed k .other) (ph : Nat → Phase)
    (hph : ∀ j p, ph j = .get p → st.phase j = .get p) :
    Inv { st with
      calls := put st.calls k (some ⟨x, host, t'⟩), phase := ph, tr := es ++ Ev.asked k x a t :: st.tr } := by
  have hold : ∀ {e : Ev}, e ∈ st.tr → e ∈ es ++ Ev.asked k x a t :: st.tr := fun he => by simp [he]
  have hback : ∀ {e : Ev}, e ∈ es ++ Ev.asked k x a t :: st.tr →
      e = Ev.failed k .other ∨ e = Ev.asked k x a t ∨ e ∈ st.tr := by
    intro e he
    simp only [List.mem_append, List.mem_cons] at he
    rcases he with he | he | he
    · exact Or.inl (hes e he)
    · exact Or.inr (Or.inl he)
    · exact Or.inr (Or.inr he)
  have hkn : ∀ x a t, Ev.asked k x a t ∉ st.tr := by
    intro x a t hx
    obtain ⟨i, hi, _⟩ := h.asked k x a t hx
    rw [hk] at hi; simp at hi
  constructor
  · intro j y b s hj
    rcases hback hj with hj | hj | hj
    · simp at hj
    · simp only [Ev.asked.injEq] at hj
      obtain ⟨rfl, rfl, rfl, rfl⟩ := hj
      exact ⟨⟨y, host, t'⟩, by simp [put_eq], rfl⟩
    · obtain ⟨i, hi, h1⟩ := h.asked j y b s hj
      exact ⟨i, put_old hk hi, h1⟩
  · intro j i hj
    simp only [put_eq] at hj
    split at hj
    · rename_i hjk
      simp only [Option.some.injEq] at hj
      subst hj; subst hjk
      exact ⟨a, t, by simp⟩
    · obtain ⟨b, s, h1⟩ := h.ctx j i hj
      exact ⟨b, s, hold h1⟩
  · intro j x1 a1 t1 x2 a2 t2 h1 h2
    rcases hback h1 with h1 | h1 | h3
    · simp at h1
    · simp only [Ev.asked.injEq] at h1
      obtain ⟨rfl, rfl, rfl, rfl⟩ := h1
      rcases hback h2 with h2 | h2 | h2
      · simp at h2
      · simp only [Ev.asked.injEq] at h2
        obtain ⟨_, rfl, rfl, rfl⟩ := h2
        exact ⟨rfl, rfl, rfl⟩
      · exact absurd h2 (hkn _ _ _)
    · rcases hback h2 with h2 | h2 | h2
      · simp at h2
      · simp only [Ev.asked.injEq] at h2
        obtain ⟨rfl, rfl, rfl, rfl⟩ := h2
        exact absurd h3 (hkn _ _ _)
      · exact h.uniq _ _ _ _ _ _ _ h3 h2
  · intro b p hb
    obtain ⟨f, hf, h1⟩ := h.pools b p hb
    exact ⟨f, put_old hk hf, h1⟩
  · intro j p hj
    obtain ⟨i, f, h1, h2, h3⟩ := h.hold j p (hph j p hj)
    exact ⟨i, f, put_old hk h1, put_old hk h2, h3⟩
  · intro c p hc
    obtain ⟨f, h1, h2⟩ := h.conns c p hc
    exact ⟨f, put_old hk h1, hold h2⟩
  · exact h.idle
  · intro j c hj
    rcases hback hj with hj | hj | hj
    · simp at hj
    · simp at hj
    · obtain ⟨i, f, p, h1, h2, h3, h4⟩ := h.got j c hj
      exact ⟨i, f, p, put_old hk h1, h2, put_old hk h3, h4⟩
  · intro j y hj
    rcases hback hj with hj | hj | hj
    · simp at hj
    · simp at hj
    · obtain ⟨i, f, p, h1, h2, h3, h4, h5⟩ := h.fail j y hj
      exact ⟨i, f, p, put_old hk h1, put_old hk h2, h3, h4, hold h5⟩
  · intro y hy; exact hold (h.canc y hy)

/-- moving a call on -/
theorem Inv.move {st : St} (h : Inv st) (ph : Nat → Phase)
    (hph : ∀ j p, ph j = .get p →
      st.phase j = .get p ∨ ∃ i f, st.calls j = some i ∧ st.calls p = some f ∧ f.addr = i.addr) (k : Nat)
    (es : List Ev) (hes : ∀ e ∈ es, e = Ev.failed k .other) :
    Inv { st with phase := ph, tr := es ++ st.tr } := by
  have hback : ∀ {e : Ev}, e ∈ es ++ st.tr → e = Ev.failed k .other ∨ e ∈ st.tr := by
    intro e he
    rcases List.mem_append.mp he with he | he
    · exact Or.inl (hes e he)
    · exact Or.inr he
  have hold : ∀ {e : Ev}, e ∈ st.tr → e ∈ es ++ st.tr := fun he => by simp [he]
  constructor
  · intro j y b s hj
    rcases hback hj with hj | hj
    · simp at hj
    · exact h.asked j y b s hj
  · intro j i hj
    obtain ⟨a, t, h1⟩ := h.ctx j i hj
    exact ⟨a, t, hold h1⟩
  · intro j x1 a1 t1 x2 a2 t2 h1 h2
    rcases hback h1 with h1 | h1
    · simp at h1
    · rcases hback h2 with h2 | h2
      · simp at h2
      · exact h.uniq _ _ _ _ _ _ _ h1 h2
  · exact h.pools
  · intro j p hj
    rcases hph j p hj with h1 | h1
    · exact h.hold j p h1
    · exact h1
  · intro c p hc
    obtain ⟨f, h1, h2⟩ := h.conns c p hc
    exact ⟨f, h1, hold h2⟩
  · exact h.idle
  · intro j c hj
    rcases hback hj with hj | hj
    · simp at hj
    · exact h.got j c hj
  · intro j y hj
    rcases hback hj with hj | hj
    · simp at hj
    · obtain ⟨i, f, p, h1, h2, h3, h4, h5⟩ := h.fail j y hj
      exact ⟨i, f, p, h1, h2, h3, h4, hold h5⟩
  · intro x hx; exact hold (h.canc x hx)

theorem phase_put {ph : Nat → Phase} {k j p : Nat} {v : Phase} (hv : ∀ q, v ≠ .get q) (h : put ph k v j = .get p) :
    ph j = .get p := by
  rw [put_eq] at h
  split at h
  · exact absurd h (hv p)
  · exact h

theorem Inv.exec {st st' : St} (h : Inv st) (a : Act) (he : exec st a = some st') : Inv st' := by
  cases a with
  | config host p =>
    simp only [Net.OutTcp.exec, Option.some.injEq] at he
    subst he
    exact ⟨h.asked, h.ctx, h.uniq, h.pools, h.hold, h.conns, h.idle, h.got, h.fail, h.canc⟩
  | begin k x host err =>
    simp only [Net.OutTcp.exec] at he
    split at he
    · simp at he
    · rename_i hk
      split at he
      · simp only [Option.some.injEq] at he
        subst he
        exact h.begin (es := []) hk (by simp) _ (fun j p hj => phase_put (by simp) hj)
      · simp only [Option.some.injEq] at he
        subst he
        exact h.begin (es := [.failed k .other]) hk (by simp) _ (fun j p hj => phase_put (by simp) hj)
      · simp only [Option.some.injEq] at he
        subst he
        exact h.begin (es := []) hk (by simp) _ (fun j p hj => phase_put (by simp) hj)
  | check k =>
    simp only [Net.OutTcp.exec] at he
    split at he
    · simp only [Option.some.injEq] at he
      subst he
      exact h.move _ (fun j p hj => Or.inl (phase_put (by intro q; split <;> simp) hj)) k [] (by simp)
    · simp at he
  | add k =>
    simp only [Net.OutTcp.exec] at he
    split at he
    · rename_i i hi hp
      simp only [Option.some.injEq] at he
      subst he
      have h1 := h.move (put st.phase k .fetch) (fun j p hj => Or.inl (phase_put (by simp) hj)) k [] (by simp)
      refine ⟨h1.asked, h1.ctx, h1.uniq, ?_, h1.hold, h1.conns, h1.idle, h1.got, h1.fail, h1.canc⟩
      intro a p ha
      simp only at ha
      split at ha
      · exact h.pools a p ha
      · rw [put_eq] at ha
        split at ha
        · rename_i hai
          simp only [Option.some.injEq] at ha
          subst ha
          exact ⟨i, hi, hai.symm⟩
        · exact h.pools a p ha
    · simp at he
  | fetch k =>
    simp only [Net.OutTcp.exec] at he
    split at he
    · rename_i i hi hp
      split at he
      · simp only [Option.some.injEq] at he
        subst he
        exact h.move _ (fun j p hj => Or.inl (phase_put (by simp) hj)) k [.failed k .other] (by simp)
      · rename_i p hpp
        simp only [Option.some.injEq] at he
        subst he
        refine h.move (put st.phase k (.get p)) ?_ k [] (by simp)
        intro j q hj
        rw [put_eq] at hj
        split at hj
        · rename_i hjk
          simp only [Phase.get.injEq] at hj
          subst hj; subst hjk
          obtain ⟨f, hf, hfa⟩ := h.pools _ _ hpp
          exact Or.inr ⟨i, f, hi, hf, hfa⟩
        · exact Or.inl hj
    · simp at he
  | take k c =>
    simp only [Net.OutTcp.exec] at he
    split at he
    · rename_i p hp
      split at he
      · rename_i hc
        simp only [Option.some.injEq] at he
        subst he
        have h1 := h.move (put st.phase k .done) (fun j p hj => Or.inl (phase_put (by simp) hj)) k [] (by simp)
        obtain ⟨i, f, hi, hf, hfi⟩ := h.hold k p hp
        refine ⟨?_, ?_, ?_, h1.pools, h1.hold, ?_, ?_, ?_, ?_, ?_⟩
        · intro j y b s hj; exact h.asked j y b s (by simpa using hj)
        · intro j i' hj
          obtain ⟨a, t, h2⟩ := h.ctx j i' hj
          exact ⟨a, t, by simp [h2]⟩
        · intro j x1 a1 t1 x2 a2 t2 h2 h3
          exact h.uniq _ _ _ _ _ _ _ (by simpa using h2) (by simpa using h3)
        · intro c' q hq
          obtain ⟨f', h2, h3⟩ := h.conns c' q hq
          exact ⟨f', h2, by simp [h3]⟩
        · intro c' q hq
          simp only [put_eq] at hq
          split at hq
          · simp at hq
          · exact h.idle c' q hq
        · intro j c' hj
          rcases List.mem_cons.mp hj with hj | hj
          · simp only [Ev.got.injEq] at hj
            obtain ⟨rfl, rfl⟩ := hj
            exact ⟨i, f, p, hi, h.idle _ _ hc, hf, hfi⟩
          · exact h.got j c' hj
        · intro j y hj
          obtain ⟨i', f', p', h2, h3, h4, h5, h6⟩ := h.fail j y (by simpa using hj)
          exact ⟨i', f', p', h2, h3, h4, h5, by simp [h6]⟩
        · intro x hx
          have := h.canc x hx
          simp [this]
      · simp at he
    · simp at he
  | create k c ok =>
    simp only [Net.OutTcp.exec] at he
    split at he
    · rename_i p hp
      obtain ⟨i, f0, hi, hf0, hfi⟩ := h.hold k p hp
      split at he
      · rename_i f hf hcn
        rw [hf] at hf0
        simp only [Option.some.injEq] at hf0
        subst hf0
        split at he
        · rename_i hx
          simp only [Option.some.injEq] at he
          subst he
          have h1 := h.move (put st.phase k .done) (fun j p hj => Or.inl (phase_put (by simp) hj)) k [] (by simp)
          refine ⟨?_, ?_, ?_, h1.pools, h1.hold, ?_, h.idle, ?_, ?_, ?_⟩
          · intro j y b s hj; exact h.asked j y b s (by simpa using hj)
          · intro j i' hj
            obtain ⟨a, t, h2⟩ := h.ctx j i' hj
            exact ⟨a, t, by simp [h2]⟩
          · intro j x1 a1 t1 x2 a2 t2 h2 h3
            exact h.uniq _ _ _ _ _ _ _ (by simpa using h2) (by simpa using h3)
          · intro c' q hq
            obtain ⟨f', h2, h3⟩ := h.conns c' q hq
            exact ⟨f', h2, by simp [h3]⟩
          · intro j c' hj
            exact h.got j c' (by simpa using hj)
          · intro j y hj
            rcases List.mem_cons.mp hj with hj | hj
            · simp only [Ev.failed.injEq, Why.cancelled.injEq] at hj
              obtain ⟨rfl, rfl⟩ := hj
              exact ⟨i, f, p, hi, hf, rfl, hfi, by simp [h.canc _ hx]⟩
            · obtain ⟨i', f', p', h2, h3, h4, h5, h6⟩ := h.fail j y hj
              exact ⟨i', f', p', h2, h3, h4, h5, by simp [h6]⟩
          · intro x hx'
            have := h.canc x hx'
            simp [this]
        · split at he
          · simp only [Option.some.injEq] at he
            subst he
            have h1 := h.move (put st.phase k .done) (fun j p hj => Or.inl (phase_put (by simp) hj)) k [] (by simp)
            refine ⟨?_, ?_, ?_, h1.pools, h1.hold, ?_, ?_, ?_, ?_, ?_⟩
            · intro j y b s hj; exact h.asked j y b s (by simpa using hj)
            · intro j i' hj
              obtain ⟨a, t, h2⟩ := h.ctx j i' hj
              exact ⟨a, t, by simp [h2]⟩
            · intro j x1 a1 t1 x2 a2 t2 h2 h3
              exact h.uniq _ _ _ _ _ _ _ (by simpa using h2) (by simpa using h3)
            · intro c' q hq
              simp only [put_eq] at hq
              split at hq
              · rename_i hcc
                simp only [Option.some.injEq] at hq
                subst hq; subst hcc
                exact ⟨f, hf, by simp⟩
              · obtain ⟨f', h2, h3⟩ := h.conns c' q hq
                exact ⟨f', h2, by simp [h3]⟩
            · intro c' q hq
              have h2 := h.idle c' q hq
              show put st.conns c (some p) c' = some q
              rw [put_eq, if_neg]
              · exact h2
              · rintro rfl; rw [hcn] at h2; simp at h2
            · intro j c' hj
              simp only [List.mem_cons, Ev.got.injEq, reduceCtorEq, false_or] at hj
              rcases hj with ⟨rfl, rfl⟩ | hj
              · exact ⟨i, f, p, hi, by simp [put_eq], hf, hfi⟩
              · obtain ⟨i', f', p', h2, h3, h4⟩ := h.got j c' hj
                refine ⟨i', f', p', h2, ?_, h4⟩
                show put st.conns c (some p) c' = some p'
                rw [put_eq, if_neg]
                · exact h3
                · rintro rfl; rw [hcn] at h3; simp at h3
            · intro j y hj
              obtain ⟨i', f', p', h2, h3, h4, h5, h6⟩ := h.fail j y (by simpa using hj)
              exact ⟨i', f', p', h2, h3, h4, h5, by simp [h6]⟩
            · intro x hx'
              have := h.canc x hx'
              simp [this]
          · simp only [Option.some.injEq] at he
            subst he
            exact h.move _ (fun j p hj => Or.inl (phase_put (by simp) hj)) k [.failed k .other] (by simp)
      · simp at he
    · simp at he
  | giveBack c =>
    simp only [Net.OutTcp.exec] at he
    split at he
    · rename_i p hp
      simp only [Option.some.injEq] at he
      subst he
      refine ⟨h.asked, h.ctx, h.uniq, h.pools, h.hold, h.conns, ?_, h.got, h.fail, h.canc⟩
      intro c' q hq
      simp only [put_eq] at hq
      split at hq
      · rename_i hcc
        simp only [Option.some.injEq] at hq
        subst hq; subst hcc
        exact hp
      · exact h.idle c' q hq
    · simp at he
  | gone a =>
    simp only [Net.OutTcp.exec, Option.some.injEq] at he
    subst he
    refine ⟨h.asked, h.ctx, h.uniq, ?_, h.hold, h.conns, h.idle, h.got, h.fail, h.canc⟩
    intro b p hb
    simp only [put_eq] at hb
    split at hb
    · simp at hb
    · exact h.pools b p hb
  | cancel x =>
    simp only [Net.OutTcp.exec, Option.some.injEq] at he
    subst he
    refine ⟨?_, ?_, ?_, h.pools, h.hold, ?_, h.idle, ?_, ?_, ?_⟩
    · intro j y b s hj; exact h.asked j y b s (by simpa using hj)
    · intro j i' hj
      obtain ⟨a, t, h2⟩ := h.ctx j i' hj
      exact ⟨a, t, by simp [h2]⟩
    · intro j x1 a1 t1 x2 a2 t2 h2 h3
      exact h.uniq _ _ _ _ _ _ _ (by simpa using h2) (by simpa using h3)
    · intro c' q hq
      obtain ⟨f', h2, h3⟩ := h.conns c' q hq
      exact ⟨f', h2, by simp [h3]⟩
    · intro j c' hj
      exact h.got j c' (by simpa using hj)
    · intro j y hj
      obtain ⟨i', f', p', h2, h3, h4, h5, h6⟩ := h.fail j y (by simpa using hj)
      exact ⟨i', f', p', h2, h3, h4, h5, by simp [h6]⟩
    · intro y hy
      simp only [put_eq] at hy
      split at hy
      · rename_i hyx; simp [hyx]
      · simp [h.canc y hy]

/-- the call's recorded settings are those the mesh wanted -/
def Real (st : St) (k : Nat) : Prop := ∀ i, st.calls k = some i → Ev.asked k i.ctx i.addr i.tls ∈ st.tr

/-- Invariant when discovery does not fail. -/
structure RInv (st : St) : Prop where
  inv : Inv st
  live : ∀ k, st.phase k ≠ .done → Real st k
  pools : ∀ a p, st.pools a = some p → Real st p
  hold : ∀ k p, st.phase k = .get p → Real st p
  conns : ∀ c p, st.conns c = some p → Real st p
  got : ∀ k c, Ev.got k c ∈ st.tr → Real st k

theorem RInv.init : RInv St.init := by
  refine ⟨Inv.init, ?_, ?_, ?_, ?_, ?_⟩ <;> simp [St.init, Real]

theorem Real.mono {st st' : St} {k : Nat} (h : Real st k) (hc : st'.calls = st.calls) (ht : ∀ e ∈ st.tr, e ∈ st'.tr) :
    Real st' k := by
  intro i hi
  rw [hc] at hi
  exact ht _ (h i hi)

theorem Real.begin {st st' : St} {k j : Nat} {v : Call} (h : Real st j) (hk : j = k → Ev.asked k v.ctx v.addr v.tls ∈ st'.tr)
    (hc : st'.calls = put st.calls k (some v)) (ht : ∀ e ∈ st.tr, e ∈ st'.tr) : Real st' j := by
  intro i hi
  rw [hc, put_eq] at hi
  split at hi
  · rename_i hjk
    simp only [Option.some.injEq] at hi
    subst hi; subst hjk
    exact hk rfl
  · exact ht _ (h i hi)

theorem RInv.rest {st st' : St} (h : RInv st) (hinv : Inv st') (hc : st'.calls = st.calls) (ht : ∀ e ∈ st.tr, e ∈ st'.tr)
    (live : ∀ k, st'.phase k ≠ .done → Real st k) (pools : ∀ a p, st'.pools a = some p → Real st p)
    (hold : ∀ k p, st'.phase k = .get p → Real st p) (conns : ∀ c p, st'.conns c = some p → Real st p)
    (got : ∀ k c, Ev.got k c ∈ st'.tr → Real st k) : RInv st' :=
  ⟨hinv, fun k h => (live k h).mono hc ht, fun a p h => (pools a p h).mono hc ht, fun k p h => (hold k p h).mono hc ht,
    fun c p h => (conns c p h).mono hc ht, fun k c h => (got k c h).mono hc ht⟩

theorem RInv.exec {st st' : St} (h : RInv st) (a : Act) (hg : Discovering st a) (he : exec st a = some st') : RInv st' := by
  have hinv := h.inv.exec a he
  cases a with
  | config host p =>
    simp only [Net.OutTcp.exec, Option.some.injEq] at he
    subst he
    exact ⟨hinv, h.live, h.pools, h.hold, h.conns, h.got⟩
  | begin k x host err =>
    simp only [Discovering] at hg
    subst hg
    simp only [Net.OutTcp.exec, Bool.false_eq_true, if_false] at he
    split at he
    · simp at he
    · rename_i hk
      have hpool : ∀ {p : Nat} {f : Call}, st.calls p = some f → p ≠ k := by
        rintro p f hf rfl; rw [hk] at hf; simp at hf
      -- the cases where the call goes on
      have go : ∀ (v : Call) (ph : Nat → Phase) (tr : List Ev), (∀ e ∈ st.tr, e ∈ tr) →
          (∀ k' c', Ev.got k' c' ∈ tr → Ev.got k' c' ∈ st.tr) →
          (∀ j, j ≠ k → ph j = st.phase j) →
          (∀ p, ph k ≠ .get p) →
          (ph k ≠ .done → Ev.asked k v.ctx v.addr v.tls ∈ tr) →
          Inv { st with calls := put st.calls k (some v), phase := ph, tr := tr } →
          RInv { st with calls := put st.calls k (some v), phase := ph, tr := tr } := by
        intro v ph tr ht hgot hph hget hlive hinv
        refine ⟨hinv, ?_, ?_, ?_, ?_, ?_⟩
        · intro j hj i hi
          simp only [put_eq] at hi
          split at hi
          · rename_i hjk
            simp only [Option.some.injEq] at hi
            subst hi; subst hjk
            exact hlive hj
          · rename_i hjk
            exact ht _ (h.live j (by rw [← hph j hjk]; exact hj) i hi)
        · intro b p hb
          obtain ⟨f, hf, _⟩ := h.inv.pools b p hb
          exact (h.pools b p hb).begin (k := k) (v := v) (fun he => absurd he (hpool hf)) rfl ht
        · intro j p hj
          have hjk : j ≠ k := by rintro rfl; exact hget p hj
          have hj' : st.phase j = .get p := by rw [← hph j hjk]; exact hj
          obtain ⟨i, f, _, hf, _⟩ := h.inv.hold j p hj'
          exact (h.hold j p hj').begin (k := k) (v := v) (fun he => absurd he (hpool hf)) rfl ht
        · intro c p hc
          obtain ⟨f, hf, _⟩ := h.inv.conns c p hc
          exact (h.conns c p hc).begin (k := k) (v := v) (fun he => absurd he (hpool hf)) rfl ht
        · intro j c hj
          obtain ⟨i, f, p, hi, _⟩ := h.inv.got j c (hgot j c hj)
          exact (h.got j c (hgot j c hj)).begin (k := k) (v := v) (fun he => absurd he (hpool hi)) rfl ht
      split at he
      · rename_i hm
        simp only [Option.some.injEq] at he
        subst he
        refine go ⟨x, host, none⟩ _ _ (by intro e h; simp [h]) (by intro _ _ h; simpa using h) ?_ (by simp [put_eq]) ?_ hinv
        · intro j hj; simp [put_eq, hj]
        · intro _; simp [hm, wantAddr, wantTls]
      · simp only [Option.some.injEq] at he
        subst he
        refine go _ _ _ (by intro e h; simp [h]) (by intro _ _ h; simpa using h) ?_ (by simp [put_eq]) (by simp [put_eq]) hinv
        intro j hj; simp [put_eq, hj]
      · rename_i a t hm
        simp only [Option.some.injEq] at he
        subst he
        refine go ⟨x, a, t⟩ _ _ (by intro e h; simp [h]) (by intro _ _ h; simpa using h) ?_ (by simp [put_eq]) ?_ hinv
        · intro j hj; simp [put_eq, hj]
        · intro _; simp [hm, wantAddr, wantTls]
  | check k =>
    simp only [Net.OutTcp.exec] at he
    split at he
    · rename_i i hi hp
      simp only [Option.some.injEq] at he
      subst he
      refine h.rest hinv rfl (fun e he => he) ?_ h.pools ?_ h.conns h.got
      · intro j hj
        simp only [put_eq] at hj
        split at hj
        · rename_i hjk; subst hjk; exact h.live j (by rw [hp]; simp)
        · exact h.live j hj
      · intro j p hj
        exact h.hold j p (phase_put (by intro q; split <;> simp) hj)
    · simp at he
  | add k =>
    simp only [Net.OutTcp.exec] at he
    split at he
    · rename_i i hi hp
      simp only [Option.some.injEq] at he
      subst he
      refine h.rest hinv rfl (fun e he => he) ?_ ?_ ?_ h.conns h.got
      · intro j hj
        simp only [put_eq] at hj
        split at hj
        · rename_i hjk; subst hjk; exact h.live j (by rw [hp]; simp)
        · exact h.live j hj
      · intro a p ha
        simp only at ha
        split at ha
        · exact h.pools a p ha
        · rw [put_eq] at ha
          split at ha
          · simp only [Option.some.injEq] at ha
            subst ha
            exact h.live k (by rw [hp]; simp)
          · exact h.pools a p ha
      · intro j p hj
        exact h.hold j p (phase_put (by simp) hj)
    · simp at he
  | fetch k =>
    simp only [Net.OutTcp.exec] at he
    split at he
    · rename_i i hi hp
      split at he
      · simp only [Option.some.injEq] at he
        subst he
        refine h.rest hinv rfl (fun e he => by simp [he]) ?_ h.pools ?_ h.conns (fun j c hj => h.got j c (by simpa using hj))
        · intro j hj
          simp only [put_eq] at hj
          split at hj
          · simp at hj
          · exact h.live j hj
        · intro j p hj
          exact h.hold j p (phase_put (by simp) hj)
      · rename_i p hpp
        simp only [Option.some.injEq] at he
        subst he
        refine h.rest hinv rfl (fun e he => he) ?_ h.pools ?_ h.conns h.got
        · intro j hj
          simp only [put_eq] at hj
          split at hj
          · rename_i hjk; subst hjk; exact h.live j (by rw [hp]; simp)
          · exact h.live j hj
        · intro j q hj
          simp only [put_eq] at hj
          split at hj
          · simp only [Phase.get.injEq] at hj
            subst hj
            exact h.pools _ _ hpp
          · exact h.hold j q hj
    · simp at he
  | take k c =>
    simp only [Net.OutTcp.exec] at he
    split at he
    · rename_i p hp
      split at he
      · simp only [Option.some.injEq] at he
        subst he
        refine h.rest hinv rfl (fun e he => by simp [he]) ?_ h.pools ?_ h.conns ?_
        · intro j hj
          simp only [put_eq] at hj
          split at hj
          · simp at hj
          · exact h.live j hj
        · intro j p hj
          exact h.hold j p (phase_put (by simp) hj)
        · intro j c' hj
          rcases List.mem_cons.mp hj with hj | hj
          · simp only [Ev.got.injEq] at hj
            obtain ⟨rfl, rfl⟩ := hj
            exact h.live _ (by rw [hp]; simp)
          · exact h.got j c' hj
      · simp at he
    · simp at he
  | create k c ok =>
    simp only [Net.OutTcp.exec] at he
    split at he
    · rename_i p hp
      have live' : ∀ j, put st.phase k .done j ≠ .done → Real st j := by
        intro j hj
        simp only [put_eq] at hj
        split at hj
        · simp at hj
        · exact h.live j hj
      have hold' : ∀ j p, put st.phase k .done j = .get p → Real st p :=
        fun j p hj => h.hold j p (phase_put (by simp) hj)
      split at he
      · rename_i f hf hcn
        split at he
        · simp only [Option.some.injEq] at he
          subst he
          exact h.rest hinv rfl (fun e he => by simp [he]) live' h.pools hold' h.conns
            (fun j c hj => h.got j c (by simpa using hj))
        · split at he
          · simp only [Option.some.injEq] at he
            subst he
            refine h.rest hinv rfl (fun e he => by simp [he]) live' h.pools hold' ?_ ?_
            · intro c' q hq
              simp only [put_eq] at hq
              split at hq
              · simp only [Option.some.injEq] at hq
                subst hq
                exact h.hold k _ hp
              · exact h.conns c' q hq
            · intro j c' hj
              simp only [List.mem_cons, Ev.got.injEq, reduceCtorEq, false_or] at hj
              rcases hj with ⟨rfl, rfl⟩ | hj
              · exact h.live _ (by rw [hp]; simp)
              · exact h.got j c' hj
          · simp only [Option.some.injEq] at he
            subst he
            exact h.rest hinv rfl (fun e he => by simp [he]) live' h.pools hold' h.conns
              (fun j c hj => h.got j c (by simpa using hj))
      · simp at he
    · simp at he
  | giveBack c =>
    simp only [Net.OutTcp.exec] at he
    split at he
    · simp only [Option.some.injEq] at he
      subst he
      exact h.rest hinv rfl (fun e he => he) h.live h.pools h.hold h.conns h.got
    · simp at he
  | gone a =>
    simp only [Net.OutTcp.exec, Option.some.injEq] at he
    subst he
    refine h.rest hinv rfl (fun e he => he) h.live ?_ h.hold h.conns h.got
    intro b p hb
    simp only [put_eq] at hb
    split at hb
    · simp at hb
    · exact h.pools b p hb
  | cancel x =>
    simp only [Net.OutTcp.exec, Option.some.injEq] at he
    subst he
    exact h.rest hinv rfl (fun e he => by simp [he]) h.live h.pools h.hold h.conns
      (fun j c hj => h.got j c (by simpa using hj))

theorem reach_inv {g : St → Act → Prop} {st : St} (h : Reach g st) : Inv st := by
  induction h with
  | init => exact Inv.init
  | step a _ _ he ih => exact ih.exec a he

theorem Reach.mono {g g' : St → Act → Prop} (hgg : ∀ st a, g st a → g' st a) {st : St} (h : Reach g st) : Reach g' st := by
  induction h with
  | init => exact .init
  | step a _ hg he ih => exact .step a ih (hgg _ _ hg) he

theorem reach_rinv {st : St} (h : Reach Discovering st) : RInv st := by
  induction h with
  | init => exact RInv.init
  | step a _ hg he ih => exact ih.exec a hg he

/-- which `asked` events a step adds -/
theorem asked_new {st st' : St} {a : Act} (he : exec st a = some st') {k x b : Nat} {t : Option Nat}
    (h : Ev.asked k x b t ∈ st'.tr) :
    Ev.asked k x b t ∈ st.tr ∨ ∃ host err, a = .begin k x host err ∧ b = wantAddr (st.mesh host) host ∧
      t = wantTls (st.mesh host) := by
  cases a with
  | begin k' x' host err =>
    simp only [Net.OutTcp.exec] at he
    split at he
    · simp at he
    · split at he <;> (simp only [Option.some.injEq] at he; subst he) <;>
        simp only [List.mem_cons, Ev.asked.injEq, reduceCtorEq, false_or] at h <;>
        (rcases h with ⟨rfl, rfl, rfl, rfl⟩ | h
         · exact Or.inr ⟨host, err, rfl, rfl, rfl⟩
         · exact Or.inl h)
  | config host p => simp only [Net.OutTcp.exec, Option.some.injEq] at he; subst he; exact Or.inl h
  | gone a => simp only [Net.OutTcp.exec, Option.some.injEq] at he; subst he; exact Or.inl h
  | cancel y => simp only [Net.OutTcp.exec, Option.some.injEq] at he; subst he; exact Or.inl (by simpa using h)
  | giveBack c =>
    simp only [Net.OutTcp.exec] at he
    split at he
    · simp only [Option.some.injEq] at he; subst he; exact Or.inl h
    · simp at he
  | check k' =>
    simp only [Net.OutTcp.exec] at he
    split at he
    · simp only [Option.some.injEq] at he; subst he; exact Or.inl h
    · simp at he
  | add k' =>
    simp only [Net.OutTcp.exec] at he
    split at he
    · simp only [Option.some.injEq] at he; subst he; exact Or.inl h
    · simp at he
  | fetch k' =>
    simp only [Net.OutTcp.exec] at he
    split at he
    · split at he <;> (simp only [Option.some.injEq] at he; subst he; exact Or.inl (by simpa using h))
    · simp at he
  | take k' c =>
    simp only [Net.OutTcp.exec] at he
    split at he
    · split at he
      · simp only [Option.some.injEq] at he; subst he; exact Or.inl (by simpa using h)
      · simp at he
    · simp at he
  | create k' c ok =>
    simp only [Net.OutTcp.exec] at he
    split at he
    · split at he
      · split at he
        · simp only [Option.some.injEq] at he; subst he; exact Or.inl (by simpa using h)
        · split at he <;> (simp only [Option.some.injEq] at he; subst he; exact Or.inl (by simpa using h))
      · simp at he
    · simp at he

/-- with settled settings, all calls to an address want the same -/
theorem agree {st : St} (h : Reach Settled st) (k k' x x' a : Nat) (t t' : Option Nat) (h1 : Ev.asked k x a t ∈ st.tr)
    (h2 : Ev.asked k' x' a t' ∈ st.tr) : t = t' := by
  induction h with
  | init => simp [St.init] at h1
  | step act _ hg he ih =>
    rcases asked_new he h1 with h1 | ⟨host, err, rfl, ha, ht⟩
    · rcases asked_new he h2 with h2 | ⟨host, err, rfl, ha, ht⟩
      · exact ih h1 h2
      · rw [ht]; exact hg.2 _ _ _ _ h1 ha
    · rcases asked_new he h2 with h2 | ⟨host', err', he', ha', ht'⟩
      · rw [ht]; exact (hg.2 _ _ _ _ h2 ha).symm
      · simp only [Act.begin.injEq] at he'
        obtain ⟨_, _, rfl, _⟩ := he'
        rw [ht, ht']

end OutTcp

open OutTcp

/-- C61: as long as discovery answers, every connection handed to a caller goes to the endpoint the mesh had for its host
when it asked — for every interleaving of calls, pool removal, reuse, cancellation and configuration changes. -/
theorem C61_address (st : St) (h : Reach Discovering st) : RightAddress st.tr := by
  intro k c x a t hg ha
  have hr := reach_rinv h
  obtain ⟨i, f, p, hi, hc, hf, hfi⟩ := hr.inv.got k c hg
  obtain ⟨f', hf', hm⟩ := hr.inv.conns c p hc
  rw [hf] at hf'
  simp only [Option.some.injEq] at hf'
  subst hf'
  obtain ⟨_, h2, _⟩ := hr.inv.uniq _ _ _ _ _ _ _ ha (hr.got k c hg i hi)
  exact ⟨f.tls, by rw [h2, ← hfi]; exact hm⟩

/-- C197: if besides the settings wanted for an address do not change, every connection handed to a caller has the TLS
identity the mesh wanted for the call. -/
theorem C197_secured_partial (st : St) (h : Reach Settled st) : Secured st.tr := by
  intro k c x a t hg ha
  have hr := reach_rinv (OutTcp.Reach.mono (g' := Discovering) (by
    intro st a hs
    cases a <;> first | exact hs.1 | trivial) h)
  obtain ⟨i, f, p, hi, hc, hf, hfi⟩ := hr.inv.got k c hg
  obtain ⟨f', hf', hm⟩ := hr.inv.conns c p hc
  rw [hf] at hf'
  simp only [Option.some.injEq] at hf'
  subst hf'
  obtain ⟨_, h2, h3⟩ := hr.inv.uniq _ _ _ _ _ _ _ ha (hr.got k c hg i hi)
  have h4 := hr.conns c p hc f hf
  have h5 := hr.got k c hg i hi
  rw [hfi] at h4
  have h6 := agree h _ _ _ _ _ _ _ h4 h5
  rw [h2, h3, ← h6, ← hfi]
  exact hm

/-- C61: whatever happens, a connection handed to a caller was made with the settings of a call to the same address. -/
theorem C61_some_call (st : St) (h : Reach Discovering st) (k c x a : Nat) (t : Option Nat) (hg : Ev.got k c ∈ st.tr)
    (ha : Ev.asked k x a t ∈ st.tr) :
    ∃ k' x' t', Ev.asked k' x' a t' ∈ st.tr ∧ Ev.made c a t' ∈ st.tr := by
  have hr := reach_rinv h
  obtain ⟨i, f, p, hi, hc, hf, hfi⟩ := hr.inv.got k c hg
  obtain ⟨f', hf', hm⟩ := hr.inv.conns c p hc
  rw [hf] at hf'
  simp only [Option.some.injEq] at hf'
  subst hf'
  obtain ⟨_, h2, _⟩ := hr.inv.uniq _ _ _ _ _ _ _ ha (hr.got k c hg i hi)
  have h4 := hr.conns c p hc f hf
  rw [hfi, ← h2] at h4
  rw [hfi, ← h2] at hm
  exact ⟨p, f.ctx, f.tls, h4, hm⟩

/-- C197 is false when settings change: after the mesh starts to require TLS for a host, `DialContext` still makes and returns
plaintext connections, because the pool keeps the factory of the call that created it (a new connection is made here, so
no reuse of old connections is involved). -/
theorem C197_stale_factory_false : ∃ st, Reach Discovering st ∧ Ev.got 2 8 ∈ st.tr ∧ Ev.asked 2 0 5 (some 9) ∈ st.tr ∧
    Ev.made 8 5 none ∈ st.tr ∧ ∀ t, Ev.made 8 5 (some t) ∉ st.tr := by
  refine ⟨_, .step (.create 2 8 true) (.step (.fetch 2) (.step (.check 2) (.step (.begin 2 0 1 false)
    (.step (.config 1 (some ⟨some 5, some 9⟩))
    (.step (.create 1 7 true) (.step (.fetch 1) (.step (.add 1) (.step (.check 1) (.step (.begin 1 0 1 false)
    (.step (.config 1 (some ⟨some 5, none⟩)) .init trivial rfl) rfl rfl) trivial rfl) trivial rfl) trivial rfl) trivial rfl)
    trivial rfl) rfl rfl) trivial rfl) trivial rfl) trivial rfl, ?_, ?_, ?_, ?_⟩
  · decide
  · decide
  · decide
  · intro t; simp [St.init, wantAddr, wantTls, put]

/-- C197 is false when discovery fails: the error is ignored and the host is dialled by name without TLS. -/
theorem C197_discovery_error_false : ∃ st, Reach Anything st ∧ Ev.got 1 7 ∈ st.tr ∧ Ev.asked 1 0 5 (some 9) ∈ st.tr ∧
    Ev.made 7 1 none ∈ st.tr := by
  refine ⟨_, .step (.create 1 7 true) (.step (.fetch 1) (.step (.add 1) (.step (.check 1) (.step (.begin 1 0 1 true)
    (.step (.config 1 (some ⟨some 5, some 9⟩)) .init trivial rfl) trivial rfl) trivial rfl) trivial rfl) trivial rfl)
    trivial rfl, ?_, ?_, ?_⟩ <;> decide

/-- C62: if all callers use one context, a call fails by cancellation only when its own context was cancelled. -/
theorem C62_own_context_partial (st : St) (h : Reach OneContext st) : OwnContext st.tr := by
  have one : ∀ k k' x x' a a' t t', Ev.asked k x a t ∈ st.tr → Ev.asked k' x' a' t' ∈ st.tr → x = x' := by
    induction h with
    | init => intro k k' x x' a a' t t' h1; simp [St.init] at h1
    | step act _ hg he ih =>
      intro k k' x x' a a' t t' h1 h2
      rcases asked_new he h1 with h1 | ⟨host, err, rfl, ha, ht⟩
      · rcases asked_new he h2 with h2 | ⟨host, err, rfl, ha, ht⟩
        · exact ih _ _ _ _ _ _ _ _ h1 h2
        · exact (hg _ _ _ _ h1).symm
      · rcases asked_new he h2 with h2 | ⟨host', err', he', ha', ht'⟩
        · exact hg _ _ _ _ h2
        · simp only [Act.begin.injEq] at he'
          exact he'.2.1
  intro k x y a t hf ha
  have hi := reach_inv h
  obtain ⟨i, f, p, h1, h2, h3, h4, h5⟩ := hi.fail k y hf
  obtain ⟨a', t', h6⟩ := hi.ctx p f h2
  have : x = y := by rw [← h3]; exact one _ _ _ _ _ _ _ _ ha h6
  exact ⟨this, by rw [this]; exact h5⟩

/-- C62: whatever happens, a call fails by cancellation only when the context of some call was cancelled. -/
theorem C62_some_context (st : St) (h : Reach Anything st) (k y : Nat) (hf : Ev.failed k (.cancelled y) ∈ st.tr) :
    Ev.cancelled y ∈ st.tr ∧ ∃ k' a t, Ev.asked k' y a t ∈ st.tr := by
  have hi := reach_inv h
  obtain ⟨i, f, p, h1, h2, h3, h4, h5⟩ := hi.fail k y hf
  obtain ⟨a', t', h6⟩ := hi.ctx p f h2
  exact ⟨h5, p, a', t', by rw [← h3]; exact h6⟩

/-- C62 is false: after the caller that created an address's pool cancels its context (as every caller with a timeout
does), other callers' dials to that address fail. -/
theorem C62_foreign_context_false : ∃ st, Reach Anything st ∧ Ev.failed 2 (.cancelled 3) ∈ st.tr ∧
    Ev.asked 2 4 5 none ∈ st.tr ∧ Ev.cancelled 4 ∉ st.tr := by
  refine ⟨_, .step (.create 2 8 true) (.step (.fetch 2) (.step (.check 2) (.step (.begin 2 4 5 false)
    (.step (.cancel 3)
    (.step (.create 1 7 true) (.step (.fetch 1) (.step (.add 1) (.step (.check 1) (.step (.begin 1 3 5 false)
    .init trivial rfl) trivial rfl) trivial rfl) trivial rfl) trivial rfl) trivial rfl)
    trivial rfl) trivial rfl) trivial rfl) trivial rfl, ?_, ?_, ?_⟩ <;> decide

/-! non-vacuity: two calls for one TLS host, the second reusing the first's connection, and a cancellation -/
example : ∃ st, Reach Settled st ∧ Ev.got 2 7 ∈ st.tr ∧ Ev.asked 2 0 5 (some 9) ∈ st.tr := by
  refine ⟨_, .step (.take 2 7) (.step (.fetch 2) (.step (.check 2) (.step (.begin 2 0 1 false)
    (.step (.giveBack 7)
    (.step (.create 1 7 true) (.step (.fetch 1) (.step (.add 1) (.step (.check 1) (.step (.begin 1 0 1 false)
    (.step (.config 1 (some ⟨some 5, some 9⟩)) .init trivial rfl) ?_ rfl) trivial rfl) trivial rfl) trivial rfl) trivial rfl)
    trivial rfl) ?_ rfl) trivial rfl) trivial rfl) trivial rfl, ?_, ?_⟩
  · exact ⟨rfl, by simp [St.init]⟩
  · refine ⟨rfl, ?_⟩
    intro k x a t hm ha
    simp [St.init, wantAddr, wantTls, put] at hm
    obtain ⟨_, _, _, rfl⟩ := hm
    rfl
  · decide
  · decide

example : ∃ st, Reach OneContext st ∧ Ev.failed 1 (.cancelled 3) ∈ st.tr ∧ Ev.asked 1 3 5 none ∈ st.tr := by
  refine ⟨_, .step (.create 1 7 true) (.step (.cancel 3) (.step (.fetch 1) (.step (.add 1) (.step (.check 1)
    (.step (.begin 1 3 5 false) .init ?_ rfl) trivial rfl) trivial rfl) trivial rfl) trivial rfl) trivial rfl, ?_, ?_⟩
  · intro k y a t h; simp [St.init] at h
  · decide
  · decide

end Verif.Props
