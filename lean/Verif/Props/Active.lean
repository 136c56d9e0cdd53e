import Verif.Ads.Active
/-
Property theorems C60: the active request counts of the endpoints.
-/
namespace Verif.Props
open Verif.Ads.Active

namespace Active

/-- keys of the list are distinct -/
def NodupKeys (l : List (Nat × Nat)) : Prop := (l.map (·.1)).Nodup

theorem countP_filter_ne {l : List (Nat × Nat)} (hn : NodupKeys l) {c a : Nat} (h : (c, a) ∈ l) (b : Nat) :
    l.countP (fun e => e.2 = b) = (l.filter fun e => e.1 ≠ c).countP (fun e => e.2 = b) + (if a = b then 1 else 0) := by
  induction l with
  | nil => simp at h
  | cons x l ih =>
    simp only [NodupKeys, List.map_cons, List.nodup_cons] at hn
    rw [List.mem_cons] at h
    rcases h with h | h
    · subst h
      have hf : l.filter (fun e => e.1 ≠ c) = l := by
        apply List.filter_eq_self.mpr
        intro e he
        simp only [ne_eq, decide_not, Bool.not_eq_true', decide_eq_false_iff_not]
        intro hc
        exact hn.1 (List.mem_map.mpr ⟨e, he, hc⟩)
      rw [List.filter_cons_of_neg (by simp), hf, List.countP_cons]
      simp
    · have hx : x.1 ≠ c := by
        intro hc
        exact hn.1 (List.mem_map.mpr ⟨(c, a), h, hc.symm⟩)
      rw [List.filter_cons_of_pos (by simpa using hx), List.countP_cons, List.countP_cons, ih hn.2 h]
      omega

theorem filter_absent {l : List (Nat × Nat)} {c : Nat} (h : ∀ a, (c, a) ∉ l) : l.filter (fun e => e.1 ≠ c) = l := by
  apply List.filter_eq_self.mpr
  intro e he
  simp only [ne_eq, decide_not, Bool.not_eq_true', decide_eq_false_iff_not]
  intro hc
  exact h e.2 (by rw [← hc]; exact he)

theorem NodupKeys.filter {l : List (Nat × Nat)} (h : NodupKeys l) (p : Nat × Nat → Bool) : NodupKeys (l.filter p) :=
  List.Nodup.sublist (List.Sublist.map _ List.filter_sublist) h

theorem NodupKeys.cons {l : List (Nat × Nat)} (h : NodupKeys l) {c a : Nat} (hc : ∀ b, (c, b) ∉ l) :
    NodupKeys ((c, a) :: l) := by
  simp only [NodupKeys, List.map_cons, List.nodup_cons]
  refine ⟨?_, h⟩
  intro hm
  obtain ⟨e, he, h1⟩ := List.mem_map.mp hm
  exact hc e.2 (by rw [← h1]; exact he)

/-- the invariant of orderly use -/
structure Inv (st : St) : Prop where
  nodupC : NodupKeys (openConns st.tr)
  nodupR : NodupKeys (inFlight st.tr)
  /-- an open connection is recorded, with its own close wrapper that has not run -/
  conn : ∀ c a, (c, a) ∈ openConns st.tr ↔ ∃ k, st.conns c = some k ∧ k.addr = a ∧ st.fired k.closer = false
  same : ∀ c k, st.conns c = some k → k.remote = k.addr
  own : ∀ c c' k k', st.conns c = some k → st.conns c' = some k' → k.closer = k'.closer → c = c'
  req : ∀ r a, (r, a) ∈ inFlight st.tr ↔ st.reqs r = some a
  known : ∀ a, 0 < uses st.tr a → (st.stats a).isSome
  small : ∀ a, uses st.tr a < M32
  exact : Accurate st

theorem Inv.init : Inv St.init where
  nodupC := by simp [St.init, openConns, NodupKeys]
  nodupR := by simp [St.init, inFlight, NodupKeys]
  conn := by simp [St.init, openConns]
  same := by simp [St.init]
  own := by simp [St.init]
  req := by simp [St.init, inFlight]
  known := by simp [St.init, uses, openConns, inFlight]
  small := by simp [St.init, uses, openConns, inFlight]
  exact := by intro a n h; simp [St.init] at h

theorem inc_some {s : Nat → Option Nat} {a b n : Nat} (h : inc s a b = some n) :
    ∃ m, s b = some m ∧ n = if b = a then (m + 1) % M32 else m := by
  unfold inc at h
  split at h
  · rename_i m hm
    unfold Ads.Active.set at h
    split at h
    · rename_i hb; subst hb; simp only [Option.some.injEq] at h; exact ⟨m, hm, by simp [h]⟩
    · rename_i hb; exact ⟨n, h, by simp [hb]⟩
  · rename_i hm
    refine ⟨n, h, ?_⟩
    rw [if_neg]; rintro rfl; rw [hm] at h; simp at h

theorem dec_some {s : Nat → Option Nat} {a b n : Nat} (h : dec s a b = some n) :
    ∃ m, s b = some m ∧ n = if b = a then (m + (M32 - 1)) % M32 else m := by
  unfold dec at h
  split at h
  · rename_i m hm
    unfold Ads.Active.set at h
    split at h
    · rename_i hb; subst hb; simp only [Option.some.injEq] at h; exact ⟨m, hm, by rw [if_pos rfl]; exact h.symm⟩
    · rename_i hb; exact ⟨n, h, by simp [hb]⟩
  · rename_i hm
    refine ⟨n, h, ?_⟩
    rw [if_neg]; rintro rfl; rw [hm] at h; simp at h

theorem inc_isSome (s : Nat → Option Nat) (a b : Nat) : (inc s a b).isSome = (s b).isSome := by
  unfold inc
  split
  · rename_i m hm
    unfold Ads.Active.set
    split
    · rename_i hb; subst hb; simp [hm]
    · rfl
  · rfl
theorem dec_isSome (s : Nat → Option Nat) (a b : Nat) : (dec s a b).isSome = (s b).isSome := by
  unfold dec
  split
  · rename_i m hm
    unfold Ads.Active.set
    split
    · rename_i hb; subst hb; simp [hm]
    · rfl
  · rfl

theorem uses_opened (tr : List Ev) (c a b : Nat) : uses (.opened c a :: tr) b = uses tr b + if a = b then 1 else 0 := by
  simp only [uses, openConns, inFlight, List.countP_cons, decide_eq_true_eq]
  omega
theorem uses_began (tr : List Ev) (r a b : Nat) : uses (.began r a :: tr) b = uses tr b + if a = b then 1 else 0 := by
  simp only [uses, openConns, inFlight, List.countP_cons, decide_eq_true_eq]
  omega

theorem set_eq {α : Type} (f : Nat → α) (i : Nat) (a : α) (j : Nat) : set f i a j = if j = i then a else f j := rfl

theorem Inv.exec {st st' : St} (h : Inv st) (a : Act) (hg : Orderly st a) (he : exec st a = some st') : Inv st' := by
  cases a with
  | endpoints l =>
    simp only [Ads.Active.exec, Option.some.injEq] at he
    subst he
    refine ⟨h.nodupC, h.nodupR, h.conn, h.same, h.own, h.req, ?_, h.small, ?_⟩
    · intro a ha
      have hk := h.known a ha
      simp only [update, if_pos (hg a ha)]
      split <;> simp_all
    · intro a n hn
      simp only [update] at hn
      split at hn
      · split at hn
        · rename_i m hm
          simp only [Option.some.injEq] at hn; subst hn; exact h.exact a _ hm
        · rename_i hm
          simp only [Option.some.injEq] at hn; subst hn
          by_cases hu : 0 < uses st.tr a
          · have := h.known a hu; rw [hm] at this; simp at this
          · simp only; omega
      · simp at hn
  | dial c conn =>
    simp only [Ads.Active.exec] at he
    cases hc : st.conns c with
    | some k => rw [hc] at he; simp at he
    | none =>
      rw [hc] at he
      simp only [Option.some.injEq] at he
      subst he
      obtain ⟨g1, g2, g3, g4, g5⟩ := hg
      have hnew : ∀ b, (c, b) ∉ openConns st.tr := by
        intro b hb
        obtain ⟨k, hk, _⟩ := (h.conn c b).mp hb
        rw [hc] at hk; simp at hk
      refine ⟨h.nodupC.cons hnew, h.nodupR, ?_, ?_, ?_, h.req, ?_, ?_, ?_⟩
      · intro c' a
        simp only [openConns, List.mem_cons, Prod.mk.injEq, set_eq]
        by_cases hcc : c' = c
        · subst hcc
          simp only [true_and, if_true, Option.some.injEq]
          constructor
          · rintro (h1 | h1)
            · exact ⟨conn, rfl, h1.symm, g3⟩
            · exact absurd h1 (hnew a)
          · rintro ⟨k, rfl, h1, _⟩; exact Or.inl h1.symm
        · simp only [hcc, false_and, false_or, if_false]
          exact h.conn c' a
      · intro c' k hk
        simp only [set_eq] at hk
        split at hk
        · simp only [Option.some.injEq] at hk; subst hk; exact g1
        · exact h.same _ _ hk
      · intro c1 c2 k1 k2 h1 h2 h12
        simp only [set_eq] at h1 h2
        split at h1
        · simp only [Option.some.injEq] at h1; subst h1
          split at h2
          · simp_all
          · exact absurd h12.symm (g2 _ _ h2)
        · split at h2
          · simp only [Option.some.injEq] at h2; subst h2
            exact absurd h12 (g2 _ _ h1)
          · exact h.own _ _ _ _ h1 h2 h12
      · intro a ha
        rw [inc_isSome]
        rw [uses_opened] at ha
        by_cases hab : conn.addr = a
        · subst hab; exact g4
        · rw [if_neg hab] at ha; exact h.known a ha
      · intro a
        rw [uses_opened]
        by_cases hab : conn.addr = a
        · subst hab; simp only [if_true]; exact g5
        · rw [if_neg hab]; exact h.small a
      · intro a n hn
        obtain ⟨m, hm, rfl⟩ := inc_some hn
        have := h.exact a m hm
        rw [uses_opened]
        by_cases hab : a = conn.addr
        · subst hab
          simp only [if_true]
          rw [this, Nat.mod_eq_of_lt g5]
        · rw [if_neg hab, if_neg (fun h => hab h.symm)]; omega
  | close c =>
    simp only [Ads.Active.exec] at he
    cases hc : st.conns c with
    | none => rw [hc] at he; simp at he
    | some conn =>
      rw [hc] at he
      simp only at he
      cases hf : st.fired conn.closer with
      | true =>
        rw [hf] at he
        simp only [if_true, Option.some.injEq] at he
        subst he
        have hno : ∀ b, (c, b) ∉ openConns st.tr := by
          intro b hb
          obtain ⟨k, hk, _, hkf⟩ := (h.conn c b).mp hb
          rw [hc] at hk; simp only [Option.some.injEq] at hk; subst hk
          rw [hf] at hkf; simp at hkf
        have ho : openConns (.closed c :: st.tr) = openConns st.tr := filter_absent hno
        have hu : ∀ a, uses (.closed c :: st.tr) a = uses st.tr a := by intro a; simp only [uses, ho, inFlight]
        refine ⟨by rw [ho]; exact h.nodupC, h.nodupR, by rw [ho]; exact h.conn, h.same, h.own, h.req, ?_, ?_, ?_⟩
        · intro a ha
          have ha' : 0 < uses (.closed c :: st.tr) a := ha
          rw [hu] at ha'; exact h.known a ha'
        · intro a; show uses (.closed c :: st.tr) a < M32; rw [hu]; exact h.small a
        · intro a n hn; show n = uses (.closed c :: st.tr) a; rw [hu]; exact h.exact a n hn
      | false =>
        rw [hf] at he
        simp only [Bool.false_eq_true, if_false, Option.some.injEq] at he
        subst he
        have hrem := h.same c conn hc
        have hin : (c, conn.addr) ∈ openConns st.tr := (h.conn c conn.addr).mpr ⟨conn, hc, rfl, hf⟩
        have hu : ∀ a, uses st.tr a = uses (.closed c :: st.tr) a + if conn.addr = a then 1 else 0 := by
          intro a
          simp only [uses, openConns, inFlight]
          rw [countP_filter_ne h.nodupC hin a]
          omega
        refine ⟨h.nodupC.filter _, h.nodupR, ?_, h.same, h.own, h.req, ?_, ?_, ?_⟩
        · intro c' a
          simp only [openConns, List.mem_filter, ne_eq, decide_not, Bool.not_eq_true', decide_eq_false_iff_not, set_eq]
          rw [h.conn c' a]
          constructor
          · rintro ⟨⟨k, hk, ha, hkf⟩, hne⟩
            refine ⟨k, hk, ha, ?_⟩
            rw [if_neg]
            · exact hkf
            · intro hkc; exact hne (h.own _ _ _ _ hk hc hkc)
          · rintro ⟨k, hk, ha, hkf⟩
            split at hkf
            · simp at hkf
            · rename_i hkc
              refine ⟨⟨k, hk, ha, hkf⟩, ?_⟩
              rintro rfl
              rw [hc] at hk; simp only [Option.some.injEq] at hk; subst hk
              exact hkc rfl
        · intro a ha
          rw [dec_isSome]
          have ha' : 0 < uses (.closed c :: st.tr) a := ha
          exact h.known a (by rw [hu]; omega)
        · intro a
          show uses (.closed c :: st.tr) a < M32
          have := h.small a; rw [hu] at this; omega
        · intro a n hn
          show n = uses (.closed c :: st.tr) a
          simp only [hrem] at hn
          obtain ⟨m, hm, rfl⟩ := dec_some hn
          have h1 := h.exact a m hm
          have h2 := h.small a
          have h3 := hu a
          by_cases hab : a = conn.addr
          · subst hab
            simp only [if_true] at h3 ⊢
            have : m + (M32 - 1) = uses (.closed c :: st.tr) conn.addr + M32 := by simp only [M32] at *; omega
            rw [this, Nat.add_mod_right, Nat.mod_eq_of_lt (by omega)]
          · rw [if_neg hab]; rw [if_neg (fun h => hab h.symm)] at h3; omega
  | begin r a =>
    simp only [Ads.Active.exec] at he
    cases hc : st.reqs r with
    | some k => rw [hc] at he; simp at he
    | none =>
      rw [hc] at he
      simp only [Option.some.injEq] at he
      subst he
      obtain ⟨g4, g5⟩ := hg
      have hnew : ∀ b, (r, b) ∉ inFlight st.tr := by
        intro b hb
        have := (h.req r b).mp hb
        rw [hc] at this; simp at this
      refine ⟨h.nodupC, h.nodupR.cons hnew, h.conn, h.same, h.own, ?_, ?_, ?_, ?_⟩
      · intro r' b
        simp only [inFlight, List.mem_cons, Prod.mk.injEq, set_eq]
        by_cases hcc : r' = r
        · subst hcc
          simp only [true_and, if_true, Option.some.injEq]
          constructor
          · rintro (h1 | h1)
            · exact h1.symm
            · exact absurd h1 (hnew b)
          · intro h1; exact Or.inl h1.symm
        · simp only [hcc, false_and, false_or, if_false]
          exact h.req r' b
      · intro b hb
        rw [inc_isSome]
        rw [uses_began] at hb
        by_cases hab : a = b
        · subst hab; exact g4
        · rw [if_neg hab] at hb; exact h.known b hb
      · intro b
        rw [uses_began]
        by_cases hab : a = b
        · subst hab; simp only [if_true]; exact g5
        · rw [if_neg hab]; exact h.small b
      · intro b n hn
        obtain ⟨m, hm, rfl⟩ := inc_some hn
        have := h.exact b m hm
        rw [uses_began]
        by_cases hab : b = a
        · subst hab
          simp only [if_true]
          rw [this, Nat.mod_eq_of_lt g5]
        · rw [if_neg hab, if_neg (fun h => hab h.symm)]; omega
  | finish r =>
    simp only [Ads.Active.exec] at he
    cases hc : st.reqs r with
    | none => rw [hc] at he; simp at he
    | some a =>
      rw [hc] at he
      simp only [Option.some.injEq] at he
      subst he
      have hin : (r, a) ∈ inFlight st.tr := (h.req r a).mpr hc
      have hu : ∀ b, uses st.tr b = uses (.ended r :: st.tr) b + if a = b then 1 else 0 := by
        intro b
        simp only [uses, openConns, inFlight]
        rw [countP_filter_ne h.nodupR hin b]
        omega
      refine ⟨h.nodupC, h.nodupR.filter _, h.conn, h.same, h.own, ?_, ?_, ?_, ?_⟩
      · intro r' b
        simp only [inFlight, List.mem_filter, ne_eq, decide_not, Bool.not_eq_true', decide_eq_false_iff_not, set_eq]
        rw [h.req r' b]
        by_cases hrr : r' = r
        · simp [hrr]
        · simp [hrr]
      · intro b hb
        rw [dec_isSome]
        have hb' : 0 < uses (.ended r :: st.tr) b := hb
        exact h.known b (by rw [hu]; omega)
      · intro b
        show uses (.ended r :: st.tr) b < M32
        have := h.small b; rw [hu] at this; omega
      · intro b n hn
        show n = uses (.ended r :: st.tr) b
        obtain ⟨m, hm, rfl⟩ := dec_some hn
        have h1 := h.exact b m hm
        have h2 := h.small b
        have h3 := hu b
        by_cases hab : b = a
        · subst hab
          simp only [if_true] at h3 ⊢
          have : m + (M32 - 1) = uses (.ended r :: st.tr) b + M32 := by simp only [M32] at *; omega
          rw [this, Nat.add_mod_right, Nat.mod_eq_of_lt (by omega)]
        · rw [if_neg hab]; rw [if_neg (fun h => hab h.symm)] at h3; omega

end Active

open Active

/-- C60: with orderly use (literal addresses, one close wrapper per connection, endpoints in use stay known), every known
endpoint's active request count is, at every moment, its number of open connections plus requests in flight; closing a
connection again changes nothing. -/
theorem C60_count_partial (st : St) (h : Reach Orderly st) : Accurate st := by
  have : Inv st := by
    induction h with
    | init => exact Inv.init
    | step a _ hg he ih => exact ih.exec a hg he
  exact this.exact

/-- C60: requests alone (HTTP and gRPC calls) need only that endpoints in use stay known: their increments and
decrements always concern the same address. -/
theorem C60_request_pairs (st st1 st2 : St) (r a : Nat) (h1 : exec st (.begin r a) = some st1)
    (h2 : exec st1 (.finish r) = some st2) (n : Nat) (hn : st.stats a = some n) (hlt : n < M32) :
    st2.stats = st.stats := by
  simp only [exec] at h1
  cases hr : st.reqs r with
  | some k => rw [hr] at h1; simp at h1
  | none =>
    rw [hr] at h1
    simp only [Option.some.injEq] at h1
    subst h1
    simp only [exec, set_eq, if_true, Option.some.injEq] at h2
    subst h2
    funext b
    simp only [inc, hn, dec, set_eq, if_true]
    by_cases hb : b = a
    · subst hb
      simp only [if_true, hn, Option.some.injEq]
      simp only [M32] at *
      omega
    · simp [hb]

/-! #### what goes wrong otherwise -/

/-- C60 is false for the TCP dialer: the connections of one pool are made by one dialer (tcp/dialer.go:71-99: the pool's
factory captures it), so they share one close wrapper, whose `sync.Once` runs once: after two connections were opened and
both closed, the endpoint still counts one active request. -/
theorem C60_shared_closer_false : ∃ st, Reach Anything st ∧ st.stats 1 = some 1 ∧ uses st.tr 1 = 0 := by
  refine ⟨_, .step (.close 1) (.step (.close 0) (.step (.dial 1 ⟨1, 1, 0⟩) (.step (.dial 0 ⟨1, 1, 0⟩)
    (.step (.endpoints [1]) .init trivial rfl) trivial rfl) trivial rfl) trivial rfl) trivial rfl, rfl, ?_⟩
  decide

/-- C60 is false across configuration changes: an endpoint that is removed and comes back while a connection to it is open
starts at zero, and closing the connection wraps its count around to 4294967295. -/
theorem C60_readded_false : ∃ st, Reach Anything st ∧ st.stats 1 = some 4294967295 ∧ uses st.tr 1 = 0 := by
  refine ⟨_, .step (.close 0) (.step (.endpoints [1]) (.step (.endpoints []) (.step (.dial 0 ⟨1, 1, 0⟩)
    (.step (.endpoints [1]) .init trivial rfl) trivial rfl) trivial rfl) trivial rfl) trivial rfl, by decide, ?_⟩
  decide

/-- C60 is false for connections dialled by name: the increment goes to the dialled address, the decrement to the remote
address (here 1, a known endpoint, dialled under the name 2). -/
theorem C60_by_name_false : ∃ st, Reach Anything st ∧ st.stats 1 = some 4294967295 ∧ uses st.tr 1 = 0 := by
  refine ⟨_, .step (.close 0) (.step (.dial 0 ⟨2, 1, 0⟩)
    (.step (.endpoints [1]) .init trivial rfl) trivial rfl) trivial rfl, by decide, ?_⟩
  decide

/-! non-vacuity: two connections and a request, one connection closed twice -/
example : ∃ st, Reach Orderly st ∧ uses st.tr 1 = 2 ∧ st.stats 1 = some 2 := by
  refine ⟨_, .step (.close 0) (.step (.close 0) (.step (.begin 0 1) (.step (.dial 1 ⟨1, 1, 1⟩) (.step (.dial 0 ⟨1, 1, 0⟩)
    (.step (.endpoints [1]) .init ?_ rfl) ?_ rfl) ?_ rfl) ?_ rfl) trivial rfl) trivial rfl, ?_, ?_⟩
  · intro a ha; simp [St.init, uses, openConns, inFlight] at ha
  · refine ⟨rfl, ?_, rfl, rfl, by decide⟩; intro c' k h; simp [St.init] at h
  · refine ⟨rfl, ?_, rfl, rfl, by decide⟩
    intro c' k h
    simp only [set_eq, St.init] at h
    split at h
    · simp only [Option.some.injEq] at h; subst h; decide
    · simp at h
  · exact ⟨rfl, by decide⟩
  · decide
  · decide

end Verif.Props
