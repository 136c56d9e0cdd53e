import Verif.Sec.CitadelMtls

/-! # C288: The certificate of the client of Citadel -/

namespace Verif.Sec.CitadelMtls

variable {T : Type}

/-! ### Specification -/

/-- The certificate may be shown at the time: it can be read, it has not ended, and the key fits. -/
def Valid (L : Lib T) (c k : T) (now : Nat) : Prop := (∃ e, L.notAfter c = some e ∧ now ≤ e) ∧ L.pair c k = true

/-- A client as made, before anything happened. -/
def fresh (prov : Bool) (tls : Option (Tls T)) : St T := { prov := prov, tls := tls }

/-- The connections open. -/
def Open (s : St T) (k : Nat) : Prop := k < s.made ∧ k ∉ s.closed

/-! ### Proofs -/

theorem run_append (L : Lib T) (s : St T) (a b : List (Op T)) : run L s (a ++ b) = run L (run L s a) b :=
  List.foldl_append

theorem give_cert (L : Lib T) (t : Tls T) (now : Nat) (c k : T) :
    give L t now = .cert c k ↔ t.cert = some c ∧ t.key = k ∧ Valid L c k now := by
  unfold give Valid
  cases hc : t.cert with
  | none => simp
  | some c' =>
    dsimp only
    cases hn : L.notAfter c' with
    | none =>
      simp only [reduceCtorEq, Option.some.injEq, false_iff, not_and]
      rintro rfl _ ⟨e, he, _⟩
      rw [hn] at he; simp at he
    | some e =>
      dsimp only
      by_cases hlt : e < now
      · rw [if_pos hlt]
        simp only [reduceCtorEq, Option.some.injEq, false_iff, not_and]
        rintro rfl _ ⟨e', he, hle⟩
        rw [hn] at he; simp only [Option.some.injEq] at he; omega
      · rw [if_neg hlt]
        by_cases hp : L.pair c' t.key = true
        · rw [if_pos hp]
          simp only [Given.cert.injEq, Option.some.injEq]
          constructor
          · rintro ⟨rfl, rfl⟩
            exact ⟨rfl, rfl, ⟨e, hn, by omega⟩, hp⟩
          · rintro ⟨rfl, rfl, _⟩
            exact ⟨rfl, rfl⟩
        · rw [if_neg hp]
          simp only [reduceCtorEq, Option.some.injEq, false_iff, not_and]
          rintro rfl rfl _ hp'
          exact hp hp'

/-- **C288** A certificate is given exactly when there is one and it is valid at that moment. One that
has ended or cannot be read is not shown: only the token is used. The handshake fails only if the key
does not fit a certificate that has not ended. -/
theorem C288_given (L : Lib T) (t : Tls T) (now : Nat) :
    (∀ c k, give L t now = .cert c k ↔ t.cert = some c ∧ t.key = k ∧ Valid L c k now) ∧
      (give L t now = .nothing ↔ ∀ c, t.cert = some c → ∀ e, L.notAfter c = some e → e < now) ∧
      (give L t now = .fails ↔ ∃ c e, t.cert = some c ∧ L.notAfter c = some e ∧ now ≤ e ∧ L.pair c t.key = false) := by
  refine ⟨give_cert L t now, ?_, ?_⟩
  · unfold give
    cases hc : t.cert with
    | none => simp
    | some c =>
      dsimp only
      cases hn : L.notAfter c with
      | none => simp [hn]
      | some e =>
        dsimp only
        by_cases hlt : e < now
        · simp [hlt, hn]
        · rw [if_neg hlt]
          have : ¬ ∀ c', some c = some c' → ∀ e', L.notAfter c' = some e' → e' < now := fun h => hlt (h c rfl e hn)
          cases hp : L.pair c t.key <;> simp [this, hn, hlt] <;> omega
  · unfold give
    cases hc : t.cert with
    | none => simp
    | some c =>
      dsimp only
      cases hn : L.notAfter c with
      | none =>
        simp only [reduceCtorEq, false_iff, not_exists]
        rintro c' e ⟨h1, h2, _⟩
        rw [Option.some.injEq] at h1
        rw [← h1, hn] at h2; simp at h2
      | some e =>
        dsimp only
        by_cases hlt : e < now
        · rw [if_pos hlt]
          simp only [reduceCtorEq, false_iff, not_exists]
          rintro c' e' ⟨h1, h2, h3, _⟩
          rw [Option.some.injEq] at h1
          rw [← h1, hn, Option.some.injEq] at h2; omega
        · rw [if_neg hlt]
          cases hp : L.pair c t.key with
          | true =>
            simp only [if_true, reduceCtorEq, false_iff, not_exists]
            rintro c' e' ⟨h1, _, _, h4⟩
            rw [Option.some.injEq] at h1
            rw [← h1, hp] at h4; simp at h4
          | false =>
            simp only [Bool.false_eq_true, if_false, true_iff]
            exact ⟨c, e, rfl, hn, by omega, hp⟩

/-- What `reconnectIfNeeded` does to the state, by cases. -/
theorem reconnect_cases (L : Lib T) (b : Bool) (s : St T) :
    (reconnect L b s).1 = s ∨
      (s.mtls = false ∧ s.conn ∉ s.closed ∧ b = true ∧
        reconnect L b s = ({ s with closed := s.conn :: s.closed, conn := s.made, made := s.made + 1 }, .goesOn)) ∨
      (s.mtls = false ∧ s.conn ∉ s.closed ∧ b = false ∧
        reconnect L b s = ({ s with closed := s.conn :: s.closed }, .fails)) := by
  unfold reconnect
  cases hp : s.prov <;> cases hm : s.mtls <;> simp
  cases ht : s.tls with
  | none => exact Or.inl rfl
  | some t =>
    dsimp only
    cases hc : t.cert with
    | none => exact Or.inl rfl
    | some c =>
      dsimp only
      by_cases h1 : L.pair c t.key = true
      · rw [if_pos h1]
        by_cases h2 : s.conn ∈ s.closed
        · rw [if_pos h2]; exact Or.inl rfl
        · rw [if_neg h2]
          cases b
          · exact Or.inr (Or.inr ⟨h2, by simp, by simp⟩)
          · exact Or.inr (Or.inl ⟨h2, by simp, by simp⟩)
      · rw [if_neg h1]; exact Or.inl rfl

/-- Every certificate ever shown was valid when it was, and the client is known to use certificates
exactly if one was. The connection used was made, and all others are closed. -/
structure Inv (L : Lib T) (s : St T) : Prop where
  shown : ∀ h ∈ s.shakes, ∀ c k, h.given = .cert c k → Valid L c k h.now
  used : s.mtls = true ↔ ∃ h ∈ s.shakes, ∃ c k, h.given = .cert c k
  made : s.conn < s.made
  only : ∀ k, Open s k → k = s.conn

theorem inv_step (L : Lib T) (s : St T) (o : Op T) (h : Inv L s) : Inv L (step L s o) := by
  cases o with
  | sign b =>
    show Inv L (reconnect L b s).1
    rcases reconnect_cases L b s with h1 | ⟨_, _, _, h1⟩ | ⟨_, _, _, h1⟩
    · rw [h1]; exact h
    · rw [h1]
      refine ⟨h.shown, h.used, by show s.made < s.made + 1; omega, ?_⟩
      rintro k ⟨hk, hc⟩
      show k = s.made
      change k < s.made + 1 at hk
      change k ∉ s.conn :: s.closed at hc
      rw [List.mem_cons, not_or] at hc
      rcases Nat.lt_or_ge k s.made with hlt | hge
      · exact absurd (h.only k ⟨hlt, hc.2⟩) hc.1
      · omega
    · rw [h1]
      refine ⟨h.shown, h.used, h.made, ?_⟩
      rintro k ⟨hk, hc⟩
      change k ∉ s.conn :: s.closed at hc
      rw [List.mem_cons, not_or] at hc
      exact h.only k ⟨hk, hc.2⟩
  | shake k now =>
    unfold step
    dsimp only
    split
    · next hop =>
      cases ht : s.tls with
      | none => exact h
      | some t =>
        dsimp only
        refine ⟨?_, ?_, h.made, h.only⟩
        · intro x hx c k' hg
          change x ∈ s.shakes ++ [_] at hx
          rw [List.mem_append, List.mem_singleton] at hx
          rcases hx with hx | hx
          · exact h.shown x hx c k' hg
          · subst hx
            exact ((give_cert L t now c k').1 hg).2.2
        · dsimp only
          constructor
          · intro hm
            cases hg : give L t now with
            | cert c k' => exact ⟨⟨k, now, .cert c k'⟩, by simp, c, k', rfl⟩
            | nothing =>
              rw [hg] at hm
              obtain ⟨x, hx, hy⟩ := h.used.1 hm
              exact ⟨x, List.mem_append_left _ hx, hy⟩
            | fails =>
              rw [hg] at hm
              obtain ⟨x, hx, hy⟩ := h.used.1 hm
              exact ⟨x, List.mem_append_left _ hx, hy⟩
          · rintro ⟨x, hx, c, k', hg⟩
            rw [List.mem_append, List.mem_singleton] at hx
            rcases hx with hx | hx
            · have := h.used.2 ⟨x, hx, c, k', hg⟩
              cases give L t now <;> simp [this]
            · subst hx
              dsimp only at hg
              rw [hg]
    · exact h
  | options t => exact ⟨h.shown, h.used, h.made, h.only⟩
  | close =>
    unfold step
    dsimp only
    split
    · exact h
    · refine ⟨h.shown, h.used, h.made, ?_⟩
      rintro k ⟨hk, hc⟩
      change k ∉ s.conn :: s.closed at hc
      rw [List.mem_cons, not_or] at hc
      exact h.only k ⟨hk, hc.2⟩

theorem inv_run (L : Lib T) (ops : List (Op T)) : ∀ s, Inv L s → Inv L (run L s ops) := by
  induction ops with
  | nil => exact fun _ h => h
  | cons o r ih => exact fun s h => ih _ (inv_step L s o h)

theorem inv_fresh (L : Lib T) (prov : Bool) (tls : Option (Tls T)) : Inv L (fresh prov tls) := by
  refine ⟨?_, ?_, by show (0 : Nat) < 1; omega, ?_⟩
  · intro x hx; simp [fresh] at hx
  · simp [fresh]
  · rintro k ⟨hk, _⟩
    change k < 1 at hk
    show k = 0
    omega

/-- **C288** In every history of calls, handshakes, and changes of the certificates, no certificate is
shown that has ended, cannot be read, or whose key does not fit. -/
theorem C288_shown (L : Lib T) (prov : Bool) (tls : Option (Tls T)) (ops : List (Op T)) :
    ∀ h ∈ (run L (fresh prov tls) ops).shakes, ∀ c k, h.given = .cert c k → Valid L c k h.now :=
  (inv_run L ops _ (inv_fresh L prov tls)).shown

/-- **C288** At every moment at most one connection is open: a connection replaced is closed. -/
theorem C288_one (L : Lib T) (prov : Bool) (tls : Option (Tls T)) (ops : List (Op T)) (j k : Nat)
    (hj : Open (run L (fresh prov tls) ops) j) (hk : Open (run L (fresh prov tls) ops) k) : j = k :=
  let h := inv_run L ops _ (inv_fresh L prov tls)
  (h.only j hj).trans (h.only k hk).symm

/-- A client that has shown a certificate, or for which no certificate was provided, keeps its
connection. -/
theorem kept (L : Lib T) (more : List (Op T)) : ∀ s : St T, (s.prov = false ∨ s.mtls = true) →
    (run L s more).conn = s.conn ∧ (run L s more).made = s.made := by
  induction more with
  | nil => exact fun _ _ => ⟨rfl, rfl⟩
  | cons o r ih =>
    intro s h
    have key : (step L s o).conn = s.conn ∧ (step L s o).made = s.made ∧
        ((step L s o).prov = false ∨ (step L s o).mtls = true) := by
      cases o with
      | sign b =>
        have : step L s (.sign b) = s := by
          show (reconnect L b s).1 = s
          unfold reconnect
          rcases h with h | h <;> simp [h]
        rw [this]; exact ⟨rfl, rfl, h⟩
      | shake k now =>
        unfold step
        dsimp only
        split
        · cases ht : s.tls with
          | none => exact ⟨rfl, rfl, h⟩
          | some t =>
            refine ⟨rfl, rfl, ?_⟩
            rcases h with h | h
            · exact Or.inl h
            · refine Or.inr ?_
              dsimp only
              cases give L t now <;> simp [h]
        · exact ⟨rfl, rfl, h⟩
      | options t => exact ⟨rfl, rfl, h⟩
      | close =>
        unfold step
        dsimp only
        split <;> exact ⟨rfl, rfl, h⟩
    obtain ⟨h1, h2⟩ := ih _ key.2.2
    exact ⟨h1.trans key.1, h2.trans key.2.1⟩

/-- **C288** Once a certificate has been shown, the connection is never replaced; nor is it if no
certificate was provided. -/
theorem C288_kept (L : Lib T) (prov : Bool) (tls : Option (Tls T)) (ops more : List (Op T))
    (h : prov = false ∨ ∃ x ∈ (run L (fresh prov tls) ops).shakes, ∃ c k, x.given = .cert c k) :
    (run L (fresh prov tls) (ops ++ more)).conn = (run L (fresh prov tls) ops).conn ∧
      (run L (fresh prov tls) (ops ++ more)).made = (run L (fresh prov tls) ops).made := by
  rw [run_append]
  apply kept
  rcases h with h | h
  · left
    have hp : ∀ (l : List (Op T)) (s : St T), (run L s l).prov = s.prov := by
      intro l
      induction l with
      | nil => exact fun _ => rfl
      | cons o r ih =>
        intro s
        refine (ih _).trans ?_
        cases o with
        | sign b =>
          show (reconnect L b s).1.prov = s.prov
          rcases reconnect_cases L b s with h1 | ⟨_, _, _, h1⟩ | ⟨_, _, _, h1⟩ <;> rw [h1]
        | shake k now =>
          unfold step; dsimp only
          split
          · cases s.tls <;> rfl
          · rfl
        | options t => rfl
        | close => unfold step; dsimp only; split <;> rfl
    rw [hp]; exact h
  · right
    exact (inv_run L ops _ (inv_fresh L prov tls)).used.2 h

/-- **C288** A certificate that arrives later is taken up: when one was provided for and none has been
shown, the next signing replaces an open connection by a new one, and the new connection's handshake
shows the certificate while it is valid. -/
theorem C288_taken_up (L : Lib T) (s : St T) (t : Tls T) (c : T) (now : Nat)
    (hp : s.prov = true) (hm : s.mtls = false) (ht : s.tls.isSome) (ho : Open s s.conn)
    (hc : t.cert = some c) (hv : Valid L c t.key now) (hcl : ∀ x ∈ s.closed, x < s.made) :
    let s1 := run L s [.options t, .sign true]
    (reconnect L true (step L s (.options t))).2 = .goesOn ∧ s1.conn ≠ s.conn ∧ Open s1 s1.conn ∧
      s.conn ∈ s1.closed ∧
      (step L s1 (.shake s1.conn now)).shakes = s.shakes ++ [⟨s1.conn, now, .cert c t.key⟩] ∧
      (step L s1 (.shake s1.conn now)).mtls = true := by
  have h0 : step L s (.options t) = { s with tls := some t } := by
    show { s with tls := s.tls.map (fun _ => t) } = _
    cases hs : s.tls with
    | none => rw [hs] at ht; simp at ht
    | some _ => rfl
  have h1 : reconnect L true { s with tls := some t } =
      ({ s with tls := some t, closed := s.conn :: s.closed, conn := s.made, made := s.made + 1 }, .goesOn) := by
    unfold reconnect
    simp only [hp, hm, hc, hv.2, ho.2, Bool.not_true, Bool.or_self, Bool.false_eq_true, if_true, if_false]
  have h2 : run L s [.options t, .sign true] =
      { s with tls := some t, closed := s.conn :: s.closed, conn := s.made, made := s.made + 1 } := by
    show (reconnect L true (step L s (.options t))).1 = _
    rw [h0, h1]
  have hne : s.made ∉ s.conn :: s.closed := by
    rw [List.mem_cons, not_or]
    exact ⟨fun h => by have := ho.1; omega, fun h => by have := hcl _ h; omega⟩
  have hg := (give_cert L t now c t.key).2 ⟨hc, rfl, hv⟩
  dsimp only
  rw [h2, h0, h1]
  refine ⟨rfl, ?_, ⟨by show s.made < s.made + 1; omega, hne⟩, List.mem_cons_self, ?_, ?_⟩
  · show s.made ≠ s.conn
    have := ho.1; omega
  · unfold step
    dsimp only
    rw [if_pos ⟨by omega, hne⟩, hg]
  · unfold step
    dsimp only
    rw [if_pos ⟨by omega, hne⟩, hg]

/-- **C288** What is assumed above of the connections closed holds in every history. -/
theorem closed_made (L : Lib T) (ops : List (Op T)) : ∀ s : St T, s.conn < s.made → (∀ x ∈ s.closed, x < s.made) →
    (run L s ops).conn < (run L s ops).made ∧ ∀ x ∈ (run L s ops).closed, x < (run L s ops).made := by
  induction ops with
  | nil => exact fun _ h1 h2 => ⟨h1, h2⟩
  | cons o r ih =>
    intro s h1 h2
    refine ih _ ?_ ?_ <;> cases o with
    | sign b =>
      show _
      simp only [step]
      rcases reconnect_cases L b s with h | ⟨_, _, _, h⟩ | ⟨_, _, _, h⟩
      · rw [h]; first | exact h1 | exact h2
      · rw [h]; first
          | exact Nat.lt_succ_self _
          | (intro x hx; rcases List.mem_cons.1 hx with hx | hx
             · show x < s.made + 1; omega
             · have := h2 x hx; show x < s.made + 1; omega)
      · rw [h]; first
          | exact h1
          | (intro x hx; rcases List.mem_cons.1 hx with hx | hx
             · show x < s.made; omega
             · exact h2 x hx)
    | shake k now =>
      simp only [step]
      split
      · cases s.tls <;> first | exact h1 | exact h2
      · first | exact h1 | exact h2
    | options t => first | exact h1 | exact h2
    | close =>
      simp only [step]
      split
      · first | exact h1 | exact h2
      · first
          | exact h1
          | (intro x hx; rcases List.mem_cons.1 hx with hx | hx
             · show x < s.made; omega
             · exact h2 x hx)

/-- **C288** While connections can be made and nobody closes the client, signing is never kept from going
on: it reconnects or uses the connection it has. -/
theorem C288_signs_partial (L : Lib T) (prov : Bool) (t : Tls T) (ops : List (Op T))
    (h : ∀ o ∈ ops, o ≠ .close ∧ o ≠ .sign false) :
    (reconnect L true (run L (fresh prov (some t)) ops)).2 = .goesOn ∧
      Open (run L (fresh prov (some t)) ops) (run L (fresh prov (some t)) ops).conn := by
  have key : ∀ (l : List (Op T)) (s : St T), (∀ o ∈ l, o ≠ .close ∧ o ≠ .sign false) → s.tls.isSome → Open s s.conn →
      (∀ x ∈ s.closed, x < s.made) → (run L s l).tls.isSome ∧ Open (run L s l) (run L s l).conn := by
    intro l
    induction l with
    | nil => exact fun s _ h1 h2 _ => ⟨h1, h2⟩
    | cons o r ih =>
      intro s hl h1 h2 h3
      have hr : ∀ o ∈ r, o ≠ .close ∧ o ≠ .sign false := fun o ho => hl o (List.mem_cons_of_mem _ ho)
      refine ih _ hr ?_ ?_ ?_
      · cases o with
        | sign b =>
          simp only [step]
          rcases reconnect_cases L b s with h | ⟨_, _, _, h⟩ | ⟨_, _, _, h⟩ <;> rw [h] <;> exact h1
        | shake k now =>
          simp only [step]
          split
          · cases ht : s.tls with
            | none => rw [ht] at h1; simp at h1
            | some t => dsimp only; simp [ht]
          · exact h1
        | options t => simp only [step]; simpa using h1
        | close => exact absurd rfl (hl _ List.mem_cons_self).1
      · cases o with
        | sign b =>
          simp only [step]
          rcases reconnect_cases L b s with h | ⟨_, _, _, h⟩ | ⟨_, _, hb, h⟩
          · rw [h]; exact h2
          · rw [h]
            refine ⟨Nat.lt_succ_self _, ?_⟩
            show s.made ∉ s.conn :: s.closed
            rw [List.mem_cons, not_or]
            exact ⟨fun h => by have := h2.1; omega, fun h => by have := h3 _ h; omega⟩
          · rw [hb] at hl; exact absurd rfl (hl _ List.mem_cons_self).2
        | shake k now =>
          simp only [step]
          split
          · cases s.tls <;> exact h2
          · exact h2
        | options t => exact h2
        | close => exact absurd rfl (hl _ List.mem_cons_self).1
      · exact (closed_made L [o] s h2.1 h3).2
  obtain ⟨h1, h2⟩ := key ops (fresh prov (some t)) h rfl ⟨by show (0 : Nat) < 1; omega, by simp [fresh]⟩ (by simp [fresh])
  refine ⟨?_, h2⟩
  generalize run L (fresh prov (some t)) ops = s at h1 h2
  unfold reconnect
  split
  · rfl
  · cases ht : s.tls with
    | none => rw [ht] at h1; simp at h1
    | some t =>
      dsimp only
      cases t.cert with
      | none => rfl
      | some c =>
        dsimp only
        split
        · rw [if_neg h2.2]; rfl
        · rfl

/-- **C288 (fails)** If the new connection cannot be made once, the client stays without one: as long as
its certificate and key are a pair, every later signing fails, whether or not connections can be made
again. -/
theorem C288_stuck_false (L : Lib T) (s : St T) (t : Tls T) (c : T) (hp : s.prov = true) (hm : s.mtls = false)
    (ht : s.tls = some t) (hc : t.cert = some c) (hv : L.pair c t.key = true) (ho : s.conn ∉ s.closed) (l : List Bool) (b : Bool) :
    (reconnect L b (run L s (.sign false :: l.map .sign))).2 = .fails := by
  have h1 : step L s (.sign false) = { s with closed := s.conn :: s.closed } := by
    show (reconnect L false s).1 = _
    unfold reconnect
    simp [hp, hm, ht, hc, hv, ho]
  have h2 : ∀ b', reconnect L b' { s with closed := s.conn :: s.closed } = ({ s with closed := s.conn :: s.closed }, .fails) := by
    intro b'
    unfold reconnect
    simp [hp, hm, ht, hc, hv]
  have h3 : ∀ l : List Bool, run L { s with closed := s.conn :: s.closed } (l.map .sign) = { s with closed := s.conn :: s.closed } := by
    intro l
    induction l with
    | nil => rfl
    | cons x r ih =>
      show run L (reconnect L x { s with closed := s.conn :: s.closed }).1 (r.map .sign) = _
      rw [h2]; exact ih
  show (reconnect L b (run L (step L s (.sign false)) (l.map .sign))).2 = _
  rw [h1, h3, h2]

/-- **C288 (fails)** A client without TLS for which a certificate was provided: signing ends the program. -/
theorem C288_crash_false (L : Lib T) (b : Bool) : (reconnect L b (fresh true (none : Option (Tls T)))).2 = .crash := rfl

/-- **C288 (fails)** A certificate that has ended, or a server that asks for none: every signing replaces
the connection, without end. -/
theorem C288_replaced_false (L : Lib T) (t : Tls T) (c : T) (hc : t.cert = some c) (hv : L.pair c t.key = true) (n : Nat) :
    (run L (fresh true (some t)) (List.replicate n (.sign true))).made = n + 1 := by
  have key : ∀ n (s : St T), s.prov = true → s.mtls = false → s.tls = some t → s.conn ∉ s.closed → s.conn < s.made →
      (∀ x ∈ s.closed, x < s.made) → (run L s (List.replicate n (.sign true))).made = s.made + n := by
    intro n
    induction n with
    | zero => intro s _ _ _ _ _ _; rfl
    | succ n ih =>
      intro s hp hm ht ho h1 h2
      have hs : step L s (.sign true) = { s with closed := s.conn :: s.closed, conn := s.made, made := s.made + 1 } := by
        show (reconnect L true s).1 = _
        unfold reconnect
        simp [hp, hm, ht, hc, hv, ho]
      show (run L (step L s (.sign true)) (List.replicate n (.sign true))).made = _
      rw [ih]
      · rw [hs]; show s.made + 1 + n = s.made + (n + 1); omega
      · rw [hs]; exact hp
      · rw [hs]; exact hm
      · rw [hs]; exact ht
      · rw [hs]
        show s.made ∉ s.conn :: s.closed
        rw [List.mem_cons, not_or]
        exact ⟨by omega, fun h => by have := h2 _ h; omega⟩
      · rw [hs]; exact Nat.lt_succ_self _
      · exact (closed_made L [.sign true] s h1 h2).2
  rw [key n (fresh true (some t)) rfl rfl rfl (by simp [fresh]) (by show (0 : Nat) < 1; omega) (by simp [fresh])]
  show 1 + n = n + 1; omega

/-! ### The hypotheses are met -/

/-- A certificate 7 that ends at 100 and fits key 1; 8 is not readable. -/
def demo : Lib Nat := ⟨fun c => if c = 7 then some 100 else none, fun c k => c = 7 ∧ k = 1⟩

/-- A certificate arrives, is taken up at time 50, and no longer shown at time 101. -/
example : ((run demo (fresh true (some ⟨none, 1⟩)) [.sign true, .shake 0 40, .options ⟨some 7, 1⟩, .sign true, .shake 1 50,
    .sign true, .shake 1 101]).shakes.map (fun h => (h.conn, h.now, match h.given with | .cert c _ => some c | _ => none))) =
    [(0, 40, none), (1, 50, some 7), (1, 101, none)] := by decide

example : Valid demo 7 1 50 := ⟨⟨100, rfl, by omega⟩, rfl⟩
example : Open (fresh true (some (⟨some 7, 1⟩ : Tls Nat))) 0 := ⟨by show (0 : Nat) < 1; omega, by simp [fresh]⟩
example : (reconnect demo true (run demo (fresh true (some ⟨some 7, 1⟩)) [.sign false])).2 = .fails := by decide

end Verif.Sec.CitadelMtls
