import Verif.Tunnel.Control
import Verif.Props.TunnelSessions
/-! # C38 Only authenticated clients get a control stream -/
namespace Verif.Tunnel

theorem upd_eq_iff' {α : Type} {f : Nat → α} {i j : Nat} {b t : α} :
    upd f i b j = t ↔ (j = i ∧ b = t) ∨ (j ≠ i ∧ f j = t) := by
  by_cases h : j = i
  · subst h; simp [upd]
  · simp [upd, h]

/-- Accepted in the sense of the authenticator's contract: it said ok, without an error. -/
def Authenticated (tr : List CEv) (i : Nat) : Prop :=
  ∃ out, .auth i out ∈ tr ∧ out.ok = true ∧ out.err = none

structure CInv (st : CSt) : Prop where
  resp : ∀ i, st.ths i = .respond false → Authenticated st.tr i
  acc : ∀ i, st.ths i = .accepted → Authenticated st.tr i
  opened : ∀ i, .opened i ∈ st.tr → Authenticated st.tr i
  ctrl : ∀ i, st.ctrl = some i → .opened i ∈ st.tr

theorem Authenticated.mono {tr : List CEv} {i : Nat} (e : CEv) (h : Authenticated tr i) :
    Authenticated (e :: tr) i := by
  obtain ⟨o, h1, h2⟩ := h; exact ⟨o, List.mem_cons_of_mem _ h1, h2⟩

theorem CInv.exec {st st' : CSt} (hI : CInv st) {a : CAct} (hg : ErrWhenNotOk st a)
    (hx : cexec true st a = some st') : CInv st' := by
  cases a with
  | check i =>
    simp only [cexec] at hx
    split at hx
    · injection hx with hx; subst hx
      refine ⟨?_, ?_, hI.opened, hI.ctrl⟩ <;> intro j hj
      · rcases upd_eq_iff'.mp hj with ⟨_, h⟩ | ⟨_, h⟩
        · cases h
        · exact hI.resp j h
      · rcases upd_eq_iff'.mp hj with ⟨_, h⟩ | ⟨_, h⟩
        · cases h
        · exact hI.acc j h
    · cases hx
  | authenticate i out =>
    simp only [cexec] at hx
    split at hx
    · injection hx with hx; subst hx
      refine ⟨?_, ?_, hI.opened, hI.ctrl⟩ <;> intro j hj
      · rcases upd_eq_iff'.mp hj with ⟨_, h⟩ | ⟨_, h⟩
        · cases h
        · exact hI.resp j h
      · rcases upd_eq_iff'.mp hj with ⟨_, h⟩ | ⟨_, h⟩
        · cases h
        · exact hI.acc j h
    · simp only [if_true] at hx
      injection hx with hx; subst hx
      refine ⟨?_, ?_, ?_, ?_⟩ <;> intro j hj
      · rcases upd_eq_iff'.mp hj with ⟨e, h⟩ | ⟨_, h⟩
        · injection h with h
          refine ⟨out, by rw [e]; simp, ?_⟩
          have hg' : out.ok = false → out.err ≠ none := hg
          unfold authError at h
          cases ho : out.ok <;> cases he : out.err <;> simp_all
        · exact (hI.resp j h).mono _
      · rcases upd_eq_iff'.mp hj with ⟨_, h⟩ | ⟨_, h⟩
        · cases h
        · exact (hI.acc j h).mono _
      · exact (hI.opened j (by simpa using hj)).mono _
      · exact List.mem_cons_of_mem _ (hI.ctrl j hj)
    · cases hx
  | send i ok =>
    simp only [cexec] at hx
    split at hx
    · rename_i e hth
      split at hx
      · injection hx with hx; subst hx
        refine ⟨?_, ?_, hI.opened, hI.ctrl⟩ <;> intro j hj
        · rcases upd_eq_iff'.mp hj with ⟨_, h⟩ | ⟨_, h⟩
          · cases h
          · exact hI.resp j h
        · rcases upd_eq_iff'.mp hj with ⟨_, h⟩ | ⟨_, h⟩
          · cases h
          · exact hI.acc j h
      · split at hx
        · injection hx with hx; subst hx
          refine ⟨?_, ?_, ?_, ?_⟩ <;> intro j hj
          · rcases upd_eq_iff'.mp hj with ⟨_, h⟩ | ⟨_, h⟩
            · cases h
            · exact (hI.resp j h).mono _
          · rcases upd_eq_iff'.mp hj with ⟨_, h⟩ | ⟨_, h⟩
            · cases h
            · exact (hI.acc j h).mono _
          · exact (hI.opened j (by simpa using hj)).mono _
          · exact List.mem_cons_of_mem _ (hI.ctrl j hj)
        · rename_i he
          injection hx with hx; subst hx
          have he : e = false := by simpa using he
          subst he
          refine ⟨?_, ?_, hI.opened, hI.ctrl⟩ <;> intro j hj
          · rcases upd_eq_iff'.mp hj with ⟨_, h⟩ | ⟨_, h⟩
            · cases h
            · exact hI.resp j h
          · rcases upd_eq_iff'.mp hj with ⟨e, h⟩ | ⟨_, h⟩
            · subst e; exact hI.resp j hth
            · exact hI.acc j h
    · cases hx
  | setCtrl i =>
    simp only [cexec] at hx
    split at hx
    · rename_i hth
      injection hx with hx; subst hx
      refine ⟨?_, ?_, ?_, ?_⟩ <;> intro j hj
      · rcases upd_eq_iff'.mp hj with ⟨_, h⟩ | ⟨_, h⟩
        · cases h
        · exact (hI.resp j h).mono _
      · rcases upd_eq_iff'.mp hj with ⟨_, h⟩ | ⟨_, h⟩
        · cases h
        · exact (hI.acc j h).mono _
      · rcases List.mem_cons.mp hj with h | h
        · injection h with h; subst h; exact (hI.acc j hth).mono _
        · exact (hI.opened j h).mono _
      · have : i = j := by simpa using hj
        subst this; simp
    · cases hx

/-- **C194 (authentication), partial.**  With an authenticator configured, in every
interleaving of any number of streams: a stream becomes the session's control stream only
if the authenticator accepted the token presented on that very stream -- for authenticators
that return an error whenever they do not accept.  Missing: authenticators answering
`(false, nil)`, for which the claim is false (`C194_not_ok_accepted_false`). -/
theorem C194_authenticated_partial (st : CSt) (h : CReach true ErrWhenNotOk st) :
    (∀ i, .opened i ∈ st.tr → Authenticated st.tr i) ∧
    (∀ i, st.ctrl = some i → Authenticated st.tr i) := by
  have hI : CInv st := by
    induction h with
    | init =>
      exact ⟨by intro i h; simp [CSt.init] at h, by intro i h; simp [CSt.init] at h,
        by intro i h; simp [CSt.init] at h, by intro i h; simp [CSt.init] at h⟩
    | step a _ hg hx ih => exact ih.exec hg hx
  exact ⟨hI.opened, fun i h => hI.opened i (hI.ctrl i h)⟩

/-- The shipped Kubernetes authenticator returns an error whenever it does not accept, and
accepts exactly the reviewed, authenticated tokens; so the previous theorem applies to it
in full. -/
theorem C38_k8s_authenticator (r : TokenReview) :
    ((k8sAuthenticate r).ok = true ↔ r.createErr = none ∧ r.statusError = "" ∧ r.authenticated = true) ∧
    ((k8sAuthenticate r).ok = false → (k8sAuthenticate r).err ≠ none) := by
  unfold k8sAuthenticate
  cases r.createErr <;> by_cases h : r.statusError = "" <;> cases r.authenticated <;> simp [h]

/-- For a service account token (`system:serviceaccount:<namespace>:<name>`, as the token review reports it) the user's
metadata are the account's namespace and name; any other kind of user name gives no metadata unless it has the same four
part form. -/
theorem C38_k8s_metadata (ns name : String) :
    (k8sMetadata ["system", "serviceaccount", ns, name]).lookup "namespace" = some ns ∧
    (k8sMetadata ["system", "serviceaccount", ns, name]).lookup "serviceaccount" = some name ∧
    ∀ parts, (parts.length ≠ 4 ∨ parts[0]? ≠ some "system") → k8sMetadata parts = [] := by
  refine ⟨by simp [k8sMetadata, List.lookup], by simp [k8sMetadata, List.lookup], ?_⟩
  intro parts h
  unfold k8sMetadata
  split
  · rename_i a b c d
    simp only [List.length_cons, List.length_nil, List.getElem?_cons_zero] at h
    rw [if_neg]
    intro ha
    subst ha
    simp at h
  · rfl

/-- Corollary for a server using the Kubernetes authenticator: every control stream's token
was reviewed as authenticated. -/
theorem C38_k8s (st : CSt)
    (h : CReach true (fun _ a => match a with
      | .authenticate _ out => ∃ r, out = k8sAuthenticate r
      | _ => True) st) :
    ∀ i, .opened i ∈ st.tr → Authenticated st.tr i := by
  refine (C194_authenticated_partial st ?_).1
  induction h with
  | init => exact .init
  | step a _ hg hx ih =>
    refine .step a ih ?_ hx
    cases a with
    | authenticate i out =>
      obtain ⟨r, rfl⟩ := hg
      exact (C38_k8s_authenticator r).2
    | _ => trivial

/-- **C194 (authentication) is false of the code for a general authenticator**: one that
answers "not ok" without an error lets the client in. -/
theorem C194_not_ok_accepted_false : ∃ st, CReach true (fun _ _ => True) st ∧
    st.ctrl = some 0 ∧ .opened 0 ∈ st.tr ∧ ¬ Authenticated st.tr 0 := by
  refine ⟨_, .step (.setCtrl 0) (.step (.send 0 true) (.step (.authenticate 0 ⟨false, none⟩)
    (.step (.check 0) .init trivial rfl) trivial rfl) trivial rfl) trivial rfl, rfl, by simp, ?_⟩
  rintro ⟨o, h1, h2, h3⟩
  have : o = ⟨false, none⟩ := by simpa [CSt.init] using h1
  subst this
  cases h2

/-! ### At most one control stream -/

structure COne (st : CSt) : Prop where
  /-- at most one call past the check -/
  single : ∀ i j, st.ths i ≠ .start → st.ths i ≠ .done → st.ths j ≠ .start → st.ths j ≠ .done → i = j
  noCtrl : ∀ i, (st.ths i = .checked false ∨ st.ths i = .respond false ∨ st.ths i = .accepted) →
    st.ctrl = none
  cnt : ∀ i, .opened i ∈ st.tr → st.ctrl = some i

theorem COne.exec {auth : Bool} {st st' : CSt} (hI : COne st) {a : CAct} (hg : OneAtATime st a)
    (hx : cexec auth st a = some st') : COne st' := by
  -- moving thread `i` between in-progress states
  have move : ∀ (i : Nat) (b : CTh) (tr : List CEv),
      (st.ths i ≠ .start ∧ st.ths i ≠ .done) →
      ((b = .checked false ∨ b = .respond false ∨ b = .accepted) → st.ctrl = none) →
      (∀ j, .opened j ∈ tr → .opened j ∈ st.tr) →
      COne { st with ths := upd st.ths i b, tr := tr } := by
    intro i b tr hb0 hb1 htr
    have hx : ∀ j, upd st.ths i b j ≠ .start → upd st.ths i b j ≠ .done →
        st.ths j ≠ .start ∧ st.ths j ≠ .done := by
      intro j h1 h2
      by_cases hj : j = i
      · subst hj; exact hb0
      · rw [upd_ne _ _ hj] at h1 h2; exact ⟨h1, h2⟩
    refine ⟨?_, ?_, fun j hj => hI.cnt j (htr j hj)⟩
    · intro j k h1 h2 h3 h4
      exact hI.single j k (hx j h1 h2).1 (hx j h1 h2).2 (hx k h3 h4).1 (hx k h3 h4).2
    · intro j hj
      by_cases hji : j = i
      · subst hji; simp only [upd_same] at hj; exact hb1 hj
      · simp only [upd_ne _ _ hji] at hj; exact hI.noCtrl j hj
  cases a with
  | check i =>
    simp only [cexec] at hx
    split at hx
    · rename_i hth
      injection hx with hx; subst hx
      have hg' : ∀ j, j ≠ i → st.ths j = .start ∨ st.ths j = .done := hg
      have hx : ∀ j, upd st.ths i (.checked st.ctrl.isSome) j ≠ .start →
          upd st.ths i (.checked st.ctrl.isSome) j ≠ .done → j = i := by
        intro j h1 h2
        by_cases hj : j = i
        · exact hj
        · rw [upd_ne _ _ hj] at h1 h2
          rcases hg' j hj with h | h
          · exact absurd h h1
          · exact absurd h h2
      refine ⟨?_, ?_, hI.cnt⟩
      · intro j k h1 h2 h3 h4; rw [hx j h1 h2, hx k h3 h4]
      · intro j hj
        by_cases hji : j = i
        · subst hji; simp only [upd_same] at hj
          rcases hj with h | h | h
          · injection h with h
            cases hc : st.ctrl with
            | none => rfl
            | some _ => rw [hc] at h; cases h
          · cases h
          · cases h
        · simp only [upd_ne _ _ hji] at hj; exact hI.noCtrl j hj
    · cases hx
  | authenticate i out =>
    simp only [cexec] at hx
    split at hx
    · rename_i hth
      injection hx with hx; subst hx
      exact move i _ _ (by rw [hth]; simp) (by simp) (fun _ h => h)
    · rename_i hth
      have hc := hI.noCtrl i (Or.inl hth)
      split at hx
      · injection hx with hx; subst hx
        exact move i _ _ (by rw [hth]; simp) (fun _ => hc) (fun j h => by simpa using h)
      · injection hx with hx; subst hx
        exact move i _ _ (by rw [hth]; simp) (fun _ => hc) (fun _ h => h)
    · cases hx
  | send i ok =>
    simp only [cexec] at hx
    split at hx
    · rename_i e hth
      split at hx
      · injection hx with hx; subst hx
        exact move i _ _ (by rw [hth]; simp) (by simp) (fun _ h => h)
      · split at hx
        · injection hx with hx; subst hx
          exact move i _ _ (by rw [hth]; simp) (by simp) (fun j h => by simpa using h)
        · rename_i he
          injection hx with hx; subst hx
          have he : e = false := by simpa using he
          subst he
          exact move i _ _ (by rw [hth]; simp) (fun _ => hI.noCtrl i (Or.inr (Or.inl hth))) (fun _ h => h)
    · cases hx
  | setCtrl i =>
    simp only [cexec] at hx
    split at hx
    · rename_i hth
      injection hx with hx; subst hx
      have hc := hI.noCtrl i (Or.inr (Or.inr hth))
      have honly : ∀ j, j ≠ i → st.ths j = .start ∨ st.ths j = .done := by
        intro j hj
        by_cases h1 : st.ths j = .start
        · exact Or.inl h1
        · by_cases h2 : st.ths j = .done
          · exact Or.inr h2
          · exact absurd (hI.single j i h1 h2 (by rw [hth]; simp) (by rw [hth]; simp)) hj
      refine ⟨?_, ?_, ?_⟩
      · intro j k h1 h2 h3 h4
        exfalso
        by_cases hj : j = i
        · subst hj; simp [upd] at h2
        · simp only [upd_ne _ _ hj] at h1 h2
          rcases honly j hj with h | h
          · exact h1 h
          · exact h2 h
      · intro j hj
        exfalso
        by_cases hji : j = i
        · subst hji; simp [upd] at hj
        · simp only [upd_ne _ _ hji] at hj
          rcases honly j hji with h | h <;> simp [h] at hj
      · intro j hj
        rcases List.mem_cons.mp hj with h | h
        · injection h with h; subst h; rfl
        · have := hI.cnt j h; rw [hc] at this; cases this
    · cases hx

/-- **C194 (at most one control stream), partial.**  If the session's `openControlStream`
messages are handled one after the other, at most one stream ever becomes its control
stream.  Missing: two handler goroutines running at
once, for which it is false (`C194_two_control_streams_false`). -/
theorem C194_at_most_one_partial (auth : Bool) (st : CSt) (h : CReach auth OneAtATime st) :
    ∀ i j, .opened i ∈ st.tr → .opened j ∈ st.tr → i = j := by
  have hI : COne st := by
    induction h with
    | init =>
      exact ⟨by intro i j h; simp [CSt.init] at h, by intro i h; simp [CSt.init] at h,
        by intro i h; simp [CSt.init] at h⟩
    | step a _ hg hx ih => exact ih.exec hg hx
  intro i j hi hj
  have h1 := hI.cnt i hi
  have h2 := hI.cnt j hj
  rw [h1] at h2; injection h2

/-- **C194 (at most one control stream) is false of the code**: two streams opened at the same
time both pass the `ctrlStream != nil` test and both become control streams. -/
theorem C194_two_control_streams_false : ∃ st, CReach true ErrWhenNotOk st ∧
    .opened 0 ∈ st.tr ∧ .opened 1 ∈ st.tr := by
  refine ⟨_, .step (.setCtrl 1) (.step (.setCtrl 0) (.step (.send 1 true) (.step (.send 0 true)
    (.step (.authenticate 1 ⟨true, none⟩) (.step (.authenticate 0 ⟨true, none⟩)
    (.step (.check 1) (.step (.check 0) .init trivial rfl) trivial rfl)
    (by intro h; cases h) rfl) (by intro h; cases h) rfl) trivial rfl) trivial rfl) trivial rfl)
    trivial rfl, by simp, by simp⟩

/-- A stream whose token the authenticator rejected with an error never becomes a control
stream and is told so. -/
example : ∃ st, CReach true ErrWhenNotOk st ∧ st.tr = [.refused 0, .auth 0 ⟨false, some "bad token"⟩] ∧
    st.ctrl = none :=
  ⟨_, .step (.send 0 true) (.step (.authenticate 0 ⟨false, some "bad token"⟩)
    (.step (.check 0) .init trivial rfl) (by intro _ h; cases h) rfl) trivial rfl, rfl, rfl⟩

/-- Non-vacuity of both partial theorems: an accepted stream, then a refused second one. -/
example : ∃ st, CReach true OneAtATime st ∧ CReach true ErrWhenNotOk st ∧ st.ctrl = some 0 ∧
    .refused 1 ∈ st.tr := by
  refine ⟨_, .step (.send 1 true) (.step (.authenticate 1 ⟨true, none⟩) (.step (.check 1)
    (.step (.setCtrl 0) (.step (.send 0 true) (.step (.authenticate 0 ⟨true, none⟩)
    (.step (.check 0) .init ?_ rfl) trivial rfl) trivial rfl) trivial rfl) ?_ rfl) trivial rfl)
    trivial rfl,
    .step (.send 1 true) (.step (.authenticate 1 ⟨true, none⟩) (.step (.check 1)
    (.step (.setCtrl 0) (.step (.send 0 true) (.step (.authenticate 0 ⟨true, none⟩)
    (.step (.check 0) .init trivial rfl) (by intro h; cases h) rfl) trivial rfl) trivial rfl) trivial rfl)
    (by intro h; cases h) rfl) trivial rfl, rfl, by simp⟩
  · intro j _; exact Or.inl rfl
  · intro j hj
    rcases j with _ | j
    · exact Or.inr rfl
    · exact Or.inl rfl

end Verif.Tunnel
