import Verif.Bifrost.ServerCmd
import Verif.Props.TunnelControl

/-! # C292: A tunnel server in a cluster serves only confirmed clients -/

namespace Verif.Bifrost.ServerCmd
open Verif.Tunnel

/-! ### Specification -/

/-- The review of the token presented on the stream confirmed it. -/
def Confirmed (st : CSt) (i : Nat) : Prop :=
  ∃ r : TokenReview, CEv.auth i (k8sAuthenticate r) ∈ st.tr ∧ r.createErr = none ∧ r.statusError = "" ∧ r.authenticated = true

/-! ### Proofs -/

theorem start_auth (w : World) (s : Started) (h : start w = some s) : s.auth = w.pod ∧ s.ports = w.pod ∧ s.mesh = w.nasp := by
  unfold start at h
  revert h
  cases w.nasp <;> cases w.naspOk <;> cases w.pod <;> cases w.kubeOk <;> cases w.configMapsOk <;> cases w.endpointsOk <;>
    cases w.serverOk <;> simp <;> rintro rfl <;> simp

theorem answers_k8s (auth : Bool) (st : CSt) (h : CReach auth Answers st) :
    ∀ i out, CEv.auth i out ∈ st.tr → ∃ r, out = k8sAuthenticate r := by
  induction h with
  | init => intro i out h; simp [CSt.init] at h
  | step a _ hg hx ih =>
    intro i out hm
    cases a with
    | check j =>
      simp only [cexec] at hx
      split at hx
      · injection hx with hx; subst hx; exact ih i out hm
      · cases hx
    | authenticate j o =>
      obtain ⟨r, rfl⟩ := hg
      simp only [cexec] at hx
      split at hx
      · injection hx with hx; subst hx; exact ih i out hm
      · split at hx
        · injection hx with hx; subst hx
          rcases List.mem_cons.1 hm with h | h
          · injection h with _ h; exact ⟨r, h⟩
          · exact ih i out h
        · injection hx with hx; subst hx; exact ih i out hm
      · cases hx
    | send j ok =>
      simp only [cexec] at hx
      split at hx
      · split at hx
        · injection hx with hx; subst hx; exact ih i out hm
        · split at hx
          · injection hx with hx; subst hx
            rcases List.mem_cons.1 hm with h | h
            · cases h
            · exact ih i out h
          · injection hx with hx; subst hx; exact ih i out hm
      · cases hx
    | setCtrl j =>
      simp only [cexec] at hx
      split at hx
      · injection hx with hx; subst hx
        rcases List.mem_cons.1 hm with h | h
        · cases h
        · exact ih i out h
      · cases hx

/-- **C292** Whatever the command finds: if it starts in a cluster, then in every history of its sessions a
stream becomes a control stream only if the cluster's review confirmed the token presented on it. It does
not start otherwise. -/
theorem C292_confirmed_partial (w : World) (s : Started) (h : start w = some s) (hp : w.pod = true)
    (st : CSt) (hr : CReach s.auth Answers st) : ∀ i, CEv.opened i ∈ st.tr → Confirmed st i := by
  intro i hi
  have ha : s.auth = true := (start_auth w s h).1.trans hp
  rw [ha] at hr
  obtain ⟨out, h1, h2⟩ := C38_k8s st hr i hi
  obtain ⟨r, rfl⟩ := answers_k8s true st hr i out h1
  have := (C38_k8s_authenticator r).1.1 h2.1
  exact ⟨r, h1, this.1, this.2.1, this.2.2⟩

/-- **C292** The command starts exactly if everything it needs succeeds; in a cluster it then records the
ports, and it listens through the mesh exactly if told to. -/
theorem C292_starts (w : World) :
    ((∃ s, start w = some s) ↔ (w.nasp = true → w.naspOk = true) ∧
      (w.pod = true → w.kubeOk = true ∧ w.configMapsOk = true ∧ w.endpointsOk = true) ∧ w.serverOk = true) ∧
      ∀ s, start w = some s → (s.ports = w.pod ∧ s.mesh = w.nasp) := by
  refine ⟨?_, fun s h => (start_auth w s h).2⟩
  unfold start
  cases w.nasp <;> cases w.naspOk <;> cases w.pod <;> cases w.kubeOk <;> cases w.configMapsOk <;> cases w.endpointsOk <;>
    cases w.serverOk <;> simp

/-- **C292 (fails)** Outside a cluster every client gets a control stream: nothing is asked of it. -/
theorem C292_outside_false (w : World) (s : Started) (h : start w = some s) (hp : w.pod = false) :
    ∃ st, CReach s.auth Answers st ∧ .opened 0 ∈ st.tr ∧ ∀ i out, CEv.auth i out ∉ st.tr := by
  have ha : s.auth = false := (start_auth w s h).1.trans hp
  rw [ha]
  refine ⟨_, .step (.setCtrl 0) (.step (.send 0 true) (.step (.authenticate 0 ⟨true, none⟩)
    (.step (.check 0) .init trivial rfl) ⟨⟨none, "", true⟩, by simp [k8sAuthenticate]⟩ rfl) trivial rfl) trivial rfl, by simp, ?_⟩
  intro i out hm
  simp [CSt.init] at hm

/-! ### The hypotheses are met -/

example : start ⟨false, false, true, true, true, true, true⟩ = some ⟨false, true, true⟩ := rfl
example : start ⟨true, true, false, false, false, false, true⟩ = some ⟨true, false, false⟩ := rfl
example : ∃ st, CReach true Answers st ∧ .opened 0 ∈ st.tr :=
  ⟨_, .step (.setCtrl 0) (.step (.send 0 true) (.step (.authenticate 0 ⟨true, none⟩)
    (.step (.check 0) .init trivial rfl) ⟨⟨none, "", true⟩, by simp [k8sAuthenticate]⟩ rfl) trivial rfl) trivial rfl, by simp⟩

end Verif.Bifrost.ServerCmd
