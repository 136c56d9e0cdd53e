import Verif.Heimdall.Auth
/-
C90: the identity behind a Heimdall configuration.
-/
namespace Verif.Props
open Verif Verif.Heimdall

theorem audPrefix_split : ∀ s : Str, split ':' (audPrefix ++ s) = "nasp-heimdall".toList :: "workloadgroup".toList :: split ':' s := by
  intro s
  have h1 : audPrefix ++ s = "nasp-heimdall".toList ++ ':' :: ("workloadgroup".toList ++ ':' :: s) := by rfl
  rw [h1, split_append _ _ _ (by decide), split_append _ _ _ (by decide)]

theorem saPrefix_split : ∀ s : Str, split ':' (saPrefix ++ s) = "system".toList :: "serviceaccount".toList :: split ':' s := by
  intro s
  have h1 : saPrefix ++ s = "system".toList ++ ':' :: ("serviceaccount".toList ++ ':' :: s) := by rfl
  rw [h1, split_append _ _ _ (by decide), split_append _ _ _ (by decide)]

/-- **C90** The audience generated for a group (Kubernetes names have no colon) is recognised and names that group. -/
theorem C90_roundtrip (r : Ref) (h1 : ':' ∉ r.ns) (h2 : ':' ∉ r.name) :
    validAud (generate r) = true ∧ parseAud (generate r) = r := by
  refine ⟨by simp [validAud, generate], ?_⟩
  unfold parseAud generate
  rw [audPrefix_split, split_append _ _ _ h1, split_free _ _ h2]

/-- **C90** Conversely a recognised audience that names a group is the audience generated for it: no two groups share one. -/
theorem C90_parse_exact (a : Str) (h : validAud a = true) (hne : parseAud a ≠ ⟨[], []⟩) : a = generate (parseAud a) := by
  unfold validAud at h
  obtain ⟨s, rfl⟩ := List.isPrefixOf_iff_prefix.mp h
  unfold parseAud at hne ⊢
  rw [audPrefix_split] at hne ⊢
  have hj := join_split ':' s
  cases hs : split ':' s with
  | nil => exact absurd hs (split_ne_nil _ _)
  | cons p ps =>
    cases ps with
    | nil => rw [hs] at hne; exact absurd rfl hne
    | cons q qs =>
      cases qs with
      | nil => rw [hs] at hj; simp only [join] at hj; simp only [generate]; rw [hj]
      | cons x xs => rw [hs] at hne; exact absurd rfl hne

/-- the service account named by a user name -/
def NamesSA (username : Str) (r : Ref) : Prop := username = saPrefix ++ (r.ns ++ ':' :: r.name)

theorem sa_exact {u : Str} {r : Ref} (h : saOf u = some r) (hr : r ≠ ⟨[], []⟩) : NamesSA u r := by
  unfold saOf at h
  split at h
  · rename_i hp
    obtain ⟨s, rfl⟩ := List.isPrefixOf_iff_prefix.mp hp
    rw [saPrefix_split] at h
    have hj := join_split ':' s
    cases hs : split ':' s with
    | nil => exact absurd hs (split_ne_nil _ _)
    | cons p ps =>
      cases ps with
      | nil => rw [hs] at h; cases h
      | cons q qs =>
        cases qs with
        | nil =>
          rw [hs] at h hj
          simp only [join] at hj
          injection h with h; subst h
          unfold NamesSA
          simp only
          rw [hj]
        | cons x xs => rw [hs] at h; cases h
  · injection h with h; exact absurd h.symm hr

/-- the cluster confirmed the token for the audience: it authenticated it and reported no error -/
def Confirmed {WG CA : Type} (api : Api WG CA) (token aud user : Str) : Prop :=
  ∃ st, api.review token [aud] = some st ∧ st.authenticated = true ∧ st.error = [] ∧ st.username = user

theorem firstAud_mem {auds : List Str} (h : firstAud auds ≠ []) : firstAud auds ∈ auds ∧ validAud (firstAud auds) = true := by
  unfold firstAud at h ⊢
  cases hf : auds.find? validAud with
  | none => rw [hf] at h; exact absurd rfl h
  | some a => exact ⟨List.mem_of_find?_eq_some hf, List.find?_some hf⟩

/-- **C90** The server answers only if the second of the two words of the header is a token of which one audience is the
generated audience of a stored group, and the cluster has confirmed the token for this audience; the answer is for this group.
(`hempty`: no object has an empty name.) -/
theorem C90_only_confirmed {WG CA : Type} (api : Api WG CA) (hempty : api.groups ⟨[], []⟩ = none) (header : Str) (a : Answer WG CA)
    (h : config api header = .ok a) :
    ∃ scheme token auds user, header = scheme ++ ' ' :: token ∧ ' ' ∉ token ∧ api.claims token = some auds ∧
      generate a.ref ∈ auds ∧ Confirmed api token (generate a.ref) user ∧ api.groups a.ref = some a.group ∧
      ∃ sa, saOf user = some sa ∧ api.ca (withDefaultSA sa) = some a.ca ∧ a.saName = (withDefaultSA sa).name := by
  unfold config at h
  split at h
  · cases h
  · split at h
    · rename_i scheme token hsp
      have hj := join_split ' ' header
      rw [hsp] at hj
      simp only [join] at hj
      have htok : ' ' ∉ token := split_parts_free ' ' header token (by rw [hsp]; simp)
      cases hau : authenticate api token with
      | none => rw [hau] at h; cases h
      | some u =>
        rw [hau] at h
        simp only at h
        cases hg : api.groups u.group with
        | none => rw [hg] at h; cases h
        | some g =>
          rw [hg] at h
          simp only at h
          cases hc : api.ca (withDefaultSA u.sa) with
          | none => rw [hc] at h; cases h
          | some c =>
            rw [hc] at h
            simp only at h
            injection h with h; subst h
            unfold authenticate at hau
            cases hcl : api.claims token with
            | none => rw [hcl] at hau; cases hau
            | some auds =>
              rw [hcl] at hau
              simp only at hau
              cases hrv : api.review token [firstAud auds] with
              | none => rw [hrv] at hau; cases hau
              | some st =>
                rw [hrv] at hau
                simp only at hau
                split at hau
                · cases hau
                · rename_i he
                  split at hau
                  · cases hau
                  · rename_i hauth
                    cases hsa : saOf st.username with
                    | none => rw [hsa] at hau; cases hau
                    | some sa =>
                      rw [hsa] at hau
                      injection hau with hau; subst hau
                      have hne : parseAud (firstAud auds) ≠ ⟨[], []⟩ := by
                        intro hx; simp only [hx] at hg; rw [hempty] at hg; cases hg
                      have hfa : firstAud auds ≠ [] := by
                        intro hx; rw [hx] at hne; exact hne rfl
                      obtain ⟨hm, hv⟩ := firstAud_mem hfa
                      have hgen := C90_parse_exact _ hv hne
                      refine ⟨scheme, token, auds, st.username, hj.symm, htok, hcl, ?_, ?_, hg, sa, hsa, hc, rfl⟩
                      · simp only; rw [← hgen]; exact hm
                      · refine ⟨st, ?_, by simpa using hauth, by simpa using he, rfl⟩
                        simp only; rw [← hgen]; exact hrv
    · cases h

/-- **C90** A token issued for a stored group (its only audience), confirmed by the cluster, gets the configuration of that
group. -/
theorem C90_issued {WG CA : Type} (api : Api WG CA) (r : Ref) (g : WG) (c : CA) (sa : Ref) (token user : Str) (h1 : ':' ∉ r.ns)
    (h2 : ':' ∉ r.name) (hsp : ' ' ∉ token) (hcl : api.claims token = some [generate r]) (hcf : Confirmed api token (generate r) user)
    (hu : NamesSA user sa) (hu1 : ':' ∉ sa.ns) (hu2 : ':' ∉ sa.name) (hu3 : sa.name ≠ []) (hg : api.groups r = some g)
    (hc : api.ca sa = some c) :
    config api ("Bearer ".toList ++ token) = .ok { group := g, ref := r, ca := c, saName := sa.name } := by
  obtain ⟨hv, hp⟩ := C90_roundtrip r h1 h2
  obtain ⟨st, hrv, hauth, he, hun⟩ := hcf
  have hsplit : split ' ' ("Bearer ".toList ++ token) = ["Bearer".toList, token] := by
    have : "Bearer ".toList ++ token = "Bearer".toList ++ ' ' :: token := rfl
    rw [this, split_append _ _ _ (by decide), split_free _ _ hsp]
  have hsa : saOf st.username = some sa := by
    rw [hun]
    unfold saOf
    rw [hu, if_pos (by simp), saPrefix_split, split_append _ _ _ hu1, split_free _ _ hu2]
  have hf : firstAud [generate r] = generate r := by simp [firstAud, hv]
  have hau : authenticate api token = some { name := st.username, sa := sa, group := r } := by
    unfold authenticate
    simp only [hcl, hf, hrv, he, hauth, hsa, hp]
    simp
  have hw : withDefaultSA sa = sa := by unfold withDefaultSA; rw [if_neg hu3]
  unfold config
  rw [if_neg (by simp), hsplit]
  simp only [hau, hg, hw, hc]

/-- **C90** Without a header of two words, or with a token that cannot be parsed, is not confirmed or names no stored group, there is
no configuration. -/
theorem C90_refused {WG CA : Type} (api : Api WG CA) (header token : Str)
    (h : (∀ s, header ≠ s ++ ' ' :: token ∨ ' ' ∈ s) ∨ api.claims token = none ∨
      (∀ auds, api.claims token = some auds → ∀ u, ¬ Confirmed api token (firstAud auds) u) ∨
      (∀ auds, api.claims token = some auds → api.groups (parseAud (firstAud auds)) = none)) :
    ¬ ∃ a s, config api header = .ok a ∧ split ' ' header = [s, token] := by
  rintro ⟨a, s, hok, hsp⟩
  have hj := join_split ' ' header
  rw [hsp] at hj
  simp only [join] at hj
  have hs : ' ' ∉ s := split_parts_free ' ' header s (by rw [hsp]; simp)
  unfold config at hok
  split at hok
  · cases hok
  · rw [hsp] at hok
    simp only at hok
    rcases h with h | h | h | h
    · rcases h s with h | h
      · exact h hj.symm
      · exact hs h
    · have : authenticate api token = none := by unfold authenticate; rw [h]
      rw [this] at hok; cases hok
    · cases hcl : api.claims token with
      | none =>
        have : authenticate api token = none := by unfold authenticate; rw [hcl]
        rw [this] at hok; cases hok
      | some auds =>
        have : authenticate api token = none := by
          unfold authenticate
          simp only [hcl]
          cases hrv : api.review token [firstAud auds] with
          | none => rfl
          | some st =>
            simp only
            by_cases he : st.error = []
            · rw [if_neg (by simp [he])]
              cases hau : st.authenticated with
              | false => rfl
              | true => exact absurd ⟨st, hrv, hau, he, rfl⟩ (h auds hcl st.username)
            · rw [if_pos he]
        rw [this] at hok; cases hok
    · cases hau : authenticate api token with
      | none => rw [hau] at hok; cases hok
      | some u =>
        rw [hau] at hok
        have hgr : api.groups u.group = none := by
          unfold authenticate at hau
          cases hcl : api.claims token with
          | none => rw [hcl] at hau; cases hau
          | some auds =>
            rw [hcl] at hau
            simp only at hau
            cases hrv : api.review token [firstAud auds] with
            | none => rw [hrv] at hau; cases hau
            | some st =>
              rw [hrv] at hau
              simp only at hau
              split at hau
              · cases hau
              · split at hau
                · cases hau
                · cases hsa : saOf st.username with
                  | none => rw [hsa] at hau; cases hau
                  | some sa => rw [hsa] at hau; injection hau with hau; subst hau; exact h auds hcl
        simp only [hgr] at hok
        cases hok

/-- an API server with one token, issued for the group `web` in namespace `shop` to the service account `vm` -/
def sampleApi : Api Nat Nat where
  claims t := if t = "t1".toList then some ["other".toList, "nasp-heimdall:workloadgroup:shop:web".toList] else none
  review t auds := if t = "t1".toList ∧ auds = ["nasp-heimdall:workloadgroup:shop:web".toList] then
      some ⟨[], true, "system:serviceaccount:shop:vm".toList⟩ else some ⟨[], false, []⟩
  groups r := if r = ⟨"shop".toList, "web".toList⟩ then some 7 else none
  ca r := if r = ⟨"shop".toList, "vm".toList⟩ then some 3 else none

example : ∃ a, config sampleApi "Bearer t1".toList = .ok a ∧ a.group = 7 ∧ a.ca = 3 ∧ a.saName = "vm".toList :=
  ⟨_, rfl, rfl, rfl, rfl⟩
example : config sampleApi "Bearer t2".toList = .unauthorized := rfl

/-! ### C91 -/

/-- **C199** (negation) The namespace of the service account is not compared with the namespace of the group: a service account of
another namespace, for which its owner requested a token with the group's audience, gets the group's configuration. -/
theorem C199_other_namespace_false : ∃ (api : Api Nat Nat) (a : Answer Nat Nat) (user : Str),
    api.groups ⟨[], []⟩ = none ∧ config api "Bearer t1".toList = .ok a ∧ a.ref = ⟨"shop".toList, "web".toList⟩ ∧
      Confirmed api "t1".toList (generate a.ref) user ∧ NamesSA user ⟨"evil".toList, "vm".toList⟩ := by
  refine ⟨{ sampleApi with
    review := fun t auds => if t = "t1".toList ∧ auds = ["nasp-heimdall:workloadgroup:shop:web".toList] then
      some ⟨[], true, "system:serviceaccount:evil:vm".toList⟩ else none
    ca := fun _ => some 3 }, _, _, rfl, rfl, rfl, ⟨_, rfl, rfl, rfl, rfl⟩, rfl⟩

/-- **C91** … but the CA configuration in the answer is the one of the service account itself, so a token of
another namespace yields no certificate of the group's namespace. -/
theorem C91_own_ca {WG CA : Type} (api : Api WG CA) (hempty : api.groups ⟨[], []⟩ = none) (header : Str) (a : Answer WG CA)
    (h : config api header = .ok a) : ∃ token user sa, Confirmed api token (generate a.ref) user ∧
      api.ca (withDefaultSA sa) = some a.ca ∧ (sa = ⟨[], []⟩ ∨ NamesSA user sa) := by
  obtain ⟨_, token, _, user, _, _, _, _, hcf, _, sa, hsa, hca, _⟩ := C90_only_confirmed api hempty header a h
  refine ⟨token, user, sa, hcf, hca, ?_⟩
  rcases Classical.em (sa = ⟨[], []⟩) with h | h
  · exact Or.inl h
  · exact Or.inr (sa_exact hsa h)

end Verif.Props
