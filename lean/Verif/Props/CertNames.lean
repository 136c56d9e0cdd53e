import Verif.Sec.CertNames

/-! # C282: the identity filters see; C284: the text of a certificate -/

namespace Verif.CertNames
open Verif.Cert

/-! ### C282 -/

/-- The configuration asks for a name of the peer. -/
def Asks (c : Config) : Prop := c.sans ≠ []

/-- A name the configuration accepts as a URI. -/
def Accepts (e : Match.Env) (c : Config) (s : Match.Str) : Prop :=
  ∃ m ∈ c.sans, m.type = .uri ∧ Match.doMatch e m.matcher s = true

/-- **C282** The text filters get as the peer's identity is the first URI of its certificate, and empty
if it has none. -/
theorem C282_first (subject : Match.Str) (c : Certificate) :
    (∀ u r, c.uris = u :: r → (seen subject c).uri = u) ∧ (c.uris = [] → (seen subject c).uri = []) ∧
    (∀ u r, c.dns = u :: r → (seen subject c).dns = u) ∧ (c.dns = [] → (seen subject c).dns = []) ∧
    (seen subject c).subject = subject ∧ (seen subject c).digest = c.hash := by
  unfold seen first
  refine ⟨fun u r h => by rw [h], fun h => by rw [h], fun u r h => by rw [h], fun h => by rw [h], rfl, rfl⟩

/-- **C282** A peer accepted by a configuration that asks for URIs, with a certificate with one URI: the
identity filters get is one the configuration accepts. (What is missing are certificates with several
URIs.) -/
theorem C282_one_partial (e : Match.Env) (x : X509) (c : Config) (raw : List (List Nat)) (leaf : Certificate)
    (rest : List Certificate) (subject : Match.Str) (ha : Asks c) (hu : ∀ m ∈ c.sans, m.type = .uri)
    (h : verifyCertificate e x c raw = .ok (leaf :: rest)) (h1 : leaf.uris.length ≤ 1) :
    Accepts e c (seen subject leaf).uri := by
  have hs : sansOk e c leaf = true := by
    unfold verifyCertificate at h
    cases hv : verifyChain x c raw with
    | panic => rw [hv] at h; cases h
    | error => rw [hv] at h; cases h
    | ok chains =>
      rw [hv] at h
      simp only at h
      cases chains with
      | nil => simp at h
      | cons ch chs =>
        cases ch with
        | nil => simp at h
        | cons l r =>
          simp only at h
          by_cases hb : (hashOk c l && spkiOk c l && sansOk e c l) = true
          · rw [if_pos hb] at h
            cases h
            simp only [Bool.and_eq_true] at hb
            exact hb.2
          · rw [if_neg hb] at h; cases h
  unfold sansOk at hs
  have hl : ¬ c.sans.length < 1 := by
    cases hc : c.sans with
    | nil => exact absurd hc ha
    | cons _ _ => simp
  rw [if_neg hl, List.any_eq_true] at hs
  obtain ⟨m, hm, hs⟩ := hs
  rw [hu m hm] at hs
  simp only [sansOf, List.any_eq_true] at hs
  obtain ⟨s, hs1, hs2⟩ := hs
  refine ⟨m, hm, hu m hm, ?_⟩
  cases hc : leaf.uris with
  | nil => rw [hc] at hs1; cases hs1
  | cons u r =>
    rw [hc] at hs1 h1
    cases r with
    | nil =>
      simp only [List.mem_singleton] at hs1
      show Match.doMatch e m.matcher (first leaf.uris) = true
      rw [hc, ← hs1]
      exact hs2
    | cons _ _ => simp at h1

/-- **C282 (fails)** Whatever the first URI is: a certificate with an accepted URI behind it passes the
check of names, and the identity filters get is the first. -/
theorem C282_identity_false (e : Match.Env) (c : Config) (leaf : Certificate) (u v : Match.Str) (subject : Match.Str)
    (hv : Accepts e c v) (hu : leaf.uris = [u, v]) :
    sansOk e c leaf = true ∧ (seen subject leaf).uri = u := by
  obtain ⟨m, hm, ht, hv⟩ := hv
  refine ⟨?_, by unfold seen first; rw [hu]⟩
  unfold sansOk
  rw [if_neg (by have := List.length_pos_of_mem hm; omega), List.any_eq_true]
  refine ⟨m, hm, ?_⟩
  rw [ht, List.any_eq_true]
  exact ⟨v, by simp [sansOf, hu], hv⟩

/-! ### C284 -/

/-- The texts of the names of a certificate that are told in its text. -/
def names (c : Certificate) : List Match.Str := c.uris ++ c.dns ++ c.ips

theorem part_free (label : String) (l : List Match.Str) (hl : ' ' ∉ label.toList) (h : ∀ s ∈ l, ' ' ∉ s) :
    ∀ s ∈ part label l, ' ' ∉ s := by
  intro s hs
  unfold part at hs
  split at hs
  · rw [List.mem_singleton] at hs
    rw [hs, List.mem_append, not_or]
    refine ⟨hl, ?_⟩
    clear hs
    induction l with
    | nil => simp [Heimdall.join]
    | cons p r ih =>
      cases r with
      | nil => exact h p (by simp)
      | cons q r =>
        simp only [Heimdall.join, List.mem_append, List.mem_cons, not_or]
        refine ⟨h p (by simp), by decide, ih (fun s hs => h s (by simp [List.mem_cons.mp hs])) (by simp)⟩
  · cases hs

/-- The parts of a text whose first letter is the given. -/
def kind (ch : Char) (l : List Match.Str) : List Match.Str := l.filter (fun s => s.head? = some ch)

theorem kind_part (ch : Char) (label : String) (l : List Match.Str) (c0 : Char) (r : List Char)
    (h : label.toList = c0 :: r) : kind ch (part label l) = if c0 = ch then part label l else [] := by
  unfold kind part
  by_cases hl : l.length > 0
  · rw [if_pos hl, h]
    by_cases hc : c0 = ch <;> simp [hc]
  · rw [if_neg hl]; simp

theorem part_inj (label : String) (l l' : List Match.Str) (h : ∀ s ∈ l, ',' ∉ s) (h' : ∀ s ∈ l', ',' ∉ s)
    (he : part label l = part label l') : l = l' := by
  unfold part at he
  by_cases hl : l.length > 0
  · by_cases hl' : l'.length > 0
    · rw [if_pos hl, if_pos hl'] at he
      simp only [List.cons.injEq, List.append_cancel_left_eq, and_true] at he
      rw [← Heimdall.split_join ',' l (List.length_pos_iff.mp hl) h, he,
        Heimdall.split_join ',' l' (List.length_pos_iff.mp hl') h']
    · rw [if_pos hl, if_neg hl'] at he; cases he
  · by_cases hl' : l'.length > 0
    · rw [if_neg hl, if_pos hl'] at he; cases he
    · rw [List.length_eq_zero_iff.mp (by omega : l.length = 0), List.length_eq_zero_iff.mp (by omega : l'.length = 0)]

/-- The subject's part. -/
def subj (subject : Match.Str) : List Match.Str := if subject ≠ [] then ["Subject=".toList ++ subject] else []

theorem subj_inj (a b : Match.Str) (h : subj a = subj b) : a = b := by
  unfold subj at h
  by_cases h1 : a ≠ []
  · by_cases h2 : b ≠ []
    · rw [if_pos h1, if_pos h2, List.cons.injEq] at h
      exact List.append_cancel_left h.1
    · rw [if_pos h1, if_neg h2] at h; cases h
  · by_cases h2 : b ≠ []
    · rw [if_neg h1, if_pos h2] at h; cases h
    · rw [Classical.not_not.mp h1, Classical.not_not.mp h2]

theorem kind_subj (ch : Char) (sub : Match.Str) : kind ch (subj sub) = if 'S' = ch then subj sub else [] := by
  unfold kind subj
  by_cases h1 : sub ≠ []
  · rw [if_pos h1, show "Subject=".toList = 'S' :: "ubject=".toList from rfl, List.cons_append, List.filter_cons]
    by_cases hc : 'S' = ch
    · rw [if_pos hc, if_pos (by rw [hc]; simp)]; rfl
    · rw [if_neg hc, if_neg (by simp [hc])]; rfl
  · rw [if_neg h1]; simp

/-- The parts of the text. -/
def parts (subject : Match.Str) (c : Certificate) : List Match.Str :=
  subj subject ++
    part "URIs=" c.uris ++ part "DNSNames=" c.dns ++ part "IPs=" c.ips

theorem parts_ne (subject : Match.Str) (c : Certificate) : ∀ s ∈ parts subject c, s ≠ [] := by
  have hp : ∀ label : String, label.toList ≠ [] → ∀ l, ∀ s ∈ part label l, s ≠ [] := by
    intro label h l s hs
    unfold part at hs
    split at hs
    · rw [List.mem_singleton] at hs
      rw [hs]
      cases hl : label.toList with
      | nil => exact absurd hl h
      | cons _ _ => simp
    · cases hs
  intro s hs
  unfold parts at hs
  simp only [List.mem_append] at hs
  rcases hs with ((hs | hs) | hs) | hs
  · unfold subj at hs
    split at hs
    · rw [List.mem_singleton] at hs
      rw [hs]; simp
    · cases hs
  · exact hp _ (by decide) _ s hs
  · exact hp _ (by decide) _ s hs
  · exact hp _ (by decide) _ s hs

/-- **C284** No two certificates whose subjects and names have no spaces, and whose names have no
commas, have the same text, unless their subjects and names are the same. (What is missing are names
with commas, and subjects with spaces.) -/
theorem C284_text_partial (subject subject' : Match.Str) (c c' : Certificate)
    (hs : ' ' ∉ subject) (hs' : ' ' ∉ subject') (hn : ∀ s ∈ names c ++ names c', ' ' ∉ s ∧ ',' ∉ s)
    (h : text subject c = text subject' c') :
    subject = subject' ∧ c.uris = c'.uris ∧ c.dns = c'.dns ∧ c.ips = c'.ips := by
  have hfree : ∀ (sub : Match.Str) (d : Certificate), ' ' ∉ sub → (∀ s ∈ names d, ' ' ∉ s) →
      ∀ s ∈ parts sub d, ' ' ∉ s := by
    intro sub d h1 h2 s hs
    unfold names at h2
    unfold parts at hs
    simp only [List.mem_append] at hs h2
    rcases hs with ((hs | hs) | hs) | hs
    · unfold subj at hs
      split at hs
      · rw [List.mem_singleton] at hs
        rw [hs, List.mem_append, not_or]
        exact ⟨by decide, h1⟩
      · cases hs
    · exact part_free _ _ (by decide) (fun s hs => h2 s (.inl (.inl hs))) s hs
    · exact part_free _ _ (by decide) (fun s hs => h2 s (.inl (.inr hs))) s hs
    · exact part_free _ _ (by decide) (fun s hs => h2 s (.inr hs)) s hs
  have f1 := hfree subject c hs (fun s h' => (hn s (List.mem_append_left _ h')).1)
  have f2 := hfree subject' c' hs' (fun s h' => (hn s (List.mem_append_right _ h')).1)
  have hjoin : Heimdall.join ' ' (parts subject c) = Heimdall.join ' ' (parts subject' c') := h
  have hnil : ∀ l : List Match.Str, (∀ s ∈ l, s ≠ []) → Heimdall.join ' ' l = [] → l = [] := by
    intro l hl hj
    cases l with
    | nil => rfl
    | cons p r =>
      have hp := hl p (by simp)
      cases r with
      | nil => exact absurd hj hp
      | cons q r => simp [Heimdall.join] at hj
  have hparts : parts subject c = parts subject' c' := by
    by_cases h0 : parts subject c = []
    · rw [h0] at hjoin
      rw [h0, hnil _ (parts_ne subject' c') hjoin.symm]
    · by_cases h0' : parts subject' c' = []
      · rw [h0'] at hjoin
        rw [h0', hnil _ (parts_ne subject c) hjoin]
      · rw [← Heimdall.split_join ' ' _ h0 f1, hjoin, Heimdall.split_join ' ' _ h0' f2]
  have hk : ∀ ch, kind ch (parts subject c) = kind ch (parts subject' c') := fun ch => by rw [hparts]
  have hall : ∀ (ch : Char) (sub : Match.Str) (d : Certificate), kind ch (parts sub d) =
      (if 'S' = ch then subj sub else []) ++ (if 'U' = ch then part "URIs=" d.uris else []) ++ (if 'D' = ch then part "DNSNames=" d.dns else []) ++
      (if 'I' = ch then part "IPs=" d.ips else []) := by
    intro ch sub d
    rw [← kind_subj, ← kind_part ch "URIs=" d.uris 'U' "RIs=".toList rfl,
      ← kind_part ch "DNSNames=" d.dns 'D' "NSNames=".toList rfl, ← kind_part ch "IPs=" d.ips 'I' "Ps=".toList rfl]
    unfold parts kind
    simp only [List.filter_append]
  refine ⟨?_, ?_, ?_, ?_⟩
  · have := hk 'S'
    rw [hall, hall] at this
    simp only [show ¬ 'U' = 'S' by decide, show ¬ 'D' = 'S' by decide, show ¬ 'I' = 'S' by decide,
      if_false, List.append_nil] at this
    exact subj_inj _ _ this
  · have := hk 'U'
    rw [hall, hall] at this
    simp only [show ¬ 'S' = 'U' by decide, show ¬ 'D' = 'U' by decide, show ¬ 'I' = 'U' by decide,
      if_false, List.append_nil, List.nil_append] at this
    exact part_inj _ _ _ (fun s h' => (hn s (by simp [names, h'])).2) (fun s h' => (hn s (by simp [names, h'])).2) this
  · have := hk 'D'
    rw [hall, hall] at this
    simp only [show ¬ 'S' = 'D' by decide, show ¬ 'U' = 'D' by decide, show ¬ 'I' = 'D' by decide,
      if_false, List.append_nil, List.nil_append] at this
    exact part_inj _ _ _ (fun s h' => (hn s (by simp [names, h'])).2) (fun s h' => (hn s (by simp [names, h'])).2) this
  · have := hk 'I'
    rw [hall, hall] at this
    simp only [show ¬ 'S' = 'I' by decide, show ¬ 'U' = 'I' by decide, show ¬ 'D' = 'I' by decide,
      if_false, List.append_nil, List.nil_append] at this
    exact part_inj _ _ _ (fun s h' => (hn s (by simp [names, h'])).2) (fun s h' => (hn s (by simp [names, h'])).2) this

/-- **C284 (fails)** A certificate with one URI with a comma, which URIs may have, has the text of one
with two URIs; and a subject can have the text of a subject and names. -/
theorem C284_text_false (subject a b : Match.Str) (c : Certificate) :
    text subject { c with uris := [a ++ ',' :: b] } = text subject { c with uris := [a, b] } ∧
    (subject ≠ [] → text (subject ++ " URIs=".toList ++ a) { c with uris := [] } =
      text subject { c with uris := [a] }) := by
  refine ⟨rfl, fun h => ?_⟩
  unfold text
  have h2 : subject ++ " URIs=".toList ++ a ≠ [] := by simp
  rw [if_pos h, if_pos h2]
  cases h3 : part "DNSNames=" c.dns ++ part "IPs=" c.ips with
  | nil =>
    simp only [List.append_assoc, h3]
    simp [part, Heimdall.join]
  | cons p r =>
    simp only [List.append_assoc, h3]
    simp [part, Heimdall.join]

/-- certificate of the example -/
def certEx : Certificate := { id := 1, uris := ["spiffe://td/ns/a/sa/b".toList], dns := ["b".toList, "b.a".toList] }

example : text "CN=b".toList certEx = "Subject=CN=b URIs=spiffe://td/ns/a/sa/b DNSNames=b,b.a".toList := by decide +kernel

example : ∀ s ∈ names certEx ++ names certEx, ' ' ∉ s ∧ ',' ∉ s := by decide +kernel

/-- environment, X.509, configuration and accepted leaf of the example -/
def envEx : Match.Env := ⟨id, fun _ => none, fun _ _ => false⟩
/-- X.509 of the example -/
def x509Ex : X509 := ⟨fun _ => some certEx, fun _ _ c => some [[c]]⟩
/-- configuration of the example -/
def cfgEx : Config := { sans := [⟨.uri, { exact := some "spiffe://td/ns/a/sa/b".toList }⟩] }

example : verifyCertificate envEx x509Ex cfgEx [[1]] = .ok [certEx] := rfl

example : Asks cfgEx ∧ (∀ m ∈ cfgEx.sans, m.type = .uri) ∧ certEx.uris.length ≤ 1 := by
  refine ⟨by simp [Asks, cfgEx], by simp [cfgEx], by decide⟩

end Verif.CertNames
