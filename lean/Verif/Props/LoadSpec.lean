import Verif.Kafka.LoadSpec
import Verif.Kafka.Gen.Spec

/-! # C283: loading the message specifications -/

namespace Verif.Kafka.LoadSpec

/-! ### Specification -/

/-- The files of a directory and all directories below, in order. -/
def files {M : Type} : Dir M → List (Option (String × M))
  | .nil => []
  | .file f r => f :: files r
  | .sub d r => files d ++ files r

/-- The last message of the name. -/
def LastOf {M : Type} (l : List (String × M)) (k : String) (v : M) : Prop :=
  ∃ pre post, l = pre ++ (k, v) :: post ∧ ∀ e ∈ post, e.1 ≠ k

/-! ### Proofs -/

theorem mem_put {M : Type} (m : List (String × M)) (k : String) (v : M) (e : String × M) :
    e ∈ put m k v ↔ e = (k, v) ∨ (e ∈ m ∧ e.1 ≠ k) := by simp [put]

theorem mem_merge {M : Type} (s : List (String × M)) : ∀ (m : List (String × M)) (e : String × M),
    (s.map (·.1)).Nodup → (e ∈ merge m s ↔ e ∈ s ∨ (e ∈ m ∧ e.1 ∉ s.map (·.1))) := by
  induction s with
  | nil => intro m e _; simp [merge]
  | cons x r ih =>
    intro m e hn
    obtain ⟨k, v⟩ := x
    rw [List.map_cons, List.nodup_cons] at hn
    show e ∈ merge (put m k v) r ↔ _
    rw [ih _ e hn.2, mem_put]
    simp only [List.map_cons, List.mem_cons, not_or]
    constructor
    · rintro (h | ⟨rfl | ⟨h1, h2⟩, h3⟩)
      · exact .inl (.inr h)
      · exact .inl (.inl rfl)
      · exact .inr ⟨h1, h2, h3⟩
    · rintro ((rfl | h) | ⟨h1, h2, h3⟩)
      · exact .inr ⟨.inl rfl, hn.1⟩
      · exact .inl h
      · exact .inr ⟨.inr ⟨h1, h2⟩, h3⟩

theorem nodup_put {M : Type} (m : List (String × M)) (k : String) (v : M) (h : (m.map (·.1)).Nodup) :
    ((put m k v).map (·.1)).Nodup := by
  unfold put
  rw [List.map_cons, List.nodup_cons]
  constructor
  · simp
  · exact List.Nodup.sublist ((List.filter_sublist).map _) h

theorem nodup_merge {M : Type} (s : List (String × M)) : ∀ (m : List (String × M)),
    (m.map (·.1)).Nodup → ((merge m s).map (·.1)).Nodup := by
  induction s with
  | nil => intro m h; exact h
  | cons x r ih => intro m h; exact ih _ (nodup_put m _ _ h)

theorem lastOf_append {M : Type} (a b : List (String × M)) (k : String) (v : M) :
    LastOf (a ++ b) k v ↔ LastOf b k v ∨ (LastOf a k v ∧ k ∉ b.map (·.1)) := by
  constructor
  · rintro ⟨pre, post, h, hp⟩
    rcases List.append_eq_append_iff.mp h with ⟨c, h1, h2⟩ | ⟨c, h1, h2⟩
    · exact .inl ⟨c, post, h2, hp⟩
    · cases c with
      | nil => exact .inl ⟨[], post, by simpa using h2.symm, hp⟩
      | cons y c =>
        simp only [List.cons_append, List.cons.injEq] at h2
        obtain ⟨rfl, h2⟩ := h2
        refine .inr ⟨⟨pre, c, h1, fun e he => hp e (by rw [h2]; exact List.mem_append_left _ he)⟩, ?_⟩
        intro hk
        obtain ⟨e, he, rfl⟩ := List.mem_map.mp hk
        exact hp e (by rw [h2]; exact List.mem_append_right _ he) rfl
  · rintro (⟨pre, post, rfl, hp⟩ | ⟨⟨pre, post, rfl, hp⟩, hk⟩)
    · exact ⟨a ++ pre, post, by simp, hp⟩
    · refine ⟨pre, post ++ b, by simp, ?_⟩
      intro e he
      rcases List.mem_append.mp he with he | he
      · exact hp e he
      · exact fun h' => hk (h' ▸ List.mem_map_of_mem he)

theorem lastOf_key {M : Type} (l : List (String × M)) (k : String) : (∃ v, LastOf l k v) ↔ k ∈ l.map (·.1) := by
  induction l with
  | nil => simp [LastOf]
  | cons x r ih =>
    obtain ⟨kx, vx⟩ := x
    constructor
    · rintro ⟨v, pre, post, h, _⟩
      rw [h]; simp
    · intro h
      by_cases hk : k ∈ r.map (·.1)
      · obtain ⟨v, hv⟩ := ih.mpr hk
        exact ⟨v, (lastOf_append [(kx, vx)] r k v).mpr (.inl hv)⟩
      · rw [List.map_cons, List.mem_cons] at h
        have h := h.resolve_right hk
        exact ⟨vx, [], r, by rw [h]; rfl, fun e he h' => hk (List.mem_map.mpr ⟨e, he, h'⟩)⟩

theorem loadInto_spec {M : Type} (d : Dir M) : ∀ (m : List (String × M)), (m.map (·.1)).Nodup →
    (none ∈ files d → loadInto d m = none) ∧
    (none ∉ files d → ∃ r, loadInto d m = some r ∧ (r.map (·.1)).Nodup ∧
      ∀ k v, (k, v) ∈ r ↔ LastOf ((files d).filterMap id) k v ∨
        ((k, v) ∈ m ∧ k ∉ ((files d).filterMap id).map (·.1))) := by
  induction d with
  | nil =>
    intro m hm
    refine ⟨by simp [files], fun _ => ⟨m, rfl, hm, fun k v => ?_⟩⟩
    simp [files, LastOf]
  | file f r ih =>
    intro m hm
    cases f with
    | none => exact ⟨fun _ => rfl, by simp [files]⟩
    | some x =>
      obtain ⟨k0, v0⟩ := x
      obtain ⟨h1, h2⟩ := ih (put m k0 v0) (nodup_put m k0 v0 hm)
      refine ⟨fun h => h1 (by simpa [files] using h), fun h => ?_⟩
      obtain ⟨r', e1, e2, e3⟩ := h2 (by simpa [files] using h)
      refine ⟨r', e1, e2, fun k v => ?_⟩
      rw [e3, mem_put]
      have hf : (files (Dir.file (some (k0, v0)) r)).filterMap id = [(k0, v0)] ++ (files r).filterMap id := by
        simp [files]
      rw [hf, lastOf_append]
      have hs : LastOf [(k0, v0)] k v ↔ (k, v) = (k0, v0) := by
        constructor
        · rintro ⟨pre, post, h, _⟩
          cases pre with
          | nil => simp at h; simp [h]
          | cons y p => simp at h
        · intro h; exact ⟨[], [], by rw [h]; rfl, by simp⟩
      rw [hs]
      simp only [List.map_append, List.mem_append, List.map_cons, List.map_nil, List.mem_singleton, not_or,
        Prod.mk.injEq]
      constructor
      · rintro (h | ⟨⟨rfl, rfl⟩ | ⟨h, hk⟩, hn⟩)
        · exact .inl (.inl h)
        · exact .inl (.inr ⟨⟨rfl, rfl⟩, hn⟩)
        · exact .inr ⟨h, hk, hn⟩
      · rintro ((h | ⟨h, hn⟩) | ⟨h, hk, hn⟩)
        · exact .inl h
        · exact .inr ⟨.inl h, hn⟩
        · exact .inr ⟨.inr ⟨h, hk⟩, hn⟩
  | sub d r ihd ih =>
    intro m hm
    obtain ⟨d1, d2⟩ := ihd [] (by simp)
    by_cases hd : none ∈ files d
    · refine ⟨fun _ => ?_, fun h => absurd (List.mem_append_left _ hd) h⟩
      show (match loadInto d [] with | none => none | some s => loadInto r (merge m s)) = none
      rw [d1 hd]
    · obtain ⟨s, s1, s2, s3⟩ := d2 hd
      obtain ⟨h1, h2⟩ := ih (merge m s) (nodup_merge s m hm)
      have hl : loadInto (Dir.sub d r) m = loadInto r (merge m s) := by
        show (match loadInto d [] with | none => none | some s => loadInto r (merge m s)) = _
        rw [s1]
      rw [hl]
      refine ⟨fun h => h1 ((List.mem_append.mp h).resolve_left hd), fun h => ?_⟩
      obtain ⟨r', e1, e2, e3⟩ := h2 (fun h' => h (List.mem_append_right _ h'))
      refine ⟨r', e1, e2, fun k v => ?_⟩
      have hf : (files (Dir.sub d r)).filterMap id = (files d).filterMap id ++ (files r).filterMap id := by
        simp [files]
      have hks : k ∈ s.map (·.1) ↔ k ∈ ((files d).filterMap id).map (·.1) := by
        rw [← lastOf_key ((files d).filterMap id) k]
        constructor
        · intro h
          obtain ⟨⟨k', v'⟩, he, rfl⟩ := List.mem_map.mp h
          exact ⟨v', ((s3 _ _).mp he).resolve_right (by simp)⟩
        · rintro ⟨v', hv⟩
          exact List.mem_map.mpr ⟨(k, v'), (s3 _ _).mpr (.inl hv), rfl⟩
      have hsv : (k, v) ∈ s ↔ LastOf ((files d).filterMap id) k v := by
        rw [s3]; simp
      rw [e3, mem_merge s m _ s2, hf, lastOf_append, hsv]
      simp only [hks, List.map_append, List.mem_append, not_or]
      constructor
      · rintro (h | ⟨h | ⟨h, hk⟩, hn⟩)
        · exact .inl (.inl h)
        · exact .inl (.inr ⟨h, hn⟩)
        · exact .inr ⟨h, hk, hn⟩
      · rintro ((h | ⟨h, hn⟩) | ⟨h, hk, hn⟩)
        · exact .inl h
        · exact .inr ⟨.inl h, hn⟩
        · exact .inr ⟨.inr ⟨h, hk⟩, hn⟩

/-- **C283** One file that cannot be read or parsed, however deep, and nothing is loaded. -/
theorem C283_error {M : Type} (d : Dir M) : load d = none ↔ none ∈ files d := by
  obtain ⟨h1, h2⟩ := loadInto_spec d [] (by simp)
  refine ⟨fun h => ?_, h1⟩
  by_cases hn : none ∈ files d
  · exact hn
  · obtain ⟨r, hr, _⟩ := h2 hn
    unfold load at h
    rw [h] at hr
    cases hr

/-- **C283** What is loaded: for each name, the last message of that name in the directory and those
below. -/
theorem C283_last {M : Type} (d : Dir M) (r : List (String × M)) (h : load d = some r) :
    (r.map (·.1)).Nodup ∧ ∀ k v, (k, v) ∈ r ↔ LastOf ((files d).filterMap id) k v := by
  obtain ⟨h1, h2⟩ := loadInto_spec d [] (by simp)
  by_cases hn : none ∈ files d
  · unfold load at h; rw [h1 hn] at h; cases h
  · obtain ⟨r', hr, e2, e3⟩ := h2 hn
    unfold load at h
    rw [hr] at h
    cases h
    exact ⟨e2, fun k v => by rw [e3]; simp⟩

theorem lastOf_nodup {M : Type} (l : List (String × M)) (hn : (l.map (·.1)).Nodup) (k : String) (v : M) :
    LastOf l k v ↔ (k, v) ∈ l := by
  constructor
  · rintro ⟨pre, post, rfl, _⟩; simp
  · intro h
    obtain ⟨pre, post, rfl⟩ := List.append_of_mem h
    refine ⟨pre, post, rfl, fun e he h' => ?_⟩
    rw [List.map_append, List.map_cons, List.nodup_append, List.nodup_cons] at hn
    exact hn.2.1.1 (List.mem_map.mpr ⟨e, he, h'⟩)

/-- **C283** Files with messages of different names, in whatever directories: exactly their messages are
loaded. -/
theorem C283_all_partial {M : Type} (d : Dir M) (l : List (String × M)) (hl : files d = l.map some)
    (hn : (l.map (·.1)).Nodup) : ∃ r, load d = some r ∧ (r.map (·.1)).Nodup ∧ ∀ e, e ∈ r ↔ e ∈ l := by
  have hnone : none ∉ files d := by rw [hl]; simp
  cases h : load d with
  | none => exact absurd ((C283_error d).mp h) hnone
  | some r =>
    obtain ⟨h1, h2⟩ := C283_last d r h
    refine ⟨r, rfl, h1, fun ⟨k, v⟩ => ?_⟩
    have hf : (files d).filterMap id = l := by rw [hl]; simp [List.filterMap_map]
    rw [h2, hf, lastOf_nodup l hn]

/-- **C283 (fails)** Two files with messages of the same name: the first is dropped without an error. -/
theorem C283_same_name_false {M : Type} (k : String) (v w : M) :
    load (.file (some (k, v)) (.file (some (k, w)) .nil)) = some [(k, w)] := by
  simp [load, loadInto, put]

/-- **C283** The specifications of this version of the library are of that kind: no two have the same
name. -/
theorem C283_names :
    ((Gen.headerSpecs ++ Gen.requestSpecs ++ Gen.responseSpecs).map (·.name)).Nodup := by decide +kernel

example : load (.sub (.file (some ("A", 1)) .nil) (.file (some ("B", 2)) .nil) : Dir Nat) =
    some [("B", 2), ("A", 1)] := by decide +kernel

end Verif.Kafka.LoadSpec
