import Verif.Kafka.GenAll
import Verif.Kafka.Gen.Spec

/-! # C285: generating the code is reproducible -/

namespace Verif.Kafka.GenAll

/-! ### Specification -/

/-- A function that sorts by the API key; the order of equal ones is free. -/
def Sorts (srt : List Entry → List Entry) : Prop :=
  ∀ l, (srt l).Perm l ∧ (srt l).Pairwise (fun a b => a.apiKey ≤ b.apiKey)

/-- The messages code is generated for. -/
def used {S : Type} (l : List (Msg S)) : List (Msg S) := l.filter (fun m => m.kind ≠ .data)

/-- The files of the messages. -/
def outs {S : Type} (l : List (Msg S)) : List (String × S) := (used l).flatMap (fun m => m.files.getD [])

/-- The entries of the messages of a kind. -/
def entries {S : Type} (k : Kind) (l : List (Msg S)) : List Entry := (l.filter (fun m => m.kind = k)).map (·.entry)

/-- All messages are of known kinds, code can be generated for all that need it, and no two files have
the same name. -/
def Good {S : Type} (l : List (Msg S)) : Prop :=
  (∀ m ∈ l, m.kind ≠ .other) ∧ (∀ m ∈ used l, m.files ≠ none) ∧ ((outs l).map (·.1)).Nodup

/-! ### Proofs -/

theorem addFiles_spec {S : Type} (fs : List (String × S)) : ∀ acc, (acc.map (·.1)).Nodup →
    ((((acc ++ fs).map (·.1)).Nodup → addFiles acc fs = some (acc ++ fs)) ∧
     (¬ ((acc ++ fs).map (·.1)).Nodup → addFiles acc fs = none)) := by
  induction fs with
  | nil => intro acc h; simp [addFiles, h]
  | cons x r ih =>
    intro acc h
    obtain ⟨k, v⟩ := x
    have hany : acc.any (fun e => e.1 = k) = true ↔ k ∈ acc.map (·.1) := by
      simp [List.any_eq_true]
    show (_ → (if acc.any (fun e => e.1 = k) then none else addFiles (acc ++ [(k, v)]) r) = _) ∧
      (_ → (if acc.any (fun e => e.1 = k) then none else addFiles (acc ++ [(k, v)]) r) = _)
    have he : acc ++ (k, v) :: r = (acc ++ [(k, v)]) ++ r := by simp
    by_cases hk : k ∈ acc.map (·.1)
    · rw [if_pos (hany.mpr hk)]
      refine ⟨fun hn => ?_, fun _ => rfl⟩
      rw [List.map_append, List.nodup_append] at hn
      exact absurd rfl (hn.2.2 k hk k (by simp))
    · rw [if_neg (fun h' => hk (hany.mp h'))]
      have hacc : ((acc ++ [(k, v)]).map (·.1)).Nodup := by
        rw [List.map_append, List.nodup_append]
        refine ⟨h, by simp, fun a ha b hb => ?_⟩
        simp only [List.map_cons, List.map_nil, List.mem_singleton] at hb
        rw [hb]
        intro h'
        exact hk (h' ▸ ha)
      rw [he]
      exact ih _ hacc

theorem outs_cons {S : Type} (m : Msg S) (l : List (Msg S)) :
    outs (m :: l) = (if m.kind = .data then [] else m.files.getD []) ++ outs l := by
  unfold outs used
  by_cases h : m.kind = .data <;> simp [h]

theorem collect_spec {S : Type} (l : List (Msg S)) : ∀ (s : St S), (s.code.map (·.1)).Nodup →
    (((∀ m ∈ l, m.kind ≠ .other) ∧ (∀ m ∈ used l, m.files ≠ none) ∧ ((s.code ++ outs l).map (·.1)).Nodup) →
      collect l s = some ⟨s.code ++ outs l, s.reqs ++ entries .request l, s.resps ++ entries .response l⟩) ∧
    (¬ ((∀ m ∈ l, m.kind ≠ .other) ∧ (∀ m ∈ used l, m.files ≠ none) ∧ ((s.code ++ outs l).map (·.1)).Nodup) →
      collect l s = none) := by
  induction l with
  | nil => intro s hs; refine ⟨fun _ => by simp [collect, outs, used, entries], fun h => absurd ?_ h⟩
           simpa [outs, used] using hs
  | cons m r ih =>
    intro s hs
    unfold collect
    by_cases ho : m.kind = .other
    · rw [if_pos ho]
      exact ⟨fun h => absurd ho (h.1 m (by simp)), fun _ => rfl⟩
    · rw [if_neg ho]
      by_cases hd : m.kind = .data
      · rw [if_pos hd]
        have h1 : outs (m :: r) = outs r := by rw [outs_cons, if_pos hd]; rfl
        have h2 : used (m :: r) = used r := by simp [used, hd]
        have h3 : ∀ k, k ≠ Kind.data → entries k (m :: r) = entries k r := by
          intro k hk
          unfold entries
          rw [List.filter_cons, if_neg (by rw [hd]; simpa using fun h => hk h.symm)]
        rw [h1, h2, h3 _ (by decide), h3 _ (by decide)]
        obtain ⟨i1, i2⟩ := ih s hs
        refine ⟨fun h => i1 ⟨fun x hx => h.1 x (by simp [hx]), h.2⟩, fun h => i2 (fun h' => h ⟨?_, h'.2⟩)⟩
        intro x hx
        rcases List.mem_cons.mp hx with rfl | hx
        · exact ho
        · exact h'.1 x hx
      · rw [if_neg hd]
        have hu : used (m :: r) = m :: used r := by simp [used, hd]
        cases hf : m.files with
        | none =>
          refine ⟨fun h => absurd hf (h.2.1 m (by rw [hu]; simp)), fun _ => rfl⟩
        | some fs =>
          have h1 : outs (m :: r) = fs ++ outs r := by rw [outs_cons, if_neg hd, hf]; rfl
          rw [h1, hu]
          obtain ⟨a1, a2⟩ := addFiles_spec fs s.code hs
          by_cases hn : ((s.code ++ fs).map (·.1)).Nodup
          · dsimp only
            rw [a1 hn]
            dsimp only
            obtain ⟨i1, i2⟩ := ih
              { code := s.code ++ fs
                reqs := if m.kind = .request then s.reqs ++ [m.entry] else s.reqs
                resps := if m.kind = .response then s.resps ++ [m.entry] else s.resps } hn
            have h4 : (if m.kind = .request then s.reqs ++ [m.entry] else s.reqs) ++ entries .request r =
                s.reqs ++ entries .request (m :: r) := by
              unfold entries
              by_cases hk : m.kind = .request <;> simp [hk]
            have h5 : (if m.kind = .response then s.resps ++ [m.entry] else s.resps) ++ entries .response r =
                s.resps ++ entries .response (m :: r) := by
              unfold entries
              by_cases hk : m.kind = .response <;> simp [hk]
            simp only [h4, h5, List.append_assoc] at i1 i2
            refine ⟨fun h => i1 ⟨fun x hx => h.1 x (by simp [hx]), fun x hx => h.2.1 x (by simp [hx]), h.2.2⟩,
              fun h => i2 (fun h' => h ⟨?_, ?_, h'.2.2⟩)⟩
            · intro x hx
              rcases List.mem_cons.mp hx with rfl | hx
              · exact ho
              · exact h'.1 x hx
            · intro x hx
              rcases List.mem_cons.mp hx with rfl | hx
              · rw [hf]; simp
              · exact h'.2.1 x hx
          · dsimp only
            rw [a2 hn]
            refine ⟨fun h => absurd ?_ hn, fun _ => rfl⟩
            have := h.2.2
            rw [← List.append_assoc, List.map_append, List.nodup_append] at this
            exact this.1

theorem generate_good {S : Type} (srt : List Entry → List Entry) (render : List Entry → List Entry → Option S)
    (l : List (Msg S)) (h : Good l) : generate srt render l =
      if (outs l).any (fun e => e.1 = factoryFile) then none
      else match render (srt (entries .request l)) (srt (entries .response l)) with
        | none => none
        | some f => some (outs l ++ [(factoryFile, f)]) := by
  have hc := (collect_spec l {} (by simp)).1 ⟨h.1, h.2.1, by simpa using h.2.2⟩
  unfold generate
  rw [hc]
  rfl

theorem generate_bad {S : Type} (srt : List Entry → List Entry) (render : List Entry → List Entry → Option S)
    (l : List (Msg S)) (h : ¬ Good l) : generate srt render l = none := by
  have hc := (collect_spec l {} (by simp)).2 (fun h' => h ⟨h'.1, h'.2.1, by simpa using h'.2.2⟩)
  unfold generate
  rw [hc]

theorem perm_used {S : Type} {l l' : List (Msg S)} (h : l.Perm l') : (used l).Perm (used l') := h.filter _

theorem perm_outs {S : Type} {l l' : List (Msg S)} (h : l.Perm l') : (outs l).Perm (outs l') :=
  (perm_used h).flatMap_right _

theorem perm_entries {S : Type} (k : Kind) {l l' : List (Msg S)} (h : l.Perm l') :
    (entries k l).Perm (entries k l') := (h.filter _).map _

theorem perm_good {S : Type} {l l' : List (Msg S)} (h : l.Perm l') (hg : Good l) : Good l' :=
  ⟨fun m hm => hg.1 m (h.mem_iff.mpr hm), fun m hm => hg.2.1 m ((perm_used h).mem_iff.mpr hm),
    ((perm_outs h).map _).nodup_iff.mp hg.2.2⟩

/-- Two sorted arrangements of entries with different keys are the same. -/
theorem sorted_unique (a : List Entry) : ∀ b : List Entry, a.Perm b → (a.map (·.apiKey)).Nodup →
    a.Pairwise (fun x y => x.apiKey ≤ y.apiKey) → b.Pairwise (fun x y => x.apiKey ≤ y.apiKey) → a = b := by
  induction a with
  | nil => intro b h _ _ _; exact h.symm.eq_nil.symm
  | cons x r ih =>
    intro b h hn ha hb
    cases b with
    | nil => exact absurd h.eq_nil (by simp)
    | cons y s =>
      rw [List.pairwise_cons] at ha hb
      have hxy : x = y := by
        have hy : y ∈ x :: r := h.mem_iff.mpr (by simp)
        have hx : x ∈ y :: s := h.mem_iff.mp (by simp)
        rcases List.mem_cons.mp hy with h1 | h1
        · exact h1.symm
        · rcases List.mem_cons.mp hx with h2 | h2
          · exact h2
          · have e1 := ha.1 y h1
            have e2 := hb.1 x h2
            rw [List.map_cons, List.nodup_cons] at hn
            exact absurd (List.mem_map.mpr ⟨y, h1, by omega⟩) hn.1
      subst hxy
      rw [List.map_cons, List.nodup_cons] at hn
      rw [ih s (List.Perm.cons_inv h) hn.2 ha.2 hb.2]

theorem sorts_eq (srt srt' : List Entry → List Entry) (hs : Sorts srt) (hs' : Sorts srt') (a b : List Entry)
    (h : a.Perm b) (hn : (a.map (·.apiKey)).Nodup) : srt a = srt' b :=
  sorted_unique _ _ ((hs a).1.trans (h.trans (hs' b).1.symm)) (((hs a).1.map _).nodup_iff.mpr hn) (hs a).2 (hs' b).2

/-- **C285** Messages whose API keys differ, requests and responses separately: two runs, whatever the
orders in which the map of messages is walked and equal keys are sorted, both fail, or generate the same
files with the same texts. -/
theorem C285_same_partial {S : Type} (srt srt' : List Entry → List Entry) (render : List Entry → List Entry → Option S)
    (l l' : List (Msg S)) (hs : Sorts srt) (hs' : Sorts srt') (hp : l.Perm l')
    (hq : ((entries .request l).map (·.apiKey)).Nodup) (hr : ((entries .response l).map (·.apiKey)).Nodup) :
    (generate srt render l = none ∧ generate srt' render l' = none) ∨
    ∃ a b, generate srt render l = some a ∧ generate srt' render l' = some b ∧ (a.map (·.1)).Nodup ∧ a.Perm b := by
  by_cases hg : Good l
  · rw [generate_good srt render l hg, generate_good srt' render l' (perm_good hp hg)]
    rw [← sorts_eq srt srt' hs hs' _ _ (perm_entries .request hp) hq,
      ← sorts_eq srt srt' hs hs' _ _ (perm_entries .response hp) hr]
    have hany : (outs l').any (fun e => e.1 = factoryFile) = (outs l).any (fun e => e.1 = factoryFile) := by
      rw [Bool.eq_iff_iff]
      simp only [List.any_eq_true]
      exact ⟨fun ⟨e, h1, h2⟩ => ⟨e, (perm_outs hp).mem_iff.mpr h1, h2⟩,
        fun ⟨e, h1, h2⟩ => ⟨e, (perm_outs hp).mem_iff.mp h1, h2⟩⟩
    rw [hany]
    by_cases hf : (outs l).any (fun e => e.1 = factoryFile) = true
    · rw [if_pos hf, if_pos hf]; exact .inl ⟨rfl, rfl⟩
    · rw [if_neg hf, if_neg hf]
      cases render (srt (entries .request l)) (srt (entries .response l)) with
      | none => exact .inl ⟨rfl, rfl⟩
      | some f =>
        refine .inr ⟨_, _, rfl, rfl, ?_, (perm_outs hp).append_right _⟩
        rw [List.map_append, List.nodup_append]
        refine ⟨hg.2.2, by simp, fun a ha b hb => ?_⟩
        simp only [List.map_cons, List.map_nil, List.mem_singleton] at hb
        rintro rfl
        obtain ⟨e, he, rfl⟩ := List.mem_map.mp ha
        exact hf (List.any_eq_true.mpr ⟨e, he, by simpa using hb⟩)
  · have hg' : ¬ Good l' := fun h => hg (perm_good hp.symm h)
    exact .inl ⟨generate_bad _ _ _ hg, generate_bad _ _ _ hg'⟩

/-- **C285** No file of a message is lost or replaced by that of another: a run that succeeds generates
the files of all messages, each once, and the factories from all requests and responses. -/
theorem C285_every {S : Type} (srt : List Entry → List Entry) (render : List Entry → List Entry → Option S)
    (l : List (Msg S)) (a : List (String × S)) (h : generate srt render l = some a) :
    Good l ∧ (a.map (·.1)).Nodup ∧ ∃ f, render (srt (entries .request l)) (srt (entries .response l)) = some f ∧
      ∀ e, e ∈ a ↔ e = (factoryFile, f) ∨ ∃ m ∈ l, m.kind ≠ .data ∧ ∃ fs, m.files = some fs ∧ e ∈ fs := by
  by_cases hg : Good l
  · refine ⟨hg, ?_⟩
    rw [generate_good srt render l hg] at h
    by_cases hf : (outs l).any (fun e => e.1 = factoryFile) = true
    · rw [if_pos hf] at h; cases h
    · rw [if_neg hf] at h
      cases hr : render (srt (entries .request l)) (srt (entries .response l)) with
      | none => rw [hr] at h; cases h
      | some f =>
        rw [hr] at h
        cases h
        refine ⟨?_, f, rfl, fun e => ?_⟩
        · rw [List.map_append, List.nodup_append]
          refine ⟨hg.2.2, by simp, fun a ha b hb => ?_⟩
          simp only [List.map_cons, List.map_nil, List.mem_singleton] at hb
          rintro rfl
          obtain ⟨e, he, rfl⟩ := List.mem_map.mp ha
          exact hf (List.any_eq_true.mpr ⟨e, he, by simpa using hb⟩)
        · rw [List.mem_append, List.mem_singleton]
          unfold outs used
          simp only [List.mem_flatMap, List.mem_filter, decide_eq_true_eq]
          constructor
          · rintro (⟨m, ⟨hm, hk⟩, he⟩ | h)
            · cases hfs : m.files with
              | none => rw [hfs] at he; cases he
              | some fs => exact .inr ⟨m, hm, hk, fs, hfs, by rw [hfs] at he; exact he⟩
            · exact .inl h
          · rintro (h | ⟨m, hm, hk, fs, hfs, he⟩)
            · exact .inr h
            · exact .inl ⟨m, ⟨hm, hk⟩, by rw [hfs]; exact he⟩
  · rw [generate_bad srt render l hg] at h; cases h

/-- **C285** A run that fails changes no file. -/
theorem C285_failed {S : Type} (srt : List Entry → List Entry) (render : List Entry → List Entry → Option S)
    (l : List (Msg S)) (disk : String → Option S) (h : ¬ Good l) : write disk (generate srt render l) = disk := by
  rw [generate_bad srt render l h]; rfl

theorem find_mem {S : Type} (a : List (String × S)) (e : String × S) (he : e ∈ a) (hn : (a.map (·.1)).Nodup) :
    a.find? (fun x => x.1 = e.1) = some e := by
  induction a with
  | nil => cases he
  | cons x r ih =>
    rw [List.map_cons, List.nodup_cons] at hn
    rcases List.mem_cons.mp he with rfl | he
    · simp
    · have hx : x.1 ≠ e.1 := fun h => hn.1 (List.mem_map.mpr ⟨e, he, h.symm⟩)
      rw [List.find?_cons, decide_eq_false hx]
      exact ih he hn.2

/-- **C285** After a run that succeeds the generated files have the generated texts. -/
theorem C285_written {S : Type} (srt : List Entry → List Entry) (render : List Entry → List Entry → Option S)
    (l : List (Msg S)) (disk : String → Option S) (a : List (String × S)) (h : generate srt render l = some a) :
    ∀ e ∈ a, write disk (generate srt render l) e.1 = some e.2 := by
  intro e he
  have hn := (C285_every srt render l a h).2.1
  rw [h]
  show (match a.find? (fun x => x.1 = e.1) with | some e => some e.2 | none => disk e.1) = some e.2
  rw [find_mem a e he hn]

/-- **C285 (fails)** Files that are not generated stay: the code of a message that was removed from the
specification is still there, and compiled, after the next run. -/
theorem C285_stale_false {S : Type} (srt : List Entry → List Entry) (render : List Entry → List Entry → Option S)
    (l : List (Msg S)) (disk : String → Option S) (a : List (String × S)) (h : generate srt render l = some a)
    (p : String) (hp : p ∉ a.map (·.1)) : write disk (generate srt render l) p = disk p := by
  rw [h]
  show (match a.find? (fun x => x.1 = p) with | some e => some e.2 | none => disk p) = disk p
  have : a.find? (fun e => e.1 = p) = none := by
    rw [List.find?_eq_none]
    intro e he h'
    exact hp (List.mem_map.mpr ⟨e, he, by simpa using h'⟩)
  rw [this]

/-- a sort by the key that keeps the order of equal ones -/
def ins (x : Entry) : List Entry → List Entry
  | [] => [x]
  | y :: r => if x.apiKey ≤ y.apiKey then x :: y :: r else y :: ins x r

/-- messages of the example: two requests with one key -/
def two : List (Msg (List Entry)) :=
  [⟨.request, ⟨3, "a", "Request"⟩, some [("a/request.go", [])]⟩, ⟨.request, ⟨3, "b", "Request"⟩, some [("b/request.go", [])]⟩]

theorem ins_perm (x : Entry) (l : List Entry) : (ins x l).Perm (x :: l) := by
  induction l with
  | nil => exact List.Perm.refl _
  | cons y r ih =>
    unfold ins
    split
    · exact List.Perm.refl _
    · exact (ih.cons y).trans (List.Perm.swap x y r)

theorem ins_sorted (x : Entry) (l : List Entry) (h : l.Pairwise (fun a b => a.apiKey ≤ b.apiKey)) :
    (ins x l).Pairwise (fun a b => a.apiKey ≤ b.apiKey) := by
  induction l with
  | nil => simp [ins]
  | cons y r ih =>
    rw [List.pairwise_cons] at h
    unfold ins
    split
    · rename_i hle
      rw [List.pairwise_cons, List.pairwise_cons]
      refine ⟨fun a ha => ?_, h.1, h.2⟩
      rcases List.mem_cons.mp ha with rfl | ha
      · exact hle
      · have := h.1 a ha; omega
    · rename_i hle
      rw [List.pairwise_cons]
      refine ⟨fun a ha => ?_, ih h.2⟩
      rcases List.mem_cons.mp ((ins_perm x r).mem_iff.mp ha) with rfl | ha
      · omega
      · exact h.1 a ha

theorem foldr_sorts : Sorts (List.foldr ins []) := by
  intro l
  induction l with
  | nil => exact ⟨List.Perm.refl _, List.Pairwise.nil⟩
  | cons x r ih => exact ⟨(ins_perm x _).trans (ih.1.cons x), ins_sorted x _ ih.2⟩

/-- **C285 (fails)** Two requests with the same API key: with one and the same way of sorting, the
factories depend on the order in which the map is walked. -/
theorem C285_order_false : Sorts (List.foldr ins []) ∧
    (generate (List.foldr ins []) (fun a _ => some a) two).bind (fun a => (a.find? (fun e => e.1 = factoryFile)).map (·.2)) =
      some [⟨3, "a", "Request"⟩, ⟨3, "b", "Request"⟩] ∧
    (generate (List.foldr ins []) (fun a _ => some a) two.reverse).bind (fun a => (a.find? (fun e => e.1 = factoryFile)).map (·.2)) =
      some [⟨3, "b", "Request"⟩, ⟨3, "a", "Request"⟩] :=
  ⟨foldr_sorts, by decide +kernel, by decide +kernel⟩

/-- **C285** In the specifications of this version no two requests, and no two responses, have the same
API key. -/
theorem C285_keys : ((Gen.requestSpecs.map (·.apiKey)).Nodup) ∧ ((Gen.responseSpecs.map (·.apiKey)).Nodup) := by
  decide +kernel

example : Good two ∧ ¬ ((entries .request two).map (·.apiKey)).Nodup := by
  refine ⟨⟨by decide, by simp [used, two], by decide⟩, by decide⟩

example : ((entries .request (two.take 1)).map (·.apiKey)).Nodup := by decide

end Verif.Kafka.GenAll
