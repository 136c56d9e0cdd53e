import Verif.Ads.ClientProps

/-! # C277, C278: metadata of a destination and the connection made to it -/

namespace Verif.CliProps
open Verif

theorem readTyped_iff {V : Type} : ∀ (l : List (String × Typed V)) (raw : List (String × Option V)),
    readTyped l = some raw ↔ l = raw.map fun e => (e.1, .msg e.2) := by
  intro l
  induction l with
  | nil => intro raw; cases raw <;> simp [readTyped]
  | cons e r ih =>
    intro raw
    obtain ⟨k, t⟩ := e
    cases t with
    | unreadable => cases raw <;> simp [readTyped]
    | msg j =>
      simp only [readTyped, Option.map_eq_some_iff]
      cases raw with
      | nil => simp
      | cons e' r' =>
        obtain ⟨k', j'⟩ := e'
        constructor
        · rintro ⟨l', h1, h2⟩
          cases h2
          rw [List.map_cons, ← (ih r').mp h1]
        · intro h
          rw [List.map_cons] at h
          cases h
          exact ⟨r', (ih r').mpr rfl, rfl⟩

theorem viaJson_iff {V : Type} : ∀ (l : List (String × Option V)) (m : List (String × V)),
    viaJson l = some m ↔ l = m.map fun e => (e.1, some e.2) := by
  intro l
  induction l with
  | nil => intro m; cases m <;> simp [viaJson]
  | cons e r ih =>
    intro m
    obtain ⟨k, t⟩ := e
    cases t with
    | none => cases m <;> simp [viaJson]
    | some j =>
      simp only [viaJson, Option.map_eq_some_iff]
      cases m with
      | nil => simp
      | cons e' r' =>
        obtain ⟨k', j'⟩ := e'
        constructor
        · rintro ⟨l', h1, h2⟩
          cases h2
          rw [List.map_cons, ← (ih r').mp h1]
        · intro h
          rw [List.map_cons] at h
          cases h
          exact ⟨r', (ih r').mpr rfl, rfl⟩

theorem addUntyped_eq {V : Type} : ∀ (u raw : List (String × Option V)), (u.map (·.1)).Nodup →
    addUntyped raw u = raw ++ u.filter fun e => decide (e.1 ∉ raw.map (·.1)) := by
  intro u
  induction u with
  | nil => intro raw _; simp [addUntyped]
  | cons e r ih =>
    intro raw hn
    obtain ⟨k, v⟩ := e
    rw [List.map_cons, List.nodup_cons] at hn
    unfold addUntyped
    have hany : raw.any (fun e => decide (e.1 = k)) = true ↔ k ∈ raw.map (·.1) := by
      simp [List.any_eq_true, List.mem_map]
    by_cases hk : k ∈ raw.map (·.1)
    · rw [if_pos (hany.mpr hk), ih raw hn.2, List.filter_cons_of_neg (by simpa using hk)]
    · rw [if_neg (fun h => hk (hany.mp h)), ih _ hn.2, List.filter_cons_of_pos (by simpa using hk),
        List.append_assoc, List.singleton_append]
      congr 2
      apply List.filter_congr
      intro x hx
      have : x.1 ≠ k := fun h => hn.1 (List.mem_map.mpr ⟨x, hx, h⟩)
      simp [this]

/-- Exactly when a value is reported: the typed one, or the untyped one of a key with no typed one. -/
def Reported {V : Type} (md : Md V) (k : String) (v : V) : Prop :=
  (k, .msg (some v)) ∈ md.typed ∨ (k ∉ md.typed.map (·.1) ∧ (k, some v) ∈ md.untyped)

/-- Every value that would be reported can be. -/
def Readable {V : Type} (md : Md V) : Prop :=
  (∀ k t, (k, t) ∈ md.typed → ∃ v, t = .msg (some v)) ∧
  ∀ k o, (k, o) ∈ md.untyped → k ∉ md.typed.map (·.1) → ∃ v, o = some v

theorem unified_iff {V : Type} {md : Md V} (hu : (md.untyped.map (·.1)).Nodup) (m : List (String × V)) :
    unified md = some m ↔ ∃ raw, md.typed = raw.map (fun e => (e.1, .msg e.2)) ∧
      raw ++ md.untyped.filter (fun e => decide (e.1 ∉ md.typed.map (·.1))) = m.map fun e => (e.1, some e.2) := by
  have keys : ∀ raw : List (String × Option V), md.typed = raw.map (fun e => (e.1, Typed.msg e.2)) →
      md.typed.map (·.1) = raw.map (·.1) := by
    intro raw h; rw [h, List.map_map]; rfl
  unfold unified
  constructor
  · intro h
    cases hr : readTyped md.typed with
    | none => rw [hr] at h; cases h
    | some raw =>
      rw [hr] at h
      have h1 := (readTyped_iff _ _).mp hr
      refine ⟨raw, h1, ?_⟩
      have := (viaJson_iff _ _).mp h
      rw [addUntyped_eq _ _ hu] at this
      rw [keys raw h1, this]
  · rintro ⟨raw, h1, h2⟩
    rw [(readTyped_iff _ _).mpr h1]
    show viaJson (addUntyped raw md.untyped) = some m
    rw [viaJson_iff, addUntyped_eq _ _ hu, ← h2, keys raw h1]

theorem readable_iff {V : Type} {md : Md V} (hu : (md.untyped.map (·.1)).Nodup) :
    (∃ m, unified md = some m) ↔ Readable md := by
  constructor
  · rintro ⟨m, h⟩
    obtain ⟨raw, h1, h2⟩ := (unified_iff hu m).mp h
    have key : ∀ k o, (k, o) ∈ raw ++ md.untyped.filter (fun e => decide (e.1 ∉ md.typed.map (·.1))) →
        ∃ v, o = some v := by
      intro k o hm
      rw [h2] at hm
      obtain ⟨e, _, he⟩ := List.mem_map.mp hm
      cases he
      exact ⟨_, rfl⟩
    constructor
    · intro k t ht
      rw [h1] at ht
      obtain ⟨e, he, he'⟩ := List.mem_map.mp ht
      obtain ⟨v, hv⟩ := key e.1 e.2 (List.mem_append_left _ he)
      cases he'
      exact ⟨v, by rw [hv]⟩
    · intro k o hm hk
      refine key k o (List.mem_append_right _ (List.mem_filter.mpr ⟨hm, ?_⟩))
      simpa using hk
  · rintro ⟨h1, h2⟩
    have all : ∀ l : List (String × Typed V), (∀ k t, (k, t) ∈ l → ∃ v, t = .msg (some v)) →
        ∃ m : List (String × V), l = m.map fun e => (e.1, .msg (some e.2)) := by
      intro l
      induction l with
      | nil => intro _; exact ⟨[], rfl⟩
      | cons e r ih =>
        intro h
        obtain ⟨m, hm⟩ := ih fun k t ht => h k t (List.mem_cons_of_mem _ ht)
        obtain ⟨v, hv⟩ := h e.1 e.2 (by simp)
        refine ⟨(e.1, v) :: m, ?_⟩
        rw [List.map_cons, ← hm]
        congr 1
        exact Prod.ext rfl hv
    have all2 : ∀ l : List (String × Option V), (∀ k t, (k, t) ∈ l → ∃ v, t = some v) →
        ∃ m : List (String × V), l = m.map fun e => (e.1, some e.2) := by
      intro l
      induction l with
      | nil => intro _; exact ⟨[], rfl⟩
      | cons e r ih =>
        intro h
        obtain ⟨m, hm⟩ := ih fun k t ht => h k t (List.mem_cons_of_mem _ ht)
        obtain ⟨v, hv⟩ := h e.1 e.2 (by simp)
        refine ⟨(e.1, v) :: m, ?_⟩
        rw [List.map_cons, ← hm]
        congr 1
        exact Prod.ext rfl hv
    obtain ⟨m1, e1⟩ := all _ h1
    obtain ⟨m2, e2⟩ := all2 (md.untyped.filter fun e => decide (e.1 ∉ md.typed.map (·.1))) (by
      intro k o hm
      obtain ⟨a, b⟩ := List.mem_filter.mp hm
      exact h2 k o a (by simpa using b))
    refine ⟨m1 ++ m2, (unified_iff hu _).mpr ⟨m1.map fun e => (e.1, some e.2), ?_, ?_⟩⟩
    · rw [List.map_map, e1]; rfl
    · rw [List.map_append, e2]

/-- **C277** Metadata are reported unless a value cannot be read: what is reported is each key once,
with its typed value, or its untyped one if it has no typed value; in any order of the maps. -/
theorem C277_reported {V : Type} (md : Md V) (ht : (md.typed.map (·.1)).Nodup) (hu : (md.untyped.map (·.1)).Nodup) :
    ((∃ m, unified md = some m) ↔ Readable md) ∧
    ∀ m, unified md = some m → (m.map (·.1)).Nodup ∧ ∀ k v, (k, v) ∈ m ↔ Reported md k v := by
  refine ⟨readable_iff hu, ?_⟩
  intro m h
  obtain ⟨raw, h1, h2⟩ := (unified_iff hu m).mp h
  have hk : md.typed.map (·.1) = raw.map (·.1) := by rw [h1, List.map_map]; rfl
  have hm : m.map (·.1) = raw.map (·.1) ++ (md.untyped.filter (fun e => decide (e.1 ∉ md.typed.map (·.1)))).map (·.1) := by
    rw [← List.map_append, h2, List.map_map]; rfl
  constructor
  · rw [hm, List.nodup_append]
    refine ⟨hk ▸ ht, (List.Sublist.map _ List.filter_sublist).nodup hu, ?_⟩
    rintro a ha b hb rfl
    obtain ⟨e, he, rfl⟩ := List.mem_map.mp hb
    have := (List.mem_filter.mp he).2
    rw [hk] at this
    exact (by simpa using this : e.1 ∉ raw.map (·.1)) ha
  · intro k v
    have e1 : (k, v) ∈ m ↔ (k, some v) ∈ m.map fun e => (e.1, some e.2) := by
      rw [List.mem_map]
      constructor
      · intro h; exact ⟨_, h, rfl⟩
      · rintro ⟨⟨a, b⟩, h, he⟩
        cases he; exact h
    have e2 : (k, some v) ∈ raw ↔ (k, Typed.msg (some v)) ∈ md.typed := by
      rw [h1, List.mem_map]
      constructor
      · intro h; exact ⟨_, h, rfl⟩
      · rintro ⟨⟨a, b⟩, h, he⟩
        cases he; exact h
    rw [e1, ← h2, List.mem_append, e2, List.mem_filter]
    unfold Reported
    simp only [decide_eq_true_eq]
    exact or_congr_right ⟨fun ⟨a, b⟩ => ⟨b, a⟩, fun ⟨a, b⟩ => ⟨b, a⟩⟩

def mdEx : Md Nat := { typed := [("a", .msg (some 1))], untyped := [("a", none), ("b", some 2)] }

example : unified mdEx = some [("a", 1), ("b", 2)] := by decide +kernel
example : unified ({ typed := [("a", .unreadable)] } : Md Nat) = none := by decide +kernel

/-- The metadata of the cluster, of the route if there is one, and of the first endpoint with the
address can all be read; `em` is the last of them. -/
structure AllRead {V : Type} (d : Dest V) (a : String) (em : List (String × V)) : Prop where
  cluster : ∃ m, unified d.clusterMd = some m
  route : ∀ r, d.route = some r → ∃ m, unified r = some m
  endpoint : (∃ pre md post, d.eps = pre ++ (some a, md) :: post ∧ (∀ e ∈ pre, e.1 ≠ some a) ∧ unified md = some em) ∨
    ((∀ e ∈ d.eps, e.1 ≠ some a) ∧ em = [])

/-- The match fields of an endpoint: none, or those of the object under the well-known key. -/
def Fields {V : Type} (asObj : V → Option (List (String × Option String))) (em : List (String × V))
    (fields : List (String × Option String)) : Prop :=
  (Bal.lookup matchKey em = none ∧ fields = []) ∨ ∃ v, Bal.lookup matchKey em = some v ∧ asObj v = some fields

theorem metaOf_iff {V : Type} (a : String) : ∀ (eps : List (Option String × Md V)) (em : List (String × V)),
    metaOf a eps = some em ↔
    ((∃ pre md post, eps = pre ++ (some a, md) :: post ∧ (∀ e ∈ pre, e.1 ≠ some a) ∧ unified md = some em) ∨
      ((∀ e ∈ eps, e.1 ≠ some a) ∧ em = [])) := by
  intro eps
  induction eps with
  | nil =>
    intro em
    simp only [metaOf, Option.some.injEq, List.nil_eq_append_iff, List.not_mem_nil, false_implies, implies_true, true_and]
    constructor
    · intro h; exact Or.inr h.symm
    · rintro (⟨_, _, _, ⟨_, h⟩, _⟩ | h)
      · cases h
      · exact h.symm
  | cons e r ih =>
    intro em
    obtain ⟨b, md⟩ := e
    by_cases hb : b = some a
    · subst hb
      have : metaOf a ((some a, md) :: r) = unified md := by simp [metaOf]
      rw [this]
      constructor
      · intro h; exact Or.inl ⟨[], md, r, rfl, by simp, h⟩
      · rintro (⟨pre, md', post, h1, h2, h3⟩ | ⟨h, _⟩)
        · cases pre with
          | nil => cases h1; exact h3
          | cons x xs =>
            rw [List.cons_append] at h1
            injection h1 with h1 _
            exact absurd (by rw [← h1]) (h2 x (by simp))
        · exact absurd rfl (h (some a, md) (by simp))
    · have : metaOf a ((b, md) :: r) = metaOf a r := by
        cases b with
        | none => rfl
        | some c =>
          have : c ≠ a := fun h => hb (by rw [h])
          simp [metaOf, this]
      rw [this, ih]
      constructor
      · rintro (⟨pre, md', post, h1, h2, h3⟩ | ⟨h, h'⟩)
        · refine Or.inl ⟨(b, md) :: pre, md', post, by rw [h1]; rfl, ?_, h3⟩
          intro e he
          rcases List.mem_cons.mp he with rfl | he
          · exact hb
          · exact h2 e he
        · refine Or.inr ⟨?_, h'⟩
          intro e he
          rcases List.mem_cons.mp he with rfl | he
          · exact hb
          · exact h e he
      · rintro (⟨pre, md', post, h1, h2, h3⟩ | ⟨h, h'⟩)
        · cases pre with
          | nil => rw [List.nil_append] at h1; cases h1; exact absurd rfl hb
          | cons x xs =>
            rw [List.cons_append] at h1
            injection h1 with _ h1
            exact Or.inl ⟨xs, md', post, h1, fun e he => h2 e (List.mem_cons_of_mem _ he), h3⟩
        · exact Or.inr ⟨fun e he => h e (List.mem_cons_of_mem _ he), h'⟩

theorem routeMeta_some {V : Type} (r : Option (Md V)) :
    (∃ m, routeMeta r = some m) ↔ ∀ x, r = some x → ∃ m, unified x = some m := by
  cases r with
  | none => simp [routeMeta]
  | some x =>
    simp only [routeMeta, Option.some.injEq]
    constructor
    · rintro h _ rfl; exact h
    · intro h; exact h x rfl

theorem fields_iff {V : Type} (asObj : V → Option (List (String × Option String))) (em : List (String × V))
    (fields : List (String × Option String)) :
    matchFields asObj em = some fields ↔ Fields asObj em fields := by
  unfold Fields matchFields
  cases Bal.lookup matchKey em with
  | none => simp [eq_comm]
  | some v => simp

/-- **C278 (partial)** With an endpoint `a` picked and all metadata readable, of which the match
fields are an object on which the socket matches can be decided, the connection goes to `a`, and is
protected exactly if the first applicable socket is the TLS socket. -/
theorem C278_protected_partial {V : Type} (asObj : V → Option (List (String × Option String))) (d : Dest V)
    (given a : String) (em : List (String × V)) (fields : List (String × Option String)) (ts : List String)
    (hp : d.pick = .addr a) (hr : AllRead d a em) (hf : Fields asObj em fields)
    (ht : Route.transportSockets d.matches_ d.dflt fields = some ts) :
    connect given (newClientProperties asObj d) = .dial a (decide (ts.head? = some Route.tlsSocket)) := by
  obtain ⟨cm, hc⟩ := hr.cluster
  obtain ⟨rm, hrm⟩ := (routeMeta_some d.route).mpr hr.route
  have hm := (metaOf_iff a d.eps em).mpr hr.endpoint
  unfold newClientProperties
  rw [hc]
  simp only [hrm, hp, hm]
  unfold finish
  rw [(fields_iff asObj em fields).mpr hf]
  simp only [ht, connect]
  congr 1
  cases ts <;> simp [Route.usesTls]

/-- **C278 (partial)** A protected connection is only ever made to the picked endpoint, with all
metadata read, and if the TLS socket is the first applicable one. -/
theorem C278_only_partial {V : Type} (asObj : V → Option (List (String × Option String))) (d : Dest V)
    (given a : String) (h : connect given (newClientProperties asObj d) = .dial a true) :
    d.pick = .addr a ∧ ∃ em fields ts, AllRead d a em ∧ Fields asObj em fields ∧
      Route.transportSockets d.matches_ d.dflt fields = some ts ∧ ts.head? = some Route.tlsSocket := by
  unfold newClientProperties at h
  cases hc : unified d.clusterMd with
  | none => rw [hc] at h; simp [connect] at h
  | some cm =>
    rw [hc] at h
    cases hrm : routeMeta d.route with
    | none => simp [hrm, connect] at h
    | some rm =>
      simp only [hrm] at h
      have fin : ∀ (addr : Option String) em, connect given (finish asObj d addr cm rm em) = .dial a true →
          addr = some a ∧ ∃ fields ts, Fields asObj em fields ∧
            Route.transportSockets d.matches_ d.dflt fields = some ts ∧ ts.head? = some Route.tlsSocket := by
        intro addr em h
        unfold finish at h
        cases hf : matchFields asObj em with
        | none => rw [hf] at h; simp [connect] at h
        | some fields =>
          rw [hf] at h
          cases ht : Route.transportSockets d.matches_ d.dflt fields with
          | none => simp [ht, connect] at h
          | some ts =>
            simp only [ht, connect] at h
            cases addr with
            | none => simp at h
            | some b =>
              simp only [Conn.dial.injEq] at h
              refine ⟨by rw [h.1], fields, ts, (fields_iff asObj em fields).mp hf, ht, ?_⟩
              cases ts with
              | nil => simp [Route.usesTls] at h
              | cons t r => simpa [Route.usesTls] using h.2
      cases hp : d.pick with
      | panic => simp [hp, connect] at h
      | nil =>
        simp only [hp] at h
        split at h
        · simp [connect] at h
        · exact absurd (fin _ _ h).1 (by simp)
      | addr b =>
        simp only [hp] at h
        cases hm : metaOf b d.eps with
        | none => simp [hm, connect] at h
        | some em =>
          simp only [hm] at h
          obtain ⟨e, fields, ts, h1, h2, h3⟩ := fin _ _ h
          cases e
          exact ⟨rfl, em, fields, ts, ⟨⟨cm, hc⟩, (routeMeta_some d.route).mp ⟨rm, hrm⟩,
            (metaOf_iff a d.eps em).mp hm⟩, h1, h2, h3⟩

/-- **C278 (fails)** One metadata value the program cannot read — of the cluster, of the route, or of
the picked endpoint — and the connection is made to the given address without protection, whatever
the sockets of the cluster are. -/
theorem C278_unreadable_false {V : Type} (asObj : V → Option (List (String × Option String))) (d : Dest V)
    (given : String)
    (h : unified d.clusterMd = none ∨ (∃ r, d.route = some r ∧ unified r = none ∧ (∃ m, unified d.clusterMd = some m)) ∨
      ((∃ m, unified d.clusterMd = some m) ∧ (∃ m, routeMeta d.route = some m) ∧
        ∃ a pre md post, d.pick = .addr a ∧ d.eps = pre ++ (some a, md) :: post ∧ (∀ e ∈ pre, e.1 ≠ some a) ∧ unified md = none)) :
    connect given (newClientProperties asObj d) = .dial given false := by
  unfold newClientProperties
  rcases h with h | ⟨r, h1, h2, m, h3⟩ | ⟨⟨m, h1⟩, ⟨m', h2⟩, a, pre, md, post, h3, h4, h5, h6⟩
  · rw [h]; rfl
  · rw [h3, h1]; simp [routeMeta, h2, connect]
  · rw [h1]
    have hm : metaOf a d.eps = none := by
      rw [h4]
      clear h4
      induction pre with
      | nil => simp [metaOf, h6]
      | cons e r ih =>
        obtain ⟨b, md'⟩ := e
        have hb := h5 (b, md') (by simp)
        have := ih fun e he => h5 e (List.mem_cons_of_mem _ he)
        cases b with
        | none => exact this
        | some c =>
          have : c ≠ a := fun h => hb (by rw [h])
          simpa [metaOf, this]
    simp [h2, h3, hm, connect]

/-- A destination all of whose sockets are TLS. -/
def dEx : Dest (List (String × Option String)) :=
  { eps := [(some "10.0.0.1:80", { untyped := [(matchKey, some [("tlsMode", some "istio")])] })]
    pick := .addr "10.0.0.1:80"
    matches_ := [⟨[("tlsMode", some "istio")], some Route.tlsSocket⟩]
    dflt := some Route.tlsSocket }

example : connect "echo:80" (newClientProperties some dEx) = .dial "10.0.0.1:80" true := by decide +kernel

/-- **C278 (fails)** The same cluster with one metadata entry of a type the program does not know. -/
theorem C278_plaintext_false :
    connect "echo:80" (newClientProperties some { dEx with clusterMd := { typed := [("x", .unreadable)] } }) =
      .dial "echo:80" false := by decide +kernel

/-- **C278 (fails)** Match fields that are not an object: the function returns neither properties nor
an error, and the caller crashes on the nil it takes for properties. -/
theorem C278_crash_false {V : Type} (asObj : V → Option (List (String × Option String))) (d : Dest V)
    (given a : String) (em : List (String × V)) (v : V) (hp : d.pick = .addr a) (hr : AllRead d a em)
    (hv : Bal.lookup matchKey em = some v) (ho : asObj v = none) :
    connect given (newClientProperties asObj d) = .crash := by
  obtain ⟨cm, hc⟩ := hr.cluster
  obtain ⟨rm, hrm⟩ := (routeMeta_some d.route).mpr hr.route
  have hm := (metaOf_iff a d.eps em).mpr hr.endpoint
  unfold newClientProperties
  rw [hc]
  simp only [hrm, hp, hm]
  unfold finish
  simp [matchFields, hv, ho, connect]

example : connect "echo:80" (newClientProperties (fun _ => none) dEx) = .crash := by decide +kernel

/-! ### C279 -/

theorem lookup_absent {β : Type} (k : String) : ∀ l : List (String × β), k ∉ l.map (·.1) → Bal.lookup k l = none := by
  intro l
  induction l with
  | nil => intro _; rfl
  | cons e r ih =>
    intro h
    rw [List.map_cons, List.mem_cons, not_or] at h
    unfold Bal.lookup
    rw [if_neg (fun he => h.1 he.symm), ih h.2]

theorem lookup_mem {β : Type} (k : String) (v : β) : ∀ l : List (String × β), (l.map (·.1)).Nodup → (k, v) ∈ l →
    Bal.lookup k l = some v := by
  intro l
  induction l with
  | nil => intro _ h; cases h
  | cons e r ih =>
    intro hn h
    rw [List.map_cons, List.nodup_cons] at hn
    unfold Bal.lookup
    rcases List.mem_cons.mp h with rfl | h
    · rw [if_pos rfl]
    · rw [if_neg (fun he => hn.1 (List.mem_map.mpr ⟨(k, v), h, he.symm⟩)), ih hn.2 h]

/-- **C279 (partial)** A cluster whose endpoints are subscribed to, with its load assignment received,
is reached as C278 says, with the endpoints of that load assignment: the one of its service name, or
of its own name if it has none. -/
theorem C279_subscribed_partial {V : Type} (asObj : V → Option (List (String × Option String))) (c : Discovery)
    (store : List (String × List (Option String × Md V))) (pick : List (Option String × Md V) → Bal.Pick) (d : Dest V)
    (eps : List (Option String × Md V)) (he : c.eds = true) (hn : (store.map (·.1)).Nodup)
    (hs : (c.service ≠ "" ∧ (c.service, eps) ∈ store) ∨ (c.service = "" ∧ (c.name, eps) ∈ store)) :
    clientProperties asObj c store pick d = newClientProperties asObj { d with eps := eps, pick := pick eps } := by
  have : Bal.lookup (reference c) store = some eps := by
    unfold reference
    rcases hs with ⟨h1, h2⟩ | ⟨h1, h2⟩
    · rw [if_pos he, if_pos h1]; exact lookup_mem _ _ _ hn h2
    · rw [if_pos he, if_neg (fun h => h h1)]; exact lookup_mem _ _ _ hn h2
  unfold clientProperties
  rw [this]

/-- **C279 (fails)** A cluster that finds its endpoints in any other way — by DNS, listed in the
cluster, by the original destination — is never reached through its configuration: the connection goes
to the given address without TLS, whatever its endpoints, sockets and metadata are. (No load
assignment has the empty name.) -/
theorem C279_other_false {V : Type} (asObj : V → Option (List (String × Option String))) (c : Discovery)
    (store : List (String × List (Option String × Md V))) (pick : List (Option String × Md V) → Bal.Pick) (d : Dest V)
    (given : String) (he : c.eds = false) (hn : "" ∉ store.map (·.1)) :
    connect given (clientProperties asObj c store pick d) = .dial given false := by
  have : reference c = "" := by unfold reference; rw [he]; rfl
  unfold clientProperties
  rw [this, lookup_absent _ _ hn]
  rfl

example : clientProperties some ⟨true, "", "outbound|80||echo"⟩ [("outbound|80||echo", dEx.eps)] (fun _ => dEx.pick) dEx =
    newClientProperties some dEx := rfl

/-- **C278** A policy that gives no endpoint: no connection is made. It is an error if none of the
endpoints has an address, as with no endpoints at all, and a crash if one has. -/
theorem C278_no_endpoint {V : Type} (asObj : V → Option (List (String × Option String))) (d : Dest V)
    (given : String) (ts : List String) (hp : d.pick = .nil) (hc : ∃ m, unified d.clusterMd = some m)
    (hr : ∃ m, routeMeta d.route = some m) (ht : Route.transportSockets d.matches_ d.dflt [] = some ts) :
    (connect given (newClientProperties asObj d) = .error ↔ ∀ e ∈ d.eps, e.1 = none) ∧
    (connect given (newClientProperties asObj d) = .crash ↔ ∃ e ∈ d.eps, e.1 ≠ none) := by
  obtain ⟨cm, hc⟩ := hc
  obtain ⟨rm, hr⟩ := hr
  unfold newClientProperties
  rw [hc]
  simp only [hr, hp]
  by_cases h : d.eps.any (fun e => e.1.isSome) = true
  · rw [if_pos h]
    rw [List.any_eq_true] at h
    obtain ⟨e, he, h⟩ := h
    have hne : e.1 ≠ none := by intro h'; rw [h'] at h; simp at h
    exact ⟨⟨fun h' => by simp [connect] at h', fun h' => absurd (h' e he) hne⟩,
      ⟨fun _ => ⟨e, he, hne⟩, fun _ => rfl⟩⟩
  · rw [if_neg h]
    have hall : ∀ e ∈ d.eps, e.1 = none := by
      intro e he
      cases h' : e.1 with
      | none => rfl
      | some a => exact absurd (List.any_eq_true.mpr ⟨e, he, by rw [h']; rfl⟩) h
    unfold finish
    simp only [matchFields, Bal.lookup, ht, connect]
    refine ⟨by simp only [true_iff]; exact hall, by simp only [reduceCtorEq, false_iff]; exact fun ⟨e, he, h'⟩ => h' (hall e he)⟩

example : connect "echo:80" (newClientProperties some { dEx with pick := .nil, eps := [(none, {})] }) = .error := by
  decide +kernel

end Verif.CliProps
