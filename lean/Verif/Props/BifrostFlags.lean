import Verif.Bifrost.Flags

/-! # C289: The options of the tunnel commands; C290: What the tunnel client says of itself -/

namespace Verif.Bifrost.Flags

variable {T : Type} [DecidableEq T]

/-! ### Specification -/

/-- What an option of a command is meant to be: the last value on the command line, else the
environment's, else the command's own default. -/
inductive Meant (c : Cmd T) (env : T → Option T) (args : List (T × T)) (n : T) : T → Prop where
  | arg (a b : List (T × T)) (v : T) : args = a ++ (n, v) :: b → (∀ e ∈ b, e.1 ≠ n) → Meant c env args n v
  | env (v : T) : (∀ e ∈ args, e.1 ≠ n) → env n = some v → Meant c env args n v
  | dflt (f : Flag T) : (∀ e ∈ args, e.1 ≠ n) → env n = none → decl c n = some f → Meant c env args n f.default

/-- The command declares the option. -/
def Declares (c : Cmd T) (n : T) : Prop := ∃ f ∈ c, f.name = n

/-! ### Proofs -/

theorem decl_some (c : Cmd T) (n : T) : Declares c n ↔ ∃ f, decl c n = some f := by
  unfold decl Declares
  constructor
  · rintro ⟨f, hf, hn⟩
    cases h : c.find? (·.name = n) with
    | some g => exact ⟨g, rfl⟩
    | none => rw [List.find?_eq_none] at h; exact absurd (by simpa using hn) (h f hf)
  · rintro ⟨f, h⟩
    exact ⟨f, List.mem_of_find?_eq_some h, by simpa using List.find?_some h⟩

theorem given_none (args : List (T × T)) (n : T) : given args n = none ↔ ∀ e ∈ args, e.1 ≠ n := by
  unfold given
  rw [Option.map_eq_none_iff, List.find?_eq_none]
  simp

theorem given_some (args : List (T × T)) (n v : T) :
    given args n = some v ↔ ∃ a b, args = a ++ (n, v) :: b ∧ ∀ e ∈ b, e.1 ≠ n := by
  unfold given
  rw [Option.map_eq_some_iff]
  constructor
  · rintro ⟨⟨k, w⟩, h, rfl⟩
    rw [List.find?_eq_some_iff_append] at h
    obtain ⟨hk, as, bs, hl, hb⟩ := h
    have hk' : k = n := by simpa using hk
    subst hk'
    refine ⟨bs.reverse, as.reverse, ?_, ?_⟩
    · have := congrArg List.reverse hl
      rw [List.reverse_reverse] at this
      rw [this]; simp
    · intro e he
      have := hb e (List.mem_reverse.1 he)
      simpa using this
  · rintro ⟨a, b, rfl, hb⟩
    refine ⟨(n, v), ?_, rfl⟩
    rw [List.find?_eq_some_iff_append]
    refine ⟨by simp, b.reverse, a.reverse, by simp, ?_⟩
    intro e he
    simpa using hb e (List.mem_reverse.1 he)

theorem bindAll_none (cs : List (Cmd T)) : ∀ (s : Store T) (i : Nat) (n : T), (∀ c ∈ cs, ¬Declares c n) →
    bindAll s i cs n = s n := by
  induction cs with
  | nil => exact fun _ _ _ _ => rfl
  | cons c r ih =>
    intro s i n h
    show bindAll (bind s i c) (i + 1) r n = s n
    rw [ih _ _ _ (fun c hc => h c (List.mem_cons_of_mem _ hc))]
    have hd : decl c n = none := by
      cases hh : decl c n with
      | none => rfl
      | some f => exact absurd ((decl_some c n).2 ⟨f, hh⟩) (h c List.mem_cons_self)
    unfold bind
    rw [hd]

theorem bindAll_append (a b : List (Cmd T)) : ∀ (s : Store T) (i : Nat), bindAll s i (a ++ b) = bindAll (bindAll s i a) (i + a.length) b := by
  induction a with
  | nil => exact fun _ _ => rfl
  | cons c r ih =>
    intro s i
    show bindAll (bind s i c) (i + 1) (r ++ b) = bindAll (bindAll (bind s i c) (i + 1) r) _ b
    rw [ih, List.length_cons, show i + 1 + r.length = i + (r.length + 1) by omega]

theorem bindAll_last (before after : List (Cmd T)) (c : Cmd T) (s : Store T) (n : T) (f : Flag T)
    (hd : decl c n = some f) (h : ∀ d ∈ after, ¬Declares d n) :
    bindAll s 0 (before ++ c :: after) n = some (before.length, f) := by
  rw [bindAll_append]
  show bindAll (bind (bindAll s 0 before) (0 + before.length) c) _ after n = _
  rw [bindAll_none _ _ _ _ h]
  unfold bind
  rw [hd]
  simp

/-- **C289** An option that no command made later declares has the value it is meant to have, whatever is
on the command line and in the environment. -/
theorem C289_value_partial (before after : List (Cmd T)) (c : Cmd T) (env : T → Option T) (args : List (T × T)) (n : T)
    (hc : Declares c n) (h : ∀ d ∈ after, ¬Declares d n) (v : T) :
    get (bindAll (fun _ => none) 0 (before ++ c :: after)) env before.length args n = some v ↔ Meant c env args n v := by
  obtain ⟨f, hf⟩ := (decl_some c n).1 hc
  unfold get
  rw [bindAll_last before after c _ n f hf h]
  dsimp only
  rw [if_pos rfl]
  cases hg : given args n with
  | some w =>
    obtain ⟨a, b, ha, hb⟩ := (given_some args n w).1 hg
    dsimp only
    constructor
    · intro hv
      rw [Option.some.injEq] at hv
      subst hv
      exact .arg a b w ha hb
    · rintro (⟨a', b', v, ha', hb'⟩ | ⟨v, hn, _⟩ | ⟨f', hn, _, _⟩)
      · rw [← hg, (given_some args n v).2 ⟨a', b', ha', hb'⟩]
      · exact absurd ((given_none args n).2 hn) (by rw [hg]; simp)
      · exact absurd ((given_none args n).2 hn) (by rw [hg]; simp)
  | none =>
    have hno := (given_none args n).1 hg
    have harg : ∀ a b v, ¬(args = a ++ (n, v) :: b) := by
      rintro a b v rfl
      exact hno (n, v) (by simp) rfl
    cases he : env n with
    | some w =>
      dsimp only
      constructor
      · intro hv
        rw [Option.some.injEq] at hv
        subst hv
        exact .env w hno he
      · rintro (⟨a', b', v, ha', _⟩ | ⟨v, _, h2⟩ | ⟨f', _, h2, _⟩)
        · exact absurd ha' (harg _ _ _)
        · rw [← he, h2]
        · rw [he] at h2; simp at h2
    | none =>
      dsimp only
      constructor
      · intro hv
        rw [Option.some.injEq] at hv
        subst hv
        exact .dflt f hno he hf
      · rintro (⟨a', b', v, ha', _⟩ | ⟨v, _, h2⟩ | ⟨f', _, _, h3⟩)
        · exact absurd ha' (harg _ _ _)
        · rw [he] at h2; simp at h2
        · rw [hf, Option.some.injEq] at h3; rw [h3]

/-- **C289** All options of the client have the values they are meant to have. -/
theorem C289_client (env : String → Option String) (args : List (String × String)) (n v : String) (hn : Declares client n) :
    get bifrost env 1 args n = some v ↔ Meant client env args n v :=
  C289_value_partial [server] [] client env args n hn (by simp) v

/-- **C289** So has the address of the health check of the server. -/
theorem C289_health_partial (env : String → Option String) (args : List (String × String)) (v : String) :
    get bifrost env 0 args "healthcheck-address" = some v ↔ Meant server env args "healthcheck-address" v := by
  refine C289_value_partial [] [client] server env args _ ⟨_, List.mem_cons_of_mem _ List.mem_cons_self, rfl⟩ ?_ v
  intro d hd
  rw [List.mem_singleton] at hd
  subst hd
  rintro ⟨f, hf, hn⟩
  simp only [client, List.mem_cons, List.not_mem_nil, or_false] at hf
  rcases hf with rfl | rfl | rfl | rfl | rfl | rfl | rfl <;> simp at hn

/-- **C289** Options given in the environment alone have the values they are meant to have, in every
command. -/
theorem C289_env (before after : List (Cmd T)) (c : Cmd T) (env : T → Option T) (args : List (T × T)) (n w : T)
    (hc : Declares c n) (ha : ∀ e ∈ args, e.1 ≠ n) (he : env n = some w) (v : T) :
    get (bindAll (fun _ => none) 0 (before ++ c :: after)) env before.length args n = some v ↔ Meant c env args n v := by
  have hg := (given_none args n).2 ha
  have h1 : get (bindAll (fun _ => none) 0 (before ++ c :: after)) env before.length args n = some w := by
    unfold get
    split
    · exact he
    · rw [hg, ite_self, he]
  rw [h1, Option.some.injEq]
  constructor
  · rintro rfl; exact .env w ha he
  · rintro (⟨a', b', v, ha', _⟩ | ⟨v, _, h2⟩ | ⟨f', _, h2, _⟩)
    · exact absurd rfl (ha (n, v) (by rw [ha']; simp))
    · rw [he, Option.some.injEq] at h2; exact h2
    · rw [he] at h2; simp at h2

/-- **C289 (fails)** An option that a command made later declares too: what is given for it on the command
line is ignored, and without a variable it has the default of the other command. -/
theorem C289_shared_false (before mid after : List (Cmd T)) (c d : Cmd T) (env : T → Option T) (args : List (T × T)) (n : T) (f : Flag T)
    (hd : decl d n = some f) (h : ∀ e ∈ after, ¬Declares e n) :
    get (bindAll (fun _ => none) 0 (before ++ c :: (mid ++ d :: after))) env before.length args n =
      some ((env n).getD f.default) := by
  have hs : before ++ c :: (mid ++ d :: after) = (before ++ c :: mid) ++ d :: after := by simp
  unfold get
  rw [hs, bindAll_last _ after d _ n f hd h]
  dsimp only
  rw [if_neg (by simp only [List.length_append, List.length_cons]; omega)]
  dsimp only
  cases env n <;> rfl

/-- **C289 (fails)** The tunnel server listens on 127.0.0.1:8001 if its address is not in the environment,
and is not reachable from elsewhere, whatever address is given on the command line; and it does not use the
mesh, even if told to. -/
theorem C289_server_false (env : String → Option String) (args : List (String × String))
    (h1 : env "server-address" = none) (h2 : env "with-nasp" = none) :
    get bifrost env 0 args "server-address" = some "127.0.0.1:8001" ∧ get bifrost env 0 args "with-nasp" = some "false" := by
  have a := C289_shared_false [] [] [] server client env args "server-address" ⟨"server-address", "127.0.0.1:8001"⟩ (by decide) (by simp)
  have b := C289_shared_false [] [] [] server client env args "with-nasp" ⟨"with-nasp", "false"⟩ (by decide) (by simp)
  rw [h1] at a
  rw [h2] at b
  exact ⟨a, b⟩

/-- Not what is meant. -/
theorem C289_server_meant_false :
    ∃ args : List (String × String), Meant server (fun _ => none) args "server-address" "10.0.0.1:9000" ∧
      Meant server (fun _ => none) [] "server-address" "0.0.0.0:8001" ∧
      get bifrost (fun _ => none) 0 args "server-address" = some "127.0.0.1:8001" ∧
      get bifrost (fun _ => none) 0 [] "server-address" = some "127.0.0.1:8001" :=
  ⟨[("server-address", "10.0.0.1:9000")], .arg [] [] _ rfl (by simp), .dflt ⟨"server-address", "0.0.0.0:8001"⟩ (by simp) rfl (by decide),
    (C289_server_false _ _ rfl rfl).1, (C289_server_false _ _ rfl rfl).1⟩

/-- **C290** Without the mesh, or with a client of its own, the token given is sent, and the labels given,
of which that of the service name is replaced by the service name given. -/
theorem C290_direct_partial (empty nameLabel : T) (i : Input T) (h : i.nasp = false ∨ i.internal = false) :
    (says empty nameLabel i).token = i.token ∧
      (∀ k v, (says empty nameLabel i).labels k = some v ↔
        (k = nameLabel ∧ i.service ≠ empty ∧ v = i.service) ∨ ((k ≠ nameLabel ∨ i.service = empty) ∧ i.labels k = some v)) := by
  have hc : (!i.nasp || !i.internal) = true := by rcases h with h | h <;> simp [h]
  unfold says
  rw [if_pos hc]
  refine ⟨?_, ?_⟩
  · dsimp only
    by_cases he : i.token = empty
    · simp [he]
    · simp [he]
  · intro k v
    dsimp only
    by_cases hs : i.service = empty
    · simp [hs]
    · rw [if_pos hs]
      unfold Labels.set
      by_cases hk : k = nameLabel
      · simp [hk, hs, eq_comm]
      · simp [hk]

/-- **C290 (fails)** With the mesh and its client, the default: token, service name and labels given are
not sent at all. -/
theorem C290_internal_false (empty nameLabel : T) (i : Input T) (h : i.nasp = true) (h' : i.internal = true) (t s : T) (l : Labels T) :
    says empty nameLabel { i with token := t, service := s, labels := l } = says empty nameLabel i ∧
      (says empty nameLabel i).token = i.caToken ∧ (says empty nameLabel i).labels nameLabel = some i.envService := by
  unfold says
  simp [h, h', Labels.set]

/-- **C290** The client leaves the other labels of the workload's environment as they are, and all of them
if the tunnel is not used through the mesh. -/
theorem C290_environment_partial (nameLabel : T) (address : Bool) (i : Input T) (k : T)
    (h : k ≠ nameLabel ∨ i.nasp = false ∨ (i.internal = false ∧ address = false)) : envAfter nameLabel address i k = i.envLabels k := by
  unfold envAfter Labels.set
  rcases h with h | h | ⟨h, h'⟩
  · split
    · exact if_neg h
    · rfl
  · simp [h]
  · simp [h, h']

/-- **C290 (fails)** With the mesh's client the label of the service name is written into the workload's
environment itself, and so into the metadata of handlers made afterwards, also over a label that was configured. -/
theorem C290_environment_false (nameLabel : T) (address : Bool) (i : Input T) (h : i.nasp = true) (h' : i.internal = true ∨ address = true) :
    envAfter nameLabel address i nameLabel = some i.envService := by
  unfold envAfter Labels.set
  rcases h' with h' | h' <;> simp [h, h']

/-! ### The hypotheses are met -/

example : Declares client "auth-token" := by
  refine ⟨⟨"auth-token", ""⟩, ?_, rfl⟩
  simp [client]

example : get bifrost (fun _ => none) 1 [("auth-token", "x"), ("auth-token", "y")] "auth-token" = some "y" := by decide

example : (says "" "name" ⟨false, true, "t", "svc", fun k => if k = "name" then some "x" else some "l", "ca", fun _ => none, "e"⟩).labels "name" = some "svc" := by
  decide

end Verif.Bifrost.Flags
