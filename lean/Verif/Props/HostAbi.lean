import Verif.Wasm.HostAbi
/-! # C272, C273, C274: the clock of a filter, the calls nobody answers, and its log -/
namespace Verif.Wasm.HostAbi

theorem elapsed_eq (t0 t1 : Nat) (p : Props) :
    elapsed t0 t1 p = some (((t1 % 1000000000 : Nat) : Int) - ((t0 % 1000000000 : Nat) : Int)) := rfl

/-! ### C272: the clock -/

/-- **C272** (partial: only inside one second of the wall clock). The time that passes between two readings of the clock is
the difference of the readings - exactly when both are made in the same second. -/
theorem C272_elapsed_partial (t0 t1 : Nat) (p : Props) :
    elapsed t0 t1 p = some ((t1 : Int) - (t0 : Int)) ↔ t0 / 1000000000 = t1 / 1000000000 := by
  rw [elapsed_eq, Option.some.injEq]
  omega

/-- **C272** (partial: see above). Inside one second the clock does not go backwards. -/
theorem C272_forward_partial (t0 t1 : Nat) (p : Props) (h : t0 ≤ t1) (hs : t0 / 1000000000 = t1 / 1000000000) :
    ∃ d, elapsed t0 t1 p = some d ∧ 0 ≤ d := by
  exact ⟨_, elapsed_eq .., by omega⟩

/-- **C272**. A reading is a number of nanoseconds below one second, so it always fits the answer's 32 bits. -/
theorem C272_fits (now : Nat) (p : Props) : ∃ n : Int, answer now p .getTime = .num n .ok ∧ 0 ≤ n ∧ n < 1000000000 :=
  ⟨_, rfl, by unfold nanosecond; omega, by unfold nanosecond; omega⟩

/-- **C272** is false: after every reading but that at a full second the clock goes backwards within the next second … -/
theorem C272_backwards_false (t0 : Nat) (p : Props) (h : t0 % 1000000000 ≠ 0) :
    ∃ t1, t0 < t1 ∧ t1 < t0 + 1000000000 ∧ ∃ d, elapsed t0 t1 p = some d ∧ d < 0 :=
  ⟨t0 + (1000000000 - t0 % 1000000000), by omega, by omega, _, elapsed_eq .., by omega⟩

/-- … and however long a filter waits, what it sees pass is less than a second: an hour is nothing at all. -/
theorem C272_short_false (t0 t1 : Nat) (p : Props) : (∀ d, elapsed t0 t1 p = some d → d < 1000000000) ∧
    elapsed t0 (t0 + 3600 * 1000000000) p = some 0 := by
  refine ⟨fun d h => ?_, ?_⟩
  · rw [elapsed_eq, Option.some.injEq] at h; omega
  · rw [elapsed_eq, Option.some.injEq]; omega

example : ∃ t0 t1, t0 < t1 ∧ t0 / 1000000000 = t1 / 1000000000 ∧ elapsed t0 t1 {} = some 250 :=
  ⟨1700000000000000100, 1700000000000000350, by decide, by decide, rfl⟩

/-! ### C273: the calls -/

/-- Calls that ask for nothing but what a filter that reads and changes requests, responses and data, keeps metrics, and
knows its context needs. Specification. -/
def Usual : Call → Prop
  | .getPluginConfig | .log _ | .getProperty _ | .setProperty _ _ => True
  | .getReqHeader | .getReqBody | .getRespHeader | .getRespBody | .sendHttpResp _ => True
  | .getDownStreamData | .getUpstreamData => True
  | .setEffectiveContextID _ | .setTickPeriod _ | .done | .wait | .getTime => True
  | .defineMetric | .incrementMetric _ | .recordMetric _ | .foreign _ => True
  | _ => False

/-- **C273** (partial: only these calls; see `C273_panic_false`). A usual call is answered, whatever the context has and has
not. -/
theorem C273_answered_partial (now : Nat) (p : Props) (c : Call) (h : Usual c) : answer now p c ≠ .panic := by
  cases c <;> first | exact h.elim | skip
  all_goals intro h; unfold answer at h
  all_goals (try simp only [dflt] at h)
  all_goals repeat' split at h
  all_goals cases h

/-- **C273**. What the context does not have is answered with nothing or "not found". -/
theorem C273_missing (now : Nat) (p : Props) :
    (p.reqHeaders = none → answer now p .getReqHeader = .data none) ∧
    (p.respHeaders = none → answer now p .getRespHeader = .data none ∧ ∀ s, answer now p (.sendHttpResp s) = .code .notFound) ∧
    (p.reqBody = none → answer now p .getReqBody = .data none) ∧
    (p.respBody = none → answer now p .getRespBody = .data none) ∧
    (p.downstream = none → answer now p .getDownStreamData = .data none) ∧
    (p.upstream = none → answer now p .getUpstreamData = .data none) ∧
    (∀ k, p.property k = none → answer now p (.getProperty k) = .text "" .notFound) ∧
    (∀ id, p.hasRoot = true → p.hasPlugin = true → id ≠ p.rootID → id ∉ p.contexts →
      answer now p (.setEffectiveContextID id) = .code .notFound) ∧
    (∀ id, (∀ n l, p.metrics = some (n, l) → id ∉ l) →
      answer now p (.recordMetric id) = .code .notFound ∧ answer now p (.incrementMetric id) = .code .notFound) := by
  refine ⟨?_, ?_, ?_, ?_, ?_, ?_, ?_, ?_, ?_⟩
  all_goals intros
  all_goals simp_all [answer]
  rename_i id h
  cases hm : p.metrics with
  | none => simp
  | some m => obtain ⟨n, l⟩ := m; simp [h n l hm]

/-- **C273**. Without the root context or the plugin in the context, switching contexts and setting the tick period are an internal failure; with both, the
period is accepted, as are the contexts that exist. -/
theorem C273_internal (now : Nat) (p : Props) (id ms : Int) :
    (p.hasRoot = false ∨ p.hasPlugin = false → answer now p (.setEffectiveContextID id) = .code .internalFailure ∧ answer now p (.setTickPeriod ms) = .code .internalFailure) ∧
    (p.hasRoot = true ∧ p.hasPlugin = true → answer now p (.setTickPeriod ms) = .code .ok ∧
      (id = p.rootID ∨ id ∈ p.contexts → answer now p (.setEffectiveContextID id) = .code .ok)) := by
  constructor
  · rintro (h | h) <;> simp [answer, h]
  · rintro ⟨h1, h2⟩
    refine ⟨by simp [answer, h1, h2], fun h => ?_⟩
    simp only [answer, h1, h2, Bool.not_true, Bool.or_self, Bool.false_eq_true, if_false]
    rw [if_pos h]

/-- **C273**. … and what it has is what the filter gets: the request's headers and body, not the response's, and so on. -/
theorem C273_present (now : Nat) (p : Props) (x : Nat) :
    (p.reqHeaders = some x → answer now p .getReqHeader = .data (some x)) ∧
    (p.respHeaders = some x → answer now p .getRespHeader = .data (some x) ∧ ∀ s, answer now p (.sendHttpResp s) = .code .ok) ∧
    (p.reqBody = some x → answer now p .getReqBody = .data (some x)) ∧
    (p.respBody = some x → answer now p .getRespBody = .data (some x)) ∧
    (p.downstream = some x → answer now p .getDownStreamData = .data (some x)) ∧
    (p.upstream = some x → answer now p .getUpstreamData = .data (some x)) ∧
    (p.pluginConfig = some x → answer now p .getPluginConfig = .data (some x)) ∧
    (∀ k v, p.property k = some v → answer now p (.getProperty k) = .text v .ok) ∧
    (∀ n l, p.metrics = some (n, l) →
      (0 ≤ n → answer now p .defineMetric = .num n .ok) ∧ (n < 0 → answer now p .defineMetric = .num n .internalFailure) ∧
      ∀ id ∈ l, answer now p (.recordMetric id) = .code .ok ∧ answer now p (.incrementMetric id) = .code .ok) := by
  refine ⟨?_, ?_, ?_, ?_, ?_, ?_, ?_, ?_, ?_⟩
  all_goals intros
  all_goals simp_all [answer]

/-- **C273** is false for the rest: the call for the trailers of the request or the response, the current value of a metric, a
call to another service, the resumption of a request the filter has paused, a gRPC call, … is not answered with
"unimplemented", it panics - whatever the context is. -/
theorem C273_panic_false (now : Nat) (p : Props) (c : Call) : answer now p c = .panic ↔ c ∈ [.getRootContextID, .getVmConfig,
    .resumeDownstream, .resumeUpstream, .getReqTrailer, .getRespTrailer, .getCallRespHeaders, .getCallRespBody,
    .getCallRespTrailer, .httpCall, .resumeReq, .resumeResp, .openGrpc, .sendGrpc, .cancelGrpc, .closeGrpc, .grpcCall,
    .getGrpcMeta, .getGrpcBuffer, .getGrpcTrailer, .getFuncCallData, .getCustomBuffer, .getCustomHeader] ∨
    (∃ id, c = .getMetric id) ∨ (∃ id, c = .removeMetric id) := by
  constructor
  · intro h
    by_cases hu : Usual c
    · exact absurd h (C273_answered_partial now p c hu)
    · cases c <;> first | exact absurd trivial hu | simp
  · rintro (h | ⟨id, rfl⟩ | ⟨id, rfl⟩)
    · simp only [List.mem_cons, List.not_mem_nil, or_false] at h
      rcases h with rfl | rfl | rfl | rfl | rfl | rfl | rfl | rfl | rfl | rfl | rfl | rfl | rfl | rfl | rfl | rfl | rfl | rfl |
        rfl | rfl | rfl | rfl | rfl <;> rfl
    · rfl
    · rfl

example : Usual .getReqHeader ∧ answer 0 { reqHeaders := some 7 } .getReqHeader = .data (some 7) ∧
    answer 0 {} .getReqTrailer = .panic := ⟨trivial, rfl, rfl⟩

/-! ### C274: the log -/

/-- The levels of the proxy-wasm ABI. Specification. -/
inductive Level where
  | trace | debug | info | warn | error | critical
deriving DecidableEq, Repr

/-- their numbers; specification -/
def Level.num : Level → Int
  | .trace => 0 | .debug => 1 | .info => 2 | .warn => 3 | .error => 4 | .critical => 5

/-- **C274**. What a filter logs at the level info or above is always shown; debug messages from verbosity 1 on, trace
messages from 2 on. -/
theorem C274_levels (l : Level) : verbosity l.num = match l with
    | .trace => 2 | .debug => 1 | _ => 0 := by
  cases l <;> rfl

/-- **C274**. A message that is shown is still shown when it is more severe, and no number is more than always shown. -/
theorem C274_monotone {a b : Int} (h : a ≤ b) : 0 ≤ verbosity b ∧ verbosity b ≤ verbosity a := by
  unfold verbosity
  split <;> split <;> omega

/-- **C274**. Logging always succeeds, whatever the level. -/
theorem C274_ok (now : Nat) (p : Props) (l : Int) : answer now p (.log l) = .code .ok := rfl

end Verif.Wasm.HostAbi
