import Verif.Wasm.Stream
/-
C44: filter chains run in order and a pause stops the chain.  Specification on the observed
events only.
-/
namespace Verif.Wasm.Stream

open Verif.Wasm

/-- The answer lets the next filter run. -/
def Goes (stops : Bool) (a : FAns) : Prop := a = .cont ∨ (stops = false ∧ a = .pause)

/-- The filters `fs` were called with `cb` in order, each at most once, up to the first answer
that does not go on, and the result is that answer. -/
structure InOrder (stops : Bool) (cb : Cb) (fs : List String) (cs : List (String × Cb × FAns))
    (res : Res) : Prop where
  pre : cs.map (·.1) <+: fs
  cbs : ∀ x ∈ cs, x.2.1 = cb
  before : ∀ x ∈ cs.dropLast, Goes stops x.2.2
  pass : res = .pass ↔ cs.map (·.1) = fs ∧ ∀ x ∈ cs, Goes stops x.2.2
  paused : res = .paused ↔ stops = true ∧ ∃ x, cs.getLast? = some x ∧ x.2.2 = .pause
  error : res = .error ↔ ∃ x, cs.getLast? = some x ∧ x.2.2 = .err

theorem calls_append : ∀ (a b : List Ev), calls (a ++ b) = calls a ++ calls b
  | [], b => rfl
  | .call f cb x :: a, b => by simp [calls, calls_append a b]
  | .lock f :: a, b => by simp [calls, calls_append a b]
  | .unlock f :: a, b => by simp [calls, calls_append a b]
  | .release f :: a, b => by simp [calls, calls_append a b]

theorem calls_visit (f cb a) : calls (visit f cb a) = [(f, cb, a)] := rfl

theorem InOrder.cons {stops cb fs cs res f a} (h : InOrder stops cb fs cs res) (ha : Goes stops a) :
    InOrder stops cb (f :: fs) ((f, cb, a) :: cs) res := by
  refine ⟨?_, ?_, ?_, ?_, ?_, ?_⟩
  · simpa using h.pre
  · simpa using h.cbs
  · cases cs with
    | nil => intro x hx; cases hx
    | cons y ys =>
      intro x hx
      simp only [List.dropLast_cons_of_ne_nil (List.cons_ne_nil y ys), List.mem_cons] at hx
      rcases hx with rfl | hx
      · exact ha
      · exact h.before x hx
  · rw [h.pass]
    simp [ha]
  · rw [h.paused]
    cases cs with
    | nil =>
      simp only [List.getLast?_nil, List.getLast?_singleton]
      constructor
      · rintro ⟨_, _, h, _⟩; cases h
      · rintro ⟨hs, x, hx, hp⟩
        injection hx with hx
        subst hx
        simp only at hp
        rcases ha with ha | ⟨ha, _⟩
        · rw [ha] at hp; cases hp
        · rw [ha] at hs; cases hs
    | cons y ys => simp [List.getLast?_cons_cons]
  · rw [h.error]
    cases cs with
    | nil =>
      simp only [List.getLast?_nil, List.getLast?_singleton]
      constructor
      · rintro ⟨_, h, _⟩; cases h
      · rintro ⟨x, hx, hp⟩
        injection hx with hx
        subst hx
        simp only at hp
        rcases ha with ha | ⟨_, ha⟩ <;> · rw [ha] at hp; cases hp
    | cons y ys => simp [List.getLast?_cons_cons]

theorem chain_inOrder (stops cb ask) : ∀ (fs : List String) (c : Nat),
    InOrder stops cb fs (calls (chain stops cb ask fs c).1) (chain stops cb ask fs c).2.1
  | [], c => by
    constructor <;> simp [chain, calls]
  | f :: fs, c => by
    have ih := chain_inOrder stops cb ask fs (c + 1)
    simp only [chain]
    cases ha : ask c with
    | err =>
      simp only [calls_visit]
      constructor <;> simp [Goes]
    | cont =>
      simp only [calls_append, calls_visit, List.singleton_append]
      exact ih.cons (Or.inl rfl)
    | pause =>
      simp only
      split
      · rename_i hs
        subst hs
        simp only [calls_visit]
        constructor <;> simp [Goes]
      · rename_i hs
        simp only [calls_append, calls_visit, List.singleton_append]
        refine ih.cons (Or.inr ⟨?_, rfl⟩)
        cases stops
        · rfl
        · exact absurd rfl hs

/-- **C44** `NewStream` uses exactly the named plugins (all, if none are named), in the order of
the configuration. -/
theorem C44_selection (names plugins : List String) :
    (select names plugins).Sublist plugins ∧
    (∀ p, (select names plugins).count p =
      if names = [] ∨ p ∈ names then plugins.count p else 0) := by
  refine ⟨List.filter_sublist, ?_⟩
  intro p
  simp only [select]
  cases names with
  | nil => simp [List.filter_eq_self.mpr]
  | cons n ns =>
    by_cases h : p ∈ n :: ns
    · rw [if_pos (Or.inr h)]
      exact List.count_filter (by simp at h ⊢; exact h)
    · rw [if_neg (by simp only [reduceCtorEq, false_or]; exact h)]
      apply List.count_eq_zero_of_not_mem
      intro hm
      have := (List.mem_filter.mp hm).2
      simp at this h
      rcases this with rfl | this
      · exact h.1 rfl
      · exact h.2 this

/-- **C44** Data callbacks run the filters in order, once each, up to the first pause or error,
and data passes only if no filter paused: for every filter list, every behaviour and every
history. -/
theorem C44_data_in_order (fs : List String) (ask : Nat → FAns) (n : Nat) (eos : Bool) (c : Nat) :
    (∃ es res c', handleDownstreamData fs ask n eos c = (es, res, c') ∧
      InOrder true (.downstreamData n eos) fs (calls es) res) ∧
    (∃ es res c', handleUpstreamData fs ask n eos c = (es, res, c') ∧
      InOrder true (.upstreamData n eos) fs (calls es) res) :=
  ⟨⟨_, _, _, rfl, chain_inOrder true _ ask fs c⟩, ⟨_, _, _, rfl, chain_inOrder true _ ask fs c⟩⟩

/-- **C169** The new-connection callback runs all filters in order, up to the first error.
(Partial: a pause does not stop the chain, see `C169_new_connection_pause_false`.) -/
theorem C169_new_connection_partial (fs : List String) (ask : Nat → FAns) (c : Nat) :
    ∃ es res c', handleTCPNewConnection fs ask c = (es, res, c') ∧
      InOrder false .newConnection fs (calls es) res :=
  ⟨_, _, _, rfl, chain_inOrder false _ ask fs c⟩

/-! ### Requests and responses -/

/-- The calls of a body phase: for each chunk of the body each filter in order is told its size
and whether the body ends with it. -/
def bodyCalls (cb : Nat → Bool → Cb) (fs : List String) : List Bytes → List (String × Cb)
  | [] => []
  | [last] => fs.map fun f => (f, cb last.length true)
  | ch :: chs => (fs.map fun f => (f, cb ch.length false)) ++ bodyCalls cb fs chs

/-- The filter and callback of each call. -/
def called (es : List Ev) : List (String × Cb) := (calls es).map fun x => (x.1, x.2.1)

/-- The bytes of a body up to its end of file; `none` if there is none or an error comes first. -/
def content : List NetEv → Option Bytes
  | [] => none
  | ev :: rest =>
    match ev.err with
    | some .eof => some ev.bytes
    | none => (content rest).map (ev.bytes ++ ·)
    | some _ => none

theorem content_netRead {k : Nat} {net net' : List NetEv} {ev : NetEv}
    (h : netRead k net = some (ev, net')) :
    content net = match ev.err with
      | some .eof => some ev.bytes
      | none => (content net').map (ev.bytes ++ ·)
      | some _ => none := by
  cases net with
  | nil => cases h
  | cons e rest =>
    simp only [netRead] at h
    split at h
    · injection h with h; simp only [Prod.mk.injEq] at h
      obtain ⟨rfl, rfl⟩ := h
      rfl
    · injection h with h; simp only [Prod.mk.injEq] at h
      obtain ⟨rfl, rfl⟩ := h
      have ht : ∀ x : Option Bytes, (x.map (e.bytes ++ ·)) =
          (x.map (e.bytes.drop k ++ ·)).map (e.bytes.take k ++ ·) := by
        intro x; cases x
        · rfl
        · simp only [Option.map_some, ← List.append_assoc, List.take_append_drop]
      simp only [content]
      cases he : e.err with
      | none => simp only; exact ht _
      | some x => cases x <;> simp

theorem called_append (a b : List Ev) : called (a ++ b) = called a ++ called b := by
  simp [called, calls_append]

/-- All calls made, when nothing stopped the chain. -/
theorem InOrder.called {stops cb fs es} (h : InOrder stops cb fs (calls es) .pass) :
    called es = fs.map fun f => (f, cb) := by
  have h1 := (h.pass.mp rfl).1
  have h2 := h.cbs
  rw [← h1]
  simp only [Stream.called, List.map_map]
  apply List.map_congr_left
  intro x hx
  simp [h2 x hx]

theorem chain_not_paused (cb ask) (fs : List String) (c : Nat) (h : (chain false cb ask fs c).2.1 ≠ .error) :
    (chain false cb ask fs c).2.1 = .pass := by
  have ho := chain_inOrder false cb ask fs c
  cases hr : (chain false cb ask fs c).2.1 with
  | pass => rfl
  | paused => rw [hr] at ho; have := ho.paused.mp rfl; simp at this
  | error => exact absurd hr h

theorem bodyLoop_spec (cb ask) (fs : List String) (net : List NetEv) (c : Nat) (body : Bytes)
    {es res c' b} (h : bodyLoop cb ask fs net c body = some (es, res, c', b)) (hres : res = .pass) :
    ∃ chunks, chunks ≠ [] ∧ content net = some chunks.flatten ∧ b = body ++ chunks.flatten ∧
      (∀ ch ∈ chunks, ch.length ≤ 4096) ∧ called es = bodyCalls cb fs chunks := by
  rw [bodyLoop] at h
  split at h
  · cases h
  · rename_i ev net' hn
    have hlen : ev.bytes.length ≤ 4096 := by
      cases net with
      | nil => cases hn
      | cons e rest =>
        simp only [netRead] at hn
        split at hn
        · injection hn with hn; simp only [Prod.mk.injEq] at hn; rw [← hn.1]; assumption
        · injection hn with hn; simp only [Prod.mk.injEq] at hn; rw [← hn.1]; simp; omega
    have hcont := content_netRead hn
    split at h
    · injection h with h; simp only [Prod.mk.injEq] at h; rw [← h.2.1] at hres; cases hres
    · rename_i herr
      have herr' : ev.err = none ∨ ev.err = some .eof := by
        by_cases h1 : ev.err = none
        · exact Or.inl h1
        · exact Or.inr (Decidable.not_not.mp fun h2 => herr ⟨h1, h2⟩)
      simp only at h
      split at h
      · split at h
        · injection h with h; simp only [Prod.mk.injEq] at h; rw [← h.2.1] at hres; cases hres
        · rename_i hne
          have hp := chain_not_paused _ _ _ _ hne
          have hcall := (chain_inOrder false (cb ev.bytes.length (ev.err = some .eof)) ask fs c)
          rw [hp] at hcall
          split at h
          · rename_i heos
            simp only [decide_eq_true_eq] at heos
            injection h with h; simp only [Prod.mk.injEq] at h
            obtain ⟨rfl, _, _, rfl⟩ := h
            refine ⟨[ev.bytes], by simp, by rw [hcont, heos]; simp, by simp, by simpa using hlen, ?_⟩
            rw [hcall.called]
            simp only [heos, bodyCalls, decide_true]
          · rename_i heos
            simp only [decide_eq_true_eq] at heos
            have he : ev.err = none := by
              rcases herr' with h | h
              · exact h
              · exact absurd h heos
            cases hb : bodyLoop cb ask fs net' (chain false (cb ev.bytes.length (ev.err = some .eof)) ask fs c).2.2
                (body ++ ev.bytes) with
            | none => rw [hb] at h; cases h
            | some r =>
              obtain ⟨es2, res2, c2, b2⟩ := r
              rw [hb] at h
              simp only at h
              injection h with h; simp only [Prod.mk.injEq] at h
              obtain ⟨rfl, rfl, rfl, rfl⟩ := h
              have : bodySize net' < bodySize net := bodySize_netRead (by omega) hn
              obtain ⟨chs, k0, k1, k2, k3, k4⟩ := bodyLoop_spec cb ask fs net' _ _ hb hres
              refine ⟨ev.bytes :: chs, by simp, ?_, ?_, ?_, ?_⟩
              · rw [hcont, he, k1]; simp
              · rw [k2]; simp
              · intro ch hch
                rcases List.mem_cons.mp hch with rfl | hch
                · exact hlen
                · exact k3 ch hch
              · rw [called_append, hcall.called, k4]
                cases chs with
                | nil => exact absurd rfl k0
                | cons d ds => simp only [bodyCalls, he, reduceCtorEq, decide_false]
      · rename_i hz
        have he : ev.err = none := by
          rcases herr' with h | h
          · exact h
          · exact absurd (Or.inr (by simp [h])) hz
        have hb0 : ev.bytes = [] := by
          apply List.eq_nil_of_length_eq_zero
          have : ¬ 0 < ev.bytes.length := fun h => hz (Or.inl h)
          omega
        have : bodySize net' < bodySize net := bodySize_netRead (by omega) hn
        obtain ⟨chs, k0, k1, k2, k3, k4⟩ := bodyLoop_spec cb ask fs net' _ _ h hres
        refine ⟨chs, k0, ?_, k2, k3, k4⟩
        rw [hcont, he, k1, hb0]; simp
termination_by bodySize net

/-- **C44** Requests: when `HandleHTTPRequest` succeeds and no filter paused at the headers,
every filter was called for the headers and then, chunk by chunk, for the whole body, in order;
and the body handed on is the original body. -/
theorem C44_request {fs : List String} {ask : Nat → FAns} {hdr : Nat} {net : List NetEv} {c : Nat}
    {es : List Ev} {c' : Nat} {b : Body}
    (h : handleHTTPRequest fs ask hdr (some net) c = some (es, .pass, c', b))
    (hp : (chain true (.reqHeaders hdr) ask fs c).2.1 ≠ .paused) :
    ∃ chunks, content net = some chunks.flatten ∧ b = .buffered chunks.flatten ∧
      (∀ ch ∈ chunks, ch.length ≤ 4096) ∧
      called es = (fs.map fun f => (f, Cb.reqHeaders hdr)) ++ bodyCalls .reqBody fs chunks := by
  have ho := chain_inOrder true (.reqHeaders hdr) ask fs c
  simp only [handleHTTPRequest] at h
  split at h
  · cases h
  · rename_i h1; exact absurd h1 hp
  · rename_i h1
    rw [h1] at ho
    cases hb : bodyLoop .reqBody ask fs net (chain true (.reqHeaders hdr) ask fs c).2.2 [] with
    | none => rw [hb] at h; cases h
    | some r =>
      obtain ⟨es2, res2, c2, b2⟩ := r
      rw [hb] at h
      simp only at h
      injection h with h; simp only [Prod.mk.injEq] at h
      obtain ⟨rfl, rfl, rfl, rfl⟩ := h
      obtain ⟨chs, _, k1, k2, k3, k4⟩ := bodyLoop_spec _ _ _ _ _ _ hb rfl
      refine ⟨chs, k1, by rw [k2]; simp, k3, ?_⟩
      rw [called_append, ho.called, k4]

/-- **C44** A pause at the request headers stops the chain: no later filter and no body callback
is called, and the body is left unread. -/
theorem C44_request_paused {fs : List String} {ask : Nat → FAns} {hdr : Nat} {body : Option (List NetEv)}
    {c : Nat} (hp : (chain true (.reqHeaders hdr) ask fs c).2.1 = .paused) :
    ∃ es c', handleHTTPRequest fs ask hdr body c = some (es, .pass, c',
        match body with | none => .none | some net => .original net) ∧
      InOrder true (.reqHeaders hdr) fs (calls es) .paused := by
  have ho := chain_inOrder true (.reqHeaders hdr) ask fs c
  rw [hp] at ho
  refine ⟨_, (chain true (.reqHeaders hdr) ask fs c).2.2, ?_, ho⟩
  cases body <;> simp only [handleHTTPRequest, hp]

/-- **C44** Responses: when `HandleHTTPResponse` succeeds, every filter was called in order for
the headers and for each chunk of the body, and the body handed on is the original one. -/
theorem C44_response {fs : List String} {ask : Nat → FAns} {hdr : Nat} {net : List NetEv} {c : Nat}
    {es : List Ev} {c' : Nat} {b : Body}
    (h : handleHTTPResponse fs ask hdr (some net) c = some (es, .pass, c', b)) :
    ∃ chunks, content net = some chunks.flatten ∧ b = .buffered chunks.flatten ∧
      (∀ ch ∈ chunks, ch.length ≤ 4096) ∧
      called es = (fs.map fun f => (f, Cb.respHeaders hdr)) ++ bodyCalls .respBody fs chunks := by
  have ho := chain_inOrder false (.respHeaders hdr) ask fs c
  simp only [handleHTTPResponse] at h
  split at h
  · cases h
  · rename_i h1
    rw [chain_not_paused _ _ _ _ h1] at ho
    cases hb : bodyLoop .respBody ask fs net (chain false (.respHeaders hdr) ask fs c).2.2 [] with
    | none => rw [hb] at h; cases h
    | some r =>
      obtain ⟨es2, res2, c2, b2⟩ := r
      rw [hb] at h
      simp only at h
      injection h with h; simp only [Prod.mk.injEq] at h
      obtain ⟨rfl, rfl, rfl, rfl⟩ := h
      obtain ⟨chs, _, k1, k2, k3, k4⟩ := bodyLoop_spec _ _ _ _ _ _ hb rfl
      refine ⟨chs, k1, by rw [k2]; simp, k3, ?_⟩
      rw [called_append, ho.called, k4]

/-- An error of a filter is never swallowed by the body loop. -/
theorem bodyLoop_error (cb ask) (fs : List String) (net : List NetEv) (c : Nat) (body : Bytes)
    {es res c' b} (h : bodyLoop cb ask fs net c body = some (es, res, c', b)) :
    (res = .pass ∨ res = .error) ∧ (res = .pass → ∀ x ∈ calls es, x.2.2 ≠ .err) := by
  rw [bodyLoop] at h
  split at h
  · cases h
  · rename_i ev net' hn
    split at h
    · injection h with h; simp only [Prod.mk.injEq] at h
      obtain ⟨rfl, rfl, _⟩ := h
      exact ⟨Or.inr rfl, by simp⟩
    · simp only at h
      split at h
      · split at h
        · injection h with h; simp only [Prod.mk.injEq] at h
          obtain ⟨rfl, rfl, _⟩ := h
          exact ⟨Or.inr rfl, by simp⟩
        · rename_i hne
          have hp := chain_not_paused _ _ _ _ hne
          have hcall := (chain_inOrder false (cb ev.bytes.length (ev.err = some .eof)) ask fs c)
          rw [hp] at hcall
          have hg := (hcall.pass.mp rfl).2
          have hg' : ∀ x ∈ calls (chain false (cb ev.bytes.length (ev.err = some .eof)) ask fs c).1, x.2.2 ≠ .err := by
            intro x hx hc
            rcases hg x hx with h | ⟨_, h⟩ <;> · rw [h] at hc; cases hc
          split at h
          · injection h with h; simp only [Prod.mk.injEq] at h
            obtain ⟨rfl, rfl, _⟩ := h
            exact ⟨Or.inl rfl, fun _ => hg'⟩
          · cases hb : bodyLoop cb ask fs net' (chain false (cb ev.bytes.length (ev.err = some .eof)) ask fs c).2.2
                (body ++ ev.bytes) with
            | none => rw [hb] at h; cases h
            | some r =>
              obtain ⟨es2, res2, c2, b2⟩ := r
              rw [hb] at h
              simp only at h
              injection h with h; simp only [Prod.mk.injEq] at h
              obtain ⟨rfl, rfl, rfl, rfl⟩ := h
              have : bodySize net' < bodySize net := bodySize_netRead (by omega) hn
              obtain ⟨k1, k2⟩ := bodyLoop_error cb ask fs net' _ _ hb
              refine ⟨k1, fun hr x hx => ?_⟩
              rw [calls_append, List.mem_append] at hx
              rcases hx with hx | hx
              · exact hg' x hx
              · exact k2 hr x hx
      · have : bodySize net' < bodySize net := bodySize_netRead (by omega) hn
        exact bodyLoop_error cb ask fs net' _ _ h
termination_by bodySize net

/-- **C44** A filter error is never swallowed: if a request or response is reported as handled,
no filter answered with an error. -/
theorem C44_errors_reported {fs : List String} {ask : Nat → FAns} {hdr : Nat} {body : Option (List NetEv)}
    {c : Nat} {es : List Ev} {c' : Nat} {b : Body}
    (h : handleHTTPRequest fs ask hdr body c = some (es, .pass, c', b) ∨
         handleHTTPResponse fs ask hdr body c = some (es, .pass, c', b)) :
    ∀ x ∈ calls es, x.2.2 ≠ .err := by
  have hh : ∀ {stops cb res} {es : List Ev}, InOrder stops cb fs (calls es) res → res ≠ .error →
      ∀ x ∈ calls es, x.2.2 ≠ .err := by
    intro stops cb res es ho hr x hx hc
    rcases List.eq_nil_or_concat (calls es) with he | ⟨ini, l, he⟩
    · rw [he] at hx; cases hx
    · rw [he, List.concat_eq_append] at hx
      rcases List.mem_append.mp hx with hx | hx
      · have : x ∈ (calls es).dropLast := by rw [he]; simpa using hx
        rcases ho.before x this with h | ⟨_, h⟩ <;> · rw [h] at hc; cases hc
      · simp only [List.mem_singleton] at hx
        subst hx
        exact hr (ho.error.mpr ⟨x, by rw [he]; simp, hc⟩)
  rcases h with h | h
  · have ho := chain_inOrder true (.reqHeaders hdr) ask fs c
    simp only [handleHTTPRequest] at h
    split at h
    · cases h
    · rename_i h1
      injection h with h; simp only [Prod.mk.injEq] at h
      obtain ⟨rfl, _⟩ := h
      exact hh ho (by rw [h1]; simp)
    · rename_i h1
      have h2 := hh ho (by rw [h1]; simp)
      cases body with
      | none =>
        injection h with h; simp only [Prod.mk.injEq] at h
        obtain ⟨rfl, _⟩ := h
        exact h2
      | some net =>
        simp only at h
        cases hb : bodyLoop .reqBody ask fs net (chain true (.reqHeaders hdr) ask fs c).2.2 [] with
        | none => rw [hb] at h; cases h
        | some r =>
          obtain ⟨es2, res2, c2, b2⟩ := r
          rw [hb] at h
          simp only at h
          injection h with h; simp only [Prod.mk.injEq] at h
          obtain ⟨rfl, rfl, rfl, rfl⟩ := h
          intro x hx
          rw [calls_append, List.mem_append] at hx
          rcases hx with hx | hx
          · exact h2 x hx
          · exact (bodyLoop_error _ _ _ _ _ _ hb).2 rfl x hx
  · have ho := chain_inOrder false (.respHeaders hdr) ask fs c
    simp only [handleHTTPResponse] at h
    split at h
    · cases h
    · rename_i h1
      have h2 := hh ho h1
      cases body with
      | none =>
        injection h with h; simp only [Prod.mk.injEq] at h
        obtain ⟨rfl, _⟩ := h
        exact h2
      | some net =>
        simp only at h
        cases hb : bodyLoop .respBody ask fs net (chain false (.respHeaders hdr) ask fs c).2.2 [] with
        | none => rw [hb] at h; cases h
        | some r =>
          obtain ⟨es2, res2, c2, b2⟩ := r
          rw [hb] at h
          simp only at h
          injection h with h; simp only [Prod.mk.injEq] at h
          obtain ⟨rfl, rfl, rfl, rfl⟩ := h
          intro x hx
          rw [calls_append, List.mem_append] at hx
          rcases hx with hx | hx
          · exact h2 x hx
          · exact (bodyLoop_error _ _ _ _ _ _ hb).2 rfl x hx

/-! ### Locking -/

/-- Runs the lock discipline: `held` is the filter whose instance is locked.  A lock is taken
only when none is held, calls are made only with the filter's own lock held. -/
def discipline : Option String → List Ev → Option (Option String)
  | held, [] => some held
  | none, .lock f :: es => discipline (some f) es
  | some f, .call g _ _ :: es => if f = g then discipline (some f) es else none
  | some f, .unlock g :: es => if f = g then discipline none es else none
  | none, .release _ :: es => discipline none es
  | _, _ => none

/-- Every call holds the lock of its filter; at the end nothing is locked. -/
def Locked (es : List Ev) : Prop := discipline none es = some none

theorem discipline_append : ∀ (a : List Ev) (h : Option String) (b : List Ev),
    discipline h (a ++ b) = (discipline h a).bind (discipline · b) := by
  intro a
  induction a with
  | nil => intro h b; cases h <;> simp [discipline]
  | cons e a ih =>
    intro h b
    cases h <;> cases e <;> simp [discipline, ih]
    all_goals (split <;> simp)

theorem Locked.append {a b : List Ev} (ha : Locked a) (hb : Locked b) : Locked (a ++ b) := by
  unfold Locked at *
  rw [discipline_append, ha]; exact hb

theorem locked_visit (f cb a) : Locked (visit f cb a) := by simp [Locked, visit, discipline]

theorem locked_chain (stops cb ask) : ∀ (fs : List String) (c : Nat), Locked (chain stops cb ask fs c).1
  | [], c => rfl
  | f :: fs, c => by
    simp only [chain]
    split
    · exact locked_visit _ _ _
    · split
      · exact locked_visit _ _ _
      · exact (locked_visit _ _ _).append (locked_chain stops cb ask fs (c + 1))
    · exact (locked_visit _ _ _).append (locked_chain stops cb ask fs (c + 1))

theorem callSeq_discipline (f ask) : ∀ (cbs : List Cb) (c : Nat) (rest : List Ev),
    discipline (some f) ((callSeq f ask cbs c).1 ++ rest) = discipline (some f) rest
  | [], c, rest => by simp [callSeq]
  | cb :: cbs, c, rest => by
    simp only [callSeq]
    split
    · simp [discipline]
    · simp [discipline, callSeq_discipline f ask cbs (c + 1) rest]

theorem locked_close (ask) : ∀ (fs : List String) (c : Nat), Locked (closeStream ask fs c).1
  | [], c => rfl
  | f :: fs, c => by
    have h : ∀ s : List Ev, Locked s →
        Locked (Ev.lock f :: (callSeq f ask [.onDone, .done, .onLog, .onDelete] c).1 ++ [.unlock f, .release f] ++ s) := by
      intro s hs
      unfold Locked at *
      simp only [List.cons_append, List.append_assoc, discipline, callSeq_discipline]
      simpa [discipline] using hs
    simp only [closeStream]
    split
    · exact h _ (locked_close ask fs _)
    · have := h [] rfl
      simpa using this

theorem locked_tcpClose (ask) : ∀ (fs : List String) (c : Nat), Locked (handleTCPClose ask fs c).1
  | [], c => rfl
  | f :: fs, c => by
    have h : ∀ s : List Ev, Locked s →
        Locked (Ev.lock f :: (callSeq f ask [.upstreamClose, .downstreamClose] c).1 ++ [.unlock f] ++ s) := by
      intro s hs
      unfold Locked at *
      simp only [List.cons_append, List.append_assoc, discipline, callSeq_discipline]
      simpa [discipline] using hs
    simp only [handleTCPClose]
    split
    · exact h _ (locked_tcpClose ask fs _)
    · have := h [] rfl
      simpa using this

theorem locked_bodyLoop (cb ask) (fs : List String) (net : List NetEv) (c : Nat) (body : Bytes)
    {es res c' b} (h : bodyLoop cb ask fs net c body = some (es, res, c', b)) : Locked es := by
  rw [bodyLoop] at h
  split at h
  · cases h
  · rename_i ev net' hn
    have : bodySize net' < bodySize net := bodySize_netRead (by omega) hn
    split at h
    · injection h with h; simp only [Prod.mk.injEq] at h; rw [← h.1]; rfl
    · simp only at h
      split at h
      · have hc := locked_chain false (cb ev.bytes.length (ev.err = some .eof)) ask fs c
        split at h
        · injection h with h; simp only [Prod.mk.injEq] at h; rw [← h.1]; exact hc
        · split at h
          · injection h with h; simp only [Prod.mk.injEq] at h; rw [← h.1]; exact hc
          · cases hb : bodyLoop cb ask fs net' (chain false (cb ev.bytes.length (ev.err = some .eof)) ask fs c).2.2
                (body ++ ev.bytes) with
            | none => rw [hb] at h; cases h
            | some r =>
              obtain ⟨es2, res2, c2, b2⟩ := r
              rw [hb] at h
              simp only at h
              injection h with h; simp only [Prod.mk.injEq] at h
              rw [← h.1]
              exact hc.append (locked_bodyLoop cb ask fs net' _ _ hb)
      · exact locked_bodyLoop cb ask fs net' _ _ h
termination_by bodySize net

/-- the calls among the events, with their answers -/
def callsOf (es : List Ev) : List (String × Cb × FAns) :=
  es.filterMap fun | .call f cb a => some (f, cb, a) | _ => none

/-- **C44** When a connection ends, the filters are told in order, each the end of both sides; the first error ends this, and is returned. -/
theorem C44_tcp_close (ask : Nat → FAns) : ∀ (fs : List String) (c : Nat),
    ((handleTCPClose ask fs c).2.1 = .pass ∧ (∀ x ∈ callsOf (handleTCPClose ask fs c).1, x.2.2 ≠ .err) ∧
      (callsOf (handleTCPClose ask fs c).1).map (fun x => (x.1, x.2.1)) = fs.flatMap fun f => [(f, .upstreamClose), (f, .downstreamClose)]) ∨
    ((handleTCPClose ask fs c).2.1 = .error ∧ ∃ l f cb, callsOf (handleTCPClose ask fs c).1 = l ++ [(f, cb, .err)] ∧ (∀ x ∈ l, x.2.2 ≠ .err) ∧
      (l.map (fun x => (x.1, x.2.1)) ++ [(f, cb)]) <+: fs.flatMap fun f => [(f, .upstreamClose), (f, .downstreamClose)])
  | [], c => by simp [handleTCPClose, callsOf]
  | f :: fs, c => by
    have ih := C44_tcp_close ask fs (c + 2)
    cases h1 : ask c with
    | err => right; simp [handleTCPClose, callSeq, h1, callsOf]; exact ⟨[], f, .upstreamClose, by simp⟩
    | _ =>
      cases h2 : ask (c + 1) with
      | err =>
        right
        refine ⟨by simp [handleTCPClose, callSeq, h1, h2], [(f, .upstreamClose, ask c)], f, .downstreamClose, ?_⟩
        simp [handleTCPClose, callSeq, h1, h2, callsOf]
      | _ =>
        have e1 : callsOf (handleTCPClose ask (f :: fs) c).1 =
            (f, .upstreamClose, ask c) :: (f, .downstreamClose, ask (c + 1)) :: callsOf (handleTCPClose ask fs (c + 2)).1 := by
          simp [handleTCPClose, callSeq, h1, h2, callsOf]
        have e2 : (handleTCPClose ask (f :: fs) c).2 = (handleTCPClose ask fs (c + 2)).2 := by
          simp [handleTCPClose, callSeq, h1, h2]
        rw [e1, e2]
        rcases ih with ⟨i1, i2, i3⟩ | ⟨i1, l, f', cb, i2, i3, i4⟩
        · left
          refine ⟨i1, ?_, by simp [i3]⟩
          intro x hx
          simp only [List.mem_cons] at hx
          rcases hx with rfl | rfl | hx
          · simp [h1]
          · simp [h2]
          · exact i2 x hx
        · right
          refine ⟨i1, (f, .upstreamClose, ask c) :: (f, .downstreamClose, ask (c + 1)) :: l, f', cb, by simp [i2], ?_, ?_⟩
          · intro x hx
            simp only [List.mem_cons] at hx
            rcases hx with rfl | rfl | hx
            · simp [h1]
            · simp [h2]
            · exact i3 x hx
          · simpa using i4

/-- **C44** Whatever the filters answer, every handler calls a filter only with that filter's
instance locked, never holds two locks, and returns with no lock held, also on errors. -/
theorem C44_locks_released (fs : List String) (ask : Nat → FAns) (c : Nat) :
    (∀ n eos, Locked (handleDownstreamData fs ask n eos c).1 ∧ Locked (handleUpstreamData fs ask n eos c).1) ∧
    Locked (handleTCPNewConnection fs ask c).1 ∧ Locked (handleTCPClose ask fs c).1 ∧
    Locked (closeStream ask fs c).1 ∧
    (∀ hdr body r, (handleHTTPRequest fs ask hdr body c = some r ∨
      handleHTTPResponse fs ask hdr body c = some r) → Locked r.1) := by
  refine ⟨fun n eos => ⟨locked_chain .., locked_chain ..⟩, locked_chain .., locked_tcpClose .., locked_close .., ?_⟩
  intro hdr body r h
  rcases h with h | h
  · have hl := locked_chain true (.reqHeaders hdr) ask fs c
    simp only [handleHTTPRequest] at h
    split at h
    · injection h with h; rw [← h]; exact hl
    · injection h with h; rw [← h]; exact hl
    · cases body with
      | none => injection h with h; rw [← h]; exact hl
      | some net =>
        simp only at h
        cases hb : bodyLoop .reqBody ask fs net (chain true (.reqHeaders hdr) ask fs c).2.2 [] with
        | none => rw [hb] at h; cases h
        | some q =>
          obtain ⟨es2, res2, c2, b2⟩ := q
          rw [hb] at h
          injection h with h; rw [← h]
          exact hl.append (locked_bodyLoop _ _ _ _ _ _ hb)
  · have hl := locked_chain false (.respHeaders hdr) ask fs c
    simp only [handleHTTPResponse] at h
    split at h
    · injection h with h; rw [← h]; exact hl
    · cases body with
      | none => injection h with h; rw [← h]; exact hl
      | some net =>
        simp only at h
        cases hb : bodyLoop .respBody ask fs net (chain false (.respHeaders hdr) ask fs c).2.2 [] with
        | none => rw [hb] at h; cases h
        | some q =>
          obtain ⟨es2, res2, c2, b2⟩ := q
          rw [hb] at h
          injection h with h; rw [← h]
          exact hl.append (locked_bodyLoop _ _ _ _ _ _ hb)

/-! ### Closing -/

/-- Which filter contexts were released. -/
def released : List Ev → List String
  | [] => []
  | .release f :: es => f :: released es
  | _ :: es => released es

theorem released_append : ∀ (a b : List Ev), released (a ++ b) = released a ++ released b
  | [], b => rfl
  | .call f cb x :: a, b => by simp [released, released_append a b]
  | .lock f :: a, b => by simp [released, released_append a b]
  | .unlock f :: a, b => by simp [released, released_append a b]
  | .release f :: a, b => by simp [released, released_append a b]

theorem callSeq_called (f ask) : ∀ (cbs : List Cb) (c : Nat),
    released (callSeq f ask cbs c).1 = [] ∧
    ((callSeq f ask cbs c).2.1 = true → called (callSeq f ask cbs c).1 = cbs.map fun cb => (f, cb))
  | [], c => ⟨rfl, fun _ => rfl⟩
  | cb :: cbs, c => by
    obtain ⟨h1, h2⟩ := callSeq_called f ask cbs (c + 1)
    simp only [callSeq]
    split
    · exact ⟨rfl, by simp⟩
    · exact ⟨by simp [released, h1], fun h => by simp [called, calls]; exact h2 h⟩

/-- **C169** Closing a stream stops and releases its filters in order, each exactly once; when it
succeeds all of them.  (Partial: after an error the remaining filters are not released, see
`C169_close_error_false`.) -/
theorem C169_close_partial (ask : Nat → FAns) : ∀ (fs : List String) (c : Nat),
    released (closeStream ask fs c).1 <+: fs ∧
    ((closeStream ask fs c).2.1 = .pass → released (closeStream ask fs c).1 = fs ∧
      called (closeStream ask fs c).1 =
        fs.flatMap fun f => [(f, .onDone), (f, .done), (f, .onLog), (f, .onDelete)])
  | [], c => ⟨List.prefix_refl _, fun _ => ⟨rfl, rfl⟩⟩
  | f :: fs, c => by
    obtain ⟨h1, h2⟩ := callSeq_called f ask [.onDone, .done, .onLog, .onDelete] c
    simp only [closeStream]
    split
    · rename_i hs
      obtain ⟨i1, i2⟩ := C169_close_partial ask fs (callSeq f ask [.onDone, .done, .onLog, .onDelete] c).2.2
      simp only [released_append, released, List.cons_append, h1, List.nil_append]
      refine ⟨by simpa using i1, fun hp => ?_⟩
      obtain ⟨j1, j2⟩ := i2 hp
      refine ⟨by rw [j1], ?_⟩
      rw [← List.cons_append, called_append, j2]
      have h3 := h2 hs
      simp only [List.map_cons, List.map_nil] at h3
      rw [List.flatMap_cons]
      congr 1
      have : ∀ l : List Ev, called (Ev.lock f :: (l ++ [Ev.unlock f, Ev.release f])) = called l := by
        intro l
        have h0 : called (Ev.lock f :: (l ++ [Ev.unlock f, Ev.release f])) =
            called (l ++ [Ev.unlock f, Ev.release f]) := rfl
        rw [h0, called_append]
        simp [called, calls]
      rw [this, h3]
    · simp only [released_append, released, List.cons_append, h1, List.nil_append]
      exact ⟨by simp, by simp⟩

/-! ### Counterexamples -/

/-- **C169 (fails)** A pause at the request headers stops the filters but not the request: the
handler returns `nil` as if every filter had agreed, the request goes on, and the second filter
never sees it. -/
theorem C169_request_pause_passes_false :
    handleHTTPRequest ["auth", "log"] (fun _ => .pause) 3 (some [⟨[1, 2], some .eof⟩]) 0 =
      some (visit "auth" (.reqHeaders 3) .pause, .pass, 1, .original [⟨[1, 2], some .eof⟩]) := by
  rfl

/-- **C169 (fails)** Pauses at the response headers do not stop the chain. -/
theorem C169_response_pause_false :
    handleHTTPResponse ["auth", "log"] (fun _ => .pause) 3 none 0 =
      some (visit "auth" (.respHeaders 3) .pause ++ visit "log" (.respHeaders 3) .pause, .pass, 2, .none) := by
  rfl

/-- **C169 (fails)** Pauses at a new connection do not stop the chain. -/
theorem C169_new_connection_pause_false :
    handleTCPNewConnection ["auth", "log"] (fun _ => .pause) 0 =
      (visit "auth" .newConnection .pause ++ visit "log" .newConnection .pause, .pass, 2) := by rfl

/-- **C169 (fails)** When stopping the first filter fails, `Close` leaves the second unreleased. -/
theorem C169_close_error_false :
    (closeStream (fun _ => .err) ["auth", "log"] 0).2.1 = .error ∧
    released (closeStream (fun _ => .err) ["auth", "log"] 0).1 = ["auth"] := by decide +kernel

/-- **C169 (fails)** Naming only unknown filters selects no filter, without an error. -/
theorem C169_unknown_names_false : select ["audit"] ["auth", "log"] = [] := by decide +kernel

/-! ### The hypotheses are satisfiable -/

example : select ["log", "auth"] ["auth", "cache", "log"] = ["auth", "log"] := by decide +kernel

/-- A pause of the second of three filters. -/
example : handleDownstreamData ["auth", "cache", "log"] (fun c => if c = 1 then .pause else .cont) 10 false 0 =
    (visit "auth" (.downstreamData 10 false) .cont ++ visit "cache" (.downstreamData 10 false) .pause,
      .paused, 2) := by rfl

/-- A request with a body in two parts, through two filters. -/
example : ∃ es, handleHTTPRequest ["auth", "log"] (fun _ => .cont) 3 (some [⟨[1, 2], none⟩, ⟨[3], some .eof⟩]) 0 =
    some (es, .pass, 6, .buffered [1, 2, 3]) ∧
    called es = [("auth", .reqHeaders 3), ("log", .reqHeaders 3), ("auth", .reqBody 2 false),
      ("log", .reqBody 2 false), ("auth", .reqBody 1 true), ("log", .reqBody 1 true)] := by
  refine ⟨visit "auth" (.reqHeaders 3) .cont ++ visit "log" (.reqHeaders 3) .cont ++
    visit "auth" (.reqBody 2 false) .cont ++ visit "log" (.reqBody 2 false) .cont ++
    visit "auth" (.reqBody 1 true) .cont ++ visit "log" (.reqBody 1 true) .cont, ?_, rfl⟩
  simp only [handleHTTPRequest, chain]
  rw [bodyLoop]
  simp [netRead, chain]
  rw [bodyLoop]
  simp [netRead, chain]

end Verif.Wasm.Stream
