import Verif.Props.AdsCache
/-
C28: the ACK/NACK protocol.  C29: dependent subscriptions.
-/
namespace Verif.Ads

/-! ### Subscriptions, versions and nonces are not touched by updates -/

/-- Same subscription, version and nonce. -/
def SameMeta (a b : Cache) : Prop := a.sub = b.sub ∧ a.version = b.version ∧ a.nonce = b.nonce

theorem sotwUpdate_meta (t : RType) (ca : Cache) (rs : List AnyRes) : SameMeta (sotwUpdate t ca rs).1 ca := by
  have h1 : ∀ rep, SameMeta (ca.setRes rs rep).1 ca := by
    intro rep
    unfold Cache.setRes
    split
    · exact ⟨rfl, rfl, rfl⟩
    · split <;> exact ⟨rfl, rfl, rfl⟩
  have h2 : SameMeta (ca.setIstio rs).1 ca := by
    unfold Cache.setIstio
    split
    · exact ⟨rfl, rfl, rfl⟩
    · split <;> exact ⟨rfl, rfl, rfl⟩
  cases t with
  | cluster => exact h1 true
  | listener => exact h1 true
  | endpoint => exact h1 false
  | route => exact h1 false
  | nameTable => exact h2
  | other u => exact ⟨rfl, rfl, rfl⟩

theorem deltaUpdate_meta (t : RType) (ca : Cache) (rs : List (String × AnyRes)) (rm : List String) :
    SameMeta (deltaUpdate t ca rs rm).1 ca := by
  have h1 : SameMeta (match ca.add rs with
      | (ca', true) => (ca'.remove rm, true)
      | (ca', false) => (ca', false)).1 ca := by
    unfold Cache.add
    by_cases h0 : rs = []
    · simp only [h0, if_true]; exact ⟨rfl, rfl, rfl⟩
    · simp only [if_neg h0]
      cases addLoop ca rs [] <;> exact ⟨rfl, rfl, rfl⟩
  cases t with
  | cluster => exact h1
  | listener => exact h1
  | endpoint => exact h1
  | route => exact h1
  | nameTable =>
    simp only [deltaUpdate]
    unfold Cache.addIstio
    split
    · exact ⟨rfl, rfl, rfl⟩
    · split <;> exact ⟨rfl, rfl, rfl⟩
  | other u => exact ⟨rfl, rfl, rfl⟩

theorem setCache_sent (c : Client) (t : RType) (x : Cache) : (c.setCache t x).sent = c.sent := by
  cases t <;> rfl

theorem setCache_stats (c : Client) (t : RType) (x : Cache) : (c.setCache t x).stats = c.stats := by
  cases t <;> rfl

theorem handleResponse_meta (c : Client) (r : Resp) :
    (c.handleResponse r).1.sent = c.sent ∧ (c.handleResponse r).1.stats = c.stats ∧
    ∀ t, SameMeta (((c.handleResponse r).1.cache t).getD .empty) ((c.cache t).getD .empty) := by
  have hset : ∀ (t0 : RType) (ca x : Cache), c.cache t0 = some ca → SameMeta x ca →
      ∀ t, SameMeta (((c.setCache t0 x).cache t).getD .empty) ((c.cache t).getD .empty) := by
    intro t0 ca x hc hx t
    by_cases ht : t = t0
    · subst ht
      have hs : t.supported = true := by cases t <;> simp_all [Client.cache, RType.supported]
      rw [cache_setCache _ _ _ hs, hc]
      exact hx
    · rw [cache_setCache_ne _ _ ht]; exact ⟨rfl, rfl, rfl⟩
  cases r with
  | sotw t0 v n val rs =>
    simp only [Client.handleResponse]
    split
    · exact ⟨rfl, rfl, fun t => ⟨rfl, rfl, rfl⟩⟩
    · split
      · exact ⟨rfl, rfl, fun t => ⟨rfl, rfl, rfl⟩⟩
      · rename_i ca hc
        exact ⟨setCache_sent _ _ _, setCache_stats _ _ _, hset t0 ca _ hc (sotwUpdate_meta t0 ca rs)⟩
  | delta t0 n val rs rm =>
    simp only [Client.handleResponse]
    split
    · exact ⟨rfl, rfl, fun t => ⟨rfl, rfl, rfl⟩⟩
    · split
      · exact ⟨rfl, rfl, fun t => ⟨rfl, rfl, rfl⟩⟩
      · rename_i ca hc
        exact ⟨setCache_sent _ _ _, setCache_stats _ _ _, hset t0 ca _ hc (deltaUpdate_meta t0 ca rs rm)⟩

/-! ### C28 -/

def Req.typ : Req → RType
  | .sotw t .. => t
  | .delta t .. => t

/-- The type whose subscription depends on resources of type `t`. -/
def dependent : RType → Option RType
  | .cluster => some .endpoint
  | .listener => some .route
  | _ => none

/-- The subscription request for names `names` of type `t` (client.go:227-276). -/
theorem hooks_sent (cfg : Cfg) (c : Client) (t : RType) :
    (c.hooks cfg t).sent = c.sent ∨
    ∃ dep q, dependent t = some dep ∧ q.typ = dep ∧ q.isNack = false ∧ (c.hooks cfg t).sent = c.sent ++ [q] := by
  have hres : ∀ dep names, (c.resubscribe cfg dep names).1.sent = c.sent ∨
      ∃ q, q.typ = dep ∧ q.isNack = false ∧ (c.resubscribe cfg dep names).1.sent = c.sent ++ [q] := by
    intro dep names
    simp only [Client.resubscribe]
    split
    · exact Or.inl rfl
    · right
      simp only [Client.subscribeReq, setCache_sent]
      refine ⟨_, ?_, ?_, rfl⟩
      · split <;> rfl
      · split <;> rfl
  cases t with
  | cluster =>
    simp only [Client.hooks, Client.onClusters]
    have h := hres .endpoint (references clusterRef c.cl.res)
    split
    · rename_i c' he
      rw [he] at h
      rcases h with h | ⟨q, h1, h2, h3⟩
      · exact Or.inl h
      · exact Or.inr ⟨.endpoint, q, rfl, h1, h2, h3⟩
    · rename_i c' he
      rw [he] at h
      rcases h with h | ⟨q, h1, h2, h3⟩
      · exact Or.inl h
      · exact Or.inr ⟨.endpoint, q, rfl, h1, h2, h3⟩
  | listener =>
    rcases hres .route (references routeRef c.ls.res) with h | ⟨q, h1, h2, h3⟩
    · exact Or.inl h
    · exact Or.inr ⟨.route, q, rfl, h1, h2, h3⟩
  | endpoint => exact Or.inl rfl
  | route => exact Or.inl rfl
  | nameTable => exact Or.inl rfl
  | other u => exact Or.inl rfl

/-- The answer alone. -/
def Client.reply (cfg : Cfg) (c : Client) (r : Resp) : Client :=
  if (c.handleResponse r).2 then (c.handleResponse r).1.ack cfg r else (c.handleResponse r).1.nack cfg r

theorem reply_sent (cfg : Cfg) (c : Client) (r : Resp) :
    ∃ q, (c.reply cfg r).sent = c.sent ++ [q] ∧ q.typ = r.typ ∧ q.isNack = !(c.handleResponse r).2 := by
  have hm := (handleResponse_meta c r).1
  cases ha : (c.handleResponse r).2 with
  | false =>
    simp only [Client.reply, ha, Bool.false_eq_true, if_false]
    cases r with
    | sotw t v n val rs => exact ⟨.sotw t _ _ _ true, congrArg (· ++ [_]) hm, rfl, rfl⟩
    | delta t n val rs rm => exact ⟨.delta t n [] [] true, congrArg (· ++ [_]) hm, rfl, rfl⟩
  | true =>
    simp only [Client.reply, ha, if_true]
    cases r with
    | sotw t v n val rs =>
      simp only [Client.ack]
      split
      · exact ⟨.sotw t v n [] false, congrArg (· ++ [_]) hm, rfl, rfl⟩
      · rename_i ca _
        refine ⟨.sotw t v n (wild cfg.sotwWild { ca with version := v, nonce := n }.subNames) false, ?_, rfl, rfl⟩
        simp only [setCache_sent, hm]
    | delta t n val rs rm => exact ⟨.delta t n [] [] false, congrArg (· ++ [_]) hm, rfl, rfl⟩

theorem recv_sent (cfg : Cfg) (c : Client) (r : Resp) (hr : c.receiving = true) (hs : r.typ.supported = true) :
    (c.recv cfg r).sent = c.sent ++ c.answer cfg r ∧
    ∃ q rest, c.answer cfg r = q :: rest ∧ (c.reply cfg r).sent = c.sent ++ [q] ∧
      q.typ = r.typ ∧ q.isNack = !(c.handleResponse r).2 ∧
      rest.length ≤ 1 ∧ ∀ q' ∈ rest, some q'.typ = dependent r.typ ∧ q'.isNack = false := by
  obtain ⟨q, h1, h2, h3⟩ := reply_sent cfg c r
  have he : c.recv cfg r = (c.reply cfg r).hooks cfg r.typ := recv_cases cfg c r hr hs
  rcases hooks_sent cfg (c.reply cfg r) r.typ with h | ⟨dep, q', d1, d2, d3, d4⟩
  · have ha : (c.recv cfg r).sent = c.sent ++ [q] := by rw [he, h, h1]
    have hans : c.answer cfg r = [q] := by simp [Client.answer, ha]
    exact ⟨by rw [ha, hans], q, [], hans, h1, h2, h3, by simp, by simp⟩
  · have ha : (c.recv cfg r).sent = c.sent ++ [q, q'] := by rw [he, d4, h1]; simp
    have hans : c.answer cfg r = [q, q'] := by simp [Client.answer, ha]
    refine ⟨by rw [ha, hans], q, [q'], hans, h1, h2, h3, by simp, ?_⟩
    intro x hx
    simp only [List.mem_singleton] at hx
    subst hx
    exact ⟨by rw [d1, d2], d3⟩

/-- **C28** Every response of a supported type is answered by exactly one request for the same
type, before anything else is sent: an error if and only if the update was rejected.  The only
further request is at most one subscription of the dependent type. -/
theorem C28_answered_once (cfg : Cfg) (c : Client) (r : Resp) (hr : c.receiving = true)
    (hs : r.typ.supported = true) :
    (c.recv cfg r).sent = c.sent ++ c.answer cfg r ∧
    ∃ q rest, c.answer cfg r = q :: rest ∧ q.typ = r.typ ∧ q.isNack = !(c.handleResponse r).2 ∧
      rest.length ≤ 1 ∧ ∀ q' ∈ rest, q'.typ ≠ r.typ ∧ q'.isNack = false := by
  obtain ⟨h0, q, rest, h1, _, h2, h3, h4, h5⟩ := recv_sent cfg c r hr hs
  refine ⟨h0, q, rest, h1, h2, h3, h4, fun q' hq => ⟨?_, (h5 q' hq).2⟩⟩
  have := (h5 q' hq).1
  intro hc
  rw [hc] at this
  cases hT : r.typ <;> simp_all [dependent]

/-- **C28** An ACK carries the response's nonce and, in the state-of-the-world protocol, its
version and the names subscribed for (or nothing for a wildcard the server does not know). -/
theorem C28_ack (cfg : Cfg) (c : Client) (r : Resp) (hr : c.receiving = true) (hs : r.typ.supported = true)
    (ha : (c.handleResponse r).2 = true) :
    (c.answer cfg r).head? = some (match r with
      | .sotw t v n _ _ => .sotw t v n (wild cfg.sotwWild ((c.cache t).getD .empty).subNames) false
      | .delta t n _ _ _ => .delta t n [] [] false) := by
  obtain ⟨_, q, rest, h1, h2, _⟩ := recv_sent cfg c r hr hs
  rw [h1, List.head?_cons]
  congr 1
  obtain ⟨hm, _, hmeta⟩ := handleResponse_meta c r
  simp only [Client.reply, ha, if_true] at h2
  cases r with
  | delta t n val rs rm =>
    simp only [Client.ack, hm] at h2
    simpa using (List.append_cancel_left h2).symm
  | sotw t v n val rs =>
    simp only [Client.ack] at h2
    have hmt := hmeta t
    cases hc : (c.handleResponse (.sotw t v n val rs)).1.cache t with
    | none => cases t <;> simp [Client.cache, Resp.typ, RType.supported] at hc hs
    | some ca =>
      rw [hc] at h2 hmt
      simp only [setCache_sent, hm] at h2
      have h3 := (List.append_cancel_left h2)
      simp only [List.cons.injEq, and_true] at h3
      rw [← h3]
      simp only [Option.getD_some, SameMeta] at hmt
      simp only [Cache.subNames, hmt.1]

/-- **C28** A NACK in the incremental protocol carries the response's nonce and the error. -/
theorem C28_nack_delta (cfg : Cfg) (c : Client) (t : RType) (n : String) (v : Bool) (rs rm)
    (hr : c.receiving = true) (hs : t.supported = true)
    (ha : (c.handleResponse (.delta t n v rs rm)).2 = false) :
    (c.answer cfg (.delta t n v rs rm)).head? = some (.delta t n [] [] true) := by
  obtain ⟨_, q, rest, h1, h2, _⟩ := recv_sent cfg c (.delta t n v rs rm) hr hs
  rw [h1, List.head?_cons]
  congr 1
  obtain ⟨hm, _, _⟩ := handleResponse_meta c (.delta t n v rs rm)
  simp only [Client.reply, ha, Bool.false_eq_true, if_false, Client.nack, hm] at h2
  simpa using (List.append_cancel_left h2).symm

/-- The response was received and answered without an error. -/
def Accepted (cfg : Cfg) (c : Client) (r : Resp) : Bool :=
  (c.answer cfg r).head?.map (·.isNack) = some false

/-- The version of the last state-of-the-world response of type `t` that was accepted. -/
def lastVersion (cfg : Cfg) (t : RType) : List Ev → String
  | [] => ""
  | .connect :: es => lastVersion cfg t es
  | .recv (.delta ..) :: es => lastVersion cfg t es
  | .recv (.sotw t' v n val rs) :: es =>
    if t' = t ∧ Accepted cfg (Client.run cfg es) (.sotw t' v n val rs) then v else lastVersion cfg t es

theorem resubscribe_version (cfg : Cfg) (c : Client) (dep : RType) (names : List String) (t : RType) :
    (((c.resubscribe cfg dep names).1.cache t).getD .empty).version = ((c.cache t).getD .empty).version := by
  simp only [Client.resubscribe]
  split
  · rfl
  · simp only [Client.subscribeReq, cache_sent]
    by_cases ht : t = dep
    · subst ht
      cases hs : t.supported with
      | true =>
        rw [cache_setCache _ _ _ hs]
        simp only [Option.getD_some, Cache.subscribe]
        split <;> split <;> rfl
      | false => cases t <;> simp_all [RType.supported, Client.cache]
    · rw [cache_setCache_ne _ _ ht]

theorem hooks_version (cfg : Cfg) (c : Client) (typ t : RType) :
    (((c.hooks cfg typ).cache t).getD .empty).version = ((c.cache t).getD .empty).version := by
  cases typ with
  | cluster =>
    have := resubscribe_version cfg c .endpoint (references clusterRef c.cl.res) t
    simp only [Client.hooks, Client.onClusters]
    split
    · rename_i h; rw [h] at this; exact this
    · rename_i h; rw [h] at this; rw [cache_stats]; exact this
  | listener => exact resubscribe_version cfg c _ _ t
  | _ => rfl

theorem version_inv (cfg : Cfg) (t : RType) (hs : t.supported = true) : ∀ es : List Ev,
    (((Client.run cfg es).cache t).getD .empty).version = lastVersion cfg t es
  | [] => by cases t <;> rfl
  | .connect :: es => by
    have ih := version_inv cfg t hs es
    rw [lastVersion, ← ih]
    cases t <;> rfl
  | .recv r :: es => by
    have ih := version_inv cfg t hs es
    simp only [Client.run, Client.step]
    generalize hc : Client.run cfg es = c at ih
    cases hr : c.receiving with
    | false =>
      have hna : ∀ r, Accepted cfg c r = false := by
        intro r; simp [Accepted, Client.answer, Client.recv, hr]
      have h0 : c.recv cfg r = c := by simp [Client.recv, hr]
      rw [h0, ih]
      cases r with
      | delta t' n v rs rm => rfl
      | sotw t' v n val rs => rw [lastVersion, hc, hna]; simp
    | true =>
      cases hsup : r.typ.supported with
      | false =>
        have h0 : ((c.recv cfg r).cache t) = c.cache t := by
          simp only [Client.recv, hr, hsup]
          cases t <;> rfl
        have hna : Accepted cfg c r = false := by
          simp [Accepted, Client.answer, Client.recv, hr, hsup]
        rw [h0, ih]
        cases r with
        | delta t' n v rs rm => rfl
        | sotw t' v n val rs => rw [lastVersion, hc, hna]; simp
      | true =>
        obtain ⟨hm, _, hmeta⟩ := handleResponse_meta c r
        have hacc : Accepted cfg c r = (c.handleResponse r).2 := by
          obtain ⟨_, q, rest, h1, _, _, h3, _⟩ := recv_sent cfg c r hr hsup
          simp only [Accepted, h1, List.head?_cons, Option.map_some, h3]
          cases (c.handleResponse r).2 <;> rfl
        have hv := hooks_version cfg (c.reply cfg r) r.typ t
        rw [show c.recv cfg r = (c.reply cfg r).hooks cfg r.typ from recv_cases cfg c r hr hsup, hv]
        have hold : (((c.handleResponse r).1.cache t).getD .empty).version = lastVersion cfg t es := by
          rw [(hmeta t).2.1, ih]
        cases ha : (c.handleResponse r).2 with
        | false =>
          simp only [Client.reply, ha, Bool.false_eq_true, if_false]
          have h2 : (((c.handleResponse r).1.nack cfg r).cache t) = (c.handleResponse r).1.cache t := by
            cases r <;> simp only [Client.nack, cache_sent]
          rw [h2, hold]
          cases r with
          | delta t' n v rs rm => rfl
          | sotw t' v n val rs => rw [lastVersion, hc, hacc, ha]; simp
        | true =>
          simp only [Client.reply, ha, if_true]
          cases r with
          | delta t' n v rs rm =>
            simp only [Client.ack, cache_sent, hold]
            rfl
          | sotw t' v n val rs =>
            rw [lastVersion, hc, hacc, ha]
            simp only [and_true, Client.ack]
            have hs' : t'.supported = true := hsup
            cases hca : (c.handleResponse (.sotw t' v n val rs)).1.cache t' with
            | none => cases t' <;> simp [Client.cache, RType.supported] at hca hs'
            | some ca =>
              simp only [cache_sent]
              by_cases ht : t = t'
              · subst ht
                rw [cache_setCache _ _ _ hs]
                simp
              · rw [cache_setCache_ne _ _ ht, if_neg (fun h => ht h.symm)]
                exact hold

/-- **C28** A NACK in the state-of-the-world protocol carries the version of the last accepted
response of this type, after any history.  (Partial: the nonce is not the response's, see
`C166_nack_nonce_false`.) -/
theorem C28_nack_sotw_version (cfg : Cfg) (es : List Ev) (t : RType) (v n : String) (val : Bool) (rs)
    (hr : (Client.run cfg es).receiving = true) (hs : t.supported = true)
    (ha : ((Client.run cfg es).handleResponse (.sotw t v n val rs)).2 = false) :
    ∃ nonce names, ((Client.run cfg es).answer cfg (.sotw t v n val rs)).head? =
      some (.sotw t (lastVersion cfg t es) nonce names true) := by
  obtain ⟨_, q, rest, h1, h2, _⟩ := recv_sent cfg (Client.run cfg es) (.sotw t v n val rs) hr hs
  obtain ⟨hm, _, hmeta⟩ := handleResponse_meta (Client.run cfg es) (.sotw t v n val rs)
  simp only [Client.reply, ha, Bool.false_eq_true, if_false, Client.nack, hm] at h2
  have h3 := (List.append_cancel_left h2)
  simp only [List.cons.injEq, and_true] at h3
  rw [h1, List.head?_cons, ← h3, (hmeta t).2.1, version_inv cfg t hs es]
  exact ⟨_, _, rfl⟩

/-- **C166 (fails)** for every response in the state-of-the-world protocol that is rejected and
whose nonce is not the URL of a resource type: the NACK's nonce is empty, so the server cannot
tell which response was rejected. -/
theorem C166_nack_nonce_false (cfg : Cfg) (c : Client) (t : RType) (v n : String) (val : Bool) (rs)
    (hr : c.receiving = true) (hs : t.supported = true)
    (ha : (c.handleResponse (.sotw t v n val rs)).2 = false) (hn : RType.ofUrl n = .other n) :
    ∃ version names, (c.answer cfg (.sotw t v n val rs)).head? = some (.sotw t version "" names true) := by
  obtain ⟨_, q, rest, h1, h2, _⟩ := recv_sent cfg c (.sotw t v n val rs) hr hs
  obtain ⟨hm, _, _⟩ := handleResponse_meta c (.sotw t v n val rs)
  simp only [Client.reply, ha, Bool.false_eq_true, if_false, Client.nack, hm, hn] at h2
  have h3 := (List.append_cancel_left h2)
  simp only [List.cons.injEq, and_true] at h3
  rw [h1, List.head?_cons, ← h3]
  exact ⟨_, _, rfl⟩

/-- A rejected response with nonce `c`: a concrete instance, also of the hypotheses of
`C28_nack_sotw_version`. -/
example : (Client.run sotwCfg exHist).answer sotwCfg exBad =
    [.sotw .cluster "1" "" ["*"] true, .sotw .endpoint "1" "b" [] false] ∧
    lastVersion sotwCfg .cluster exHist = "1" ∧ RType.ofUrl "c" = .other "c" := by decide +kernel

/-- **C166 (fails)** A response of an unsupported type is not answered at all, and no later
response is either: the receiver has stopped without an error. -/
theorem C166_unsupported_false (cfg : Cfg) :
    (Client.run cfg [.recv (.sotw (.other "x") "1" "a" true []), .connect]).sent =
      (Client.run cfg [.connect]).sent ∧
    (Client.run cfg [.recv (.sotw .cluster "1" "b" true []), .recv (.sotw (.other "x") "1" "a" true []),
      .connect]).sent = (Client.run cfg [.connect]).sent := by
  refine ⟨rfl, rfl⟩

/-- **C166 (fails)** After a reconnection the first requests on the new stream carry the nonces of
the old one. -/
theorem C166_reconnect_nonce_false :
    (Client.run sotwCfg (.connect :: exHist)).sent.drop (Client.run sotwCfg exHist).sent.length =
      [.sotw .cluster "1" "a" ["*"] false, .sotw .listener "" "" ["*"] false,
       .sotw .nameTable "" "" ["*"] false] := by decide +kernel

/-! ### C29 -/

theorem mem_insS {x s : String} : ∀ {l : List String}, x ∈ insS s l ↔ x = s ∨ x ∈ l
  | [] => by simp [insS]
  | y :: ys => by
    simp only [insS]
    split
    · rename_i h; subst h; simp
    · split
      · simp
      · simp only [List.mem_cons, mem_insS (l := ys)]
        constructor
        · rintro (h | h | h) <;> simp [h]
        · rintro (h | h | h) <;> simp [h]

theorem mem_sortedSet {x : String} : ∀ {l : List String}, x ∈ sortedSet l ↔ x ∈ l
  | [] => Iff.rfl
  | y :: ys => by
    have : x ∈ sortedSet (y :: ys) ↔ x ∈ insS y (sortedSet ys) := Iff.rfl
    rw [this, mem_insS, mem_sortedSet]; simp

theorem mem_references {ref : Resource → String} {m : AMap} {n : String} :
    n ∈ references ref m ↔ n ≠ "" ∧ ∃ x ∈ m.map (·.2), ref x = n := by
  simp only [references, mem_sortedSet, List.mem_filter, List.mem_map, ne_eq, decide_not,
    Bool.not_eq_eq_eq_not, Bool.not_true, decide_eq_false_iff_not]
  constructor
  · rintro ⟨⟨e, he, rfl⟩, h⟩
    exact ⟨h, e.2, ⟨e, he, rfl⟩, rfl⟩
  · rintro ⟨h, _, ⟨e, he, rfl⟩, rfl⟩
    exact ⟨⟨e, he, rfl⟩, h⟩

theorem resubscribe_sub (cfg : Cfg) (c : Client) (dep : RType) (names : List String)
    (hd : dep.supported = true) (hne : names ≠ []) (n : String) :
    n ∈ (((c.resubscribe cfg dep names).1.cache dep).getD .empty).sub ↔ n ∈ names := by
  simp only [Client.resubscribe]
  split
  · rename_i h
    rw [h]
    simp only [Cache.subNames, mem_sortedSet]
  · simp only [Client.subscribeReq, cache_sent]
    rw [cache_setCache _ _ _ hd]
    simp only [Option.getD_some, Cache.subscribe, if_neg hne]

theorem resubscribe_other (cfg : Cfg) (c : Client) (dep : RType) (names : List String) {t : RType}
    (ht : t ≠ dep) : (c.resubscribe cfg dep names).1.cache t = c.cache t := by
  simp only [Client.resubscribe]
  split
  · rfl
  · simp only [Client.subscribeReq, cache_sent]
    rw [cache_setCache_ne _ _ ht]

/-- The clusters (listeners) the client holds, as `listClusters` (`listListeners`) returns them. -/
def Client.list (c : Client) (t : RType) : List Resource := ((c.cache t).getD .empty).res.map (·.2)

/-- The load assignment an EDS cluster asks for: its service name, or else its own name. -/
def AsksFor (x : Resource) (n : String) : Prop :=
  x.eds = true ∧ n ≠ "" ∧ ((x.service ≠ "" ∧ n = x.service) ∨ (x.service = "" ∧ n = x.name))

theorem asksFor_iff (x : Resource) (n : String) : AsksFor x n ↔ n ≠ "" ∧ clusterRef x = n := by
  unfold AsksFor clusterRef
  cases x.eds with
  | false =>
    simp only [Bool.false_eq_true, false_and, if_false, ne_eq]
    constructor
    · exact False.elim
    · rintro ⟨h, h'⟩; exact h h'.symm
  | true =>
    simp only [true_and, if_true, ne_eq]
    by_cases h : x.service = ""
    · simp only [h, not_true_eq_false, false_and, true_and, false_or, if_false, eq_comm]
    · simp only [h, not_false_eq_true, true_and, false_and, or_false, if_true, eq_comm]

/-- **C181** After a cluster response, the client is subscribed for exactly the load assignments
that its clusters ask for, whatever the history.  (Partial: provided some cluster asks for one,
see `C181_empty_false`.) -/
theorem C181_endpoints_partial (cfg : Cfg) (c : Client) (r : Resp) (hr : c.receiving = true)
    (ht : r.typ = .cluster)
    (hne : ∃ x ∈ (c.recv cfg r).list .cluster, ∃ n, AsksFor x n) (n : String) :
    n ∈ (c.recv cfg r).ep.sub ↔ ∃ x ∈ (c.recv cfg r).list .cluster, AsksFor x n := by
  have he : c.recv cfg r = (c.reply cfg r).onClusters cfg := by
    have := recv_cases cfg c r hr (by rw [ht]; rfl)
    rw [ht] at this
    exact this
  generalize hd : c.reply cfg r = d at he
  rw [he] at hne ⊢
  have hcl : (d.onClusters cfg).cache .cluster = d.cache .cluster := by
    simp only [Client.onClusters]
    have := resubscribe_other cfg d .endpoint (references clusterRef d.cl.res) (t := .cluster) (by decide)
    split
    · rename_i h; rw [h] at this; exact this
    · rename_i h; rw [h] at this; rw [cache_stats]; exact this
  have hsub : (d.onClusters cfg).ep.sub =
      (((d.resubscribe cfg .endpoint (references clusterRef d.cl.res)).1.cache .endpoint).getD .empty).sub := by
    simp only [Client.onClusters]
    split
    · rename_i h; rw [h]; rfl
    · rename_i h; rw [h]; rfl
  have hlist : (d.onClusters cfg).list .cluster = d.cl.res.map (·.2) := by
    simp only [Client.list, hcl]; rfl
  rw [hlist] at hne ⊢
  have hrefs : references clusterRef d.cl.res ≠ [] := by
    obtain ⟨x, hx, m, hm⟩ := hne
    intro hnil
    have : m ∈ references clusterRef d.cl.res :=
      mem_references.mpr ⟨((asksFor_iff x m).mp hm).1, x, hx, ((asksFor_iff x m).mp hm).2⟩
    rw [hnil] at this
    cases this
  rw [hsub, resubscribe_sub cfg d .endpoint _ rfl hrefs, mem_references]
  constructor
  · rintro ⟨h0, x, hx, h1⟩
    exact ⟨x, hx, (asksFor_iff x n).mpr ⟨h0, h1⟩⟩
  · rintro ⟨x, hx, h1⟩
    have := (asksFor_iff x n).mp h1
    exact ⟨this.1, x, hx, this.2⟩

/-- **C181** After a listener response, the client is subscribed for exactly the first route
configuration referenced by each listener.  (Partial: provided there is one; a listener's further
references are ignored, see `C181_second_route_false`.) -/
theorem C181_routes_partial (cfg : Cfg) (c : Client) (r : Resp) (hr : c.receiving = true)
    (ht : r.typ = .listener)
    (hne : ∃ x ∈ (c.recv cfg r).list .listener, ∃ n, n ≠ "" ∧ x.rds.head? = some n) (n : String) :
    n ∈ (c.recv cfg r).rt.sub ↔ n ≠ "" ∧ ∃ x ∈ (c.recv cfg r).list .listener, x.rds.head? = some n := by
  have he : c.recv cfg r = (c.reply cfg r).onListeners cfg := by
    have := recv_cases cfg c r hr (by rw [ht]; rfl)
    rw [ht] at this
    exact this
  generalize hd : c.reply cfg r = d at he
  rw [he] at hne ⊢
  have hlist : (d.onListeners cfg).list .listener = d.ls.res.map (·.2) := by
    simp only [Client.list, Client.onListeners]
    rw [resubscribe_other cfg d .route _ (by decide)]
    rfl
  have hhead : ∀ (x : Resource) (n : String), n ≠ "" → (x.rds.head? = some n ↔ routeRef x = n) := by
    intro x n hn
    unfold routeRef
    cases x.rds.head? with
    | none => simp [Ne.symm hn]
    | some y => simp
  rw [hlist] at hne ⊢
  have hrefs : references routeRef d.ls.res ≠ [] := by
    obtain ⟨x, hx, m, hm0, hm⟩ := hne
    intro hnil
    have : m ∈ references routeRef d.ls.res := mem_references.mpr ⟨hm0, x, hx, (hhead x m hm0).mp hm⟩
    rw [hnil] at this
    cases this
  have hsub := resubscribe_sub cfg d .route _ rfl hrefs n
  rw [mem_references] at hsub
  refine Iff.trans hsub ⟨?_, ?_⟩
  · rintro ⟨h0, x, hx, h1⟩
    exact ⟨h0, x, hx, (hhead x n h0).mpr h1⟩
  · rintro ⟨h0, x, hx, h1⟩
    exact ⟨h0, x, hx, (hhead x n h0).mp h1⟩

/-- **C181** Whenever the subscription changed, statistics are kept for exactly the clusters
present.  (Partial: not otherwise, see `C181_stats_false`.) -/
theorem C181_stats_partial (cfg : Cfg) (c : Client) (r : Resp) (hr : c.receiving = true)
    (ht : r.typ = .cluster) (hch : 1 < (c.answer cfg r).length) (n : String) :
    n ∈ (c.recv cfg r).stats ↔ ∃ x ∈ (c.recv cfg r).list .cluster, x.name = n := by
  have he : c.recv cfg r = (c.reply cfg r).onClusters cfg := by
    have := recv_cases cfg c r hr (by rw [ht]; rfl)
    rw [ht] at this
    exact this
  obtain ⟨q, hq, _⟩ := reply_sent cfg c r
  have hsent : (c.recv cfg r).sent ≠ (c.reply cfg r).sent := by
    intro h
    simp only [Client.answer, h, hq, List.drop_left] at hch
    simp at hch
  generalize hd : c.reply cfg r = d at he hsent
  rw [he] at hsent ⊢
  have hlist : (d.onClusters cfg).list .cluster = d.cl.res.map (·.2) := by
    have hcl : (d.onClusters cfg).cache .cluster = d.cache .cluster := by
      simp only [Client.onClusters]
      have := resubscribe_other cfg d .endpoint (references clusterRef d.cl.res) (t := .cluster) (by decide)
      split
      · rename_i h; rw [h] at this; exact this
      · rename_i h; rw [h] at this; rw [cache_stats]; exact this
    simp only [Client.list, hcl]; rfl
  rw [hlist]
  simp only [Client.onClusters] at hsent ⊢
  have hb : (d.resubscribe cfg .endpoint (references clusterRef d.cl.res)).2 = false := by
    cases hb : (d.resubscribe cfg .endpoint (references clusterRef d.cl.res)).2 with
    | false => rfl
    | true =>
      exfalso
      apply hsent
      have h1 : (d.resubscribe cfg .endpoint (references clusterRef d.cl.res)).1 = d := by
        simp only [Client.resubscribe] at hb ⊢
        split at hb
        · rename_i h; rw [if_pos h]
        · cases hb
      split
      · rename_i c' h
        rw [h] at h1
        simp only at h1
        rw [h1]
      · rename_i h
        rw [h] at hb
        cases hb
  split
  · rename_i h; rw [h] at hb; cases hb
  · rename_i c' h
    simp only [List.mem_filter, List.mem_append, List.contains_iff_mem, Bool.not_eq_true', List.mem_map]
    constructor
    · rintro ⟨_, ⟨e, he, rfl⟩⟩
      exact ⟨e.2, ⟨e, he, rfl⟩, rfl⟩
    · rintro ⟨_, ⟨e, he, rfl⟩, rfl⟩
      refine ⟨?_, ⟨e, he, rfl⟩⟩
      cases hm : (c'.stats.contains e.2.name) with
      | true => left; exact List.contains_iff_mem.mp hm
      | false => right; exact ⟨⟨e, he, rfl⟩, rfl⟩

/-- **C181 (fails)** When the last EDS cluster disappears the client stays subscribed for its load
assignment in its own books although it has told the server otherwise; when the cluster comes
back, nothing is requested, and the endpoints never arrive again. -/
theorem C181_empty_false :
    let gone : Ev := .recv (.sotw .cluster "2" "c" true [])
    let back : Ev := .recv (.sotw .cluster "3" "d" true [.good exCluster])
    (Client.run sotwCfg (gone :: exHist)).list .cluster = [] ∧
    (Client.run sotwCfg (gone :: exHist)).ep.sub = ["web"] ∧
    (Client.run sotwCfg exHist).answer sotwCfg (.sotw .cluster "2" "c" true []) =
      [.sotw .cluster "2" "c" ["*"] false, .sotw .endpoint "1" "b" [] false] ∧
    (Client.run sotwCfg (gone :: exHist)).answer sotwCfg (.sotw .cluster "3" "d" true [.good exCluster]) =
      [.sotw .cluster "3" "d" ["*"] false] ∧
    (Client.run sotwCfg (back :: gone :: exHist)).get .cluster "web" = some exCluster ∧
    (Client.run sotwCfg (back :: gone :: exHist)).get .endpoint "web" = none := by decide +kernel

/-- **C181 (fails)** A listener whose filter chains reference two route configurations: the second
is never subscribed for. -/
theorem C181_second_route_false :
    (Client.run sotwCfg [.recv (.sotw .listener "1" "a" true
      [.good { name := "in", eds := false, service := "", rds := ["r1", "r2"], tag := 0 }]), .connect]).rt.sub = ["r1"] := by
  decide +kernel

/-- **C181 (fails)** A new cluster that changes no subscription gets no statistics. -/
theorem C181_stats_false :
    (Client.run sotwCfg (.recv (.sotw .cluster "2" "c" true [.good exCluster,
      .good { name := "static", eds := false, service := "", rds := [], tag := 3 }]) :: exHist)).stats = ["web"] := by
  decide +kernel

/-- The hypotheses of the theorems above are met by the reception of a cluster. -/
example : (Client.run sotwCfg [.connect]).receiving = true ∧
    ((Client.run sotwCfg [.connect]).recv sotwCfg (.sotw .cluster "1" "a" true [.good exCluster])).ep.sub = ["web"] ∧
    ((Client.run sotwCfg [.connect]).recv sotwCfg (.sotw .cluster "1" "a" true [.good exCluster])).stats = ["web"] ∧
    ((Client.run sotwCfg [.connect]).answer sotwCfg (.sotw .cluster "1" "a" true [.good exCluster])).length = 2 := by
  decide +kernel

end Verif.Ads
