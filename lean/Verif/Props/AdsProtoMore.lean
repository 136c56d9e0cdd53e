import Verif.Props.AdsProto
import Verif.Ads.Init
/-
C64: when the client starts to answer.  C28: responses that fail validation.  C29: the requests
sent for dependent resources.
-/
namespace Verif.Ads

/-! ### Sorted sets are canonical -/

def SSorted : List String → Prop
  | [] => True
  | x :: xs => (∀ y ∈ xs, x < y) ∧ SSorted xs

theorem ssorted_insS (s : String) : ∀ {l : List String}, SSorted l → SSorted (insS s l)
  | [], _ => ⟨by simp, trivial⟩
  | x :: xs, h => by
    simp only [insS]
    split
    · exact h
    · rename_i hne
      split
      · rename_i hlt
        refine ⟨?_, h⟩
        intro y hy
        rcases List.mem_cons.mp hy with rfl | hy
        · exact hlt
        · exact String.lt_trans hlt (h.1 y hy)
      · rename_i hlt
        refine ⟨?_, ssorted_insS s h.2⟩
        intro y hy
        rcases mem_insS.mp hy with rfl | hy
        · grind
        · exact h.1 y hy

theorem ssorted_sortedSet : ∀ l : List String, SSorted (sortedSet l)
  | [] => trivial
  | x :: xs => ssorted_insS x (ssorted_sortedSet xs)

theorem ssorted_ext : ∀ {a b : List String}, SSorted a → SSorted b → (∀ x, x ∈ a ↔ x ∈ b) → a = b
  | [], [], _, _, _ => rfl
  | [], y :: ys, _, _, h => by have := (h y).mpr (by simp); simp at this
  | x :: xs, [], _, _, h => by have := (h x).mp (by simp); simp at this
  | x :: xs, y :: ys, ha, hb, h => by
    have hxy : x = y := by
      have h1 := (h x).mp (by simp)
      have h2 := (h y).mpr (by simp)
      rcases List.mem_cons.mp h1 with e | h1
      · exact e
      · rcases List.mem_cons.mp h2 with e | h2
        · exact e.symm
        · exact absurd (ha.1 y h2) (String.lt_asymm (hb.1 x h1))
    subst hxy
    congr 1
    refine ssorted_ext ha.2 hb.2 ?_
    intro z
    have hz := h z
    simp only [List.mem_cons] at hz
    constructor
    · intro hm
      rcases hz.mp (Or.inr hm) with e | hm'
      · subst e; exact absurd (ha.1 z hm) (String.lt_irrefl z)
      · exact hm'
    · intro hm
      rcases hz.mpr (Or.inr hm) with e | hm'
      · subst e; exact absurd (hb.1 z hm) (String.lt_irrefl z)
      · exact hm'

theorem sortedSet_ext {a b : List String} : sortedSet a = sortedSet b ↔ ∀ x, x ∈ a ↔ x ∈ b := by
  constructor
  · intro h x
    rw [← mem_sortedSet, h, mem_sortedSet]
  · intro h
    exact ssorted_ext (ssorted_sortedSet a) (ssorted_sortedSet b)
      (fun x => by rw [mem_sortedSet, mem_sortedSet]; exact h x)

/-! ### C28: responses that fail validation -/

def Resp.valid : Resp → Bool
  | .sotw _ _ _ v _ => v
  | .delta _ _ v _ _ => v

theorem hooks_own (cfg : Cfg) (c : Client) (t : RType) : (c.hooks cfg t).cache t = c.cache t := by
  cases t with
  | cluster =>
    have := resubscribe_other cfg c .endpoint (references clusterRef c.cl.res) (t := .cluster) (by decide)
    simp only [Client.hooks, Client.onClusters]
    split
    · rename_i h; rw [h] at this; exact this
    · rename_i h; rw [h] at this; rw [cache_stats]; exact this
  | listener => exact resubscribe_other cfg c .route _ (by decide)
  | endpoint => rfl
  | route => rfl
  | nameTable => rfl
  | other u => rfl

/-- **C28** A response that fails validation is answered with an error, and the resources of its
type stay as they were. -/
theorem C28_invalid (cfg : Cfg) (c : Client) (r : Resp) (hr : c.receiving = true)
    (hs : r.typ.supported = true) (hv : r.valid = false) :
    ((c.answer cfg r).head?.map Req.isNack = some true) ∧
    ∀ n, (c.recv cfg r).get r.typ n = c.get r.typ n := by
  have hh : c.handleResponse r = (c, false) := by
    cases r <;> simp only [Resp.valid] at hv <;> subst hv <;> rfl
  obtain ⟨_, q, rest, h1, _, _, h3, _⟩ := recv_sent cfg c r hr hs
  refine ⟨by rw [h1]; simp [h3, hh], ?_⟩
  intro n
  have he : c.recv cfg r = (c.reply cfg r).hooks cfg r.typ := recv_cases cfg c r hr hs
  have hc : (c.recv cfg r).cache r.typ = c.cache r.typ := by
    rw [he, hooks_own]
    simp only [Client.reply, hh, Bool.false_eq_true, if_false]
    cases r <;> simp only [Client.nack, cache_sent]
  simp only [Client.get, hc]

example : (Client.run sotwCfg exHist).receiving = true ∧
    (Client.run sotwCfg exHist).get .cluster "web" = some exCluster ∧
    ((Client.run sotwCfg exHist).recv sotwCfg (.sotw .cluster "2" "z" false [])).get .cluster "web" = some exCluster := by
  decide +kernel

/-! ### C29: the requests -/

/-- What the resources of type `t` that the client holds ask for: names of the dependent type. -/
def Client.asks (c : Client) (t : RType) (n : String) : Prop :=
  match t with
  | .cluster => ∃ x ∈ c.list .cluster, AsksFor x n
  | .listener => n ≠ "" ∧ ∃ x ∈ c.list .listener, x.rds.head? = some n
  | _ => False

/-- Names of type `t` the client is subscribed for. -/
def Client.subs (c : Client) (t : RType) : List String := ((c.cache t).getD .empty).sub

theorem mem_refs_cluster (c : Client) (n : String) :
    n ∈ references clusterRef c.cl.res ↔ c.asks .cluster n := by
  rw [mem_references]
  simp only [Client.asks, Client.list]
  constructor
  · rintro ⟨h0, x, hx, h1⟩
    exact ⟨x, hx, (asksFor_iff x n).mpr ⟨h0, h1⟩⟩
  · rintro ⟨x, hx, h1⟩
    have := (asksFor_iff x n).mp h1
    exact ⟨this.1, x, hx, this.2⟩

theorem mem_refs_listener (c : Client) (n : String) :
    n ∈ references routeRef c.ls.res ↔ c.asks .listener n := by
  have hhead : ∀ (x : Resource), n ≠ "" → (x.rds.head? = some n ↔ routeRef x = n) := by
    intro x hn
    unfold routeRef
    cases x.rds.head? with
    | none => simp [Ne.symm hn]
    | some y => simp
  rw [mem_references]
  simp only [Client.asks, Client.list]
  constructor
  · rintro ⟨h0, x, hx, h1⟩
    exact ⟨h0, x, hx, (hhead x h0).mpr h1⟩
  · rintro ⟨h0, x, hx, h1⟩
    exact ⟨h0, x, hx, (hhead x h0).mp h1⟩

theorem references_sorted (ref : Resource → String) (m : AMap) :
    SSorted (references ref m) := ssorted_sortedSet _

/-- The dependent request of `resubscribe`. -/
theorem resubscribe_sent (cfg : Cfg) (c : Client) (dep : RType) (names : List String) :
    (c.resubscribe cfg dep names).1.sent = c.sent ++
      (if names = ((c.cache dep).getD .empty).subNames then [] else
        [if cfg.incremental then
          Req.delta dep "" (wild cfg.deltaWild names) (subtract ((c.cache dep).getD .empty).subNames names) false
         else Req.sotw dep ((c.cache dep).getD .empty).version ((c.cache dep).getD .empty).nonce
          (wild cfg.sotwWild names) false]) := by
  simp only [Client.resubscribe]
  split
  · simp
  · simp only [Client.subscribeReq, setCache_sent]
    congr 2
    split
    · rfl
    · cases hs : dep.supported with
      | true =>
        rw [cache_setCache _ _ _ hs]
        simp only [Option.getD_some, Cache.subscribe]
        split <;> rfl
      | false => cases dep <;> simp_all [RType.supported, Client.cache, Client.setCache]

theorem mem_subtract {a b : List String} {n : String} : n ∈ subtract a b ↔ n ∈ a ∧ n ∉ b := by
  simp [subtract]

theorem hooks_request (cfg : Cfg) (c : Client) (t dep : RType) (hd : dependent t = some dep) :
    ∃ names, (∀ n, n ∈ names ↔ c.asks t n) ∧ SSorted names ∧
      (c.hooks cfg t).sent = c.sent ++
        (if names = ((c.cache dep).getD .empty).subNames then [] else
          [if cfg.incremental then
            Req.delta dep "" (wild cfg.deltaWild names) (subtract ((c.cache dep).getD .empty).subNames names) false
           else Req.sotw dep ((c.cache dep).getD .empty).version ((c.cache dep).getD .empty).nonce
            (wild cfg.sotwWild names) false]) := by
  cases t with
  | cluster =>
    cases hd
    refine ⟨references clusterRef c.cl.res, mem_refs_cluster c, references_sorted _ _, ?_⟩
    have h := resubscribe_sent cfg c .endpoint (references clusterRef c.cl.res)
    rw [← h]
    simp only [Client.hooks, Client.onClusters]
    split
    · rename_i h; rw [h]
    · rename_i h; rw [h]
  | listener =>
    cases hd
    exact ⟨references routeRef c.ls.res, mem_refs_listener c, references_sorted _ _,
      resubscribe_sent cfg c .route _⟩
  | _ => cases hd

theorem reply_sub (cfg : Cfg) (c : Client) (r : Resp) (t : RType) :
    ((((c.reply cfg r).cache t).getD .empty).sub = ((c.cache t).getD .empty).sub) ∧
    (t ≠ r.typ → ((c.reply cfg r).cache t).getD .empty = ((c.handleResponse r).1.cache t).getD .empty) := by
  obtain ⟨_, _, hm⟩ := handleResponse_meta c r
  have hmt := (hm t).1
  simp only [Client.reply]
  split
  · cases r with
    | delta t' n v rs rm => exact ⟨by simp only [Client.ack, cache_sent]; exact hmt, fun _ => rfl⟩
    | sotw t' v n val rs =>
      simp only [Client.ack]
      split
      · exact ⟨by simp only [cache_sent]; exact hmt, fun _ => by simp only [cache_sent]⟩
      · rename_i ca hca
        simp only [cache_sent]
        by_cases ht : t = t'
        · subst ht
          have hs : t.supported = true := by cases t <;> simp_all [Client.cache, RType.supported]
          rw [cache_setCache _ _ _ hs]
          rw [hca] at hmt
          exact ⟨hmt, fun h => absurd rfl h⟩
        · rw [cache_setCache_ne _ _ ht]
          exact ⟨hmt, fun _ => rfl⟩
  · have h2 : (((c.handleResponse r).1.nack cfg r).cache t) = (c.handleResponse r).1.cache t := by
      cases r <;> simp only [Client.nack, cache_sent]
    rw [h2]
    exact ⟨hmt, fun _ => rfl⟩

theorem asks_hooks (cfg : Cfg) (c : Client) (t : RType) (n : String) :
    (c.hooks cfg t).asks t n ↔ c.asks t n := by
  have h := hooks_own cfg c t
  cases t <;> simp only [Client.asks, Client.list, h]

/-- **C29** The request for dependent resources.  After a cluster (listener) response, a request
for load assignments (route configurations) follows the answer exactly when what the clusters
(listeners) now ask for differs from what the client was subscribed for.  The request names
exactly what they ask for (a lone `*` is left out if the server does not know wildcards); in the
incremental protocol it unsubscribes exactly from what is no longer asked for; it is no error. -/
theorem C29_requests (cfg : Cfg) (c : Client) (r : Resp) (dep : RType) (hr : c.receiving = true)
    (hd : dependent r.typ = some dep) :
    ∃ q names, (∀ n, n ∈ names ↔ (c.recv cfg r).asks r.typ n) ∧
      ((∀ n, n ∈ c.subs dep ↔ (c.recv cfg r).asks r.typ n) → c.answer cfg r = [q]) ∧
      (¬ (∀ n, n ∈ c.subs dep ↔ (c.recv cfg r).asks r.typ n) →
        (cfg.incremental = true → ∃ unsub,
          (∀ n, n ∈ unsub ↔ n ∈ c.subs dep ∧ ¬ (c.recv cfg r).asks r.typ n) ∧
          c.answer cfg r = [q, .delta dep "" (wild cfg.deltaWild names) unsub false]) ∧
        (cfg.incremental = false → ∃ version nonce,
          c.answer cfg r = [q, .sotw dep version nonce (wild cfg.sotwWild names) false])) := by
  have hs : r.typ.supported = true := by cases h : r.typ <;> simp_all [dependent, RType.supported]
  have hne : dep ≠ r.typ := by
    intro h; rw [h] at hd; cases hT : r.typ <;> simp_all [dependent]
  obtain ⟨q, h1, _, _⟩ := reply_sent cfg c r
  have he : c.recv cfg r = (c.reply cfg r).hooks cfg r.typ := recv_cases cfg c r hr hs
  obtain ⟨names, hn, hsort, hsent⟩ := hooks_request cfg (c.reply cfg r) r.typ dep hd
  have hn' : ∀ n, n ∈ names ↔ (c.recv cfg r).asks r.typ n := fun n => by
    rw [hn, he, asks_hooks]
  have hsub := (reply_sub cfg c r dep).1
  have hsn : (((c.reply cfg r).cache dep).getD .empty).subNames = sortedSet (c.subs dep) := by
    simp only [Cache.subNames, hsub, Client.subs]
  have hiff : names = (((c.reply cfg r).cache dep).getD .empty).subNames ↔
      ∀ n, n ∈ c.subs dep ↔ (c.recv cfg r).asks r.typ n := by
    rw [hsn]
    constructor
    · intro h n
      rw [← hn', h, mem_sortedSet]
    · intro h
      exact ssorted_ext hsort (ssorted_sortedSet _) (fun x => by rw [mem_sortedSet, hn', h])
  have hans : c.answer cfg r = (c.recv cfg r).sent.drop c.sent.length := rfl
  rw [he, hsent, h1, List.append_assoc, List.drop_left] at hans
  refine ⟨q, names, hn', ?_, ?_⟩
  · intro h
    rw [hans, if_pos (hiff.mpr h)]
    rfl
  · intro h
    rw [if_neg (fun h' => h (hiff.mp h'))] at hans
    constructor
    · intro hi
      rw [if_pos hi] at hans
      refine ⟨_, ?_, hans⟩
      intro n
      rw [mem_subtract, hsn, mem_sortedSet, hn']
    · intro hi
      rw [if_neg (by simp [hi])] at hans
      exact ⟨_, _, hans⟩

/-- **C29** After a reconnection everything is asked for again: the first cluster (listener)
response after which something is asked for is followed by a request for all of it, whatever
happened before. -/
theorem C29_reconnect (cfg : Cfg) (es : List Ev) (r : Resp) (dep : RType)
    (hd : dependent r.typ = some dep)
    (hne : ∃ n, ((Client.run cfg (.connect :: es)).recv cfg r).asks r.typ n) :
    ∃ q q', (Client.run cfg (.connect :: es)).answer cfg r = [q, q'] ∧ q'.typ = dep ∧
      ∃ names, (∀ n, n ∈ names ↔ ((Client.run cfg (.connect :: es)).recv cfg r).asks r.typ n) ∧
        q' = if cfg.incremental then .delta dep "" (wild cfg.deltaWild names) [] false
             else .sotw dep (lastVersion cfg dep es) (((Client.run cfg es).cache dep).getD .empty).nonce
               (wild cfg.sotwWild names) false := by
  have hs : r.typ.supported = true := by cases h : r.typ <;> simp_all [dependent, RType.supported]
  have hds : dep.supported = true := by
    cases h : r.typ <;> simp only [dependent, h] at hd <;> cases hd <;> rfl
  have hne' : dep ≠ r.typ := by
    intro h; rw [h] at hd; cases hT : r.typ <;> simp_all [dependent]
  generalize hc : Client.run cfg (.connect :: es) = c at *
  have hr : c.receiving = true := by rw [← hc]; rfl
  have hsub0 : ((c.cache dep).getD .empty).sub = [] := by
    rw [← hc]
    cases h : r.typ <;> simp only [dependent, h] at hd <;> cases hd <;> rfl
  have hver : ((c.cache dep).getD .empty).version = lastVersion cfg dep es := by
    rw [← version_inv cfg dep hds es, ← hc]
    cases h : r.typ <;> simp only [dependent, h] at hd <;> cases hd <;> rfl
  have hnon : ((c.cache dep).getD .empty).nonce = (((Client.run cfg es).cache dep).getD .empty).nonce := by
    rw [← hc]
    cases h : r.typ <;> simp only [dependent, h] at hd <;> cases hd <;> rfl
  obtain ⟨q, h1, _, _⟩ := reply_sent cfg c r
  have he : c.recv cfg r = (c.reply cfg r).hooks cfg r.typ := recv_cases cfg c r hr hs
  obtain ⟨names, hn, hsort, hsent⟩ := hooks_request cfg (c.reply cfg r) r.typ dep hd
  have hn' : ∀ n, n ∈ names ↔ (c.recv cfg r).asks r.typ n := fun n => by
    rw [hn, he, asks_hooks]
  have hm := (handleResponse_meta c r).2.2 dep
  rw [← (reply_sub cfg c r dep).2 hne'] at hm
  have hsn : (((c.reply cfg r).cache dep).getD .empty).subNames = [] := by
    simp only [Cache.subNames, hm.1, hsub0]; rfl
  have hnn : names ≠ [] := by
    obtain ⟨n, h⟩ := hne
    intro h'
    have := (hn' n).mpr h
    rw [h'] at this
    cases this
  have hans : c.answer cfg r = (c.recv cfg r).sent.drop c.sent.length := rfl
  rw [he, hsent, h1, List.append_assoc, List.drop_left, hsn, if_neg hnn, hm.2.1, hm.2.2, hver, hnon] at hans
  refine ⟨q, _, hans, ?_, names, hn', ?_⟩
  · split <;> rfl
  · rfl

/-- The hypotheses are met, and the requests of the theorems look like this: a second cluster
response in the incremental protocol replaces one load assignment by another. -/
example :
    let es : List Ev := [.recv (.delta .cluster "a" true [("web", .good exCluster)] []), .connect]
    let r : Resp := .delta .cluster "b" true [("db", .good { exCluster with name := "db" })] ["web"]
    (Client.run deltaCfg es).answer deltaCfg r =
      [.delta .cluster "b" [] [] false, .delta .endpoint "" ["db"] ["web"] false] ∧
    (Client.run deltaCfg (.connect :: es)).answer deltaCfg r =
      [.delta .cluster "b" [] [] false, .delta .endpoint "" ["db"] [] false] := by decide +kernel

/-! ### C64: initialization -/

/-- The response brings at least one entry. -/
def Resp.brings : Resp → Bool
  | .sotw _ _ _ _ rs => !rs.isEmpty
  | .delta _ _ _ rs _ => !rs.isEmpty

/-- Since the last connection a response of type `t` that brings something was received and
accepted. -/
def primed (cfg : Cfg) (t : RType) : List Ev → Bool
  | [] => false
  | .connect :: _ => false
  | .recv r :: es => (r.typ = t && r.brings && Accepted cfg (Client.run cfg es) r) || primed cfg t es

theorem setRes_init (ca : Cache) (rs : List AnyRes) (rep : Bool) :
    (ca.setRes rs rep).1.init = (ca.init || (!rs.isEmpty && (ca.setRes rs rep).2)) := by
  unfold Cache.setRes
  cases rs with
  | nil => simp
  | cons a rs =>
    simp only [List.cons_ne_nil, if_false]
    split <;> simp

theorem setIstio_init (ca : Cache) (rs : List AnyRes) :
    (ca.setIstio rs).1.init = (ca.init || (!rs.isEmpty && (ca.setIstio rs).2)) := by
  unfold Cache.setIstio
  cases rs with
  | nil => simp
  | cons a rs =>
    simp only [List.cons_ne_nil, if_false]
    split <;> simp

theorem addIstio_init (ca : Cache) (rs : List AnyRes) :
    (ca.addIstio rs).1.init = (ca.init || (!rs.isEmpty && (ca.addIstio rs).2)) := by
  unfold Cache.addIstio
  cases rs with
  | nil => simp
  | cons a rs =>
    simp only [List.cons_ne_nil, if_false]
    split <;> simp

theorem deltaUpdate_init (t : RType) (ca : Cache) (rs : List (String × AnyRes)) (rm) (hs : t.supported = true) :
    (deltaUpdate t ca rs rm).1.init = (ca.init || (!rs.isEmpty && (deltaUpdate t ca rs rm).2)) := by
  have h1 : (match ca.add rs with
      | (ca', true) => (ca'.remove rm, true)
      | (ca', false) => (ca', false)).1.init = (ca.init || (!rs.isEmpty && (match ca.add rs with
      | (ca', true) => (ca'.remove rm, true)
      | (ca', false) => (ca', false)).2)) := by
    unfold Cache.add
    cases rs with
    | nil => simp [Cache.remove]
    | cons a rs =>
      simp only [List.cons_ne_nil, if_false]
      cases addLoop ca (a :: rs) [] <;> simp [Cache.remove]
  cases t with
  | cluster => exact h1
  | listener => exact h1
  | endpoint => exact h1
  | route => exact h1
  | nameTable =>
    simp only [deltaUpdate, addIstio_init]
    cases rs <;> simp [Cache.removeAll]
  | other u => cases hs

theorem sotwUpdate_init (t : RType) (ca : Cache) (rs : List AnyRes) (hs : t.supported = true) :
    (sotwUpdate t ca rs).1.init = (ca.init || (!rs.isEmpty && (sotwUpdate t ca rs).2)) := by
  cases t with
  | other u => cases hs
  | nameTable => exact setIstio_init ca rs
  | cluster => exact setRes_init ca rs _
  | listener => exact setRes_init ca rs _
  | endpoint => exact setRes_init ca rs _
  | route => exact setRes_init ca rs _

def Client.initOf (c : Client) (t : RType) : Bool := ((c.cache t).getD .empty).init

theorem handleResponse_init (c : Client) (r : Resp) (t : RType) (hs : r.typ.supported = true) :
    (c.handleResponse r).1.initOf t =
      (c.initOf t || (r.typ = t && r.brings && (c.handleResponse r).2)) := by
  cases r with
  | sotw t0 v n val rs =>
    simp only [Resp.typ] at hs ⊢
    simp only [Client.handleResponse]
    cases val with
    | false => simp
    | true =>
      simp only [Bool.not_true, Bool.false_eq_true, if_false]
      cases hc : c.cache t0 with
      | none => cases t0 <;> simp [Client.cache, RType.supported] at hc hs
      | some ca =>
        simp only [Client.initOf]
        by_cases ht : t = t0
        · subst ht
          rw [cache_setCache _ _ _ hs, hc]
          simp [sotwUpdate_init t ca rs hs, Resp.brings]
        · rw [cache_setCache_ne _ _ ht]
          simp [Ne.symm ht]
  | delta t0 n val rs rm =>
    simp only [Resp.typ] at hs ⊢
    simp only [Client.handleResponse]
    cases val with
    | false => simp
    | true =>
      simp only [Bool.not_true, Bool.false_eq_true, if_false]
      cases hc : c.cache t0 with
      | none => cases t0 <;> simp [Client.cache, RType.supported] at hc hs
      | some ca =>
        simp only [Client.initOf]
        by_cases ht : t = t0
        · subst ht
          rw [cache_setCache _ _ _ hs, hc]
          simp [deltaUpdate_init t ca rs rm hs, Resp.brings]
        · rw [cache_setCache_ne _ _ ht]
          simp [Ne.symm ht]

theorem resubscribe_init (cfg : Cfg) (c : Client) (dep : RType) (names : List String) (t : RType) :
    (c.resubscribe cfg dep names).1.initOf t = c.initOf t := by
  simp only [Client.resubscribe, Client.initOf]
  split
  · rfl
  · simp only [Client.subscribeReq, cache_sent]
    by_cases ht : t = dep
    · subst ht
      cases hs : t.supported with
      | true =>
        rw [cache_setCache _ _ _ hs]
        simp only [Option.getD_some, Cache.subscribe]
        split <;> split <;> rfl
      | false => cases t <;> simp_all [RType.supported, Client.cache]
    · rw [cache_setCache_ne _ _ ht]

theorem hooks_init (cfg : Cfg) (c : Client) (typ t : RType) : (c.hooks cfg typ).initOf t = c.initOf t := by
  cases typ with
  | cluster =>
    have := resubscribe_init cfg c .endpoint (references clusterRef c.cl.res) t
    simp only [Client.hooks, Client.onClusters]
    split
    · rename_i h; rw [h] at this; exact this
    · rename_i h; rw [h] at this; simp only [Client.initOf, cache_stats]; exact this
  | listener => exact resubscribe_init cfg c _ _ t
  | _ => rfl

theorem reply_init (cfg : Cfg) (c : Client) (r : Resp) (t : RType) :
    (c.reply cfg r).initOf t = (c.handleResponse r).1.initOf t := by
  simp only [Client.reply]
  split
  · cases r with
    | delta t' n v rs rm => simp only [Client.ack, Client.initOf, cache_sent]
    | sotw t' v n val rs =>
      simp only [Client.ack]
      split
      · simp only [Client.initOf, cache_sent]
      · rename_i ca hca
        simp only [Client.initOf, cache_sent]
        by_cases ht : t = t'
        · subst ht
          have hs : t.supported = true := by cases t <;> simp_all [Client.cache, RType.supported]
          rw [cache_setCache _ _ _ hs, hca]; rfl
        · rw [cache_setCache_ne _ _ ht]
  · cases r <;> simp only [Client.nack, Client.initOf, cache_sent]

theorem init_inv (cfg : Cfg) (t : RType) (hs : t.supported = true) : ∀ es : List Ev,
    (Client.run cfg es).initOf t = primed cfg t es
  | [] => by cases t <;> rfl
  | .connect :: es => by cases t <;> first | rfl | cases hs
  | .recv r :: es => by
    have ih := init_inv cfg t hs es
    simp only [Client.run, Client.step, primed]
    generalize hc : Client.run cfg es = c at ih
    cases hr : c.receiving with
    | false =>
      have hna : Accepted cfg c r = false := by simp [Accepted, Client.answer, Client.recv, hr]
      have h0 : c.recv cfg r = c := by simp [Client.recv, hr]
      rw [h0, ih, hna]; simp
    | true =>
      cases hsup : r.typ.supported with
      | false =>
        have h0 : ((c.recv cfg r).cache t) = c.cache t := by
          simp only [Client.recv, hr, hsup]
          cases t <;> rfl
        have hna : Accepted cfg c r = false := by
          simp [Accepted, Client.answer, Client.recv, hr, hsup]
        simp only [Client.initOf, h0] at ih ⊢
        rw [ih, hna]; simp
      | true =>
        have hacc : Accepted cfg c r = (c.handleResponse r).2 := by
          obtain ⟨_, q, rest, h1, _, _, h3, _⟩ := recv_sent cfg c r hr hsup
          simp only [Accepted, h1, List.head?_cons, Option.map_some, h3]
          cases (c.handleResponse r).2 <;> rfl
        rw [show c.recv cfg r = (c.reply cfg r).hooks cfg r.typ from recv_cases cfg c r hr hsup,
          hooks_init, reply_init, handleResponse_init c r t hsup, hacc, ih, Bool.or_comm]

/-- **C64** After any history, the client answers lookups if and only if since the last
connection it has received and accepted, for every type the server provides, a response that
brings something. -/
theorem C64_initialized (cfg : Cfg) (p : Provided) (es : List Ev) :
    (Client.run cfg es).isInitialized p = true ↔
      (p.cluster = true → primed cfg .cluster es = true) ∧
      (p.endpoint = true → primed cfg .endpoint es = true) ∧
      (p.listener = true → primed cfg .listener es = true) ∧
      (p.route = true → primed cfg .route es = true) ∧
      (p.nameTable = true → primed cfg .nameTable es = true) := by
  have h := fun t hs => init_inv cfg t hs es
  have h1 := h .cluster rfl
  have h2 := h .endpoint rfl
  have h3 := h .listener rfl
  have h4 := h .route rfl
  have h5 := h .nameTable rfl
  simp only [Client.initOf, Client.cache, Option.getD_some] at h1 h2 h3 h4 h5
  rw [← h1, ← h2, ← h3, ← h4, ← h5]
  simp only [Client.isInitialized]
  grind

/-- A server with all five services that has sent something of each. -/
def exAll : Provided := { cluster := true, endpoint := true, listener := true, route := true, nameTable := true }

def exFull : List Ev :=
  [.recv (.sotw .nameTable "1" "e" true [.table [("web", some exEndpoint)]]),
   .recv (.sotw .route "1" "d" true [.good { name := "r", eds := false, service := "", rds := [], tag := 5 }]),
   .recv (.sotw .listener "1" "c" true [.good { name := "in", eds := false, service := "", rds := ["r"], tag := 0 }])]
   ++ exHist

/-- Both sides hold for a complete history, and neither after a reconnection. -/
example : (Client.run sotwCfg exFull).isInitialized exAll = true ∧
    (Client.run sotwCfg (.connect :: exFull)).isInitialized exAll = false := by decide +kernel

/-- No event of the history brings a resource of type `t`. -/
def Silent (t : RType) (es : List Ev) : Prop :=
  ∀ e ∈ es, ∀ r, e = .recv r → r.typ = t → r.brings = false

theorem primed_silent (cfg : Cfg) (t : RType) : ∀ es, Silent t es → primed cfg t es = false
  | [], _ => rfl
  | .connect :: _, _ => rfl
  | .recv r :: es, h => by
    have hb := h (.recv r) (by simp) r rfl
    have ih := primed_silent cfg t es (fun e he => h e (List.mem_cons_of_mem _ he))
    simp only [primed, ih, Bool.or_false]
    by_cases ht : r.typ = t
    · simp [hb ht]
    · simp [ht]

/-- **C176 (fails: it may never answer)** If the mesh simply has no resource of one of the provided
types, so that all responses of this type are empty, the client never answers any lookup,
whatever else it has received. -/
theorem C176_empty_type_false (cfg : Cfg) (es : List Ev) (hsil : Silent .route es) :
    (Client.run cfg es).isInitialized exAll = false := by
  have h := init_inv cfg .route rfl es
  rw [primed_silent cfg .route es hsil] at h
  simp only [Client.initOf, Client.cache, Option.getD_some] at h
  simp [Client.isInitialized, exAll, h]

/-- A mesh without routes: everything else is there, and an empty route response was accepted. -/
example :
    let es : List Ev := [.recv (.sotw .route "1" "d" true []),
      .recv (.sotw .nameTable "1" "e" true [.table [("web", some exEndpoint)]]),
      .recv (.sotw .listener "1" "c" true [.good { name := "in", eds := false, service := "", rds := [], tag := 0 }])]
      ++ exHist
    (Client.run sotwCfg es).isInitialized exAll = false ∧
    (Client.run sotwCfg es).isInitialized { exAll with route := false } = true := by decide +kernel

end Verif.Ads
