import Verif.Wasm.Http
/-
Property theorems C110 (a wrapped handler answers as it would by itself), C111 (… whatever it does), C112 (which requests reach the
application, order of the phases), C113 (failures are visible), C114 (round trips), C115 (contexts and bodies of round trips),
C116 (gRPC calls).
-/
namespace Verif.Props.WasmHttp
open Verif.Heimdall Verif.Wasm.Http

/-! ### specification: handlers that use the writer as documented -/

/-- a status that ends the headers -/
def Final (c : Nat) : Prop := 200 ≤ c ∧ c ≤ 999

/-- Header changes come before the status and the status before the body; afterwards only trailers are set. The flag tells whether
the headers are decided. -/
def Ordered : Bool → List Op → Prop
  | _, [] => True
  | b, .setH k _ :: l => (b = true → isTrailer k = true) ∧ Ordered b l
  | b, .addH k _ :: l => (b = true → isTrailer k = true) ∧ Ordered b l
  | b, .delH k :: l => (b = true → isTrailer k = true) ∧ Ordered b l
  | b, .writeHeader c :: l => b = false ∧ Final c ∧ Ordered true l
  | _, .write _ :: l => Ordered true l
  | _, .flush :: l => Ordered true l

/-- the response a client gets for a status, headers and a body -/
def plain (c : Nat) (h : Hdr) (b : Body) : Client :=
  .got c (h.filter fun e => !isTrailer e.1) (if noBody c then [] else b) (h.filter fun e => isTrailer e.1)

/-! ### lemmas -/

def nt (h : Hdr) : Hdr := h.filter fun e => !isTrailer e.1

theorem nt_set {h : Hdr} {k v : Str} (hk : isTrailer k = true) : nt (h.set k v) = nt h := by
  unfold nt Hdr.set
  rw [List.filter_append, List.filter_filter]
  have : ([(k, v)] : Hdr).filter (fun e => !isTrailer e.1) = [] := by simp [hk]
  rw [this, List.append_nil]
  refine List.filter_congr ?_
  intro e _
  by_cases he : e.1 = k
  · simp [he, hk]
  · simp [he]

theorem nt_add {h : Hdr} {k v : Str} (hk : isTrailer k = true) : nt (h.add k v) = nt h := by
  unfold nt Hdr.add
  rw [List.filter_append]
  simp [hk]

theorem nt_del {h : Hdr} {k : Str} (hk : isTrailer k = true) : nt (h.del k) = nt h := by
  unfold nt Hdr.del
  rw [List.filter_filter]
  refine List.filter_congr ?_
  intro e _
  by_cases he : e.1 = k
  · simp [he, hk]
  · simp [he]

/-- the writer of net/http and the wrapper's, given the same operations -/
def Rel (b : Bool) (w : W) (c : Crw) : Prop :=
  w.hdr = c.hdr ∧
  match b with
  | false => w.sent = none ∧ w.body = [] ∧ c.body = [] ∧ c.status = 0
  | true => ∃ st h, w.sent = some (st, h) ∧ Final st ∧ st = (if c.status = 0 then 200 else c.status) ∧ nt h = nt c.hdr ∧
      w.body = if noBody st then [] else c.body

theorem start_none {w : W} (h : w.sent = none) : w.start = { w with sent := some (200, w.hdr) } := by
  unfold W.start W.writeHeader
  rw [if_pos ⟨h, by omega⟩]

theorem start_some {w : W} {x : Nat × Hdr} (h : w.sent = some x) : w.start = w := by
  unfold W.start W.writeHeader
  rw [if_neg]
  rw [h]; rintro ⟨h, _⟩; cases h

theorem rel_start {b : Bool} {w : W} {c : Crw} (h : Rel b w c) : Rel true w.start c := by
  cases b with
  | false =>
    obtain ⟨h1, h2, h3, h4, h5⟩ := h
    rw [start_none h2]
    exact ⟨h1, 200, w.hdr, rfl, ⟨by omega, by omega⟩, by rw [h5]; rfl, by rw [h1], by rw [h3, h4]; rfl⟩
  | true =>
    obtain ⟨h1, st, hd, h2, h3⟩ := h
    rw [start_some h2]
    exact ⟨h1, st, hd, h2, h3⟩

theorem rel_write {w : W} {c : Crw} (h : Rel true w c) (b : Body) : Rel true (w.write b) { c with body := c.body ++ b } := by
  obtain ⟨h1, st, hd, h2, h3, h4, h5, h6⟩ := h
  unfold W.write
  rw [start_some h2]
  simp only [h2]
  by_cases hn : noBody st = true
  · rw [if_pos hn]
    rw [if_pos hn] at h6
    exact ⟨h1, st, hd, h2, h3, h4, h5, by rw [h6, if_pos hn]⟩
  · rw [if_neg hn]
    rw [if_neg hn] at h6
    exact ⟨h1, st, hd, rfl, h3, h4, h5, by rw [h6, if_neg hn]⟩

theorem rel_op {b : Bool} {w : W} {c : Crw} (h : Rel b w c) (l : List Op) (ho : Ordered b l) :
    ∃ b', Rel b' (l.foldl W.op w) (l.foldl Crw.op c) := by
  induction l generalizing b w c with
  | nil => exact ⟨b, h⟩
  | cons o l ih =>
    rw [List.foldl_cons, List.foldl_cons]
    cases o with
    | setH k v =>
      refine ih ?_ ho.2
      cases b with
      | false => exact ⟨by simp only [W.op, Crw.op]; rw [h.1], h.2⟩
      | true =>
        obtain ⟨h1, st, hd, h2, h3, h4, h5, h6⟩ := h
        exact ⟨by simp only [W.op, Crw.op]; rw [h1], st, hd, h2, h3, h4, h5.trans (nt_set (ho.1 rfl)).symm, h6⟩
    | addH k v =>
      refine ih ?_ ho.2
      cases b with
      | false => exact ⟨by simp only [W.op, Crw.op]; rw [h.1], h.2⟩
      | true =>
        obtain ⟨h1, st, hd, h2, h3, h4, h5, h6⟩ := h
        exact ⟨by simp only [W.op, Crw.op]; rw [h1], st, hd, h2, h3, h4, h5.trans (nt_add (ho.1 rfl)).symm, h6⟩
    | delH k =>
      refine ih ?_ ho.2
      cases b with
      | false => exact ⟨by simp only [W.op, Crw.op]; rw [h.1], h.2⟩
      | true =>
        obtain ⟨h1, st, hd, h2, h3, h4, h5, h6⟩ := h
        exact ⟨by simp only [W.op, Crw.op]; rw [h1], st, hd, h2, h3, h4, h5.trans (nt_del (ho.1 rfl)).symm, h6⟩
    | writeHeader k =>
      obtain ⟨rfl, hf, ho⟩ := ho
      refine ih (b := true) ?_ ho
      obtain ⟨h1, h2, h3, h4, h5⟩ := h
      have : w.op (.writeHeader k) = { w with sent := some (k, w.hdr) } := by
        show w.writeHeader k = _
        unfold W.writeHeader
        rw [if_pos ⟨h2, by have := hf.1; omega⟩]
      rw [this]
      have hk : k ≠ 0 := by have := hf.1; omega
      exact ⟨h1, k, w.hdr, rfl, hf, by show k = if k = 0 then 200 else k; rw [if_neg hk], by rw [h1]; rfl, by rw [h3]; simp [Crw.op, h4]⟩
    | write bs =>
      refine ih (b := true) ?_ ho
      have h1 := rel_write (rel_start h) bs
      have h2 : (w.start).write bs = w.write bs := by
        obtain ⟨_, st, hd, h3, _⟩ := rel_start h
        unfold W.write
        rw [start_some h3]
      rw [h2] at h1
      exact h1
    | flush =>
      refine ih (b := true) ?_ ho
      obtain ⟨h1, st, hd, h2, h3⟩ := rel_start h
      exact ⟨h1, st, hd, h2, h3⟩

/-- the wrapper writes the response it holds -/
theorem write_plain (fl : Bool) (r : Resp) (c : Nat) (hc : Final c) (hs : r.status = c) : writeResponse fl r = plain c r.header r.body := by
  unfold writeResponse
  have h1 : ¬ (r.status < 100 ∨ 999 < r.status) := by rw [hs]; have := hc.1; have := hc.2; omega
  rw [if_neg h1, hs, Int.toNat_natCast]
  have h2 : W.writeHeader { hdr := r.header } c = { hdr := r.header, sent := some (c, r.header) } := by
    unfold W.writeHeader
    rw [if_pos ⟨rfl, by have := hc.1; omega⟩]
  have h3 : ∀ s : Option Body, ((if r.body = [] then ({ hdr := r.header, sent := some (c, r.header), seen := s } : W)
      else W.write { hdr := r.header, sent := some (c, r.header), seen := s } r.body).finish) = plain c r.header r.body := by
    intro s
    by_cases hb : r.body = []
    · rw [if_pos hb]
      unfold W.finish
      rw [start_some (x := (c, r.header)) rfl]
      unfold plain
      rw [hb]
      simp
    · rw [if_neg hb]
      unfold W.write
      rw [start_some (x := (c, r.header)) rfl]
      simp only
      by_cases hn : noBody c = true
      · rw [if_pos hn]
        unfold W.finish
        rw [start_some (x := (c, r.header)) rfl]
        unfold plain
        rw [if_pos hn]
      · rw [if_neg hn]
        unfold W.finish
        rw [start_some (x := (c, r.header)) rfl]
        unfold plain
        rw [if_neg hn]
        rfl
  simp only [h2]
  cases fl with
  | false => exact h3 none
  | true =>
    have : W.flush { hdr := r.header, sent := some (c, r.header) } = { hdr := r.header, sent := some (c, r.header), seen := some [] } := by
      unfold W.flush
      rw [start_some (x := (c, r.header)) rfl]
    rw [if_pos rfl, this]
    exact h3 _

/-- the request as the middlewares get it -/
def given (req : Req) : Req := { req with header := req.header.add ":method".toList req.method }

/-- a filter has answered -/
def replied (out : ReqOut) : Bool := match out.reply with
  | some (c, _) => decide (0 < c)
  | none => false

theorem stream_app {e : Env} {app : App} {req : Req} (hf : ¬ (e.grpcServer = true ∧ ¬ e.flusher = true))
    (he : (e.filterReq (e.before (given req))).err = false) (hr : replied (e.filterReq (e.before (given req))) = false) :
    serveStream e app req = (.beforeReq :: .filterReq :: (runApp e app (e.filterReq (e.before (given req)))).1,
      (runApp e app (e.filterReq (e.before (given req)))).2) := by
  unfold serveStream
  rw [if_neg hf]
  unfold given at *
  simp only
  generalize e.filterReq (e.before { req with header := req.header.add ":method".toList req.method }) = out at *
  rw [if_neg (by simp [he])]
  unfold replied at hr
  cases hrep : out.reply with
  | none => rfl
  | some cb =>
    obtain ⟨c, b⟩ := cb
    rw [hrep] at hr
    simp only
    rw [if_neg (of_decide_eq_false hr)]

theorem replied_false {out : ReqOut} : replied out = false ↔ ∀ c b, out.reply = some (c, b) → c ≤ 0 := by
  unfold replied
  cases out.reply with
  | none => simp
  | some cb =>
    obtain ⟨c, b⟩ := cb
    simp only [decide_eq_false_iff_not, Option.some.injEq, Prod.mk.injEq]
    constructor
    · rintro h c' b' ⟨rfl, rfl⟩; omega
    · intro h; have := h c b ⟨rfl, rfl⟩; omega

theorem serve_app {e : Env} {app : App} {req : Req} {out : ReqOut} {ops : List Op} (hs : e.stream = true)
    (hf : ¬ (e.grpcServer = true ∧ ¬ e.flusher = true)) (ho : e.filterReq (e.before (given req)) = out)
    (he : out.err = false) (hr : ∀ c b, out.reply = some (c, b) → c ≤ 0) (ha : app out.req = (ops, false)) (r : Resp)
    (hresp : let w := ops.foldl Crw.op { hdr := out.hdr }
      e.filterResp (e.beforeResp ⟨if w.status = 0 then 200 else w.status, w.hdr, w.body⟩) = some r) :
    (serve e app req).2 = writeResponse e.flusher (e.afterResp r) := by
  unfold serve
  rw [if_pos hs]
  simp only
  rw [stream_app hf (by rw [ho]; exact he) (by rw [ho]; exact replied_false.mpr hr), ho]
  unfold runApp
  rw [ha, if_neg (by simp)]
  simp only at hresp ⊢
  rw [hresp]

/-! ### C110, C111 -/

/-- **C110** With filters and middlewares that let the response pass as it is, the client of a wrapped handler gets exactly the status,
headers, body and trailers it would get from the handler itself (given the request as the filters left it), for every handler that
uses its writer in the documented order. -/
theorem C110_transparent (e : Env) (app : App) (req : Req) (out : ReqOut) (ops : List Op) (hs : e.stream = true)
    (hf : ¬ (e.grpcServer = true ∧ ¬ e.flusher = true)) (ho : e.filterReq (e.before (given req)) = out)
    (he : out.err = false) (hr : ∀ c b, out.reply = some (c, b) → c ≤ 0) (ha : app out.req = (ops, false))
    (h1 : ∀ r, e.beforeResp r = r) (h2 : ∀ r, e.filterResp r = some r) (h3 : ∀ r, e.afterResp r = r) (hord : Ordered false ops) :
    (serve e app req).2 = (ops.foldl W.op { hdr := out.hdr }).finish := by
  obtain ⟨b, h1', hb⟩ := rel_op (b := false) (w := { hdr := out.hdr }) (c := { hdr := out.hdr }) ⟨rfl, rfl, rfl, rfl, rfl⟩ ops hord
  rw [serve_app hs hf ho he hr ha _ (by simp only; rw [h1]; exact h2 _), h3]
  generalize ops.foldl W.op { hdr := out.hdr } = w at *
  generalize ops.foldl Crw.op { hdr := out.hdr } = c at *
  have hst : Rel true w.start c := rel_start (b := b) ⟨h1', hb⟩
  obtain ⟨g1, st, hd, g2, g3, g4, g5, g6⟩ := hst
  have hfin : w.finish = .got st (nt hd) w.start.body (w.start.hdr.filter fun e => isTrailer e.1) := by
    unfold W.finish
    simp only [g2]
    rfl
  rw [hfin, write_plain _ _ st g3 (by show ((if c.status = 0 then (200 : Int) else c.status) = st); rw [g4]; split <;> simp), g1, g6, g5]
  rfl

/-- **C110** Whatever the filters and middlewares make of the response is what the client gets. -/
theorem C110_filtered (e : Env) (app : App) (req : Req) (out : ReqOut) (ops : List Op) (hs : e.stream = true)
    (hf : ¬ (e.grpcServer = true ∧ ¬ e.flusher = true)) (ho : e.filterReq (e.before (given req)) = out)
    (he : out.err = false) (hr : ∀ c b, out.reply = some (c, b) → c ≤ 0) (ha : app out.req = (ops, false)) (r : Resp)
    (hresp : let w := ops.foldl Crw.op { hdr := out.hdr }
      e.filterResp (e.beforeResp ⟨if w.status = 0 then 200 else w.status, w.hdr, w.body⟩) = some r)
    (c : Nat) (hc : Final c) (hst : (e.afterResp r).status = c) :
    (serve e app req).2 = plain c (e.afterResp r).header (e.afterResp r).body := by
  rw [serve_app hs hf ho he hr ha r hresp, write_plain _ _ c hc hst]

/-- **C110** A response sent by a filter is what the client gets, and the application is not called. -/
theorem C110_reply (e : Env) (app : App) (req : Req) (out : ReqOut) (c : Nat) (b : Body) (hs : e.stream = true)
    (hf : ¬ (e.grpcServer = true ∧ ¬ e.flusher = true)) (ho : e.filterReq (e.before (given req)) = out)
    (he : out.err = false) (hr : out.reply = some ((c : Int), b)) (hc : Final c) :
    (serve e app req).2 = plain c out.hdr b ∧ ∀ r, Ev.app r ∉ (serve e app req).1 := by
  have h : serve e app req = (.newStream true :: [.beforeReq, .filterReq, .reply] ++ [.closeStream], writeResponse e.flusher ⟨c, out.hdr, b⟩) := by
    unfold serve
    rw [if_pos hs]
    simp only
    unfold serveStream
    rw [if_neg hf]
    unfold given at ho
    simp only [ho, he]
    rw [if_neg (by simp), hr]
    simp only
    rw [if_pos (by have := hc.1; omega)]
  rw [h]
  refine ⟨write_plain _ _ c hc rfl, ?_⟩
  intro r
  simp

/-- an application that sets a header, answers 404 and sets a trailer at the end -/
def sample : List Op := [.setH "A".toList "1".toList, .writeHeader 404, .write [1, 2], .flush, .write [3], .setH "Trailer:T".toList "x".toList]

example : Ordered false sample := ⟨by simp, rfl, ⟨by omega, by omega⟩, by decide, trivial⟩
example : (serve {} (fun _ => (sample, false)) ⟨"GET".toList, ([], []), [], none, 1⟩).2 =
    .got 404 [("A".toList, "1".toList)] [1, 2, 3] [("Trailer:T".toList, "x".toList)] := by decide +kernel
example : (serve { filterReq := fun r => { req := r, reply := some (403, [7]) } } (fun _ => (sample, false))
    ⟨"GET".toList, ([], []), [], none, 1⟩).2 = .got 403 [] [7] [] := by decide +kernel

def get : Req := ⟨"GET".toList, ("h".toList, "/".toList), [], none, 1⟩

/-- `WriteHeader` is never called after a byte was written, the headers were flushed or it was called before -/
def StatusFirst : Bool → List Op → Prop
  | _, [] => True
  | b, .writeHeader c :: l => b = false ∧ Final c ∧ StatusFirst true l
  | _, .write _ :: l => StatusFirst true l
  | _, .flush :: l => StatusFirst true l
  | b, _ :: l => StatusFirst b l

def Client.statusBody : Client → Option (Nat × Body)
  | .aborted => none
  | .got c _ b _ => some (c, b)

def Rel2 (b : Bool) (w : W) (c : Crw) : Prop :=
  w.hdr = c.hdr ∧
  match b with
  | false => w.sent = none ∧ w.body = [] ∧ c.body = [] ∧ c.status = 0
  | true => ∃ st h, w.sent = some (st, h) ∧ Final st ∧ st = (if c.status = 0 then 200 else c.status) ∧
      w.body = if noBody st then [] else c.body

theorem rel2_start {b : Bool} {w : W} {c : Crw} (h : Rel2 b w c) : Rel2 true w.start c := by
  cases b with
  | false =>
    obtain ⟨h1, h2, h3, h4, h5⟩ := h
    rw [start_none h2]
    exact ⟨h1, 200, w.hdr, rfl, ⟨by omega, by omega⟩, by rw [h5]; rfl, by rw [h3, h4]; rfl⟩
  | true =>
    obtain ⟨h1, st, hd, h2, h3⟩ := h
    rw [start_some h2]
    exact ⟨h1, st, hd, h2, h3⟩

theorem rel2_op {b : Bool} {w : W} {c : Crw} (h : Rel2 b w c) (l : List Op) (ho : StatusFirst b l) :
    ∃ b', Rel2 b' (l.foldl W.op w) (l.foldl Crw.op c) := by
  induction l generalizing b w c with
  | nil => exact ⟨b, h⟩
  | cons o l ih =>
    rw [List.foldl_cons, List.foldl_cons]
    have hdr : ∀ f : Hdr → Hdr, Rel2 b { w with hdr := f w.hdr } { c with hdr := f c.hdr } := by
      intro f
      cases b with
      | false => exact ⟨by simp only; rw [h.1], h.2⟩
      | true => exact ⟨by simp only; rw [h.1], h.2⟩
    cases o with
    | setH k v => exact ih (hdr fun x => x.set k v) ho
    | addH k v => exact ih (hdr fun x => x.add k v) ho
    | delH k => exact ih (hdr fun x => x.del k) ho
    | writeHeader k =>
      obtain ⟨rfl, hf, ho⟩ := ho
      refine ih (b := true) ?_ ho
      obtain ⟨h1, h2, h3, h4, h5⟩ := h
      have : w.op (.writeHeader k) = { w with sent := some (k, w.hdr) } := by
        show w.writeHeader k = _
        unfold W.writeHeader
        rw [if_pos ⟨h2, by have := hf.1; omega⟩]
      rw [this]
      have hk : k ≠ 0 := by have := hf.1; omega
      exact ⟨h1, k, w.hdr, rfl, hf, by show k = if k = 0 then 200 else k; rw [if_neg hk], by rw [h3]; simp [Crw.op, h4]⟩
    | write bs =>
      refine ih (b := true) ?_ ho
      obtain ⟨h1, st, hd, h2, h3, h4, h6⟩ := rel2_start h
      show Rel2 true (w.write bs) { c with body := c.body ++ bs }
      unfold W.write
      simp only [h2]
      by_cases hn : noBody st = true
      · rw [if_pos hn] at h6 ⊢
        exact ⟨h1, st, hd, h2, h3, h4, by rw [h6, if_pos hn]⟩
      · rw [if_neg hn] at h6 ⊢
        exact ⟨h1, st, hd, by simp only [h2], h3, h4, by simp only; rw [h6, if_neg hn]⟩
    | flush =>
      refine ih (b := true) ?_ ho
      obtain ⟨h1, st, hd, h2, h3⟩ := rel2_start h
      exact ⟨h1, st, hd, h2, h3⟩

/-- **C111** (partial) For every handler, in order or not, that does not panic and never calls `WriteHeader` after it has written,
flushed or called it before, the status and the body are those it would send itself. -/
theorem C111_status_partial (app : App) (req : Req) (ops : List Op) (ha : app (given req) = (ops, false)) (ho : StatusFirst false ops) :
    Client.statusBody (serve {} app req).2 = Client.statusBody (ops.foldl W.op { hdr := [] }).finish := by
  obtain ⟨b, h1', hb⟩ := rel2_op (b := false) (w := { hdr := [] }) (c := { hdr := [] }) ⟨rfl, rfl, rfl, rfl, rfl⟩ ops ho
  rw [serve_app (out := { req := given req }) rfl (by simp) rfl rfl (by simp) ha _ rfl]
  generalize ops.foldl W.op { hdr := [] } = w at *
  generalize ops.foldl Crw.op { hdr := [] } = c at *
  obtain ⟨g1, st, hd, g2, g3, g4, g6⟩ := rel2_start (b := b) ⟨h1', hb⟩
  have hfin : w.finish = .got st (nt hd) w.start.body (w.start.hdr.filter fun e => isTrailer e.1) := by
    unfold W.finish
    simp only [g2]
    rfl
  rw [hfin, g6]
  show Client.statusBody (writeResponse true _) = _
  rw [write_plain _ _ st g3 (by show ((if c.status = 0 then (200 : Int) else c.status) = st); rw [g4]; split <;> simp)]
  rfl

/-- **C111** fails for a handler that answers twice (an error page after the answer, as `http.Error` does): by itself the first
status counts, wrapped the last one. -/
theorem C111_status_false : let ops : List Op := [.writeHeader 200, .write [1], .writeHeader 500, .write [2]]
    (serve {} (fun _ => (ops, false)) get).2 = .got 500 [] [1, 2] [] ∧ (ops.foldl W.op { hdr := [] }).finish = .got 200 [] [1, 2] [] := by
  decide +kernel

/-- **C111** fails for headers set after the body has begun: by themselves they are not sent, wrapped they are. -/
theorem C111_header_false : let ops : List Op := [.write [1], .setH "A".toList "1".toList]
    (serve {} (fun _ => (ops, false)) get).2 = .got 200 [("A".toList, "1".toList)] [1] [] ∧
    (ops.foldl W.op { hdr := [] }).finish = .got 200 [] [1] [] := by decide +kernel

/-- **C111** fails for streaming: what a handler flushes reaches the client at once, wrapped nothing does before it returns, whatever
it does. -/
theorem C111_stream_false : ([Op.write [1], .flush].foldl W.op { hdr := [] }).seen = some [1] ∧
    ∀ (ops : List Op) (c : Crw), (ops.foldl Crw.op c).seen = c.seen := by
  refine ⟨by decide +kernel, ?_⟩
  intro ops c
  induction ops generalizing c with
  | nil => rfl
  | cons o l ih =>
    rw [List.foldl_cons, ih]
    cases o <;> rfl

/-- **C111** fails for the request: the application sees a header nobody has sent. -/
theorem C111_request_false : Ev.app { get with header := [(":method".toList, "GET".toList)] } ∈ (serve {} (fun _ => ([], false)) get).1 := by
  decide +kernel

/-! ### C112 -/

/-- the phases of a request in order -/
def phases (r : Req) : List Ev := [.beforeReq, .filterReq, .app r, .afterReq, .beforeResp, .filterResp, .afterResp, .reply]

theorem runApp_events (e : Env) (app : App) (out : ReqOut) : ∃ l, (runApp e app out).1 = .app out.req :: l ∧
    l.Sublist [.afterReq, .beforeResp, .filterResp, .afterResp, .reply] := by
  unfold runApp
  cases h : (app out.req).2 with
  | true => rw [if_pos rfl]; exact ⟨[], rfl, List.nil_sublist _⟩
  | false =>
    rw [if_neg (by simp)]
    simp only
    cases e.filterResp _ with
    | none => exact ⟨_, rfl, by simp⟩
    | some r => exact ⟨_, rfl, List.Sublist.refl _⟩

/-- **C112** The application gets a request exactly if the stream could be created, the filters and middlewares have let it pass without
error and no filter has answered it, and then as they have left it. -/
theorem C112_gate (e : Env) (app : App) (req r : Req) :
    Ev.app r ∈ (serve e app req).1 ↔
      e.stream = true ∧ ¬ (e.grpcServer = true ∧ ¬ e.flusher = true) ∧ (e.filterReq (e.before (given req))).err = false ∧
      (∀ c b, (e.filterReq (e.before (given req))).reply = some (c, b) → c ≤ 0) ∧ r = (e.filterReq (e.before (given req))).req := by
  rw [← replied_false]
  unfold serve
  cases hs : e.stream with
  | false => simp
  | true =>
    rw [if_pos rfl]
    simp only
    by_cases h1 : e.grpcServer = true ∧ ¬ e.flusher = true
    · unfold serveStream; rw [if_pos h1]; simp [h1]
    cases h2 : (e.filterReq (e.before (given req))).err with
    | true =>
      unfold serveStream; rw [if_neg h1]
      unfold given at h2
      simp only
      rw [if_pos h2]; simp
    | false =>
      cases h3 : replied (e.filterReq (e.before (given req))) with
      | true =>
        unfold serveStream; rw [if_neg h1]
        unfold given at *
        simp only
        generalize e.filterReq (e.before { req with header := req.header.add ":method".toList req.method }) = out at *
        rw [if_neg (by simp [h2])]
        unfold replied at h3
        cases hrep : out.reply with
        | none => rw [hrep] at h3; cases h3
        | some cb =>
          obtain ⟨c, b⟩ := cb
          rw [hrep] at h3
          simp only
          rw [if_pos (of_decide_eq_true h3)]
          simp
      | false =>
        rw [stream_app h1 h2 h3]
        obtain ⟨l, h4, h5⟩ := runApp_events e app (e.filterReq (e.before (given req)))
        rw [h4]
        have h6 : Ev.app r ∉ l := fun h => by have := h5.subset h; simp at this
        simp only [List.cons_append, List.mem_cons, List.mem_append, h6]
        constructor
        · intro h; simp at h; exact ⟨trivial, h1, trivial, trivial, h⟩
        · rintro ⟨-, -, -, -, h⟩; simp [h]

/-- **C112** The phases run in order, each at most once, and a stream that was created is closed exactly once and last, whatever fails or
panics. -/
theorem C112_phases (e : Env) (app : App) (req : Req) (hs : e.stream = true) :
    ∃ r l, (serve e app req).1 = .newStream true :: l ++ [.closeStream] ∧ l.Sublist (phases r) ∧ Ev.closeStream ∉ l := by
  unfold serve
  rw [if_pos hs]
  simp only
  refine ⟨(e.filterReq (e.before (given req))).req, _, rfl, ?_⟩
  have D : ∀ l : List Ev, l.Sublist (phases (e.filterReq (e.before (given req))).req) →
      l.Sublist (phases (e.filterReq (e.before (given req))).req) ∧ Ev.closeStream ∉ l := by
    intro l hl
    refine ⟨hl, fun h => ?_⟩
    have := hl.subset h
    simp [phases] at this
  have R : (Ev.beforeReq :: .filterReq :: (runApp e app (e.filterReq (e.before (given req)))).1).Sublist
      (phases (e.filterReq (e.before (given req))).req) := by
    obtain ⟨l, h4, h5⟩ := runApp_events e app (e.filterReq (e.before (given req)))
    rw [h4]
    exact ((h5.cons_cons _).cons_cons _).cons_cons _
  by_cases h1 : e.grpcServer = true ∧ ¬ e.flusher = true
  · unfold serveStream; rw [if_pos h1]; exact D _ (List.nil_sublist _)
  cases h2 : (e.filterReq (e.before (given req))).err with
  | true =>
    refine D _ ?_
    unfold serveStream; rw [if_neg h1]
    unfold given at *
    simp only
    rw [if_pos h2]; simp [phases]
  | false =>
    cases h3 : replied (e.filterReq (e.before (given req))) with
    | false => rw [stream_app h1 h2 h3]; exact D _ R
    | true =>
      refine D _ ?_
      unfold serveStream; rw [if_neg h1]
      unfold given at *
      simp only
      generalize e.filterReq (e.before { req with header := req.header.add ":method".toList req.method }) = out at *
      rw [if_neg (by simp [h2])]
      unfold replied at h3
      cases hrep : out.reply with
      | none => rw [hrep] at h3; cases h3
      | some cb =>
        obtain ⟨c, b⟩ := cb
        rw [hrep] at h3
        simp only
        rw [if_pos (of_decide_eq_true h3)]
        simp [phases]

/-- **C112** Without a stream nothing happens. -/
theorem C112_nothing (e : Env) (app : App) (req : Req) (hs : e.stream = false) : (serve e app req).1 = [.newStream false] := by
  unfold serve
  rw [hs]; rfl

example : (serve {} (fun _ => ([], true)) get).1 = [.newStream true, .beforeReq, .filterReq, .app (given get), .closeStream] := by decide +kernel

/-! ### C113 -/

/-- **C113** (partial) A request whose filters failed never gets a body. -/
theorem C113_empty_partial (e : Env) (app : App) (req : Req) (hs : e.stream = true)
    (hf : ¬ (e.grpcServer = true ∧ ¬ e.flusher = true)) (he : (e.filterReq (e.before (given req))).err = true) :
    ∃ h t, (serve e app req).2 = .got 200 h [] t := by
  unfold serve
  rw [if_pos hs]
  simp only
  unfold serveStream
  rw [if_neg hf]
  unfold given at he
  simp only
  rw [if_pos he]
  exact ⟨_, _, rfl⟩

/-- **C113** fails: a request that no filter has approved is answered with success: when the stream cannot be created, when a filter
fails on the request, and when a filter fails on the response. -/
theorem C113_failure_false (app : App) (req : Req) :
    (serve { stream := false } app req).2 = .got 200 [] [] [] ∧
    (serve { filterReq := fun r => { req := r, err := true } } app req).2 = .got 200 [] [] [] ∧
    (serve { filterResp := fun _ => none } (fun _ => ([.writeHeader 500, .write [1]], false)) req).2 = .got 200 [] [] [] := by
  refine ⟨?_, ?_, ?_⟩ <;> rfl

/-- **C113** fails: a response of a filter with a status of other than three digits breaks the connection instead of being rejected. -/
theorem C113_code_false (app : App) (req : Req) : (serve { filterReq := fun r => { req := r, reply := some (42, []) } } app req).2 = .aborted := rfl

/-! ### C114, C115 -/

/-- **C114** A round trip sends at most one request, the one left by the filters, and only if the stream could be created and no filter
failed. -/
theorem C114_sent (e : TEnv) (r s : Req) : Ev.send s ∈ (roundTrip e r).1 ↔
    e.stream = true ∧ (e.filterReq (e.before { r with ctx := 0 })).err = false ∧ s = (e.filterReq (e.before { r with ctx := 0 })).req := by
  unfold roundTrip
  cases hs : e.stream with
  | false => simp
  | true =>
    rw [if_neg (by simp)]
    simp only
    generalize e.filterReq (e.before { r with ctx := 0 }) = out
    cases he : out.err with
    | true => rw [if_pos rfl]; simp
    | false =>
      rw [if_neg (by simp)]
      cases h1 : e.send out.req with
      | none => simp
      | some resp =>
        simp only
        cases h2 : e.filterResp (e.beforeResp resp) <;> simp

theorem C114_once (e : TEnv) (r : Req) : ((roundTrip e r).1.filter fun | .send _ => true | _ => false).length ≤ 1 ∧
    (e.stream = true → (roundTrip e r).1.getLast? = some .closeStream ∧ (roundTrip e r).1.count .closeStream = 1) := by
  unfold roundTrip
  cases hs : e.stream with
  | false => simp
  | true =>
    rw [if_neg (by simp)]
    simp only
    generalize e.filterReq (e.before { r with ctx := 0 }) = out
    cases he : out.err with
    | true => rw [if_pos rfl]; simp
    | false =>
      rw [if_neg (by simp)]
      cases h1 : e.send out.req with
      | none => simp [List.count_cons]
      | some resp =>
        simp only
        cases h2 : e.filterResp (e.beforeResp resp) <;> simp [List.count_cons]

/-- **C114** The caller gets the answer of the upstream as the filters and middlewares have left it, and an error exactly if a step
failed. -/
theorem C114_answer (e : TEnv) (r : Req) (a : Resp) : (roundTrip e r).2.1 = some a ↔
    ∃ s resp resp', Ev.send s ∈ (roundTrip e r).1 ∧ e.send s = some resp ∧ e.filterResp (e.beforeResp resp) = some resp' ∧ a = e.afterResp resp' := by
  constructor
  · intro h
    have h0 := h
    unfold roundTrip at h
    cases hs : e.stream with
    | false => rw [if_pos (by simp [hs])] at h; cases h
    | true =>
      rw [if_neg (by simp [hs])] at h
      simp only at h
      cases he : (e.filterReq (e.before { r with ctx := 0 })).err with
      | true => rw [if_pos he] at h; cases h
      | false =>
        rw [if_neg (by simp [he])] at h
        cases h1 : e.send (e.filterReq (e.before { r with ctx := 0 })).req with
        | none => rw [h1] at h; cases h
        | some resp =>
          rw [h1] at h
          simp only at h
          cases h2 : e.filterResp (e.beforeResp resp) with
          | none => rw [h2] at h; cases h
          | some resp' =>
            rw [h2] at h
            injection h with h
            exact ⟨_, resp, resp', (C114_sent e r _).mpr ⟨hs, he, rfl⟩, h1, h2, h.symm⟩
  · rintro ⟨s, resp, resp', h1, h2, h3, rfl⟩
    obtain ⟨hs, he, rfl⟩ := (C114_sent e r s).mp h1
    unfold roundTrip
    rw [if_neg (by simp [hs])]
    simp only
    rw [if_neg (by simp [he]), h2]
    simp only
    rw [h3]

example : (roundTrip { send := fun r => some ⟨200, r.header, [1]⟩ } get).2.1 = some ⟨200, [], [1]⟩ := by decide +kernel

/-- **C115** (partial) Nothing received from the network is left behind unless the filters fail on it. -/
theorem C115_left_partial (e : TEnv) (r : Req) (h : ∀ x, e.filterResp x ≠ none) : (roundTrip e r).2.2.respLeft = false := by
  unfold roundTrip
  cases hs : e.stream with
  | false => rfl
  | true =>
    rw [if_neg (by simp)]
    simp only
    generalize e.filterReq (e.before { r with ctx := 0 }) = out
    cases he : out.err with
    | true => rw [if_pos rfl]
    | false =>
      rw [if_neg (by simp)]
      cases h1 : e.send out.req with
      | none => rfl
      | some resp =>
        simp only
        cases h2 : e.filterResp (e.beforeResp resp) with
        | none => exact absurd h2 (h _)
        | some x => rfl

/-- **C115** fails for every request: unless a filter or middleware puts a context in, the request is sent with the background context,
so that cancelling the caller's request or its deadline have no effect. -/
theorem C115_context_false (e : TEnv) (r s : Req) (hb : ∀ x, (e.before x).ctx = x.ctx) (hf : ∀ x, (e.filterReq x).req.ctx = x.ctx)
    (h : Ev.send s ∈ (roundTrip e r).1) : s.ctx = 0 := by
  obtain ⟨-, -, rfl⟩ := (C114_sent e r s).mp h
  rw [hf, hb]

/-- **C115** fails: the body of a request is closed only if a filter pauses; every request that passes the filters leaves it open. -/
theorem C115_body_false (e : TEnv) (r : Req) (hp : ∀ x, (e.filterReq x).paused = false) : (roundTrip e r).2.2.req = false := by
  unfold roundTrip
  cases hs : e.stream with
  | false => rfl
  | true =>
    rw [if_neg (by simp)]
    simp only
    have hp' := hp (e.before { r with ctx := 0 })
    generalize e.filterReq (e.before { r with ctx := 0 }) = out at hp'
    have hc : closedBySend r out = false := by unfold closedBySend; rw [hp', Bool.and_false]
    cases he : out.err with
    | true => rw [if_pos rfl]
    | false =>
      rw [if_neg (by simp), hc]
      cases h1 : e.send out.req with
      | none => rfl
      | some resp =>
        simp only
        cases h2 : e.filterResp (e.beforeResp resp) <;> rfl

/-- **C115** fails: a response on which a filter fails is left open. -/
theorem C115_leak_false : (roundTrip { send := fun _ => some ⟨200, [], [1]⟩, filterResp := fun _ => none } get).2 = (none, { respLeft := true }) := rfl

/-- **C115** fails: an answer a filter gives to an outgoing request is ignored and the request is sent. -/
theorem C115_reply_false : Ev.send { get with ctx := 0 } ∈
    (roundTrip { send := fun _ => none, filterReq := fun r => { req := r, paused := true, reply := some (403, []) } } get).1 := by decide +kernel

/-! ### C116 -/

/-- **C116** A call is made exactly if the stream could be created and no filter failed, with the metadata as the filters have left them. -/
theorem C116_invoke (e : GEnv) (u : Str × Str) (md h : Hdr) : GEv.invoke h ∈ (intercept e (some u) md).1 ↔
    e.stream = true ∧ ∃ out, out = e.filterReq (e.before ⟨[], ([], []), ("content-type".toList, "application/grpc".toList) :: md, none, 0⟩) ∧
      out.err = false ∧ h = out.req.header := by
  unfold intercept
  cases hs : e.stream with
  | false => cases e.discovery <;> simp
  | true =>
    simp only [Bool.not_true, Bool.false_eq_true, if_false, wrapGRPCRequest]
    have : Hdr.add [] "content-type".toList "application/grpc".toList ++ md = ("content-type".toList, "application/grpc".toList) :: md := rfl
    rw [this]
    generalize e.filterReq (e.before ⟨[], ([], []), ("content-type".toList, "application/grpc".toList) :: md, none, 0⟩) = out
    cases he : out.err with
    | true => cases e.discovery <;> simp [he]
    | false =>
      simp only [Bool.false_eq_true, if_false]
      by_cases hc : (e.invoke out.req.header).code ≠ 0
      · rw [if_pos hc]; cases e.discovery <;> simp [he]
      · rw [if_neg hc]
        cases e.filterResp _ <;> cases e.discovery <;> simp [he]

/-- **C116** The number of active requests is raised once and lowered once, and a stream that was created is closed, whatever
happens. -/
theorem C116_balanced (e : GEnv) (u : Option (Str × Str)) (md : Hdr) :
    (intercept e u md).1.count .inc = (if e.discovery then 1 else 0) ∧ (intercept e u md).1.count .dec = (if e.discovery then 1 else 0) ∧
    (intercept e u md).1.count (.http .closeStream) = if e.stream then 1 else 0 := by
  unfold intercept
  cases hs : e.stream with
  | false => cases e.discovery <;> simp [List.count_cons]
  | true =>
    simp only [Bool.not_true, Bool.false_eq_true, if_false]
    generalize wrapGRPCRequest u _ = o
    cases o with
    | none => cases e.discovery <;> simp [List.count_cons]
    | some req =>
      simp only
      generalize e.filterReq (e.before req) = out
      cases he : out.err with
      | true => cases e.discovery <;> simp [List.count_cons]
      | false =>
        simp only [Bool.false_eq_true, if_false]
        by_cases hc : (e.invoke out.req.header).code ≠ 0
        · rw [if_pos hc]; cases e.discovery <;> simp [List.count_cons]
        · rw [if_neg hc]
          cases e.filterResp _ <;> cases e.discovery <;> simp [List.count_cons]

/-- **C206** fails: the filters see neither the host nor the path of any call, and a target that is no valid address crashes. -/
theorem C206_address_false (u : Str × Str) (h : Hdr) : (wrapGRPCRequest (some u) h).map (·.url) = some ([], []) ∧
    GEv.crash ∈ (intercept { invoke := fun _ => ⟨0, []⟩ } none h).1 := by
  refine ⟨rfl, ?_⟩
  simp [intercept, wrapGRPCRequest]

/-- **C206** fails: the filters never see the outcome of a call that failed. -/
theorem C206_failed_false (e : GEnv) (u : Option (Str × Str)) (md : Hdr) (h : ∀ x, (e.invoke x).code ≠ 0) :
    GEv.http .filterResp ∉ (intercept e u md).1 ∧ GEv.http .afterResp ∉ (intercept e u md).1 := by
  unfold intercept
  cases hs : e.stream with
  | false => cases e.discovery <;> simp
  | true =>
    simp only [Bool.not_true, Bool.false_eq_true, if_false]
    generalize wrapGRPCRequest u _ = o
    cases o with
    | none => cases e.discovery <;> simp
    | some req =>
      simp only
      generalize e.filterReq (e.before req) = out
      cases he : out.err with
      | true => cases e.discovery <;> simp
      | false =>
        simp only [Bool.false_eq_true, if_false]
        rw [if_pos (h _)]; cases e.discovery <;> simp

example : (intercept { invoke := fun h => ⟨0, h⟩ } (some ("h".toList, "/m".toList)) [("a".toList, "b".toList)]).2 = some 0 := by decide +kernel

end Verif.Props.WasmHttp
