import Verif.Exp.PiiFilter
import Verif.Props.Pii
import Verif.Props.ParseSafe
/-
C79 - C81: the Kafka PII filter.
-/
namespace Verif.Props
open Verif Verif.Kafka Verif.Kafka.Gen Verif.Pii

/-! ### specification -/

/-- a Kafka message on the wire: a four-byte size and as many bytes (sizes are 32 bit signed) -/
structure IsFrame (f : Bytes) : Prop where
  four : 4 ≤ f.length
  size : beNat (f.take 4) 0 + 4 = f.length
  small : f.length < 2 ^ 31

/-- no complete message at the beginning -/
def Incomplete (b : Bytes) : Prop := ∀ f r, b = f ++ r → ¬ IsFrame f

def evFrame : Ev → Bytes
  | .req f _ _ _ => f
  | .resp f _ _ => f
def evOut : Ev → Bytes
  | .req _ o _ _ => o
  | .resp _ o _ => o
def evIsReq : Ev → Bool
  | .req .. => true
  | .resp .. => false

/-- the messages of one side, oldest first -/
def msgsOf (b : Bool) (evs : List Ev) : List Ev := evs.reverse.filter fun ev => evIsReq ev == b

/-- what is passed on for a message. A request: itself, unless it is a Produce request with PII in a record value; then the
serialization of the request with the record values masked. A response: itself if it answers a request; nothing otherwise. -/
def PassedOn (x : Ext) : Ev → Prop
  | .req f o det ref => ∃ r, Request.parse x (f.drop 4) = .ok r ∧ ref = ⟨r.apiKey, r.apiVersion, r.correlationId⟩ ∧
      ((r.apiKey ≠ 0 ∨ (maskRequest det r).2 = false) → o = f) ∧
      (r.apiKey = 0 → (maskRequest det r).2 = true →
        ∃ b, Request.serialize x (maskRequest det r).1 r.apiVersion = .ok b ∧ o = beBytes 4 b.length ++ b)
  | .resp f o (some ref) => o = f ∧ ∃ r, Response.parse x (f.drop 4) ref.key ref.ver ref.corr = .ok r
  | .resp _ o none => o = []

/-- requests without an answer so far, oldest first (`evs`: newest first) -/
def outstanding : List Ev → List Ref
  | [] => []
  | .req _ _ _ ref :: r => outstanding r ++ [ref]
  | .resp _ _ _ :: r => (outstanding r).drop 1

/-- every response was taken to answer the oldest unanswered request at that time -/
def Matched : List Ev → Prop
  | [] => True
  | .req _ _ _ _ :: r => Matched r
  | .resp _ _ ref :: r => ref = (outstanding r).head? ∧ Matched r

/-- neither handler has failed -/
def Running (c : Pii.Ctx) : Prop := c.req.failed = false ∧ c.resp.failed = false

/-- states of one connection: data in any portions on both sides. The stream does not end inside a message: at the end of
the stream, without further data, nothing is kept back. -/
inductive ReachP (e : Env) (dir : Dir) : Sys → Prop
  | start : ReachP e dir ⟨{ dir := dir }, fun _ => [], fun _ => [], fun _ => [], []⟩
  | step {w w' : Sys} {s : Side} {chunk : Bytes} {eos : Bool} {det : Det} : ReachP e dir w →
      (eos = true → w.host s ++ chunk = [] → w.ctx.inc s = []) → exec e w (.data s chunk eos det) = some w' → ReachP e dir w'

/-! ### the queue -/

structure QOk (q : Queue) (l : List Ref) : Prop where
  view : q.items.drop q.r = l
  pos : q.r < q.items.length ∨ (q.items = [] ∧ q.r = 0)
  fits : q.items.length ≤ q.cap
  two : 2 ≤ q.cap

theorem push_ok {g : Nat → Nat} (hg : ∀ n, n < g n) {q : Queue} {l : List Ref} (h : QOk q l) (x : Ref) :
    QOk (q.push g x) (l ++ [x]) := by
  obtain ⟨hv, hp, hf, ht⟩ := h
  unfold Queue.push
  split
  · rename_i hfull
    split
    · rename_i hr
      have : 1 ≤ q.cap / 2 := by omega
      refine ⟨by simp [hv], Or.inl (by simp), ?_, ht⟩
      simp only [List.length_append, List.length_drop, List.length_cons, List.length_nil]
      omega
    · have hlt : q.r < q.items.length := by rcases hp with h | ⟨h, _⟩
                                            · exact h
                                            · rw [h] at hfull; simp at hfull; omega
      refine ⟨?_, Or.inl (by simp; omega), by simp; have := hg q.cap; omega, by have := hg q.cap; simp only; omega⟩
      simp only
      rw [List.drop_append_of_le_length (by omega), hv]
  · rename_i hlt
    refine ⟨?_, Or.inl (by simp; rcases hp with h | ⟨h, h'⟩ <;> omega), by simp; omega, ht⟩
    simp only
    rw [List.drop_append_of_le_length (by rcases hp with h | ⟨h, h'⟩ <;> omega), hv]

theorem next_ok {q q' : Queue} {l : List Ref} {x : Ref} (h : QOk q l) (hn : q.next = some (x, q')) :
    l.head? = some x ∧ QOk q' (l.drop 1) := by
  obtain ⟨hv, hp, hf, ht⟩ := h
  unfold Queue.next at hn
  split at hn
  · cases hn
  · rename_i y hy
    injection hn with hn
    injection hn with h1 h2
    subst h1
    have hlt : q.r < q.items.length := by
      rcases Nat.lt_or_ge q.r q.items.length with h | h
      · exact h
      · rw [List.getElem?_eq_none h] at hy; cases hy
    have hl : l.head? = some y := by rw [← hv, List.head?_drop, hy]
    refine ⟨hl, ?_⟩
    rw [← hv, List.drop_drop, ← h2]
    split
    · rename_i hge
      refine ⟨?_, Or.inr ⟨rfl, rfl⟩, by simp [Queue.reset], ht⟩
      simp only [Queue.reset, List.drop_nil]
      exact (List.drop_eq_nil_of_le (by omega)).symm
    · exact ⟨by simp only, Or.inl (by simp only; omega), hf, ht⟩

theorem next_some {q : Queue} {l : List Ref} (h : QOk q l) (hne : q.items ≠ []) : ∃ p, q.next = some p := by
  rcases h.pos with h1 | ⟨h1, _⟩
  · unfold Queue.next
    rw [List.getElem?_eq_getElem h1]
    exact ⟨_, rfl⟩
  · exact absurd h1 hne

theorem empty_iff {q : Queue} {l : List Ref} (h : QOk q l) : q.items = [] ↔ l = [] := by
  constructor
  · intro e; rw [← h.view, e]; simp
  · intro e
    rcases h.pos with h1 | ⟨h1, _⟩
    · have := h.view; rw [e] at this
      have := List.drop_eq_nil_iff.mp this
      omega
    · exact h1

/-! ### sizes -/

theorem be4_lt (b : Bytes) (h : b.length ≤ 4) : beNat b 0 < 4294967296 := by
  have := beNat_lt b 0
  have h2 : 256 ^ b.length ≤ 256 ^ 4 := Nat.pow_le_pow_right (by decide) h
  have : (256 : Nat) ^ 4 = 4294967296 := by decide
  omega

theorem wrap32 (u : Int) : wrapS 4 u = if u % 4294967296 < 2147483648 then u % 4294967296 else u % 4294967296 - 4294967296 := by
  unfold wrapS
  rw [Int.bmod_def, show ((256 ^ 4 : Nat) : Int) = 4294967296 by decide]
  rfl

/-- the complete size computed from the size field: right for sizes that occur, below 4 otherwise -/
theorem complete_cases (u : Nat) (h : u < 4294967296) :
    (u + 4 < 2147483648 ∧ completeSize (wrapS 4 u) = u + 4) ∨ (2147483648 ≤ u + 4 ∧ completeSize (wrapS 4 u) < 4) := by
  unfold completeSize
  rw [wrap32 u, wrap32]
  split <;> split <;> omega

theorem frame_of_take {b : Bytes} {m : Int} (hm : msgSize b = some m) (h4 : ¬ completeSize m < 4)
    (hl : ¬ (b.length : Int) < completeSize m) :
    IsFrame (b.take (completeSize m).toNat) ∧ 4 ≤ (completeSize m).toNat ∧ (completeSize m).toNat ≤ b.length := by
  unfold msgSize at hm
  split at hm
  · cases hm
  · rename_i hb
    injection hm with hm
    have hu := be4_lt (b.take 4) (by simp; omega)
    rcases complete_cases _ hu with ⟨h1, h2⟩ | ⟨_, h2⟩
    · rw [hm] at h2
      have e : (completeSize m).toNat = beNat (b.take 4) 0 + 4 := by omega
      have hle : (completeSize m).toNat ≤ b.length := by omega
      refine ⟨⟨by simp; omega, ?_, by simp; omega⟩, by omega, hle⟩
      rw [List.take_take, Nat.min_eq_left (by omega), List.length_take, Nat.min_eq_left hle, e]
    · rw [hm] at h2; omega

theorem incomplete_nil : Incomplete [] := by
  intro f r h hf
  have : f.length = 0 := by have := congrArg List.length h; simp at this; omega
  have := hf.four
  omega

theorem incomplete_short {b : Bytes} (h : b.length < 4) : Incomplete b := by
  intro f r e hf
  have := congrArg List.length e
  simp at this
  have := hf.four
  omega

theorem incomplete_size {b : Bytes} (hb : 4 ≤ b.length) (h : (b.length : Int) < completeSize (wrapS 4 (beNat (b.take 4) 0))) :
    Incomplete b := by
  intro f r e hf
  have ht : f.take 4 = b.take 4 := by rw [e, List.take_append_of_le_length hf.four]
  have hs := hf.size
  rw [ht] at hs
  have hl : f.length ≤ b.length := by rw [e]; simp
  rcases complete_cases _ (be4_lt (b.take 4) (by simp; omega)) with ⟨h1, h2⟩ | ⟨h1, h2⟩
  · omega
  · have := hf.small; omega

/-- a stream splits into messages in one way only -/
theorem frames_unique : ∀ (fs gs : List Bytes) (p q : Bytes), (∀ f ∈ fs, IsFrame f) → (∀ g ∈ gs, IsFrame g) → Incomplete p →
    Incomplete q → fs.flatten ++ p = gs.flatten ++ q → fs = gs ∧ p = q := by
  intro fs
  induction fs with
  | nil =>
    intro gs p q _ hg hp hq h
    cases gs with
    | nil => exact ⟨rfl, by simpa using h⟩
    | cons g gs => exact absurd (hg g (by simp)) (hp g (gs.flatten ++ q) (by simpa using h))
  | cons f fs ih =>
    intro gs p q hf hg hp hq h
    cases gs with
    | nil => exact absurd (hf f (by simp)) (hq f (fs.flatten ++ p) (by simpa using h.symm))
    | cons g gs =>
      have h1 := hf f (by simp)
      have h2 := hg g (by simp)
      simp only [List.flatten_cons, List.append_assoc] at h
      have ht : f.take 4 = g.take 4 := by
        have := congrArg (List.take 4) h
        rwa [List.take_append_of_le_length h1.four, List.take_append_of_le_length h2.four] at this
      have hl : f.length = g.length := by rw [← h1.size, ← h2.size, ht]
      obtain ⟨e1, e2⟩ := List.append_inj h hl
      subst e1
      obtain ⟨e3, e4⟩ := ih gs p q (fun x hx => hf x (by simp [hx])) (fun x hx => hg x (by simp [hx])) hp hq e2
      exact ⟨by rw [e3], e4⟩

/-! ### messages -/

theorem handleRequest_ok {x : Ext} {det : Det} {f o : Bytes} {ref : Ref} (h : handleRequest x det f = .ok (o, ref)) :
    PassedOn x (.req f o det ref) := by
  unfold handleRequest at h
  cases hp : Request.parse x (f.drop 4) with
  | error er => rw [hp] at h; cases er <;> simp [ofRes] at h
  | ok r =>
    simp only [hp, ofRes] at h
    split at h
    · rename_i hk
      injection h with h; injection h with h1 h2
      exact ⟨r, hp, h2.symm, fun _ => h1.symm, fun h0 => absurd h0 hk⟩
    · rename_i hk
      split at h
      · rename_i hd
        injection h with h; injection h with h1 h2
        exact ⟨r, hp, h2.symm, fun _ => h1.symm, fun _ ht => by rw [ht] at hd; cases hd⟩
      · rename_i hd
        have hk0 : r.apiKey = 0 := by simpa using hk
        cases hs : Request.serialize x (maskRequest det r).1 r.apiVersion with
        | error er => rw [hs] at h; cases er <;> simp [ofRes] at h
        | ok b =>
          simp only [hs, ofRes] at h
          injection h with h; injection h with h1 h2
          refine ⟨r, hp, h2.symm, ?_, fun _ _ => ⟨b, hs, h1.symm⟩⟩
          rintro (h | h)
          · exact absurd hk0 h
          · rw [h] at hd; exact absurd rfl hd

theorem handleResponse_ok {x : Ext} {q q' : Queue} {f o : Bytes} {ref : Option Ref} {l : List Ref} (hq : QOk q l)
    (h : handleResponse x q f = .ok (o, ref, q')) : PassedOn x (.resp f o ref) ∧ ref = l.head? ∧ QOk q' (l.drop 1) := by
  unfold handleResponse at h
  split at h
  · rename_i he
    injection h with h; injection h with h1 h2; injection h2 with h2 h3
    have := (empty_iff hq).mp he
    subst h1 h2 h3 this
    exact ⟨rfl, rfl, hq⟩
  · split at h
    · cases h
    · rename_i p ref' q'' hn
      obtain ⟨n1, n2⟩ := next_ok hq hn
      split at h
      · cases h
      · cases h
      · rename_i r hr
        injection h with h; injection h with h1 h2; injection h2 with h2 h3
        subst h1 h2 h3
        refine ⟨⟨rfl, ?_⟩, n1.symm, n2⟩
        cases hp : Response.parse x (f.drop 4) ref'.key ref'.ver ref'.corr with
        | error er => rw [hp] at hr; cases er <;> simp [ofRes] at hr
        | ok r => exact ⟨r, rfl⟩

/-! ### the loop -/

theorem upd_same {α : Type} (f : Side → α) (s : Side) (a : α) : upd f s a s = a := by simp [upd]
theorem upd_other {α : Type} (f : Side → α) {s t : Side} (a : α) (h : t ≠ s) : upd f s a t = f t := by simp [upd, h]

/-- the context apart from buffers and queue of one side -/
structure SameBut (s : Side) (c c' : Pii.Ctx) : Prop where
  dir : c'.dir = c.dir
  inc : ∀ t, t ≠ s → c'.inc t = c.inc t
  out : ∀ t, t ≠ s → c'.out t = c.out t
  handler : ∀ t, t ≠ s → carriesRequests c.dir t ≠ carriesRequests c.dir s → c'.handler t = c.handler t

theorem fail_not_running (c : Pii.Ctx) (s : Side) : ¬ Running (c.fail s) := by
  unfold Running Ctx.fail Ctx.setHandler
  split <;> simp

theorem msgsOf_cons (b : Bool) (ev : Ev) (evs : List Ev) :
    msgsOf b (ev :: evs) = msgsOf b evs ++ (if evIsReq ev = b then [ev] else []) := by
  unfold msgsOf
  rw [List.reverse_cons, List.filter_append]
  by_cases h : evIsReq ev = b <;> simp [h]

theorem msgsOf_append_all {b : Bool} {new evs : List Ev} (h : ∀ ev ∈ new, evIsReq ev = b) :
    msgsOf b (new ++ evs) = msgsOf b evs ++ new.reverse := by
  unfold msgsOf
  have : new.reverse.filter (fun ev => evIsReq ev == b) = new.reverse := by
    rw [List.filter_eq_self]
    intro ev hev
    simp [h ev (by simpa using hev)]
  rw [List.reverse_append, List.filter_append, this]

theorem msgsOf_append_none {b : Bool} {new evs : List Ev} (h : ∀ ev ∈ new, evIsReq ev ≠ b) :
    msgsOf b (new ++ evs) = msgsOf b evs := by
  unfold msgsOf
  rw [List.reverse_append, List.filter_append]
  have : new.reverse.filter (fun ev => evIsReq ev == b) = [] := by
    rw [List.filter_eq_nil_iff]
    intro ev hev
    simp [h ev (by simpa using hev)]
  rw [this, List.append_nil]

structure LoopOk (e : Env) (s : Side) (c : Pii.Ctx) (evs : List Ev) (r : LoopRes) (new : List Ev) : Prop where
  trace : r.evs = new ++ evs
  side : ∀ ev ∈ new, evIsReq ev = carriesRequests c.dir s
  good : ∀ ev ∈ new, IsFrame (evFrame ev) ∧ PassedOn e.x ev
  inc : c.inc s = (new.reverse.map evFrame).flatten ++ r.ctx.inc s
  repl : r.replaced = some (c.out s ++ (new.reverse.map evOut).flatten)
  out : r.ctx.out s = []
  same : SameBut s c r.ctx
  rest : Incomplete (r.ctx.inc s)
  size : (r.ctx.handler s) = {}
  queue : QOk r.ctx.q (outstanding r.evs) ∧ Matched r.evs

theorem setHandler_dir (c : Pii.Ctx) (s : Side) (h : Handler) : (c.setHandler s h).dir = c.dir := by
  unfold Ctx.setHandler; split <;> rfl
theorem setHandler_inc (c : Pii.Ctx) (s : Side) (h : Handler) : (c.setHandler s h).inc = c.inc := by
  unfold Ctx.setHandler; split <;> rfl
theorem setHandler_out (c : Pii.Ctx) (s : Side) (h : Handler) : (c.setHandler s h).out = c.out := by
  unfold Ctx.setHandler; split <;> rfl
theorem setHandler_q (c : Pii.Ctx) (s : Side) (h : Handler) : (c.setHandler s h).q = c.q := by
  unfold Ctx.setHandler; split <;> rfl
theorem setHandler_same (c : Pii.Ctx) (s : Side) (h : Handler) : (c.setHandler s h).handler s = h := by
  unfold Ctx.setHandler Ctx.handler; split <;> simp [*]
theorem setHandler_other (c : Pii.Ctx) (s t : Side) (h : Handler) (hd : carriesRequests c.dir t ≠ carriesRequests c.dir s) :
    (c.setHandler s h).handler t = c.handler t := by
  unfold Ctx.setHandler Ctx.handler
  cases h1 : carriesRequests c.dir s <;> cases h2 : carriesRequests c.dir t <;> simp_all

theorem done_ok {e : Env} {s : Side} {c : Pii.Ctx} {evs : List Ev} (hi : Incomplete (c.inc s))
    (hq : QOk c.q (outstanding evs)) (hm : Matched evs) : LoopOk e s c evs (loopDone s c evs) [] where
  trace := rfl
  side := by simp
  good := by simp
  inc := by simp [loopDone, Ctx.resetHandler, setHandler_inc]
  repl := by simp [loopDone]
  out := by simp [loopDone, upd_same]
  same := by
    refine ⟨by simp [loopDone, Ctx.resetHandler, setHandler_dir], ?_, ?_, ?_⟩
    · intro t _; simp [loopDone, Ctx.resetHandler, setHandler_inc]
    · intro t ht; simp [loopDone, upd_other _ _ ht]
    · intro t _ hd
      exact setHandler_other c s t {} hd
  rest := by simpa [loopDone, Ctx.resetHandler, setHandler_inc] using hi
  size := setHandler_same c s {}
  queue := by
    refine ⟨?_, hm⟩
    simp only [loopDone, Ctx.resetHandler, setHandler_q]
    exact hq

theorem handleMsg_ok {e : Env} {det : Det} {s : Side} {c c' : Pii.Ctx} {f : Bytes} {ev : Ev} (hg : ∀ n, n < e.grow n)
    (h : handleMsg e det s c f = .ok (c', ev)) :
    evIsReq ev = carriesRequests c.dir s ∧ evFrame ev = f ∧
    c'.dir = c.dir ∧ c'.inc = c.inc ∧ c'.out = upd c.out s (c.out s ++ evOut ev) ∧ c'.req = c.req ∧ c'.resp = c.resp ∧
    (∀ l, QOk c.q l → PassedOn e.x ev) ∧
    (∀ evs, QOk c.q (outstanding evs) → Matched evs → QOk c'.q (outstanding (ev :: evs)) ∧ Matched (ev :: evs)) := by
  unfold handleMsg at h
  split at h
  · rename_i hr
    split at h
    · cases h
    · cases h
    · rename_i b ref hx
      injection h with h; injection h with h1 h2
      subst h1 h2
      refine ⟨by simp [evIsReq, hr], rfl, rfl, rfl, rfl, rfl, rfl, fun _ _ => handleRequest_ok hx, ?_⟩
      intro evs hq hm
      exact ⟨push_ok hg hq ref, hm⟩
  · rename_i hr
    split at h
    · cases h
    · cases h
    · rename_i b ref q' hx
      injection h with h; injection h with h1 h2
      subst h1 h2
      refine ⟨by simp [evIsReq, hr], rfl, rfl, rfl, rfl, rfl, rfl, fun l hl => (handleResponse_ok hl hx).1, ?_⟩
      intro evs hq hm
      obtain ⟨_, h2, h3⟩ := handleResponse_ok hq hx
      exact ⟨h3, h2, hm⟩

theorem loop_ok {e : Env} {det : Det} {s : Side} (hg : ∀ n, n < e.grow n) : ∀ n (c : Pii.Ctx) (evs : List Ev) (r : LoopRes),
    loop e det s n c evs = some r → Running r.ctx → (c.inc s).length < n → QOk c.q (outstanding evs) → Matched evs →
    ∃ new, LoopOk e s c evs r new := by
  intro n
  induction n with
  | zero => intro c evs r h _ hn; omega
  | succ n ih =>
    intro c evs r h hr hn hqo hma
    unfold loop at h
    split at h
    · rename_i he
      injection h with h; subst h
      exact ⟨[], done_ok (by rw [he]; exact incomplete_nil) hqo hma⟩
    · split at h
      · injection h with h; subst h
        exact absurd hr (fail_not_running c s)
      · rename_i m hm
        split at h
        · rename_i hlt
          injection h with h; subst h
          refine ⟨[], done_ok ?_ hqo hma⟩
          unfold msgSize at hm
          split at hm
          · cases hm
          · injection hm with hm
            exact incomplete_size (by omega) (by rw [hm]; exact hlt)
        · rename_i hlt
          split at h
          · cases h
          · rename_i h4
            obtain ⟨f1, f2, f3⟩ := frame_of_take hm h4 hlt
            simp only at h
            split at h
            · cases h
            · injection h with h; subst h
              exact absurd hr (fail_not_running _ s)
            · rename_i c2 ev hh
              obtain ⟨k1, k2, k3, k4, k5, k6, k7, k8, k9⟩ := handleMsg_ok hg hh
              simp only at k1 k3 k4 k5 k6 k7 k8 k9
              have hinc : c2.inc s = (c.inc s).drop (completeSize m).toNat := by rw [k4, upd_same]
              obtain ⟨q1, q2⟩ := k9 evs hqo hma
              obtain ⟨new, hnew⟩ := ih c2 (ev :: evs) r h hr (by rw [hinc, List.length_drop]; omega) q1 q2
              refine ⟨new ++ [ev], ?_⟩
              have hd : c2.dir = c.dir := k3
              refine ⟨by rw [hnew.trace]; simp, ?_, ?_, ?_, ?_, hnew.out, ?_, hnew.rest, hnew.size, hnew.queue⟩
              · intro v hv
                rcases List.mem_append.mp hv with hv | hv
                · rw [← hd]; exact hnew.side v hv
                · have : v = ev := by simpa using hv
                  rw [this]; exact k1
              · intro v hv
                rcases List.mem_append.mp hv with hv | hv
                · exact hnew.good v hv
                · have : v = ev := by simpa using hv
                  subst this
                  exact ⟨by rw [k2]; exact f1, k8 _ hqo⟩
              · have := hnew.inc
                rw [hinc] at this
                simp only [List.reverse_append, List.reverse_cons, List.reverse_nil, List.nil_append, List.map_append,
                  List.map_cons, List.map_nil, List.flatten_append, List.flatten_cons, List.flatten_nil, List.append_nil,
                  List.append_assoc, k2, ← this, List.take_append_drop]
              · rw [hnew.repl, k5, upd_same]
                simp
              · refine ⟨hnew.same.dir.trans hd, ?_, ?_, ?_⟩
                · intro t ht; rw [hnew.same.inc t ht, k4, upd_other _ _ ht]
                · intro t ht; rw [hnew.same.out t ht, k5, upd_other _ _ ht]
                · intro t ht hdt
                  rw [hnew.same.handler t ht (by rw [hd]; exact hdt)]
                  unfold Ctx.handler; rw [hd, k6, k7]

/-! ### the invariant of a connection -/

/-- bytes received on a side that are not part of a handled message -/
def pending (w : Sys) (s : Side) : Bytes := w.ctx.inc s ++ w.host s

/-- the remembered size is that of the pending message -/
def SizeOk (h : Handler) (b : Bytes) : Prop := h.size = 0 ∨ (4 ≤ b.length ∧ h.size = wrapS 4 (beNat (b.take 4) 0))

structure PInv (e : Env) (dir : Dir) (w : Sys) : Prop where
  out : ∀ s, w.ctx.out s = []
  rcvd : ∀ s, w.rcvd s = ((msgsOf (carriesRequests dir s) w.evs).map evFrame).flatten ++ pending w s
  sent : ∀ s, w.sent s = ((msgsOf (carriesRequests dir s) w.evs).map evOut).flatten
  rest : ∀ s, Incomplete (pending w s)
  size : ∀ s, SizeOk (w.ctx.handler s) (pending w s)
  good : ∀ ev ∈ w.evs, IsFrame (evFrame ev) ∧ PassedOn e.x ev
  queue : QOk w.ctx.q (outstanding w.evs)
  matched : Matched w.evs

theorem carries_ne {dir : Dir} (hd : dir ≠ .unspecified) {s t : Side} (h : t ≠ s) :
    carriesRequests dir t ≠ carriesRequests dir s := by
  cases dir <;> cases s <;> cases t <;> simp_all [carriesRequests]

theorem sizeOk_append {h : Handler} {b c : Bytes} (hs : SizeOk h b) : SizeOk h (b ++ c) := by
  rcases hs with hs | ⟨h1, h2⟩
  · exact Or.inl hs
  · refine Or.inr ⟨by simp; omega, ?_⟩
    rw [List.take_append_of_le_length h1]; exact h2

/-- what `available` says and remembers -/
theorem available_spec {s : Side} {c : Pii.Ctx} {data : Bytes} (hs : SizeOk (c.handler s) (c.inc s ++ data)) :
    ((available s c data).1 = false → Incomplete (c.inc s ++ data)) ∧
    SizeOk ((available s c data).2.handler s) (c.inc s ++ data) ∧
    (∃ h, (available s c data).2 = c.setHandler s h ∧ h.failed = (c.handler s).failed) := by
  have hself : c.setHandler s (c.handler s) = c := by unfold Ctx.setHandler Ctx.handler; split <;> rfl
  have hinc := @incomplete_size (c.inc s ++ data)
  unfold SizeOk at hs ⊢
  unfold available
  generalize wrapS 4 (beNat ((c.inc s ++ data).take 4) 0) = m at hs hinc ⊢
  simp only
  by_cases h : (c.handler s).size = 0 ∧ data.length + (c.inc s).length < 4
  · rw [if_pos h]
    refine ⟨fun _ => incomplete_short (by simp; omega), hs, c.handler s, hself.symm, rfl⟩
  · rw [if_neg h]
    have h4 : 4 ≤ (c.inc s ++ data).length := by
      rcases hs with h0 | ⟨h1, _⟩
      · have : ¬ data.length + (c.inc s).length < 4 := fun x => h ⟨h0, x⟩
        simp; omega
      · exact h1
    have hm : (if (c.handler s).size = 0 then m else (c.handler s).size) = m := by
      split
      · rfl
      · rename_i h0
        rcases hs with h1 | ⟨_, h1⟩
        · exact absurd h1 h0
        · exact h1
    rw [hm]
    refine ⟨?_, ?_, _, rfl, rfl⟩
    · intro hf
      have hf := of_decide_eq_false hf
      refine hinc h4 ?_
      rw [List.length_append]
      omega
    · rw [setHandler_same]
      exact Or.inr ⟨h4, rfl⟩

theorem onData_failed {e : Env} {det : Det} {s : Side} {data : Bytes} {eos : Bool} {c : Pii.Ctx} (h : ¬ Running c) :
    onData e det s data eos c = some (.continue, ⟨c, none, []⟩) := by
  unfold onData
  rw [if_pos]
  unfold Running at h
  cases h1 : c.req.failed <;> cases h2 : c.resp.failed <;> simp_all

theorem exec_dir {e : Env} {w w' : Sys} {s : Side} {chunk : Bytes} {eos : Bool} {det : Det}
    (h : exec e w (.data s chunk eos det) = some w') : ¬ Running w.ctx → ¬ Running w'.ctx := by
  intro hr
  simp only [exec, onData_failed hr] at h
  injection h with h; subst h
  exact hr

theorem setHandler_running {c : Pii.Ctx} {s : Side} {h : Handler} (hf : h.failed = (c.handler s).failed) :
    Running (c.setHandler s h) ↔ Running c := by
  unfold Running Ctx.setHandler
  unfold Ctx.handler at hf
  split <;> simp_all

/-- the history before the loop does not influence it -/
theorem loop_base {e : Env} {det : Det} {s : Side} (evs : List Ev) : ∀ n (c : Pii.Ctx) (a : List Ev),
    loop e det s n c (a ++ evs) = (loop e det s n c a).map fun r => ⟨r.ctx, r.replaced, r.evs ++ evs⟩ := by
  intro n
  induction n with
  | zero => intro c a; rfl
  | succ n ih =>
    intro c a
    unfold loop
    by_cases h1 : c.inc s = []
    · rw [if_pos h1, if_pos h1]; rfl
    · rw [if_neg h1, if_neg h1]
      cases msgSize (c.inc s) with
      | none => rfl
      | some m =>
        simp only
        by_cases h2 : ((c.inc s).length : Int) < completeSize m
        · rw [if_pos h2, if_pos h2]; rfl
        · rw [if_neg h2, if_neg h2]
          by_cases h3 : completeSize m < 4
          · rw [if_pos h3, if_pos h3]; rfl
          · rw [if_neg h3, if_neg h3]
            cases handleMsg e det s _ _ with
            | crash => rfl
            | fail => rfl
            | ok p => exact ih p.1 (p.2 :: a)

/-- the cases of `onData` while no handler has failed -/
inductive OnDataCase (e : Env) (det : Det) (s : Side) (data : Bytes) (eos : Bool) (c : Pii.Ctx) : Action → LoopRes → Prop
  | empty : eos = true → data = [] → c.inc s = [] →
      OnDataCase e det s data eos c .continue ⟨(c.resetBuffers s).resetHandler s, none, []⟩
  | lost (h : Handler) : eos = true → data = [] → c.inc s ≠ [] →
      OnDataCase e det s data eos c .continue ⟨((c.setHandler s h).resetBuffers s).resetHandler s, none, []⟩
  | wait (h : Handler) : Incomplete (c.inc s ++ data) → SizeOk h (c.inc s ++ data) → h.failed = (c.handler s).failed →
      OnDataCase e det s data eos c .pause ⟨c.setHandler s h, none, []⟩
  | msgs (h : Handler) (r : LoopRes) :
      loop e det s ((c.inc s ++ data).length + 1)
        { c.setHandler s h with inc := upd c.inc s (c.inc s ++ data) } [] = some r →
      OnDataCase e det s data eos c .continue r

theorem onData_cases {e : Env} {det : Det} {s : Side} {data : Bytes} {eos : Bool} {c : Pii.Ctx} {a : Action} {r : LoopRes}
    (hr : Running c) (hd : c.dir ≠ .unspecified) (hs : SizeOk (c.handler s) (c.inc s ++ data))
    (h : onData e det s data eos c = some (a, r)) : OnDataCase e det s data eos c a r := by
  obtain ⟨a1, a2, hh, a3, a4⟩ := available_spec hs
  unfold onData at h
  rw [if_neg (by unfold Running at hr; simp [hr.1, hr.2, hd])] at h
  by_cases h0 : eos = true ∧ data.length + (c.inc s).length = 0
  · rw [if_pos h0] at h
    injection h with h; injection h with h1 h2
    subst h1 h2
    exact .empty h0.1 (List.length_eq_zero_iff.mp (by omega)) (List.length_eq_zero_iff.mp (by omega))
  · rw [if_neg h0] at h
    simp only at h
    rw [a3] at h a2
    rw [setHandler_same] at a2
    cases hav : (available s c data).1 with
    | false =>
      rw [hav] at h
      simp only [Bool.not_false, if_true] at h
      by_cases hx : eos = true ∧ data = []
      · rw [if_pos hx] at h
        injection h with h; injection h with h1 h2
        subst h1 h2
        refine .lost hh hx.1 hx.2 ?_
        intro hz
        exact h0 ⟨hx.1, by rw [hx.2, hz]; rfl⟩
      · rw [if_neg hx] at h
        injection h with h; injection h with h1 h2
        subst h1 h2
        exact .wait hh (a1 hav) a2 a4
    | true =>
      rw [hav] at h
      simp only [Bool.not_true, Bool.false_eq_true, if_false, setHandler_inc, upd_same] at h
      generalize hl : loop e det s _ _ [] = lr at h
      cases lr with
      | none => cases h
      | some r' =>
        simp only [Option.map_some] at h
        injection h with h; injection h with h1 h2
        subst h1 h2
        exact .msgs hh r' hl

theorem pinv_step {e : Env} {dir : Dir} (hd : dir ≠ .unspecified) (hg : ∀ n, n < e.grow n) {w w' : Sys} {s : Side}
    {chunk : Bytes} {eos : Bool} {det : Det} (hdir : w.ctx.dir = dir) (hr : Running w.ctx) (hi : PInv e dir w)
    (hend : eos = true → w.host s ++ chunk = [] → w.ctx.inc s = [])
    (h : exec e w (.data s chunk eos det) = some w') (hr' : Running w'.ctx) : PInv e dir w' ∧ w'.ctx.dir = dir := by
  have hso : SizeOk (w.ctx.handler s) (w.ctx.inc s ++ (w.host s ++ chunk)) := by
    have := sizeOk_append (c := chunk) (hi.size s)
    rwa [pending, List.append_assoc] at this
  simp only [exec] at h
  cases hx : onData e det s (w.host s ++ chunk) eos w.ctx with
  | none => rw [hx] at h; cases h
  | some p =>
    obtain ⟨a, r⟩ := p
    have hc := onData_cases hr (by rw [hdir]; exact hd) hso hx
    rw [hx] at h
    cases hc with
    | lost hh x1 x2 x3 => exact absurd (hend x1 x2) x3
    | empty x1 x2 z1 =>
      obtain ⟨z2, z3⟩ := List.append_eq_nil_iff.mp x2
      subst z3
      simp only at h
      injection h with h; subst h
      have hinc : ∀ t, ((w.ctx.resetBuffers s).resetHandler s).inc t = w.ctx.inc t := by
        intro t
        simp only [Ctx.resetHandler, setHandler_inc, Ctx.resetBuffers, upd]
        split
        · rename_i e; rw [e, z1]
        · rfl
      have hhost : ∀ t, upd w.host s [] t = w.host t := by
        intro t; unfold upd; split
        · rename_i e; rw [e, z2]
        · rfl
      refine ⟨⟨?_, ?_, ?_, ?_, ?_, ?_, ?_, hi.matched⟩, by simp [Ctx.resetHandler, setHandler_dir, Ctx.resetBuffers, hdir]⟩
      · intro t
        simp only [Ctx.resetHandler, setHandler_out, Ctx.resetBuffers, upd]
        split
        · rfl
        · exact hi.out t
      · intro t
        have := hi.rcvd t
        simp only [pending, List.nil_append] at this ⊢
        rw [hinc, hhost]
        unfold upd
        split
        · rename_i e; subst e; simpa using this
        · exact this
      · intro t
        have := hi.sent t
        simp only [List.nil_append]
        unfold upd
        split
        · rename_i e; subst e; simpa [z2] using this
        · exact this
      · intro t; unfold pending; simp only; rw [hinc, hhost]; exact hi.rest t
      · intro t
        unfold pending; simp only; rw [hinc, hhost]
        by_cases ht : t = s
        · subst ht; rw [Ctx.resetHandler, setHandler_same]; exact Or.inl rfl
        · rw [Ctx.resetHandler, setHandler_other]
          · exact hi.size t
          · show carriesRequests w.ctx.dir t ≠ carriesRequests w.ctx.dir s
            rw [hdir]; exact carries_ne hd ht
      · exact hi.good
      · show QOk ((w.ctx.resetBuffers s).resetHandler s).q (outstanding w.evs)
        rw [Ctx.resetHandler, setHandler_q]; exact hi.queue
    | wait hh a1 a2 a4 =>
      simp only at h
      injection h with h; subst h
      have hp : ∀ t, (w.ctx.setHandler s hh).inc t ++ upd w.host s (w.host s ++ chunk) t =
          if t = s then w.ctx.inc s ++ (w.host s ++ chunk) else pending w t := by
        intro t
        rw [setHandler_inc]
        unfold upd pending
        split
        · rename_i e; rw [e]
        · rfl
      refine ⟨⟨?_, ?_, ?_, ?_, ?_, hi.good, ?_, hi.matched⟩, by simp [setHandler_dir, hdir]⟩
      · intro t; simp only [setHandler_out]; exact hi.out t
      · intro t
        have := hi.rcvd t
        simp only [pending, hp, List.nil_append] at this ⊢
        unfold upd
        split
        · rename_i e; subst e; rw [this]; simp
        · exact this
      · intro t; simpa using hi.sent t
      · intro t
        simp only [pending, hp]
        split
        · exact a1
        · exact hi.rest t
      · intro t
        simp only [pending, hp]
        split
        · rename_i e; subst e; rw [setHandler_same]; exact a2
        · rename_i ht
          rw [setHandler_other _ _ _ _ (by rw [hdir]; exact carries_ne hd ht)]
          exact hi.size t
      · simp only [setHandler_q]; exact hi.queue
    | msgs hh r hl =>
      simp only at h
      injection h with h
      have hrr : Running r.ctx := by subst h; exact hr'
      have hl2 := loop_base (e := e) (det := det) (s := s) w.evs ((w.ctx.inc s ++ (w.host s ++ chunk)).length + 1)
        { w.ctx.setHandler s hh with inc := upd w.ctx.inc s (w.ctx.inc s ++ (w.host s ++ chunk)) } []
      rw [hl, List.nil_append, Option.map_some] at hl2
      obtain ⟨new, ok⟩ := loop_ok hg _ _ _ _ hl2 hrr (by simp only [upd_same]; omega)
        (by simp only [setHandler_q]; exact hi.queue) hi.matched
      obtain ⟨k1, k2, k3, k4, k5, k6, ⟨k7, k8, k9, k10⟩, k11, k12, k13, k14⟩ := ok
      simp only [setHandler_dir, hdir, upd_same, setHandler_out, hi.out, List.nil_append] at k1 k2 k3 k4 k5 k6 k7 k8 k9 k10 k11 k12 k13 k14
      subst h
      have hmine : ∀ t, t = s → msgsOf (carriesRequests dir t) (new ++ w.evs) = msgsOf (carriesRequests dir t) w.evs ++ new.reverse := by
        intro t ht; subst ht; exact msgsOf_append_all k2
      have hother : ∀ t, t ≠ s → msgsOf (carriesRequests dir t) (new ++ w.evs) = msgsOf (carriesRequests dir t) w.evs := by
        intro t ht
        exact msgsOf_append_none fun ev hev heq => carries_ne hd ht (heq.symm.trans (k2 ev hev))
      refine ⟨⟨?_, ?_, ?_, ?_, ?_, ?_, ?_, ?_⟩, k7⟩
      · intro t
        by_cases ht : t = s
        · rw [ht]; exact k6
        · exact k9 t ht
      · intro t
        have := hi.rcvd t
        simp only [pending, k1] at this ⊢
        by_cases ht : t = s
        · rw [hmine t ht]; subst ht
          simp only [upd_same, List.append_nil, List.map_append, List.flatten_append, List.append_assoc]
          rw [← k4, this]; simp
        · rw [hother t ht, upd_other _ _ ht, upd_other _ _ ht, k8 t ht, upd_other _ _ ht]; exact this
      · intro t
        have := hi.sent t
        simp only [k1, k5, Option.getD_some] at this ⊢
        by_cases ht : t = s
        · rw [hmine t ht]; subst ht
          simp only [upd_same, List.map_append, List.flatten_append]
          rw [this]
        · rw [hother t ht, upd_other _ _ ht]; exact this
      · intro t
        simp only [pending]
        by_cases ht : t = s
        · subst ht; rw [upd_same, List.append_nil]; exact k11
        · rw [upd_other _ _ ht, k8 t ht, upd_other _ _ ht]; exact hi.rest t
      · intro t
        simp only [pending]
        by_cases ht : t = s
        · subst ht; rw [k12]; exact Or.inl rfl
        · rw [upd_other _ _ ht, k8 t ht, upd_other _ _ ht, k10 t ht (carries_ne hd ht)]
          have := setHandler_other w.ctx s t hh (by rw [hdir]; exact carries_ne hd ht)
          unfold Ctx.handler at this ⊢
          rw [setHandler_dir, hdir] at this
          simp only
          rw [this]
          have h2 := hi.size t
          unfold Ctx.handler at h2
          rw [hdir] at h2
          exact h2
      · simp only [k1]
        intro ev hev
        rcases List.mem_append.mp hev with hev | hev
        · exact k3 ev hev
        · exact hi.good ev hev
      · exact k13
      · exact k14

theorem pinv_start (e : Env) (dir : Dir) : PInv e dir ⟨{ dir := dir }, fun _ => [], fun _ => [], fun _ => [], []⟩ where
  out := fun _ => rfl
  rcvd := fun _ => rfl
  sent := fun _ => rfl
  rest := fun _ => incomplete_nil
  size := fun s => Or.inl (by unfold Ctx.handler; split <;> rfl)
  good := by simp
  queue := ⟨rfl, Or.inr ⟨rfl, rfl⟩, by simp, by simp⟩
  matched := trivial

theorem pinv_reach {e : Env} {dir : Dir} (hd : dir ≠ .unspecified) (hg : ∀ n, n < e.grow n) {w : Sys} (h : ReachP e dir w)
    (hr : Running w.ctx) : PInv e dir w ∧ w.ctx.dir = dir := by
  induction h with
  | start => exact ⟨pinv_start e dir, rfl⟩
  | step _ hend hx ih =>
    have hr0 : Running _ := Classical.byContradiction fun hn => exec_dir hx hn hr
    obtain ⟨hi, hdir⟩ := ih hr0
    exact pinv_step hd hg hdir hr0 hi hend hx hr

/-! ### C79: the byte streams -/

/-- **C79** However the stream was cut into portions, while no handler has failed: what was received on a side is a sequence
of Kafka messages and the beginning of one more; what was passed on is, message by message in the same order, what the
filter makes of it (see `PassedOn`). Nothing is passed on of an incomplete message. -/
theorem C79_stream {e : Env} {dir : Dir} (hd : dir ≠ .unspecified) (hg : ∀ n, n < e.grow n) {w : Sys} (h : ReachP e dir w)
    (hr : Running w.ctx) (s : Side) : ∃ (msgs : List Ev) (rest : Bytes),
      w.rcvd s = (msgs.map evFrame).flatten ++ rest ∧ Incomplete rest ∧ w.sent s = (msgs.map evOut).flatten ∧
      ∀ ev ∈ msgs, ev ∈ w.evs ∧ evIsReq ev = carriesRequests dir s ∧ IsFrame (evFrame ev) ∧ PassedOn e.x ev := by
  obtain ⟨hi, _⟩ := pinv_reach hd hg h hr
  refine ⟨msgsOf (carriesRequests dir s) w.evs, pending w s, hi.rcvd s, hi.rest s, hi.sent s, ?_⟩
  intro ev hev
  unfold msgsOf at hev
  rw [List.mem_filter] at hev
  obtain ⟨h1, h2⟩ := hev
  have h1 : ev ∈ w.evs := by simpa using h1
  exact ⟨h1, by simpa using h2, hi.good ev h1⟩

theorem passedOn_fun {x : Ext} {f o o' : Bytes} {det : Det} {ref ref' : Ref} (h : PassedOn x (.req f o det ref))
    (h' : PassedOn x (.req f o' det ref')) : o = o' := by
  obtain ⟨r, h1, _, h3, h4⟩ := h
  obtain ⟨r', g1, _, g3, g4⟩ := h'
  rw [h1] at g1
  injection g1 with g1; subst g1
  by_cases hk : r.apiKey ≠ 0 ∨ (maskRequest det r).2 = false
  · rw [h3 hk, g3 hk]
  · have hk0 : r.apiKey = 0 := Classical.byContradiction fun hn => hk (Or.inl hn)
    have hm : (maskRequest det r).2 = true := by
      cases hb : (maskRequest det r).2 with
      | true => rfl
      | false => exact absurd (Or.inr hb) hk
    obtain ⟨b, b1, b2⟩ := h4 hk0 hm
    obtain ⟨b', b1', b2'⟩ := g4 hk0 hm
    rw [b1] at b1'
    injection b1' with b1'; subst b1'
    rw [b2, b2']

/-- **C79** What is passed on of the requests depends only on what was received, not on how it was cut into portions or on
what happened on the other side (if DetectPII gives the same results). -/
theorem C79_cut {e : Env} {dir : Dir} (hd : dir ≠ .unspecified) (hg : ∀ n, n < e.grow n) {w w' : Sys} (h : ReachP e dir w)
    (h' : ReachP e dir w') (hr : Running w.ctx) (hr' : Running w'.ctx) (det : Det)
    (hdet : ∀ f o dt ref, Ev.req f o dt ref ∈ w.evs ++ w'.evs → dt = det) (s : Side) (hs : carriesRequests dir s = true)
    (hin : w.rcvd s = w'.rcvd s) : w.sent s = w'.sent s := by
  obtain ⟨ms, p, a1, a2, a3, a4⟩ := C79_stream hd hg h hr s
  obtain ⟨ms', p', b1, b2, b3, b4⟩ := C79_stream hd hg h' hr' s
  rw [a1, b1] at hin
  have hu := (frames_unique _ _ _ _ (by
    intro f hf
    obtain ⟨ev, hev, rfl⟩ := List.mem_map.mp hf
    exact (a4 ev hev).2.2.1) (by
    intro f hf
    obtain ⟨ev, hev, rfl⟩ := List.mem_map.mp hf
    exact (b4 ev hev).2.2.1) a2 b2 hin).1
  rw [a3, b3]
  have ga : ∀ ev ∈ ms, ∃ f o ref, ev = .req f o det ref ∧ PassedOn e.x ev := by
    intro ev hev
    obtain ⟨x1, x2, x3, x4⟩ := a4 ev hev
    cases ev with
    | resp f o ref => rw [hs] at x2; cases x2
    | req f o dt ref =>
      have := hdet f o dt ref (by simp [x1])
      subst this
      exact ⟨f, o, ref, rfl, x4⟩
  have gb : ∀ ev ∈ ms', ∃ f o ref, ev = .req f o det ref ∧ PassedOn e.x ev := by
    intro ev hev
    obtain ⟨x1, x2, x3, x4⟩ := b4 ev hev
    cases ev with
    | resp f o ref => rw [hs] at x2; cases x2
    | req f o dt ref =>
      have := hdet f o dt ref (by simp [x1])
      subst this
      exact ⟨f, o, ref, rfl, x4⟩
  clear a1 a2 a3 a4 b1 b2 b3 b4 hin
  congr 1
  induction ms generalizing ms' with
  | nil =>
    cases ms' with
    | nil => rfl
    | cons _ _ => simp at hu
  | cons ev ms ih =>
    cases ms' with
    | nil => simp at hu
    | cons ev' ms' =>
      simp only [List.map_cons, List.cons.injEq] at hu ⊢
      refine ⟨?_, ih ms' hu.2 (fun v hv => ga v (by simp [hv])) (fun v hv => gb v (by simp [hv]))⟩
      obtain ⟨f, o, ref, rfl, q1⟩ := ga ev (by simp)
      obtain ⟨f', o', ref', rfl, q2⟩ := gb ev' (by simp)
      have hf : f = f' := hu.1
      subst hf
      exact passedOn_fun q1 q2

theorem isFrame_frameOf (b : Bytes) (h : b.length + 4 < 2 ^ 31) : IsFrame (beBytes 4 b.length ++ b) := by
  have hl : (beBytes 4 b.length).length = 4 := by simp [beBytes]
  have ht : (beBytes 4 b.length ++ b).take 4 = beBytes 4 b.length := by
    rw [List.take_append_of_le_length (by omega), List.take_of_length_le (by omega)]
  refine ⟨by rw [List.length_append]; omega, ?_, by rw [List.length_append]; omega⟩
  rw [ht, beNat_beBytes 4 b.length 0, Nat.zero_mul, Nat.zero_add,
    Nat.mod_eq_of_lt (by rw [show (256 : Nat) ^ 4 = 4294967296 by decide]; omega)]
  rw [List.length_append]; omega

/-- **C79** What is passed on for a message is again one message (of the size written in front of it), or nothing (for a
response no request waits for); if it does not exceed the sizes Kafka can express. -/
theorem C79_framed {e : Env} {dir : Dir} (hd : dir ≠ .unspecified) (hg : ∀ n, n < e.grow n) {w : Sys} (h : ReachP e dir w)
    (hr : Running w.ctx) (ev : Ev) (hev : ev ∈ w.evs) (hsmall : (evOut ev).length < 2 ^ 31) :
    IsFrame (evOut ev) ∨ (evOut ev = [] ∧ evIsReq ev = false) := by
  obtain ⟨hi, _⟩ := pinv_reach hd hg h hr
  obtain ⟨hf, hp⟩ := hi.good ev hev
  cases ev with
  | req f o det ref =>
    refine Or.inl ?_
    obtain ⟨r, h1, _, h3, h4⟩ := hp
    by_cases hk : r.apiKey ≠ 0 ∨ (maskRequest det r).2 = false
    · show IsFrame o
      rw [h3 hk]; exact hf
    · have hk0 : r.apiKey = 0 := Classical.byContradiction fun hn => hk (Or.inl hn)
      have hm : (maskRequest det r).2 = true := by
        cases hb : (maskRequest det r).2 with
        | true => rfl
        | false => exact absurd (Or.inr hb) hk
      obtain ⟨b, _, b2⟩ := h4 hk0 hm
      show IsFrame o
      have hl : o.length < 2 ^ 31 := hsmall
      rw [b2] at hl ⊢
      refine isFrame_frameOf b ?_
      rw [List.length_append] at hl
      have : (beBytes 4 b.length).length = 4 := by simp [beBytes]
      omega
  | resp f o ref =>
    cases ref with
    | none => exact Or.inr ⟨hp, rfl⟩
    | some ref =>
      refine Or.inl ?_
      show IsFrame o
      rw [hp.1]; exact hf

/-! record values -/

theorem recs_prim (f : RecordBatch → RecordBatch) (p : Prim) (a : p.Val) :
    Prim.recs p (Prim.mapRecs f p a) = (Prim.recs p a).map f := by
  cases p <;> rfl

theorem flatMap_map_comm {α β : Type} (g : β → β) (k : α → α) (r : α → List β) (h : ∀ a, r (k a) = (r a).map g) (l : List α) :
    (l.map k).flatMap r = (l.flatMap r).map g := by
  induction l with
  | nil => rfl
  | cons a l ih => simp [List.flatMap_cons, h, ih]

theorem recs_mapRecs (f : RecordBatch → RecordBatch) : ∀ (s : Sch) (v : s.Val), recs s (mapRecs f s v) = (recs s v).map f := by
  intro s
  induction s with
  | nil => intro v; rfl
  | prim n c p d rest ih => intro v; simp only [recs, mapRecs, ih, List.map_append, recs_prim]
  | arr n c p rest ih =>
    intro v
    simp only [recs, mapRecs, ih, List.map_append]
    congr 1
    cases v.1 with
    | none => rfl
    | some l => exact flatMap_map_comm f _ _ (recs_prim f p) l
  | struct n c l h sub rest ih1 ih2 => intro v; simp only [recs, mapRecs, ih1, ih2, List.map_append]
  | arrS n c l h sub rest ih1 ih2 =>
    intro v
    simp only [recs, mapRecs, ih2, List.map_append]
    congr 1
    cases v.1 with
    | none => rfl
    | some l => exact flatMap_map_comm f _ _ (fun e => ih1 e.fields) l

theorem mapRecs_prim (g f : RecordBatch → RecordBatch) (p : Prim) (a : p.Val) :
    Prim.mapRecs g p (Prim.mapRecs f p a) = Prim.mapRecs (fun b => g (f b)) p a := by
  cases p <;> simp [Prim.mapRecs, List.map_map, Function.comp_def]

theorem mapRecs_mapRecs (g f : RecordBatch → RecordBatch) : ∀ (s : Sch) (v : s.Val),
    mapRecs g s (mapRecs f s v) = mapRecs (fun b => g (f b)) s v := by
  intro s
  induction s with
  | nil => intro v; rfl
  | prim n c p d rest ih => intro v; simp only [mapRecs, ih, mapRecs_prim]
  | arr n c p rest ih =>
    intro v
    simp only [mapRecs, ih]
    congr 1
    cases v.1 with
    | none => rfl
    | some l => simp [mapRecs_prim, List.map_map, Function.comp_def]
  | struct n c l h sub rest ih1 ih2 => intro v; simp only [mapRecs, ih1, ih2]
  | arrS n c l h sub rest ih1 ih2 =>
    intro v
    simp only [mapRecs, ih2]
    congr 1
    cases v.1 with
    | none => rfl
    | some l => simp [ih1, List.map_map, Function.comp_def]

/-- a batch without its records -/
def bare (b : RecordBatch) : RecordBatch := { b with records := none }

/-- **C79** What `maskRequest` stands for: the header stays as it is, and so does everything in the message apart from the
records of its batches (`mapRecs bare` forgets them); of the records everything but the value; and each value becomes what
DetectPII makes of it. -/
theorem C79_masked (det : Det) (r : Request) : (maskRequest det r).1.hdr = r.hdr ∧
    ∃ d, (maskRequest det r).1.data = ⟨r.data.1, d⟩ ∧ d.isNil = r.data.2.isNil ∧ d.unknown = r.data.2.unknown ∧
      mapRecs bare _ d.fields = mapRecs bare _ r.data.2.fields ∧
      recs _ d.fields = (recs _ r.data.2.fields).map (maskBatch det) ∧
      (∀ b, bare (maskBatch det b) = bare b ∧ (maskBatch det b).recordList = b.recordList.map (maskRecord det)) ∧
      (∀ k, maskRecord det k = { k with value := k.value.map fun v => (det v).1 }) := by
  refine ⟨rfl, _, rfl, rfl, rfl, ?_, recs_mapRecs _ _ _, ?_, fun _ => rfl⟩
  · rw [mapRecs_mapRecs]; rfl
  · intro b
    refine ⟨rfl, ?_⟩
    unfold maskBatch RecordBatch.recordList
    cases b.records <;> rfl

/-- **C79** In a connection of unknown direction, and after a failure, every byte is passed on as it comes. -/
theorem C79_off {e : Env} {w : Sys} (h : ¬ Running w.ctx ∨ w.ctx.dir = .unspecified) (s : Side) (chunk : Bytes) (eos : Bool)
    (det : Det) : ∃ w', exec e w (.data s chunk eos det) = some w' ∧ w'.ctx = w.ctx ∧ w'.evs = w.evs ∧
      w'.sent = upd w.sent s (w.sent s ++ (w.host s ++ chunk)) ∧ w'.host = upd w.host s [] := by
  have hx : onData e det s (w.host s ++ chunk) eos w.ctx = some (.continue, ⟨w.ctx, none, []⟩) := by
    rcases h with h | h
    · exact onData_failed h
    · unfold onData; rw [if_pos (Or.inr (Or.inr h))]
  simp only [exec, hx]
  exact ⟨_, rfl, rfl, rfl, rfl, rfl⟩

/-- **C79** A new connection starts afresh: nothing of the previous one is left, neither data nor unanswered requests nor a
failure. -/
theorem C79_fresh (e : Env) (w : Sys) : ∃ w', exec e w .newConnection = some w' ∧ (∀ s, w'.ctx.inc s = [] ∧ w'.ctx.out s = []) ∧
    w'.ctx.req = {} ∧ w'.ctx.resp = {} ∧ w'.ctx.q.items = [] ∧ w'.ctx.q.r = 0 ∧ w'.ctx.dir = w.ctx.dir := by
  refine ⟨_, rfl, ?_, rfl, rfl, rfl, rfl, rfl⟩
  intro s
  cases s <;> exact ⟨rfl, rfl⟩

/-! ### C80: responses and requests -/

/-- **C80** While no handler has failed, a response is taken to answer the oldest request that has no answer yet, for any
number of requests and responses in any order; the requests remembered are exactly those without an answer. -/
theorem C80_matched {e : Env} {dir : Dir} (hd : dir ≠ .unspecified) (hg : ∀ n, n < e.grow n) {w : Sys} (h : ReachP e dir w)
    (hr : Running w.ctx) : Matched w.evs ∧ w.ctx.q.items.drop w.ctx.q.r = outstanding w.evs ∧
      (w.ctx.q.items = [] ↔ outstanding w.evs = []) := by
  obtain ⟨hi, _⟩ := pinv_reach hd hg h hr
  exact ⟨hi.matched, hi.queue.view, empty_iff hi.queue⟩

/-- the requests and the requests answered, oldest first -/
def reqRefs (evs : List Ev) : List Ref := evs.reverse.filterMap fun | .req _ _ _ ref => some ref | _ => none
def respRefs (evs : List Ev) : List (Option Ref) := evs.reverse.filterMap fun | .resp _ _ ref => some ref | _ => none

theorem matched_order (evs : List Ev) (hm : Matched evs) (ha : ∀ r ∈ respRefs evs, r ≠ none) :
    reqRefs evs = (respRefs evs).filterMap id ++ outstanding evs := by
  induction evs with
  | nil => rfl
  | cons ev evs ih =>
    cases ev with
    | req f o d ref =>
      have h1 : reqRefs (.req f o d ref :: evs) = reqRefs evs ++ [ref] := by simp [reqRefs]
      have h2 : respRefs (.req f o d ref :: evs) = respRefs evs := by simp [respRefs]
      rw [h2] at ha ⊢
      rw [h1, ih hm ha]
      simp [outstanding]
    | resp f o ref =>
      have h1 : reqRefs (.resp f o ref :: evs) = reqRefs evs := by simp [reqRefs]
      have h2 : respRefs (.resp f o ref :: evs) = respRefs evs ++ [ref] := by simp [respRefs]
      rw [h2] at ha ⊢
      have hm2 : ref = (outstanding evs).head? ∧ Matched evs := hm
      rw [h1, ih hm2.2 (fun r hr => ha r (by simp [hr]))]
      have hne := ha ref (by simp)
      obtain ⟨e1, _⟩ := hm2
      show _ = _ ++ (outstanding evs).drop 1
      cases hx : outstanding evs with
      | nil => rw [hx] at e1; exact absurd e1 hne
      | cons a l =>
        rw [hx] at e1
        rw [e1]
        simp

/-- **C80** … so if no response came without a request to answer, the n-th response was parsed with the API key, version and
correlation id of the n-th request. -/
theorem C80_in_order {e : Env} {dir : Dir} (hd : dir ≠ .unspecified) (hg : ∀ n, n < e.grow n) {w : Sys} (h : ReachP e dir w)
    (hr : Running w.ctx) (ha : ∀ r ∈ respRefs w.evs, r ≠ none) (n : Nat) (ref : Option Ref)
    (hn : (respRefs w.evs)[n]? = some ref) : ref ≠ none ∧ (reqRefs w.evs)[n]? = ref := by
  obtain ⟨hm, _, _⟩ := C80_matched hd hg h hr
  have ho := matched_order w.evs hm ha
  have hall : ∀ l : List (Option Ref), (∀ r ∈ l, r ≠ none) → l = (l.filterMap id).map some := by
    intro l hl
    induction l with
    | nil => rfl
    | cons a l ih =>
      cases a with
      | none => exact absurd rfl (hl none (by simp))
      | some a => simp only [List.filterMap_cons, id, List.map_cons]; rw [← ih (fun r hr => hl r (by simp [hr]))]
  have hs := hall _ ha
  refine ⟨ha ref (List.mem_of_getElem? hn), ?_⟩
  rw [hs, List.getElem?_map] at hn
  cases hx : ((respRefs w.evs).filterMap id)[n]? with
  | none => rw [hx] at hn; cases hn
  | some a =>
    rw [hx] at hn
    simp only [Option.map_some] at hn
    injection hn with hn; subst hn
    rw [ho, List.getElem?_append_left (by
      rcases Nat.lt_or_ge n ((respRefs w.evs).filterMap id).length with h | h
      · exact h
      · rw [List.getElem?_eq_none h] at hx; cases hx)]
    exact hx

/-! ### C81: failures -/

/-- the beginning of a message, but not a complete one -/
def Begun (b : Bytes) : Prop := ∃ more, more ≠ [] ∧ IsFrame (b ++ more)

/-- the parser accepts the message; if something is masked, the result can be serialized -/
def ReqAccepted (x : Ext) (det : Det) (f : Bytes) : Prop := ∃ r, Request.parse x (f.drop 4) = .ok r ∧
  (r.apiKey = 0 → (maskRequest det r).2 = true → ∃ b, Request.serialize x (maskRequest det r).1 r.apiVersion = .ok b)

/-- the responses are accepted as answers to the given requests, one after the other -/
def RespAccepted (x : Ext) : List Bytes → List Ref → Prop
  | f :: fs, ref :: refs => (∃ r, Response.parse x (f.drop 4) ref.key ref.ver ref.corr = .ok r) ∧ RespAccepted x fs refs
  | _, _ => True

theorem frame_size {f z : Bytes} (h : IsFrame f) : ∃ m, msgSize (f ++ z) = some m ∧ completeSize m = f.length := by
  refine ⟨wrapS 4 (beNat (f.take 4) 0), ?_, ?_⟩
  · unfold msgSize
    have := h.four
    rw [if_neg (by simp; omega), List.take_append_of_le_length h.four]
  · have h1 := h.size
    have h2 := h.small
    rcases complete_cases _ (be4_lt (f.take 4) (by simp; omega)) with ⟨_, h3⟩ | ⟨h3, _⟩
    · omega
    · omega

theorem handleMsg_total {e : Env} {det : Det} {s : Side} {c : Pii.Ctx} {f : Bytes} {fs : List Bytes} {l : List Ref}
    (hq : QOk c.q l) (hreq : carriesRequests c.dir s = true → ReqAccepted e.x det f)
    (hresp : carriesRequests c.dir s = false → RespAccepted e.x (f :: fs) l) :
    ∃ c' ev, handleMsg e det s c f = .ok (c', ev) := by
  unfold handleMsg
  cases hc : carriesRequests c.dir s with
  | true =>
    simp only [if_true]
    obtain ⟨r, h1, h2⟩ := hreq hc
    have : ∃ p, handleRequest e.x det f = .ok p := by
      unfold handleRequest
      rw [h1]
      simp only [ofRes]
      by_cases hk : r.apiKey = 0
      · rw [if_neg (by simp [hk])]
        cases hm : (maskRequest det r).2 with
        | false => simp
        | true =>
          obtain ⟨b, hb⟩ := h2 hk hm
          simp [hb]
      · rw [if_pos hk]; exact ⟨_, rfl⟩
    obtain ⟨⟨b, ref⟩, hp⟩ := this
    rw [hp]
    exact ⟨_, _, rfl⟩
  | false =>
    simp only [Bool.false_eq_true, if_false]
    have : ∃ p, handleResponse e.x c.q f = .ok p := by
      unfold handleResponse
      by_cases hi : c.q.items = []
      · rw [if_pos hi]; exact ⟨_, rfl⟩
      · rw [if_neg hi]
        obtain ⟨⟨ref, q'⟩, hn⟩ := next_some hq hi
        rw [hn]
        obtain ⟨n1, _⟩ := next_ok hq hn
        cases l with
        | nil => cases n1
        | cons a l =>
          have : a = ref := by simpa using n1
          subst this
          obtain ⟨⟨r, hr⟩, _⟩ := hresp hc
          simp only [hr, ofRes]
          exact ⟨_, rfl⟩
    obtain ⟨⟨b, ref, q'⟩, hp⟩ := this
    rw [hp]
    exact ⟨_, _, rfl⟩

theorem loopDone_running {s : Side} {c : Pii.Ctx} {evs : List Ev} (h : Running c) : Running (loopDone s c evs).ctx := by
  unfold loopDone Running Ctx.resetHandler Ctx.setHandler
  unfold Running at h
  simp only
  split <;> simp [h.1, h.2]

theorem loop_total {e : Env} {det : Det} {s : Side} (hg : ∀ n, n < e.grow n) : ∀ n (c : Pii.Ctx) (evs : List Ev) (fs : List Bytes)
    (rest : Bytes), (c.inc s).length < n → Running c → c.inc s = fs.flatten ++ rest → (∀ f ∈ fs, IsFrame f) →
    (rest = [] ∨ (4 ≤ rest.length ∧ Begun rest)) →
    (carriesRequests c.dir s = true → ∀ f ∈ fs, ReqAccepted e.x det f) → QOk c.q (outstanding evs) → Matched evs →
    (carriesRequests c.dir s = false → RespAccepted e.x fs (outstanding evs)) →
    ∃ r, loop e det s n c evs = some r ∧ Running r.ctx := by
  intro n
  induction n with
  | zero => intro c evs fs rest hn; omega
  | succ n ih =>
    intro c evs fs rest hn hr hinc hfs hrest hreq hq hm hresp
    cases fs with
    | nil =>
      simp only [List.flatten_nil, List.nil_append] at hinc
      unfold loop
      rcases hrest with h0 | ⟨h4, more, hne, hf⟩
      · rw [if_pos (by rw [hinc, h0])]
        exact ⟨_, rfl, loopDone_running hr⟩
      · rw [if_neg (by rw [hinc]; intro h; rw [h] at h4; simp at h4)]
        have hsz : msgSize rest = some (wrapS 4 (beNat ((rest ++ more).take 4) 0)) := by
          unfold msgSize
          rw [if_neg (by omega), List.take_append_of_le_length h4]
        obtain ⟨m, hm1, hm2⟩ := frame_size (z := []) hf
        rw [List.append_nil] at hm1
        unfold msgSize at hm1
        rw [if_neg (by simp; omega)] at hm1
        injection hm1 with hm1
        rw [hinc, hsz, hm1]
        simp only
        have hml : 0 < more.length := by cases more with
          | nil => exact absurd rfl hne
          | cons _ _ => simp
        rw [if_pos (by rw [hm2]; simp only [List.length_append]; omega)]
        exact ⟨_, rfl, loopDone_running hr⟩
    | cons f fs =>
      have hf := hfs f (by simp)
      have hinc' : c.inc s = f ++ (fs.flatten ++ rest) := by rw [hinc]; simp
      obtain ⟨m, hm1, hm2⟩ := frame_size (z := fs.flatten ++ rest) hf
      have h4 := hf.four
      unfold loop
      rw [if_neg (by rw [hinc']; intro h; rw [(List.append_eq_nil_iff.mp h).1] at h4; simp at h4)]
      rw [hinc', hm1]
      simp only
      rw [if_neg (by rw [hm2]; simp only [List.length_append]; omega), if_neg (by rw [hm2]; omega)]
      have htn : (completeSize m).toNat = f.length := by omega
      rw [htn, List.take_left, List.drop_left]
      obtain ⟨c', ev, hh⟩ := handleMsg_total (e := e) (det := det) (s := s)
        (c := { c with inc := upd c.inc s (fs.flatten ++ rest) }) (f := f) (fs := fs) hq
        (fun h => hreq h f (by simp)) hresp
      rw [hh]
      simp only
      obtain ⟨k1, k2, k3, k4, k5, k6, k7, k8, k9⟩ := handleMsg_ok hg hh
      simp only at k1 k3 k4 k5 k6 k7 k8 k9
      obtain ⟨q1, q2⟩ := k9 evs hq hm
      have hci : c'.inc s = fs.flatten ++ rest := by rw [k4, upd_same]
      refine ih c' (ev :: evs) fs rest ?_ (by unfold Running at hr ⊢; rw [k6, k7]; exact hr) hci
        (fun g hg => hfs g (by simp [hg])) hrest (fun h g hg => hreq (by rw [← k3]; exact h) g (by simp [hg])) q1 q2 ?_
      · rw [hci]; rw [hinc'] at hn; simp only [List.length_append] at hn ⊢; omega
      · intro h
        rw [k3] at h
        have hr2 := hresp h
        rw [h] at k1
        cases ev with
        | req _ _ _ _ => cases k1
        | resp ff oo rf =>
          show RespAccepted e.x fs ((outstanding evs).drop 1)
          cases hx : outstanding evs with
          | nil => cases fs <;> exact trivial
          | cons a l => rw [hx] at hr2; exact hr2.2

theorem available_len {s : Side} {c : Pii.Ctx} {data : Bytes} (hs : SizeOk (c.handler s) (c.inc s ++ data))
    (h : (available s c data).1 = true) : 4 ≤ (c.inc s ++ data).length := by
  rcases hs with h0 | ⟨h1, _⟩
  · unfold available at h
    rcases Nat.lt_or_ge (data.length + (c.inc s).length) 4 with hl | hl
    · simp only at h
      rw [if_pos ⟨h0, hl⟩] at h
      cases h
    · simp; omega
  · exact h1

/-- **C81** (partial: see the negations below for what happens otherwise) The filter does not fail and does not crash on a
portion of the stream that ends at the end of a message, or at least four bytes into one (anywhere if it completes no
message), with messages the parser accepts, responses as answers to the requests they are taken to answer. -/
theorem C81_no_failure_partial {e : Env} {dir : Dir} (hd : dir ≠ .unspecified) (hg : ∀ n, n < e.grow n) {w : Sys}
    (h : ReachP e dir w) (hr : Running w.ctx) (s : Side) (chunk : Bytes) (eos : Bool) (det : Det) (fs : List Bytes)
    (rest : Bytes)
    (hin : w.rcvd s ++ chunk = ((msgsOf (carriesRequests dir s) w.evs).map evFrame).flatten ++ (fs.flatten ++ rest))
    (hfs : ∀ f ∈ fs, IsFrame f) (hrest : rest = [] ∨ Begun rest) (hcut : fs = [] ∨ rest = [] ∨ 4 ≤ rest.length)
    (hreq : carriesRequests dir s = true → ∀ f ∈ fs, ReqAccepted e.x det f)
    (hresp : carriesRequests dir s = false → RespAccepted e.x fs (outstanding w.evs)) :
    ∃ w', exec e w (.data s chunk eos det) = some w' ∧ Running w'.ctx := by
  obtain ⟨hi, hdir⟩ := pinv_reach hd hg h hr
  have hso : SizeOk (w.ctx.handler s) (w.ctx.inc s ++ (w.host s ++ chunk)) := by
    have := sizeOk_append (c := chunk) (hi.size s)
    rwa [pending, List.append_assoc] at this
  have hall : w.ctx.inc s ++ (w.host s ++ chunk) = fs.flatten ++ rest := by
    have := hi.rcvd s
    rw [this, List.append_assoc] at hin
    have := List.append_cancel_left hin
    rw [pending, List.append_assoc] at this
    exact this
  suffices hx : ∃ a r, onData e det s (w.host s ++ chunk) eos w.ctx = some (a, r) ∧ Running r.ctx by
    obtain ⟨a, r, h1, h2⟩ := hx
    cases a <;> (simp only [exec, h1]; exact ⟨_, rfl, h2⟩)
  obtain ⟨a1, a2, hh, a3, a4⟩ := available_spec hso
  have hreset : ∀ c : Pii.Ctx, Running c → Running ((c.resetBuffers s).resetHandler s) := by
    intro c hc
    unfold Running Ctx.resetHandler Ctx.setHandler Ctx.resetBuffers
    unfold Running at hc
    simp only
    split <;> simp [hc.1, hc.2]
  unfold onData
  rw [if_neg (by unfold Running at hr; simp [hr.1, hr.2, hdir, hd])]
  by_cases h0 : eos = true ∧ (w.host s ++ chunk).length + (w.ctx.inc s).length = 0
  · rw [if_pos h0]; exact ⟨_, _, rfl, hreset _ hr⟩
  · rw [if_neg h0]
    simp only
    have hlen := available_len hso
    rw [a3]
    have hrs : Running (w.ctx.setHandler s hh) := (setHandler_running a4).mpr hr
    cases hav : (available s w.ctx (w.host s ++ chunk)).1 with
    | false =>
      simp only [Bool.not_false, if_true]
      split
      · exact ⟨_, _, rfl, hreset _ hrs⟩
      · exact ⟨_, _, rfl, hrs⟩
    | true =>
      simp only [Bool.not_true, Bool.false_eq_true, if_false, setHandler_inc, upd_same]
      have h4 := hlen hav
      have hl2 := loop_base (e := e) (det := det) (s := s) w.evs ((w.ctx.inc s ++ (w.host s ++ chunk)).length + 1)
        { w.ctx.setHandler s hh with inc := upd w.ctx.inc s (w.ctx.inc s ++ (w.host s ++ chunk)) } []
      obtain ⟨r, l1, l2⟩ := loop_total (e := e) (det := det) (s := s) hg
        ((w.ctx.inc s ++ (w.host s ++ chunk)).length + 1)
        { w.ctx.setHandler s hh with inc := upd w.ctx.inc s (w.ctx.inc s ++ (w.host s ++ chunk)) } w.evs fs rest
        (by simp only [upd_same]; omega) hrs (by simp only [upd_same]; exact hall) hfs
        (by
          rcases hrest with hz | hz
          · exact Or.inl hz
          · rcases hcut with hy | hy | hy
            · rw [hy, List.flatten_nil, List.nil_append] at hall
              exact Or.inr ⟨by rw [← hall]; exact h4, hz⟩
            · exact Or.inl hy
            · exact Or.inr ⟨hy, hz⟩)
        (by simp only [setHandler_dir, hdir]; exact hreq) (by simp only [setHandler_q]; exact hi.queue) hi.matched
        (by simp only [setHandler_dir, hdir]; exact hresp)
      rw [List.nil_append, l1] at hl2
      cases hl : loop e det s ((w.ctx.inc s ++ (w.host s ++ chunk)).length + 1)
        { w.ctx.setHandler s hh with inc := upd w.ctx.inc s (w.ctx.inc s ++ (w.host s ++ chunk)) } [] with
      | none => rw [hl] at hl2; cases hl2
      | some r' =>
        rw [hl, Option.map_some] at hl2
        injection hl2 with hl2
        have hrr : Running r'.ctx := by rw [hl2] at l2; exact l2
        exact ⟨_, r', rfl, hrr⟩

/-! ### examples and negations -/

def exEnv : Env := ⟨exExt, fun n => 2 * n + 1⟩
def exDet : Det := fun v => detectPII findAll patterns v true
def frameOf (b : Bytes) : Bytes := beBytes 4 b.length ++ b
def startP (dir : Dir) : Sys := ⟨{ dir := dir }, fun _ => [], fun _ => [], fun _ => [], []⟩

/-- ListGroups, version 0, and its answer -/
def listReq (corr : UInt8) : Bytes := frameOf [0,16, 0,0, 0,0,0,corr, 0,1,99]
def listResp (corr : UInt8) : Bytes := frameOf [0,0,0,corr, 0,0, 0,0,0,0]

/-- a Produce request (version 3) with one record with the given value of 7 bytes -/
def produceReq (value : Bytes) : Bytes := frameOf (evilProduce 75
  ([0,0,0,0,0,0,0,0, 0,0,0,63, 0,0,0,0, 2, 0,0,0,0, 0,0, 0,0,0,0] ++ List.replicate 16 0 ++
   [0,0,0,0,0,0,0,0, 0,0, 0,0,0,0, 0,0,0,1] ++ [26, 0, 0, 0, 1, 14] ++ value ++ [0]))

def mailText : Bytes := [120, 64, 121, 46, 99, 111, 109]   -- x@y.com
def stars : Bytes := List.replicate 7 42

/-- what can be observed: what was passed on per side and whether the filter still works -/
def seen (w : Sys) : Bytes × Bytes × Bool := (w.sent .down, w.sent .up, !w.ctx.req.failed && !w.ctx.resp.failed)

/-- a mail address in a record is masked; the answer to a request is passed on -/
example : (runs exEnv [.data .down (produceReq mailText) false exDet] (startP .inbound)).map seen =
    some (produceReq stars, [], true) := by decide +kernel
example : (runs exEnv [.data .down (listReq 7) false exDet, .data .up (listResp 7) false exDet] (startP .inbound)).map seen =
    some (listReq 7, listResp 7, true) := by decide +kernel
/-- on outbound connections the sides are exchanged; without a direction nothing is masked -/
example : (runs exEnv [.data .up (produceReq mailText) false exDet] (startP .outbound)).map seen =
    some ([], produceReq stars, true) := by decide +kernel
example : (runs exEnv [.data .up (produceReq mailText) false exDet] (startP .unspecified)).map seen =
    some ([], produceReq mailText, true) := by decide +kernel
/-- two messages and the beginning of a third one in three portions -/
example : (runs exEnv [.data .down ((listReq 7).take 3) false exDet,
      .data .down ((listReq 7).drop 3 ++ produceReq mailText ++ (listReq 8).take 6) false exDet] (startP .inbound)).map seen =
    some (listReq 7 ++ produceReq stars, [], true) := by decide +kernel

/-- a state that meets the hypotheses of C79, C80 and C81 -/
theorem exReach : ∃ w, ReachP exEnv .inbound w ∧ Running w.ctx ∧ w.sent .down = listReq 7 ∧ w.sent .up = listResp 7 := by
  have h1 : ∃ w, exec exEnv (startP .inbound) (.data .down (listReq 7) false exDet) = some w ∧
      ∃ w', exec exEnv w (.data .up (listResp 7) false exDet) = some w' ∧ seen w' = (listReq 7, listResp 7, true) := by
    have h : (runs exEnv [.data .down (listReq 7) false exDet, .data .up (listResp 7) false exDet] (startP .inbound)).map seen =
      some (listReq 7, listResp 7, true) := by decide +kernel
    cases hx : exec exEnv (startP .inbound) (.data .down (listReq 7) false exDet) with
    | none => simp [runs, hx] at h
    | some w =>
      refine ⟨w, rfl, ?_⟩
      cases hy : exec exEnv w (.data .up (listResp 7) false exDet) with
      | none => simp [runs, hx, hy] at h
      | some w' =>
        refine ⟨w', rfl, ?_⟩
        simpa [runs, hx, hy] using h
  obtain ⟨w, x1, w', x2, x3⟩ := h1
  refine ⟨w', .step (.step .start (by simp) x1) (by simp) x2, ?_, ?_, ?_⟩
  · have : (!w'.ctx.req.failed && !w'.ctx.resp.failed) = true := congrArg (·.2.2) x3
    unfold Running
    simpa using this
  · exact congrArg (·.1) x3
  · exact congrArg (·.2.1) x3

/-- **C81** (negation) The same bytes, cut differently: if a portion ends one to three bytes into a message that follows a
complete one, the filter fails. From then on nothing is masked. -/
theorem C81_cut_false :
    (runs exEnv [.data .down (listReq 7 ++ produceReq mailText) false exDet] (startP .inbound)).map seen =
      some (listReq 7 ++ produceReq stars, [], true) ∧
    (runs exEnv [.data .down (listReq 7 ++ (produceReq mailText).take 2) false exDet,
      .data .down ((produceReq mailText).drop 2) false exDet] (startP .inbound)).map seen =
      some (listReq 7 ++ produceReq mailText, [], false) := by decide +kernel

/-- **C81** (negation) A message the parser rejects takes the complete messages before it in the same portion along: neither is
passed on. What follows is. -/
theorem C81_lost_false :
    (runs exEnv [.data .down (listReq 7 ++ frameOf [0, 99, 0, 0] ++ listReq 8) false exDet] (startP .inbound)).map seen =
      some (listReq 8, [], false) := by decide +kernel

/-- **C81** (negation) A response that no request waits for disappears. -/
theorem C81_response_dropped_false :
    (runs exEnv [.data .up (listResp 7) false exDet] (startP .inbound)).map seen = some ([], [], true) := by decide +kernel

/-- a Produce request without acknowledgement, which the broker does not answer -/
def produceNoAck : Bytes := frameOf ([0,0, 0,3, 0,0,0,6, 0,1,99] ++ [255,255, 0,0, 0,0,0,0, 0,0,0,0])

/-- **C81** (negation) After a Produce request that wants no acknowledgement the answer to the next request is taken for its
answer: it is lost and the filter fails. -/
theorem C81_no_ack_false :
    (runs exEnv [.data .down produceNoAck false exDet, .data .down (listReq 7) false exDet, .data .up (listResp 7) false exDet]
      (startP .inbound)).map seen = some (produceNoAck ++ listReq 7, [], false) := by decide +kernel

/-- **C81** (negation) A negative message size, or a request that crashes the parser (C59), crashes the plugin. -/
theorem C81_crash_false :
    (runs exEnv [.data .down [255, 255, 255, 255] false exDet] (startP .inbound)).isNone = true ∧
    (runs exEnv [.data .down (frameOf (evilProduce 61 evilBatch)) false exDet] (startP .inbound)).isNone = true := by
  decide +kernel

/-- **C81** (negation) What is left of a message when the stream ends is not passed on, whether the end is announced with the
data or later. -/
theorem C81_end_false :
    (runs exEnv [.data .down (listReq 7 ++ [1, 2, 3, 4, 5]) false exDet, .data .down [] true exDet] (startP .inbound)).map seen =
      some (listReq 7, [], true) ∧
    (runs exEnv [.data .down [0, 0, 0, 9, 1] true exDet] (startP .inbound)).map seen = some ([], [], true) := by
  decide +kernel

end Verif.Props
