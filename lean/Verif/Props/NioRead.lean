import Verif.Exp.NioConn
import Verif.Props.NioKey
/-
C83, C84: reading through the Java binding.
-/
namespace Verif.Props
open Verif Verif.Kafka Verif.Nio

/-- states of a connection whose reading is always requested with one key (in one selector) -/
inductive ReachR (key : Nat) : RSt → Prop
  | start : ReachR key {}
  | step {s s' : RSt} {a : RAct} : ReachR key s → (∀ k, a = .start k → k = key) → rexec s a = some s' → ReachR key s'

def chunkOf : RPhase → Option Bytes
  | .got c => some c
  | _ => none
def chunks (l : List (Nat × RPhase)) : List Bytes := l.filterMap fun r => chunkOf r.2
def liveR : RPhase → Bool
  | .notify => true
  | .reading => true
  | .got _ => true
  | _ => false

theorem over_step {s s' : RSt} {a : RAct} (h : rexec s a = some s') (ho : s.over) : s'.over := by
  have hscan : ∀ (l : List Nat) (t : RSt), t.over → (l.foldl scanKey t).over := by
    intro l
    induction l with
    | nil => intro t ht; exact ht
    | cons k l ih =>
      intro t ht
      refine ih _ ?_
      unfold scanKey
      split
      · exact ht
      · split <;> exact ht
  cases a <;> simp only [rexec] at h
  case peer b =>
    split at h
    · cases h
    · rename_i hp
      injection h with h; subst h
      rcases ho with ho | ⟨ho, _⟩
      · exact Or.inl ho
      · exact absurd ho hp
  case scan => injection h with h; subst h; exact hscan _ _ ho
  all_goals
    (repeat' split at h)
    all_goals first
      | (cases h; done)
      | (injection h with h; subst h
         rcases ho with ho | ⟨ho, hn⟩
         · first
           | exact Or.inl ho
           | exact Or.inl rfl
         · first
           | exact Or.inr ⟨ho, hn⟩
           | exact Or.inr ⟨rfl, hn⟩
           | exact Or.inl rfl
           | (refine Or.inr ⟨ho, ?_⟩; simp [hn]))

theorem chunks_same {l : List (Nat × RPhase)} {i k : Nat} {p p' : RPhase} (h : l[i]? = some (k, p)) (hp : chunkOf p = none)
    (hp' : chunkOf p' = none) : chunks (setR l i p') = chunks l := by
  induction l generalizing i with
  | nil => simp at h
  | cons r l ih =>
    cases i with
    | zero =>
      simp only [List.getElem?_cons_zero] at h
      injection h with h; subst h
      simp [setR, chunks, hp, hp']
    | succ i =>
      have := ih (i := i) (by simpa using h)
      simp only [setR, List.modify_succ_cons, chunks, List.filterMap_cons] at this ⊢
      rw [this]

theorem chunks_add {l : List (Nat × RPhase)} {i k : Nat} {p : RPhase} {c : Bytes} (h : l[i]? = some (k, p)) (hp : chunkOf p = none)
    (hl : l.length ≤ 1) : chunks l = [] ∧ chunks (setR l i (.got c)) = [c] := by
  match l, hl with
  | [], _ => simp at h
  | [r], _ =>
    cases i with
    | zero =>
      simp only [List.getElem?_cons_zero] at h
      injection h with h; subst h
      have hg : chunkOf (.got c) = some c := rfl
      simp [setR, chunks, hp, hg]
    | succ i => simp at h

theorem chunks_drop {l : List (Nat × RPhase)} {i k : Nat} {c : Bytes} {p' : RPhase} (h : l[i]? = some (k, .got c))
    (hp' : chunkOf p' = none) (hl : (chunks l).length ≤ 1) : chunks l = [c] ∧ chunks (setR l i p') = [] := by
  induction l generalizing i with
  | nil => simp at h
  | cons r l ih =>
    cases i with
    | zero =>
      simp only [List.getElem?_cons_zero] at h
      injection h with h; subst h
      have h0 : chunks ((k, RPhase.got c) :: l) = c :: chunks l := by simp [chunks, chunkOf]
      rw [h0] at hl ⊢
      have h1 : chunks l = [] := by simpa using hl
      refine ⟨by rw [h1], ?_⟩
      simp only [setR, List.modify_zero_cons, chunks, List.filterMap_cons, hp']
      exact h1
    | succ i =>
      have hi : l[i]? = some (k, .got c) := by simpa using h
      cases hr : chunkOf r.2 with
      | none =>
        have h0 : chunks (r :: l) = chunks l := by simp [chunks, hr]
        rw [h0] at hl ⊢
        have := ih hi hl
        refine ⟨this.1, ?_⟩
        simp only [setR, List.modify_succ_cons, chunks, List.filterMap_cons, hr]
        exact this.2
      | some d =>
        have h0 : chunks (r :: l) = d :: chunks l := by simp [chunks, hr]
        rw [h0] at hl
        have h1 : chunks l = [] := by simpa using hl
        have := (ih hi (by rw [h1]; simp)).1
        rw [h1] at this; cases this

structure RInv (key : Nat) (s : RSt) : Prop where
  one : ¬ s.over → s.readers.length ≤ 1 ∧ (s.readers ≠ [] → s.inProg key = some true ∧ ∀ r ∈ s.readers, liveR r.2 = true)
  few : (chunks s.readers).length ≤ 1
  bytes : s.delivered ++ s.buf ++ (chunks s.readers).flatten ++ s.net = s.rcvd

theorem live_set {l : List (Nat × RPhase)} {i : Nat} {p : RPhase} (h : ∀ r ∈ l, liveR r.2 = true) (hp : liveR p = true) :
    ∀ r ∈ setR l i p, liveR r.2 = true := by
  intro r hr
  obtain ⟨j, hj⟩ := List.getElem?_of_mem hr
  unfold setR at hj
  rw [List.getElem?_modify] at hj
  cases hx : l[j]? with
  | none => rw [hx] at hj; simp at hj
  | some q =>
    rw [hx] at hj
    have hq := List.mem_of_getElem? hx
    split at hj
    · simp at hj; rw [← hj]; exact hp
    · simp at hj; rw [← hj]; exact h q hq

theorem setR_length (l : List (Nat × RPhase)) (i : Nat) (p : RPhase) : (setR l i p).length = l.length := by simp [setR]
theorem setR_ne {l : List (Nat × RPhase)} {i : Nat} {p : RPhase} (h : setR l i p ≠ []) : l ≠ [] := by
  intro hc; rw [hc] at h; simp [setR] at h

theorem rinv_step {key : Nat} {s s' : RSt} {a : RAct} (hi : RInv key s) (hk : ∀ k, a = .start k → k = key)
    (h : rexec s a = some s') : RInv key s' := by
  have hov : ¬ s'.over → ¬ s.over := fun h1 h2 => h1 (over_step h h2)
  obtain ⟨h1, h2, h3⟩ := hi
  cases a <;> simp only [rexec] at h
  case peer b =>
    split at h
    · cases h
    · injection h with h; subst h
      exact ⟨fun ho => h1 (hov ho), h2, by simp only; rw [← h3]; simp⟩
  case peerClose => injection h with h; subst h; exact ⟨fun ho => h1 (hov ho), h2, h3⟩
  case fail => injection h with h; subst h; exact ⟨fun ho => h1 (hov ho), h2, h3⟩
  case start k =>
    have := hk k rfl; subst this
    split at h
    · injection h with h; subst h; exact ⟨h1, h2, h3⟩
    · rename_i hp
      injection h with h; subst h
      have hc : chunks (s.readers ++ [(k, RPhase.notify)]) = chunks s.readers := by simp [chunks, chunkOf]
      refine ⟨?_, by simp only [hc]; exact h2, by simp only [hc]; exact h3⟩
      intro ho
      have ho' : ¬ s.over := hov ho
      have he : s.readers = [] := by
        rcases Classical.em (s.readers = []) with h | h
        · exact h
        · exact absurd ((h1 ho').2 h).1 hp
      rw [he]
      exact ⟨by simp, fun _ => ⟨by simp [updO], by simp [liveR]⟩⟩
  case notify i =>
    split at h
    · rename_i k hr
      injection h with h; subst h
      have hc := chunks_same (p' := .reading) hr rfl rfl
      refine ⟨?_, by simp only [hc]; exact h2, by simp only [hc]; exact h3⟩
      intro ho
      obtain ⟨a1, a2⟩ := h1 (hov ho)
      exact ⟨by simp only [setR_length]; exact a1, fun hn => ⟨(a2 (setR_ne hn)).1, live_set (a2 (setR_ne hn)).2 rfl⟩⟩
    · cases h
  case readErr i =>
    split at h
    · rename_i k hr
      injection h with h; subst h
      have hc := chunks_same (p' := .notify) hr rfl rfl
      refine ⟨?_, by simp only [hc]; exact h2, by simp only [hc]; exact h3⟩
      intro ho
      obtain ⟨a1, a2⟩ := h1 (hov ho)
      exact ⟨by simp only [setR_length]; exact a1, fun hn => ⟨(a2 (setR_ne hn)).1, live_set (a2 (setR_ne hn)).2 rfl⟩⟩
    · cases h
  case read i n =>
    split at h
    · rename_i k hr
      split at h
      · rename_i hn
        injection h with h; subst h
        obtain ⟨n1, n2, n3, n4⟩ := hn
        have ho : ¬ s.over := by
          rintro (hc | ⟨_, hc⟩)
          · rw [n1] at hc; cases hc
          · rw [hc] at n4; simp at n4; omega
        obtain ⟨a1, a2⟩ := h1 ho
        obtain ⟨c1, c2⟩ := chunks_add (c := s.net.take n) hr rfl a1
        refine ⟨?_, by simp only [c2]; simp, ?_⟩
        · intro _
          exact ⟨by simp only [setR_length]; exact a1, fun hn => ⟨(a2 (setR_ne hn)).1, live_set (a2 (setR_ne hn)).2 rfl⟩⟩
        · simp only [c2]
          rw [c1] at h3
          rw [← h3]
          simp
      · cases h
    · cases h
  case readEnd i =>
    split at h
    · rename_i k hr
      split at h
      · rename_i ho
        injection h with h; subst h
        have hc := chunks_same (p' := .eofStore) hr rfl rfl
        exact ⟨fun hn => absurd ho (hov hn), by simp only [hc]; exact h2, by simp only [hc]; exact h3⟩
      · cases h
    · cases h
  case store i =>
    split at h
    · rename_i k c hr
      injection h with h; subst h
      obtain ⟨c1, c2⟩ := chunks_drop (p' := .notify) hr rfl h2
      refine ⟨?_, by simp only [c2]; simp, ?_⟩
      · intro ho
        obtain ⟨a1, a2⟩ := h1 (hov ho)
        exact ⟨by simp only [setR_length]; exact a1, fun hn => ⟨(a2 (setR_ne hn)).1, live_set (a2 (setR_ne hn)).2 rfl⟩⟩
      · simp only [c2]
        rw [c1] at h3
        rw [← h3]; simp
    · cases h
  case endStore i =>
    split at h
    · rename_i k hr
      injection h with h; subst h
      have hc := chunks_same (p' := .eofDelete) hr rfl rfl
      refine ⟨?_, by simp only [hc]; exact h2, by simp only [hc]; exact h3⟩
      intro ho
      have hm := List.mem_of_getElem? hr
      have := ((h1 (hov ho)).2 (List.ne_nil_of_mem hm)).2 _ hm
      simp [liveR] at this
    · cases h
  case endDelete i =>
    split at h
    · rename_i k hr
      injection h with h; subst h
      have hc := chunks_same (p' := .finished) hr rfl rfl
      refine ⟨?_, by simp only [hc]; exact h2, by simp only [hc]; exact h3⟩
      intro ho
      have hm := List.mem_of_getElem? hr
      have := ((h1 (hov ho)).2 (List.ne_nil_of_mem hm)).2 _ hm
      simp [liveR] at this
    · cases h
  case asyncRead n =>
    split at h
    · injection h with h; subst h; exact ⟨fun ho => h1 (hov ho), h2, h3⟩
    · injection h with h; subst h
      refine ⟨fun ho => h1 (hov ho), h2, ?_⟩
      simp only
      rw [← h3]
      simp only [List.append_assoc]
      rw [← List.append_assoc (s.buf.take n), List.take_append_drop]
  case scan =>
    injection h with h; subst h
    have gen : ∀ (l : List Nat) (t : RSt), RInv key t → RInv key (l.foldl scanKey t) := by
      intro l
      induction l with
      | nil => intro t ht; exact ht
      | cons k l ih =>
        intro t ht
        refine ih _ ?_
        unfold scanKey
        split
        · exact ⟨ht.one, ht.few, ht.bytes⟩
        · split
          · rename_i hf
            refine ⟨?_, ht.few, ht.bytes⟩
            intro ho
            obtain ⟨a1, a2⟩ := ht.one ho
            refine ⟨a1, fun hn => ⟨?_, (a2 hn).2⟩⟩
            have := (a2 hn).1
            simp only [updO]
            split
            · rename_i e; rw [e, hf] at this; cases this
            · exact this
          · exact ht
    exact gen _ _ ⟨h1, h2, h3⟩
  case drain => injection h with h; subst h; exact ⟨fun ho => h1 (hov ho), h2, h3⟩
  case other k => injection h with h; subst h; exact ⟨fun ho => h1 (hov ho), h2, h3⟩
  case close => injection h with h; subst h; exact ⟨fun ho => h1 (hov ho), h2, h3⟩
  case connClose =>
    split at h
    · injection h with h; subst h; exact ⟨fun ho => h1 (hov ho), h2, h3⟩
    · cases h

theorem rinv_reach {key : Nat} {s : RSt} (h : ReachR key s) : RInv key s := by
  induction h with
  | start => exact ⟨fun _ => ⟨by simp, by simp⟩, by simp [chunks], rfl⟩
  | step _ hk hx ih => exact rinv_step ih hk hx

/-! ### C83 -/

/-- **C83** The bytes `AsyncRead` has returned are a beginning of the bytes the peer has sent, in every interleaving of the
reader, further requests to read, `Select`, `AsyncRead` and `Close`; what is missing is in the read buffer, in the hands of
the reader or on the network. -/
theorem C83_in_order {key : Nat} {s : RSt} (h : ReachR key s) : ∃ held : Bytes,
    s.delivered ++ s.buf ++ held ++ s.net = s.rcvd := ⟨_, (rinv_reach h).bytes⟩

theorem C83_prefix {key : Nat} {s : RSt} (h : ReachR key s) : s.delivered <+: s.rcvd :=
  ⟨_, by have := (rinv_reach h).bytes; simp only [List.append_assoc] at this; exact this⟩

/-- **C83** While the stream is not over there is at most one reader. -/
theorem C83_one_reader {key : Nat} {s : RSt} (h : ReachR key s) (ho : ¬ s.over) : s.readers.length ≤ 1 :=
  ((rinv_reach h).one ho).1

/-! ### C84 -/

/-- **C84** (partial: before the end of the stream; afterwards see the negations) `AsyncRead` returns as much of the buffered
data as fits. -/
theorem C84_available_partial (s : RSt) (n : Nat) (h : s.eof = false) :
    ∃ s', rexec s (.asyncRead n) = some s' ∧ s'.delivered = s.delivered ++ s.buf.take n ∧ s'.buf = s.buf.drop n := by
  refine ⟨_, by simp only [rexec, h]; rfl, rfl, rfl⟩

/-- where the scan finds a key: it stays in the queue -/
theorem scanFold_mem (l : List Nat) : ∀ (t : RSt) (x : Nat), x ∈ t.queue → x ∈ (l.foldl scanKey t).queue := by
  induction l with
  | nil => intro t x h; exact h
  | cons k l ih =>
    intro t x h
    refine ih _ x ?_
    unfold scanKey
    split
    · exact offer_mono h
    · split <;> exact h

theorem scanKey_buf (t : RSt) (k : Nat) : (scanKey t k).buf = t.buf := by
  unfold scanKey; split
  · rfl
  · split <;> rfl

theorem scanFold_ready (l : List Nat) : ∀ (t : RSt), t.buf ≠ [] → t.queue.length + l.length ≤ queueCap →
    ∀ k ∈ l, newKey opRead k ∈ (l.foldl scanKey t).queue := by
  induction l with
  | nil => intro t _ _ k hk; cases hk
  | cons x l ih =>
    intro t hb hq k hk
    simp only [List.length_cons] at hq
    have ho : offer t.queue (newKey opRead x) = t.queue ++ [newKey opRead x] := by unfold offer; rw [if_pos (by omega)]
    have hx : (scanKey t x).queue = t.queue ++ [newKey opRead x] := by unfold scanKey; rw [if_pos hb]; exact ho
    rcases List.mem_cons.mp hk with h | h
    · subst h
      exact scanFold_mem l _ _ (by rw [hx]; simp)
    · exact ih _ (by rw [scanKey_buf]; exact hb) (by rw [hx]; simp; omega) k h

/-- **C84** (partial: the queue has room) While the buffer holds data, `Select` reports the key. -/
theorem C84_reported_partial (s : RSt) (k : Nat) (hk : k ∈ s.registered) (hb : s.buf ≠ [])
    (hq : s.queue.length + s.registered.length ≤ queueCap) : ∃ s', rexec s .scan = some s' ∧ newKey opRead k ∈ s'.queue :=
  ⟨_, rfl, scanFold_ready _ s hb hq k hk⟩

theorem scanFold_fields (l : List Nat) : ∀ t : RSt, (l.foldl scanKey t).eof = t.eof ∧ (l.foldl scanKey t).delivered = t.delivered ∧
    (l.foldl scanKey t).buf = t.buf ∧ (l.foldl scanKey t).readers = t.readers ∧ (t.buf = [] → (l.foldl scanKey t).queue = t.queue) := by
  induction l with
  | nil => intro t; exact ⟨rfl, rfl, rfl, rfl, fun _ => rfl⟩
  | cons k l ih =>
    intro t
    have hk : (scanKey t k).eof = t.eof ∧ (scanKey t k).delivered = t.delivered ∧ (scanKey t k).buf = t.buf ∧
        (scanKey t k).readers = t.readers ∧ (t.buf = [] → (scanKey t k).queue = t.queue) := by
      unfold scanKey
      split
      · rename_i hb; exact ⟨rfl, rfl, rfl, rfl, fun h => absurd h hb⟩
      · split <;> exact ⟨rfl, rfl, rfl, rfl, fun _ => rfl⟩
    obtain ⟨a, b, c, d, e⟩ := ih (scanKey t k)
    obtain ⟨a', b', c', d', e'⟩ := hk
    exact ⟨a.trans a', b.trans b', c.trans c', d.trans d', fun h => (e (c'.trans h)).trans (e' h)⟩

theorem after_eof {s s' : RSt} {a : RAct} (h : rexec s a = some s') (he : s.eof = true) :
    s'.eof = true ∧ s'.delivered = s.delivered := by
  cases a <;> simp only [rexec] at h
  case scan =>
    injection h with h; subst h
    obtain ⟨a, b, _⟩ := scanFold_fields s.registered s
    exact ⟨a.trans he, b⟩
  all_goals
    (repeat' split at h)
    all_goals first
      | (cases h; done)
      | (injection h with h; subst h; first | exact ⟨he, rfl⟩ | exact ⟨rfl, rfl⟩ | simp_all)

/-- **C84** (negation) Once the reader has met the end of the stream, `AsyncRead` never returns data again, whatever happens and
whatever the buffer holds … -/
theorem C84_eof_discards_false : ∀ (as : List RAct) (s s' : RSt), s.eof = true → rruns as s = some s' → s'.delivered = s.delivered := by
  intro as
  induction as with
  | nil => intro s s' _ h; injection h with h; rw [h]
  | cons a as ih =>
    intro s s' he h
    simp only [rruns] at h
    cases hx : rexec s a with
    | none => rw [hx] at h; cases h
    | some t =>
      rw [hx] at h
      obtain ⟨h1, h2⟩ := after_eof hx he
      rw [ih t s' h1 h, h2]

/-- … so data is lost when the peer sends and closes before the application reads: `Select` reports the key and `AsyncRead`
answers with the end of the stream. -/
theorem C84_data_lost_false :
    (rruns [.start 7, .peer [1, 2, 3], .peerClose, .notify 0, .read 0 3, .store 0, .notify 0, .drain, .readEnd 0, .scan, .asyncRead 10]
      {}).map (fun s => (s.rcvd, s.delivered, s.buf, s.sawEof, s.queue)) = some ([1, 2, 3], [], [1, 2, 3], true, [newKey opRead 7]) := by
  decide +kernel

/-- a stream that is over, with nothing in the buffer, the hands of a reader or the queue -/
structure Silent (s : RSt) : Prop where
  over : s.over
  buf : s.buf = []
  queue : s.queue = []
  none : chunks s.readers = []

theorem silent_step {s s' : RSt} {a : RAct} (h : rexec s a = some s') (hs : Silent s) (hk : ∀ k, a ≠ .other k) : Silent s' := by
  have ho := over_step h hs.over
  obtain ⟨h0, h1, h2, h3⟩ := hs
  cases a <;> simp only [rexec] at h
  case other k => exact absurd rfl (hk k)
  case scan =>
    injection h with h; subst h
    obtain ⟨_, _, c, d, e⟩ := scanFold_fields s.registered s
    exact ⟨ho, c.trans h1, (e h1).trans h2, by rw [d]; exact h3⟩
  case start k =>
    split at h <;> (injection h with h; subst h)
    · exact ⟨ho, h1, h2, h3⟩
    · refine ⟨ho, h1, h2, ?_⟩
      simp only
      rw [show chunks (s.readers ++ [(k, RPhase.notify)]) = chunks s.readers by simp [chunks, chunkOf]]
      exact h3
  case notify i =>
    split at h
    · rename_i k hr
      injection h with h; subst h
      refine ⟨ho, h1, by simp only [h1, ne_eq, not_true_eq_false, if_false]; exact h2, ?_⟩
      simp only; rw [chunks_same hr rfl rfl]; exact h3
    · cases h
  case readErr i =>
    split at h
    · rename_i k hr
      injection h with h; subst h
      exact ⟨ho, h1, h2, by simp only; rw [chunks_same hr rfl rfl]; exact h3⟩
    · cases h
  case read i n =>
    split at h
    · rename_i k hr
      split at h
      · rename_i hn
        exfalso
        rcases h0 with hc | ⟨_, hc⟩
        · rw [hn.1] at hc; cases hc
        · have := hn.2.2.2; rw [hc] at this; simp at this; omega
      · cases h
    · cases h
  case readEnd i =>
    split at h
    · rename_i k hr
      rw [if_pos h0] at h
      injection h with h; subst h
      exact ⟨ho, h1, h2, by simp only; rw [chunks_same hr rfl rfl]; exact h3⟩
    · cases h
  case store i =>
    split at h
    · rename_i k c hr
      exfalso
      have := List.mem_of_getElem? hr
      have hm : c ∈ chunks s.readers := List.mem_filterMap.mpr ⟨_, this, rfl⟩
      rw [h3] at hm; cases hm
    · cases h
  case endStore i =>
    split at h
    · rename_i k hr
      injection h with h; subst h
      exact ⟨ho, h1, h2, by simp only; rw [chunks_same hr rfl rfl]; exact h3⟩
    · cases h
  case endDelete i =>
    split at h
    · rename_i k hr
      injection h with h; subst h
      exact ⟨ho, h1, h2, by simp only; rw [chunks_same hr rfl rfl]; exact h3⟩
    · cases h
  all_goals
    (repeat' split at h)
    all_goals first
      | (cases h; done)
      | (injection h with h; subst h; first | exact ⟨ho, h1, h2, h3⟩ | exact ⟨ho, by simp [h1], h2, h3⟩ | exact ⟨ho, h1, rfl, h3⟩)

/-- **C84** (negation) When the stream ends and all data has been read, `Select` never reports the connection again, whatever the
application does with it: the application does not learn of the end of the stream. -/
theorem C84_eof_silent_false : ∀ (as : List RAct) (s s' : RSt), Silent s → (∀ a ∈ as, ∀ k, a ≠ .other k) → rruns as s = some s' →
    s'.queue = [] := by
  intro as
  induction as with
  | nil => intro s s' hs _ h; injection h with h; rw [← h]; exact hs.queue
  | cons a as ih =>
    intro s s' hs hk h
    simp only [rruns] at h
    cases hx : rexec s a with
    | none => rw [hx] at h; cases h
    | some t =>
      rw [hx] at h
      exact ih t s' (silent_step hx hs (hk a (by simp))) (fun b hb => hk b (by simp [hb])) h

/-- … for instance after a peer that sent three bytes, which were read, has closed the connection -/
example : ∃ s, rruns [.start 7, .peer [1, 2, 3], .notify 0, .read 0 3, .store 0, .notify 0, .drain, .asyncRead 10, .peerClose] {} = some s ∧
    Silent s ∧ s.delivered = [1, 2, 3] ∧ 7 ∈ s.registered := by
  refine ⟨_, rfl, ⟨Or.inr ⟨rfl, rfl⟩, rfl, rfl, rfl⟩, rfl, ?_⟩
  decide

/-- two keys (a channel registered with two selectors): the bytes are delivered in the wrong order -/
theorem C83_two_keys_false :
    (rruns [.start 1, .start 2, .peer [1, 2], .notify 0, .notify 1, .read 0 1, .read 1 1, .store 1, .store 0, .asyncRead 2] {}).map
      (fun s => (s.rcvd, s.delivered)) = some ([1, 2], [2, 1]) := by decide +kernel

/-- a reachable state with a second request to read, data delivered in two portions -/
example : ∃ s, ReachR 7 s ∧ s.delivered = [1, 2, 3] ∧ ¬ s.over :=
  ⟨_, .step (.step (.step (.step (.step (.step (.step (.step (.step .start (a := .start 7) (by simp) rfl) (a := .peer [1, 2, 3, 4])
      (by simp) rfl) (a := .notify 0) (by simp) rfl) (a := .read 0 3) (by simp) rfl) (a := .start 7) (by simp) rfl)
      (a := .store 0) (by simp) rfl) (a := .asyncRead 1) (by simp) rfl) (a := .asyncRead 1) (by simp) rfl)
      (a := .asyncRead 5) (by simp) rfl, rfl, by decide⟩

end Verif.Props
