import Verif.Net.Proxy
/-
C101, C102: relaying between two connections.
-/
namespace Verif.Props.Relay
open Verif Verif.Net.Proxy

/-- one direction: `src` is read, `dst` written by the copier -/
def DirInv (src dst : Conn) (c : Copier) : Prop :=
  (match c with
    | .reading => dst.out ++ src.inq = src.sent
    | .writing bs => dst.out ++ bs ++ src.inq = src.sent
    | .ended ok => (ok = true → dst.out = src.sent ∧ src.eof = true) ∧ dst.out <+: src.sent
    | .done ok => (ok = true → dst.out = src.sent ∧ src.eof = true) ∧ dst.out <+: src.sent) ∧
  (dst.wclosed = true ↔ ∃ ok, c = .done ok) ∧ (dst.closed = true → dst.wclosed = true ∧ dst.half = false)

theorem dir_congr {src dst src' dst' : Conn} {c : Copier} (h : DirInv src dst c) (h1 : src'.inq = src.inq) (h2 : src'.sent = src.sent)
    (h3 : src.eof = true → src'.eof = true) (h4 : dst'.out = dst.out) (h5 : dst'.wclosed = dst.wclosed) (h6 : dst'.closed = dst.closed)
    (h7 : dst'.half = dst.half) : DirInv src' dst' c := by
  obtain ⟨a, b, d⟩ := h
  refine ⟨?_, by rw [h5]; exact b, by rw [h5, h6, h7]; exact d⟩
  cases c with
  | reading => simp only at a ⊢; rw [h1, h2, h4]; exact a
  | writing bs => simp only at a ⊢; rw [h1, h2, h4]; exact a
  | ended ok => simp only at a ⊢; rw [h2, h4]; exact ⟨fun ho => ⟨(a.1 ho).1, h3 (a.1 ho).2⟩, a.2⟩
  | done ok => simp only at a ⊢; rw [h2, h4]; exact ⟨fun ho => ⟨(a.1 ho).1, h3 (a.1 ho).2⟩, a.2⟩

theorem other_ne (s : Side) : s.other ≠ s := by cases s <;> decide
theorem ne_other (s : Side) : s ≠ s.other := by cases s <;> decide
theorem other_other (s : Side) : s.other.other = s := by cases s <;> rfl
theorem side_cases (s t : Side) : t = s ∨ t = s.other := by cases s <;> cases t <;> decide

theorem dir_prefix {src dst : Conn} {c : Copier} (h : DirInv src dst c) : dst.out <+: src.sent := by
  obtain ⟨a, _⟩ := h
  cases c with
  | reading => exact ⟨_, a⟩
  | writing bs => exact ⟨bs ++ src.inq, by rw [← List.append_assoc]; exact a⟩
  | ended ok => exact a.2
  | done ok => exact a.2

/-- every step keeps the invariant of both directions -/
theorem dir_step {st st' : St} {a : Act} (h : ∀ s, DirInv (st.conn s) (st.conn s.other) (st.cop s)) (he : exec st a = some st') :
    ∀ s, DirInv (st'.conn s) (st'.conn s.other) (st'.cop s) := by
  -- the two directions after a change of one connection that only concerns what is read from it
  have upd : ∀ (s : Side) (c' : Conn), c'.out = (st.conn s).out → c'.wclosed = (st.conn s).wclosed → c'.closed = (st.conn s).closed →
      c'.half = (st.conn s).half → DirInv c' (st.conn s.other) (st.cop s) →
      ∀ t, DirInv (updS st.conn s c' t) (updS st.conn s c' t.other) (st.cop t) := by
    intro s c' h1 h2 h3 h4 hd t
    rcases side_cases s t with rfl | rfl
    · rw [updS_same, updS_ne _ _ (other_ne _)]; exact hd
    · rw [other_other, updS_same, updS_ne _ _ (other_ne _)]
      have := h s.other
      rw [other_other] at this
      exact dir_congr this rfl rfl id h1 h2 h3 h4
  cases a with
  | peerSend s bs =>
    simp only [exec] at he
    by_cases hc : ((st.conn s).eof || (st.conn s).broken) = true
    · rw [if_pos hc] at he; cases he
    · rw [if_neg hc] at he; injection he with he; subst he
      simp only [Bool.or_eq_true, not_or] at hc
      refine upd s _ rfl rfl rfl rfl ?_
      have hs := h s
      obtain ⟨a, b, d⟩ := hs
      refine ⟨?_, b, d⟩
      cases hcop : st.cop s with
      | reading => rw [hcop] at a; simp only at a ⊢; rw [← List.append_assoc, a]
      | writing x => rw [hcop] at a; simp only at a ⊢; rw [← a]; simp [List.append_assoc]
      | ended ok =>
        rw [hcop] at a; simp only at a ⊢
        exact ⟨fun ho => absurd (a.1 ho).2 hc.1, List.IsPrefix.trans a.2 ⟨bs, rfl⟩⟩
      | done ok =>
        rw [hcop] at a; simp only at a ⊢
        exact ⟨fun ho => absurd (a.1 ho).2 hc.1, List.IsPrefix.trans a.2 ⟨bs, rfl⟩⟩
  | peerEof s =>
    simp only [exec] at he
    by_cases hc : ((st.conn s).eof || (st.conn s).broken) = true
    · rw [if_pos hc] at he; cases he
    · rw [if_neg hc] at he; injection he with he; subst he
      exact upd s _ rfl rfl rfl rfl (dir_congr (h s) rfl rfl (fun _ => rfl) rfl rfl rfl rfl)
  | peerBreak s =>
    simp only [exec] at he; injection he with he; subst he
    exact upd s _ rfl rfl rfl rfl (dir_congr (h s) rfl rfl id rfl rfl rfl rfl)
  | read s n =>
    simp only [exec] at he
    split at he
    · rename_i hc
      injection he with he; subst he
      intro t
      obtain ⟨a, b, d⟩ := h s
      rcases side_cases s t with rfl | rfl
      · simp only [updS_same, updS_ne _ _ (other_ne _)]
        rw [hc.1] at a b
        refine ⟨?_, ⟨fun hw => ?_, fun hw => ?_⟩, d⟩
        · simp only at a ⊢; rw [List.append_assoc, List.take_append_drop]; exact a
        · obtain ⟨ok, hx⟩ := b.mp hw; cases hx
        · obtain ⟨ok, hx⟩ := hw; cases hx
      · simp only [other_other, updS_same, updS_ne _ _ (other_ne _)]
        have := h s.other
        rw [other_other] at this
        exact dir_congr this rfl rfl id rfl rfl rfl rfl
    · cases he
  | readEof s =>
    simp only [exec] at he
    split at he
    · rename_i hc
      injection he with he; subst he
      intro t
      obtain ⟨a, b, d⟩ := h s
      rcases side_cases s t with rfl | rfl
      · simp only [updS_same]
        rw [hc.1] at a b
        simp only at a
        rw [hc.2.2.1, List.append_nil] at a
        refine ⟨⟨fun _ => ⟨a, hc.2.2.2⟩, a ▸ List.prefix_refl _⟩, ⟨fun hw => ?_, fun hw => ?_⟩, d⟩
        · obtain ⟨ok, hx⟩ := b.mp hw; cases hx
        · obtain ⟨ok, hx⟩ := hw; cases hx
      · simp only [updS_ne _ _ (other_ne _)]; exact h _
    · cases he
  | readErr s =>
    simp only [exec] at he
    split at he
    · rename_i hc
      injection he with he; subst he
      intro t
      have hp := dir_prefix (h s)
      obtain ⟨a, b, d⟩ := h s
      rcases side_cases s t with rfl | rfl
      · simp only [updS_same]
        rw [hc.1] at b
        refine ⟨⟨fun hx => by simp at hx, hp⟩, ⟨fun hw => ?_, fun hw => ?_⟩, d⟩
        · obtain ⟨ok, hx⟩ := b.mp hw; cases hx
        · obtain ⟨ok, hx⟩ := hw; cases hx
      · simp only [updS_ne _ _ (other_ne _)]; exact h _
    · cases he
  | write s =>
    simp only [exec] at he
    cases hcop : st.cop s with
    | writing bs =>
      rw [hcop] at he
      simp only at he
      split at he
      · rename_i hc
        injection he with he; subst he
        intro t
        obtain ⟨a, b, d⟩ := h s
        rcases side_cases s t with rfl | rfl
        · simp only [updS_same, updS_ne _ _ (ne_other _)]
          rw [hcop] at a b
          refine ⟨a, ⟨fun hw => ?_, fun hw => ?_⟩, d⟩
          · simp only at hw; rw [hc.1] at hw; cases hw
          · obtain ⟨ok, hx⟩ := hw; cases hx
        · simp only [other_other, updS_same, updS_ne _ _ (ne_other _), updS_ne _ _ (other_ne _)]
          have := h s.other
          rw [other_other] at this
          exact dir_congr this rfl rfl id rfl rfl rfl rfl
      · cases he
    | reading => rw [hcop] at he; cases he
    | ended ok => rw [hcop] at he; cases he
    | done ok => rw [hcop] at he; cases he
  | writeErr s =>
    simp only [exec] at he
    cases hcop : st.cop s with
    | writing bs =>
      rw [hcop] at he
      simp only at he
      split at he
      · injection he with he; subst he
        intro t
        have hp := dir_prefix (h s)
        obtain ⟨a, b, d⟩ := h s
        rcases side_cases s t with rfl | rfl
        · simp only [updS_same]
          rw [hcop] at b
          refine ⟨⟨fun hx => by simp at hx, hp⟩, ⟨fun hw => ?_, fun hw => ?_⟩, d⟩
          · obtain ⟨ok, hx⟩ := b.mp hw; cases hx
          · obtain ⟨ok, hx⟩ := hw; cases hx
        · simp only [updS_ne _ _ (other_ne _)]; exact h _
      · cases he
    | reading => rw [hcop] at he; cases he
    | ended ok => rw [hcop] at he; cases he
    | done ok => rw [hcop] at he; cases he
  | closeDst s =>
    simp only [exec] at he
    cases hcop : st.cop s with
    | ended ok =>
      rw [hcop] at he
      simp only at he
      injection he with he; subst he
      intro t
      obtain ⟨a, b, d⟩ := h s
      rcases side_cases s t with rfl | rfl
      · simp only [updS_same, updS_ne _ _ (ne_other _)]
        rw [hcop] at a b
        cases hh : (st.conn t.other).half with
        | true =>
          simp only [if_true]
          exact ⟨a, ⟨fun _ => ⟨ok, rfl⟩, fun _ => rfl⟩, fun hx => ⟨rfl, by rw [← hh]; exact (d hx).2⟩⟩
        | false =>
          simp only [Bool.false_eq_true, if_false]
          exact ⟨a, ⟨fun _ => ⟨ok, rfl⟩, fun _ => rfl⟩, fun _ => ⟨rfl, rfl⟩⟩
      · simp only [other_other, updS_same, updS_ne _ _ (ne_other _), updS_ne _ _ (other_ne _)]
        have := h s.other
        rw [other_other] at this
        cases hh : (st.conn s.other).half with
        | true => simp only [if_true]; exact dir_congr this rfl rfl id rfl rfl rfl rfl
        | false => simp only [Bool.false_eq_true, if_false]; exact dir_congr this rfl rfl id rfl rfl rfl rfl
    | reading => rw [hcop] at he; cases he
    | writing bs => rw [hcop] at he; cases he
    | done ok => rw [hcop] at he; cases he

theorem dir_reach {guard : Act → Prop} {hl hr : Bool} {size : Nat} {st : St} (h : Reach guard (fresh hl hr size) st) :
    ∀ s, DirInv (st.conn s) (st.conn s.other) (st.cop s) := by
  induction h with
  | init => intro s; exact ⟨rfl, ⟨fun h => absurd h (by simp [fresh]), fun h => absurd h (by simp [fresh])⟩, fun h => absurd h (by simp [fresh])⟩
  | step _ _ he ih => exact dir_step ih he

/-! ### C101 -/

/-- neither the network nor a peer breaks a connection -/
def NoBreak : Act → Prop
  | .peerBreak _ => False
  | _ => True

/-- **C101** Whatever happens, each peer receives a beginning of what the other one sent, in order. -/
theorem C101_order {hl hr : Bool} {size : Nat} {st : St} (h : Reach (fun _ => True) (fresh hl hr size) st) (s : Side) :
    (st.conn s.other).out <+: (st.conn s).sent := dir_prefix (dir_reach h s)

theorem half_reach {guard : Act → Prop} {st0 st : St} (h : Reach guard st0 st) :
    (∀ s, (st.conn s).half = (st0.conn s).half) ∧ st.bufferSize = st0.bufferSize := by
  induction h with
  | init => exact ⟨fun s => rfl, rfl⟩
  | step _ hg he ih =>
    rename_i s s' a _
    clear hg
    have key : (∀ t, (s'.conn t).half = (s.conn t).half) ∧ s'.bufferSize = s.bufferSize := by
      have U : ∀ (x : Side) (c : Conn) (t : Side), c.half = (s.conn x).half → (updS s.conn x c t).half = (s.conn t).half := by
        intro x c t hc
        unfold updS; split
        · rename_i ht; subst ht; exact hc
        · rfl
      cases a <;> simp only [exec] at he
      case peerSend x bs => split at he <;> cases he; exact ⟨fun t => U x _ t rfl, rfl⟩
      case peerEof x => split at he <;> cases he; exact ⟨fun t => U x _ t rfl, rfl⟩
      case peerBreak x => cases he; exact ⟨fun t => U x _ t rfl, rfl⟩
      case read x n => split at he <;> cases he; exact ⟨fun t => U x _ t rfl, rfl⟩
      case readEof x => split at he <;> cases he; exact ⟨fun t => rfl, rfl⟩
      case readErr x => split at he <;> cases he; exact ⟨fun t => rfl, rfl⟩
      case write x =>
        split at he
        · split at he <;> cases he; exact ⟨fun t => U x.other _ t rfl, rfl⟩
        · cases he
      case writeErr x =>
        split at he
        · split at he <;> cases he; exact ⟨fun t => rfl, rfl⟩
        · cases he
      case closeDst x =>
        split at he
        · cases he; refine ⟨fun t => U x.other _ t (by split <;> rfl), rfl⟩
        · cases he
    exact ⟨fun t => (key.1 t).trans (ih.1 t), key.2.trans ih.2⟩

/-- without breaks and full closes no direction fails -/
theorem clean_reach {size : Nat} {st : St} (h : Reach NoBreak (fresh true true size) st) :
    ∀ s, (st.conn s).broken = false ∧ st.cop s ≠ .ended false ∧ st.cop s ≠ .done false := by
  induction h with
  | init => intro s; exact ⟨rfl, by simp [fresh], by simp [fresh]⟩
  | step hr hg he ih =>
    rename_i s s' a
    have hdir := dir_reach hr
    have hhalf := (half_reach hr).1
    have hcl : ∀ t, (s.conn t).closed = false := by
      intro t
      cases hc : (s.conn t).closed with
      | false => rfl
      | true =>
        have h1 := (hdir t.other).2.2
        rw [other_other] at h1
        have h2 := (h1 hc).2
        rw [hhalf t] at h2
        cases t <;> cases h2
    have U : ∀ (x : Side) (c : Conn) (t : Side), c.broken = (s.conn x).broken → (updS s.conn x c t).broken = false := by
      intro x c t hc
      unfold updS; split
      · rw [hc]; exact (ih x).1
      · exact (ih t).1
    have V : ∀ (x : Side) (c : Copier), c ≠ .ended false → c ≠ .done false → ∀ t, updS s.cop x c t ≠ .ended false ∧
        updS s.cop x c t ≠ .done false := by
      intro x c h1 h2 t
      unfold updS; split
      · exact ⟨h1, h2⟩
      · exact (ih t).2
    cases a <;> simp only [exec] at he
    case peerSend x bs => split at he <;> cases he; exact fun t => ⟨U x _ t rfl, (ih t).2⟩
    case peerEof x => split at he <;> cases he; exact fun t => ⟨U x _ t rfl, (ih t).2⟩
    case peerBreak x => exact absurd hg id
    case read x n =>
      split at he <;> cases he
      exact fun t => ⟨U x _ t rfl, V x _ (by intro h; cases h) (by intro h; cases h) t⟩
    case readEof x => split at he <;> cases he; exact fun t => ⟨(ih t).1, V x _ (by intro h; cases h) (by intro h; cases h) t⟩
    case readErr x =>
      split at he
      · rename_i hc
        rcases hc.2 with h1 | h1
        · rw [hcl] at h1; cases h1
        · rw [(ih x).1] at h1; cases h1
      · cases he
    case write x =>
      split at he
      · split at he <;> cases he
        exact fun t => ⟨U x.other _ t rfl, V x _ (by intro h; cases h) (by intro h; cases h) t⟩
      · cases he
    case writeErr x =>
      split at he
      · rename_i bs hcop
        split at he
        · rename_i hc
          rcases hc with h1 | h1 | h1
          · obtain ⟨ok, hx⟩ := (hdir x).2.1.mp h1
            rw [hcop] at hx; cases hx
          · rw [hcl] at h1; cases h1
          · rw [(ih x.other).1] at h1; cases h1
        · cases he
      · cases he
    case closeDst x =>
      split at he
      · rename_i ok hcop
        cases he
        have hok : ok = true := by
          cases ok with
          | true => rfl
          | false => exact absurd hcop (ih x).2.1
        subst hok
        exact fun t => ⟨U x.other _ t (by split <;> rfl), V x _ (by intro h; cases h) (by intro h; cases h) t⟩
      · cases he

/-- **C101** Between two connections that can close one direction, if nothing breaks: the end of the stream is passed on exactly when a
peer has ended and everything it sent has been delivered, whatever the other direction does; -/
theorem C101_complete {size : Nat} {st : St} (h : Reach NoBreak (fresh true true size) st) (s : Side)
    (hw : (st.conn s.other).wclosed = true) : (st.conn s).eof = true ∧ (st.conn s.other).out = (st.conn s).sent ∧
      (st.conn s.other).closed = false := by
  obtain ⟨ok, hd⟩ := (dir_reach h s).2.1.mp hw
  have hc := clean_reach h s
  have hok : ok = true := by
    cases ok with
    | true => rfl
    | false => exact absurd hd hc.2.2
  subst hok
  have hI := dir_reach h s
  rw [hd] at hI
  refine ⟨(hI.1.1 rfl).2, (hI.1.1 rfl).1, ?_⟩
  cases hcl : (st.conn s.other).closed with
  | false => rfl
  | true =>
    have := (hI.2.2 hcl).2
    rw [(half_reach h).1] at this
    cases s <;> cases this

/-- **C101** … `Start` returns only when both peers have ended and all was delivered. -/
theorem C101_returned {size : Nat} {st : St} (h : Reach NoBreak (fresh true true size) st) (hr : returned st) (s : Side) :
    (st.conn s).eof = true ∧ (st.conn s.other).out = (st.conn s).sent ∧ (st.conn s.other).wclosed = true := by
  have hw := (dir_reach h s).2.1.mpr (hr s)
  exact ⟨(C101_complete h s hw).1, (C101_complete h s hw).2.1, hw⟩

/-- what is left to do in one direction -/
def work (st : St) (s : Side) : Nat :=
  2 * (st.conn s).inq.length + match st.cop s with
    | .reading => 2
    | .writing _ => 3
    | .ended _ => 1
    | .done _ => 0

/-- **C101** … and each direction proceeds by itself: as long as there is something to relay or the peer has ended, its goroutine can do
a step; its steps use up the work and the peer's sending is all that adds to it. -/
theorem C101_progress {size : Nat} (hsize : 1 ≤ size) {st : St} (h : Reach NoBreak (fresh true true size) st) (s : Side)
    (hnd : ∀ ok, st.cop s ≠ .done ok) (hwork : st.cop s = .reading → (st.conn s).inq ≠ [] ∨ (st.conn s).eof = true) :
    ∃ a ∈ [Act.read s 1, .readEof s, .write s, .closeDst s], ∃ st', exec st a = some st' ∧ work st' s < work st s ∧
      work st' s.other = work st s.other := by
  have hdir := dir_reach h
  have hcl : ∀ t, (st.conn t).closed = false := by
    intro t
    cases hc : (st.conn t).closed with
    | false => rfl
    | true =>
      have h1 := (hdir t.other).2.2
      rw [other_other] at h1
      have h2 := (h1 hc).2
      rw [(half_reach h).1 t] at h2
      cases t <;> cases h2
  have hsz : st.bufferSize = size := (half_reach h).2
  cases hcop : st.cop s with
  | reading =>
    cases hq : (st.conn s).inq with
    | nil =>
      have heof : (st.conn s).eof = true := by
        rcases hwork hcop with h1 | h1
        · exact absurd hq h1
        · exact h1
      refine ⟨.readEof s, by simp, _, by simp only [exec]; rw [if_pos ⟨hcop, hcl s, hq, heof⟩], ?_, ?_⟩
      · simp [work, hcop]
      · simp [work, updS_ne _ _ (other_ne _)]
    | cons b q =>
      refine ⟨.read s 1, by simp, _, by simp only [exec]; rw [if_pos ⟨hcop, hcl s, by omega, by omega, by rw [hq]; simp⟩], ?_, ?_⟩
      · simp [work, hcop, hq]; omega
      · simp [work, updS_ne _ _ (other_ne _)]
  | writing bs =>
    have hw : (st.conn s.other).wclosed = false := by
      cases hx : (st.conn s.other).wclosed with
      | false => rfl
      | true => obtain ⟨ok, ho⟩ := (hdir s).2.1.mp hx; rw [hcop] at ho; cases ho
    refine ⟨.write s, by simp, _, by simp only [exec]; rw [hcop]; simp only; rw [if_pos ⟨hw, hcl _, (clean_reach h _).1⟩], ?_, ?_⟩
    · simp [work, hcop, updS_ne _ _ (ne_other _)]
    · simp [work, updS_ne _ _ (other_ne _)]
  | ended ok =>
    refine ⟨.closeDst s, by simp, _, by simp only [exec]; rw [hcop], ?_, ?_⟩
    · simp [work, hcop, updS_ne _ _ (ne_other _)]
    · simp only [work, updS_same, updS_ne _ _ (other_ne _)]; split <;> rfl
  | done ok => exact absurd hcop (hnd ok)

/-- a client that sends a request, ends its direction and gets the answer -/
def request (hr : Bool) : Option St := run (fresh true hr 4096)
  [.peerSend .L [1, 2], .peerEof .L, .read .L 2, .write .L, .readEof .L, .closeDst .L, .peerSend .R [7], .peerEof .R]

example : ∃ st, request true = some st ∧ (st.conn .R).out = [1, 2] ∧ (st.conn .R).wclosed = true ∧ (st.conn .R).inq = [7] := by
  exact ⟨_, rfl, rfl, rfl, rfl⟩

example : Reach NoBreak (fresh true true 4096) (Option.get (request true) rfl) :=
  .step (a := .peerEof .R) (.step (a := .peerSend .R [7]) (.step (a := .closeDst .L) (.step (a := .readEof .L) (.step (a := .write .L)
    (.step (a := .read .L 2) (.step (a := .peerEof .L) (.step (a := .peerSend .L [1, 2]) .init trivial rfl) trivial rfl) trivial rfl)
    trivial rfl) trivial rfl) trivial rfl) trivial rfl) trivial rfl

/-! ### C102 -/

/-- **C202 is false of the code**: a connection without `CloseWrite` – a stream of the tunnel – is closed as a whole when the other
peer ends its direction: the answer to a request is lost although nothing broke. -/
theorem C202_answer_lost_false : ∃ st st', request false = some st ∧
    run st [.readErr .R, .closeDst .R] = some st' ∧ returned st' ∧ (st'.conn .R).sent = [7] ∧ (st'.conn .R).eof = true ∧
    (st'.conn .L).out = [] ∧ (st'.conn .L).wclosed = true :=
  ⟨_, _, rfl, rfl, fun s => by cases s <;> exact ⟨_, rfl⟩, rfl, rfl, rfl, rfl⟩

/-- and no step of the proxy can deliver it: reading the closed connection fails -/
theorem C202_no_way_false : ∀ st, request false = some st → ∀ n, exec st (.read .R n) = none := by
  intro st h n
  injection h with h; subst h
  simp only [exec]
  exact if_neg (fun hc => by have := hc.2.1; revert this; decide)

/-- **C202 is false of the code**: with connections that can close one direction the proxy never closes them: when `Start` returns,
after whatever history, both are still open. -/
theorem C202_left_open_false {size : Nat} {st : St} (h : Reach (fun _ => True) (fresh true true size) st) (s : Side) :
    (st.conn s).closed = false := by
  cases hc : (st.conn s).closed with
  | false => rfl
  | true =>
    have h1 := (dir_reach h s.other).2.2
    rw [other_other] at h1
    have h2 := (h1 hc).2
    rw [(half_reach h).1 s] at h2
    cases s <;> cases h2

/-- **C102** For any two connections, when `Start` has returned both were told the end of the stream, and those without
`CloseWrite` were closed. -/
theorem C102_ended {hl hr : Bool} {size : Nat} {st : St} (h : Reach (fun _ => True) (fresh hl hr size) st) (hret : returned st) :
    ∀ s, (st.conn s).wclosed = true := by
  intro s
  have := (dir_reach h s.other).2.1.mpr (hret s.other)
  rw [other_other] at this; exact this

/-- full closes happen exactly with the end of the stream -/
theorem closed_iff {guard : Act → Prop} {hl hr : Bool} {size : Nat} {st : St} (h : Reach guard (fresh hl hr size) st) :
    ∀ s, (st.conn s).half = false → (st.conn s).wclosed = true → (st.conn s).closed = true := by
  induction h with
  | init => intro s _ h; cases h
  | step _ hg he ih =>
    rename_i s s' a _
    clear hg
    have U : ∀ (x : Side) (c : Conn), (c.half = false → c.wclosed = true → c.closed = true) →
        ∀ t, (updS s.conn x c t).half = false → (updS s.conn x c t).wclosed = true → (updS s.conn x c t).closed = true := by
      intro x c hc t
      unfold updS; split
      · exact hc
      · exact ih t
    cases a <;> simp only [exec] at he
    case peerSend x bs => split at he <;> cases he; exact U x _ (ih x)
    case peerEof x => split at he <;> cases he; exact U x _ (ih x)
    case peerBreak x => cases he; exact U x _ (ih x)
    case read x n => split at he <;> cases he; exact U x _ (ih x)
    case readEof x => split at he <;> cases he; exact ih
    case readErr x => split at he <;> cases he; exact ih
    case write x =>
      split at he
      · split at he <;> cases he; exact U x.other _ (ih x.other)
      · cases he
    case writeErr x =>
      split at he
      · split at he <;> cases he; exact ih
      · cases he
    case closeDst x =>
      split at he
      · cases he
        refine U x.other _ ?_
        cases hh : (s.conn x.other).half with
        | true => simp only [if_true]; intro h1; cases h1
        | false => simp only [Bool.false_eq_true, if_false]; intro _ _; trivial
      · cases he

theorem C102_closed {hl hr : Bool} {size : Nat} {st : St} (h : Reach (fun _ => True) (fresh hl hr size) st) (hret : returned st)
    (s : Side) (hh : (st.conn s).half = false) : (st.conn s).closed = true := closed_iff h s hh (C102_ended h hret s)

end Verif.Props.Relay
