import Verif.Tunnel.BackChan
import Verif.Props.TunnelControl
/-! # C39 A tunnelled connection reaches exactly the requester -/
namespace Verif.Tunnel

/-- The stream `k` is past a successful lookup of `id`. -/
def OSt.owns : OSt → Nat → Prop
  | .taken i, j => i = j
  | .sending i, j => i = j
  | .delivered i, j => i = j
  | _, _ => False

structure BInv (st : BSt) : Prop where
  backReq : ∀ j, st.back j = true → st.req j = .stored ∨ st.req j = .waiting
  ownsReq : ∀ k j, (st.op k).owns j → st.back j = false ∧ st.req j ≠ .start
  ownsUniq : ∀ k k' j, (st.op k).owns j → (st.op k').owns j → k = k'
  ownsTr : ∀ k j, (st.op k).owns j → .opened k j ∈ st.tr
  openOnce : ∀ k i i', .opened k i ∈ st.tr → .opened k i' ∈ st.tr → i = i'
  openSt : ∀ k i, .opened k i ∈ st.tr → st.op k ≠ .start
  gotOp : ∀ j k, .got j k ∈ st.tr → st.op k = .delivered j
  gotReq : ∀ j k, .got j k ∈ st.tr → st.req j = .got k
  okOp : ∀ k, .replyOk k ∈ st.tr → ∃ j, st.op k = .sending j ∨ st.op k = .delivered j
  errOp : ∀ k, .replyErr k ∈ st.tr → st.op k = .rejected

theorem BInv.init : BInv BSt.init := by
  constructor <;> simp [BSt.init, OSt.owns]

theorem owns_upd {f : Nat → OSt} {i k j : Nat} {b : OSt} (h : (upd f i b k).owns j) :
    (k = i ∧ b.owns j) ∨ (k ≠ i ∧ (f k).owns j) := by
  by_cases hk : k = i
  · subst hk; rw [upd_same] at h; exact Or.inl ⟨rfl, h⟩
  · rw [upd_ne _ _ hk] at h; exact Or.inr ⟨hk, h⟩

theorem BInv.exec {st st' : BSt} (hI : BInv st) {a : BAct} (hx : bexec st a = some st') :
    BInv st' := by
  cases a with
  | register j =>
    simp only [bexec] at hx
    split at hx
    · rename_i hth
      injection hx with hx; subst hx
      refine { hI with backReq := ?_, ownsReq := ?_, gotReq := ?_ }
      · intro j' h
        by_cases hj : j' = j
        · subst hj; exact Or.inl (upd_same _ _ _)
        · simp only [upd_ne _ _ hj] at h ⊢; exact hI.backReq j' h
      · intro k j' h
        have := hI.ownsReq k j' h
        by_cases hj : j' = j
        · subst hj; exact absurd hth this.2
        · simp only [upd_ne _ _ hj]; exact this
      · intro j' k h
        have := hI.gotReq j' k h
        by_cases hj : j' = j
        · subst hj; rw [hth] at this; cases this
        · simp only [upd_ne _ _ hj]; exact this
    · cases hx
  | sendReq j ok =>
    simp only [bexec] at hx
    split at hx
    · rename_i hth
      have hgot : ∀ {b : RSt} j' k, .got j' k ∈ st.tr → upd st.req j b j' = .got k := by
        intro b j' k h
        have := hI.gotReq j' k h
        by_cases hj : j' = j
        · subst hj; rw [hth] at this; cases this
        · simp only [upd_ne _ _ hj]; exact this
      split at hx
      · injection hx with hx; subst hx
        refine ⟨?_, ?_, hI.ownsUniq, ?_, ?_, ?_, ?_, ?_, ?_, ?_⟩
        · intro j' h
          by_cases hj : j' = j
          · subst hj; exact Or.inr (upd_same _ _ _)
          · simp only [upd_ne _ _ hj]; exact hI.backReq j' h
        · intro k j' h
          have := hI.ownsReq k j' h
          by_cases hj : j' = j
          · subst hj; simp only [upd_same]; exact ⟨this.1, by simp⟩
          · simp only [upd_ne _ _ hj]; exact this
        · intro k i h; exact List.mem_cons_of_mem _ (hI.ownsTr k i h)
        · intro k i i' h h'; exact hI.openOnce k i i' (by simpa using h) (by simpa using h')
        · intro k i h; exact hI.openSt k i (by simpa using h)
        · intro j' k h; exact hI.gotOp j' k (by simpa using h)
        · intro j' k h; exact hgot j' k (by simpa using h)
        · intro k h; exact hI.okOp k (by simpa using h)
        · intro k h; exact hI.errOp k (by simpa using h)
      · injection hx with hx; subst hx
        refine ⟨?_, ?_, hI.ownsUniq, ?_, ?_, ?_, ?_, ?_, ?_, ?_⟩
        · intro j' h
          by_cases hj : j' = j
          · subst hj; simp [upd] at h
          · simp only [upd_ne _ _ hj] at h ⊢; exact hI.backReq j' h
        · intro k j' h
          have := hI.ownsReq k j' h
          by_cases hj : j' = j
          · subst hj; simp only [upd_same]; exact ⟨trivial, by simp⟩
          · simp only [upd_ne _ _ hj]; exact this
        · intro k i h; exact List.mem_cons_of_mem _ (hI.ownsTr k i h)
        · intro k i i' h h'; exact hI.openOnce k i i' (by simpa using h) (by simpa using h')
        · intro k i h; exact hI.openSt k i (by simpa using h)
        · intro j' k h; exact hI.gotOp j' k (by simpa using h)
        · intro j' k h; exact hgot j' k (by simpa using h)
        · intro k h; exact hI.okOp k (by simpa using h)
        · intro k h; exact hI.errOp k (by simpa using h)
    · cases hx
  | timeout j =>
    simp only [bexec] at hx
    split at hx
    · rename_i hth
      injection hx with hx; subst hx
      refine ⟨?_, ?_, hI.ownsUniq, ?_, ?_, ?_, ?_, ?_, ?_, ?_⟩
      · intro j' h
        by_cases hj : j' = j
        · subst hj; simp [upd] at h
        · simp only [upd_ne _ _ hj] at h ⊢; exact hI.backReq j' h
      · intro k j' h
        have := hI.ownsReq k j' h
        by_cases hj : j' = j
        · subst hj; simp only [upd_same]; exact ⟨trivial, by simp⟩
        · simp only [upd_ne _ _ hj]; exact this
      · intro k i h; exact List.mem_cons_of_mem _ (hI.ownsTr k i h)
      · intro k i i' h h'; exact hI.openOnce k i i' (by simpa using h) (by simpa using h')
      · intro k i h; exact hI.openSt k i (by simpa using h)
      · intro j' k h; exact hI.gotOp j' k (by simpa using h)
      · intro j' k h
        have := hI.gotReq j' k (by simpa using h)
        by_cases hj : j' = j
        · subst hj; rw [hth] at this; cases this
        · simp only [upd_ne _ _ hj]; exact this
      · intro k h; exact hI.okOp k (by simpa using h)
      · intro k h; exact hI.errOp k (by simpa using h)
    · cases hx
  | open_ k id =>
    simp only [bexec] at hx
    split at hx
    · rename_i hth
      have hnoopen : ∀ i, .opened k i ∉ st.tr := fun i h => hI.openSt k i h hth
      have hop : ∀ {b : OSt} {k' t}, st.op k' = t → t ≠ .start → upd st.op k b k' = t := by
        intro b k' t h ht
        rw [upd_ne]
        · exact h
        · rintro rfl; exact ht (h.symm.trans hth)
      have hcommon : ∀ b : OSt, b ≠ .start →
          (∀ k' i i', BEv.opened k' i ∈ BEv.opened k id :: st.tr →
            BEv.opened k' i' ∈ BEv.opened k id :: st.tr → i = i') ∧
          (∀ k' i, BEv.opened k' i ∈ BEv.opened k id :: st.tr → upd st.op k b k' ≠ .start) ∧
          (∀ j k', BEv.got j k' ∈ BEv.opened k id :: st.tr → upd st.op k b k' = .delivered j) ∧
          (∀ j k', BEv.got j k' ∈ BEv.opened k id :: st.tr → st.req j = .got k') ∧
          (∀ k', BEv.replyOk k' ∈ BEv.opened k id :: st.tr →
            ∃ j, upd st.op k b k' = .sending j ∨ upd st.op k b k' = .delivered j) ∧
          (∀ k', BEv.replyErr k' ∈ BEv.opened k id :: st.tr → upd st.op k b k' = .rejected) := by
        intro b hb
        refine ⟨?_, ?_, ?_, ?_, ?_, ?_⟩
        · intro k' i i' h h'
          rcases List.mem_cons.mp h with e | e
          · injection e with e1 e2
            rcases List.mem_cons.mp h' with e' | e'
            · injection e' with _ e2'; rw [e2, e2']
            · rw [e1] at e'; exact absurd e' (hnoopen i')
          · rcases List.mem_cons.mp h' with e' | e'
            · injection e' with e1 _; rw [e1] at e; exact absurd e (hnoopen i)
            · exact hI.openOnce k' i i' e e'
        · intro k' i h
          by_cases hk : k' = k
          · subst hk; rw [upd_same]; exact hb
          · rw [upd_ne _ _ hk]
            rcases List.mem_cons.mp h with e | e
            · injection e with e1 _; exact absurd e1 hk
            · exact hI.openSt k' i e
        · intro j k' h; exact hop (hI.gotOp j k' (by simpa using h)) (by simp)
        · intro j k' h; exact hI.gotReq j k' (by simpa using h)
        · intro k' h
          obtain ⟨j, hj | hj⟩ := hI.okOp k' (by simpa using h)
          · exact ⟨j, Or.inl (hop hj (by simp))⟩
          · exact ⟨j, Or.inr (hop hj (by simp))⟩
        · intro k' h; exact hop (hI.errOp k' (by simpa using h)) (by simp)
      split at hx
      · rename_i hback
        injection hx with hx; subst hx
        obtain ⟨c1, c2, c3, c4, c5, c6⟩ := hcommon (.taken id) (by simp)
        have hnoown : ∀ k', ¬ (st.op k').owns id := by
          intro k' h
          have := (hI.ownsReq k' id h).1
          rw [this] at hback; cases hback
        refine ⟨?_, ?_, ?_, ?_, c1, c2, c3, c4, c5, c6⟩
        · intro j h
          by_cases hj : j = id
          · subst hj; simp [upd] at h
          · simp only [upd_ne _ _ hj] at h; exact hI.backReq j h
        · intro k' j h
          rcases owns_upd h with ⟨_, h⟩ | ⟨_, h⟩
          · have h : id = j := h
            subst h
            refine ⟨upd_same _ _ _, ?_⟩
            rcases hI.backReq id hback with e | e <;> (show st.req id ≠ _; rw [e]; simp)
          · have := hI.ownsReq k' j h
            refine ⟨?_, this.2⟩
            by_cases hj : j = id
            · subst hj; exact upd_same _ _ _
            · show upd st.back id false j = false; rw [upd_ne _ _ hj]; exact this.1
        · intro k' k'' j h h'
          rcases owns_upd h with ⟨e1, h⟩ | ⟨_, h⟩
          · have h : id = j := h
            subst h
            rcases owns_upd h' with ⟨e2, _⟩ | ⟨_, h'⟩
            · rw [e1, e2]
            · exact absurd h' (hnoown _)
          · rcases owns_upd h' with ⟨e2, h'⟩ | ⟨_, h'⟩
            · have h' : id = j := h'
              subst h'; exact absurd h (hnoown _)
            · exact hI.ownsUniq _ _ _ h h'
        · intro k' j h
          rcases owns_upd h with ⟨e1, h⟩ | ⟨_, h⟩
          · have h : id = j := h
            subst h; subst e1; simp
          · exact List.mem_cons_of_mem _ (hI.ownsTr _ _ h)
      · injection hx with hx; subst hx
        obtain ⟨c1, c2, c3, c4, c5, c6⟩ := hcommon .unknown (by simp)
        have hown : ∀ {k' j}, (upd st.op k .unknown k').owns j → (st.op k').owns j := by
          intro k' j h
          rcases owns_upd h with ⟨_, h⟩ | ⟨_, h⟩
          · cases h
          · exact h
        exact ⟨hI.backReq, fun k' j h => hI.ownsReq k' j (hown h),
          fun k' k'' j h h' => hI.ownsUniq _ _ _ (hown h) (hown h'),
          fun k' j h => List.mem_cons_of_mem _ (hI.ownsTr _ _ (hown h)), c1, c2, c3, c4, c5, c6⟩
    · cases hx
  | reply k ok =>
    -- common part for moving stream `k`, which has produced no reply yet
    have move : ∀ (b : OSt) (tr : List BEv), st.op k ≠ .start → b ≠ .start →
        (∀ j, b.owns j → (st.op k).owns j) →
        (∀ k' i, .opened k' i ∈ tr ↔ .opened k' i ∈ st.tr) →
        (∀ j k', .got j k' ∈ tr ↔ .got j k' ∈ st.tr) →
        (∀ j, st.op k ≠ .sending j) → (∀ j, st.op k ≠ .delivered j) → st.op k ≠ .rejected →
        (∀ k', .replyOk k' ∈ tr → .replyOk k' ∈ st.tr ∨ (k' = k ∧ ∃ j, b = .sending j)) →
        (∀ k', .replyErr k' ∈ tr → .replyErr k' ∈ st.tr ∨ (k' = k ∧ b = .rejected)) →
        BInv { st with op := upd st.op k b, tr := tr } := by
      intro b tr h1 h2 h3 h4 h5 h6 h7 h8 h9 h10
      have hown : ∀ {k' j}, (upd st.op k b k').owns j → (st.op k').owns j := by
        intro k' j h
        rcases owns_upd h with ⟨e, h'⟩ | ⟨_, h'⟩
        · rw [e]; exact h3 j h'
        · exact h'
      refine ⟨hI.backReq, fun k' j h => hI.ownsReq k' j (hown h),
        fun k' k'' j h h' => hI.ownsUniq _ _ _ (hown h) (hown h'),
        fun k' j h => (h4 _ _).mpr (hI.ownsTr _ _ (hown h)),
        fun k' i i' h h' => hI.openOnce k' i i' ((h4 _ _).mp h) ((h4 _ _).mp h'), ?_, ?_,
        fun j k' h => hI.gotReq j k' ((h5 _ _).mp h), ?_, ?_⟩
      · intro k' i h
        by_cases hk : k' = k
        · subst hk; simp only [upd_same]; exact h2
        · simp only [upd_ne _ _ hk]; exact hI.openSt k' i ((h4 _ _).mp h)
      · intro j k' h
        have := hI.gotOp j k' ((h5 _ _).mp h)
        by_cases hk : k' = k
        · subst hk; exact absurd this (h7 j)
        · simp only [upd_ne _ _ hk]; exact this
      · intro k' h
        rcases h9 k' h with h | ⟨e, j, hj⟩
        · obtain ⟨j, hj⟩ := hI.okOp k' h
          by_cases hk : k' = k
          · subst hk
            rcases hj with hj | hj
            · exact absurd hj (h6 j)
            · exact absurd hj (h7 j)
          · simp only [upd_ne _ _ hk]; exact ⟨j, hj⟩
        · subst e; exact ⟨j, Or.inl (by simp [upd, hj])⟩
      · intro k' h
        rcases h10 k' h with h | ⟨e, hj⟩
        · have := hI.errOp k' h
          by_cases hk : k' = k
          · subst hk; exact absurd this h8
          · simp only [upd_ne _ _ hk]; exact this
        · subst e; simp [upd, hj]
    simp only [bexec] at hx
    split at hx
    · rename_i id hth
      split at hx
      · injection hx with hx; subst hx
        refine move _ _ (by rw [hth]; simp) (by simp) (by intro j h; rw [hth]; exact h) (by simp)
          (by simp) (by rw [hth]; simp) (by rw [hth]; simp) (by rw [hth]; simp) ?_ ?_
        · intro k' h
          rcases List.mem_cons.mp h with e | e
          · injection e with e; exact Or.inr ⟨e, id, rfl⟩
          · exact Or.inl e
        · intro k' h; exact Or.inl (by simpa using h)
      · injection hx with hx; subst hx
        exact move _ _ (by rw [hth]; simp) (by simp) (by intro j h; cases h) (by simp)
          (by simp) (by rw [hth]; simp) (by rw [hth]; simp) (by rw [hth]; simp)
          (fun _ h => Or.inl h) (fun _ h => Or.inl h)
    · rename_i hth
      split at hx
      · injection hx with hx; subst hx
        refine move _ _ (by rw [hth]; simp) (by simp) (by intro j h; cases h) (by simp)
          (by simp) (by rw [hth]; simp) (by rw [hth]; simp) (by rw [hth]; simp) ?_ ?_
        · intro k' h; exact Or.inl (by simpa using h)
        · intro k' h
          rcases List.mem_cons.mp h with e | e
          · injection e with e; exact Or.inr ⟨e, rfl⟩
          · exact Or.inl e
      · injection hx with hx; subst hx
        exact move _ _ (by rw [hth]; simp) (by simp) (by intro j h; cases h) (by simp)
          (by simp) (by rw [hth]; simp) (by rw [hth]; simp) (by rw [hth]; simp)
          (fun _ h => Or.inl h) (fun _ h => Or.inl h)
    · cases hx
  | handOver j k =>
    simp only [bexec] at hx
    split at hx
    · rename_i id hreq hth
      split at hx
      · rename_i hid
        subst hid
        injection hx with hx; subst hx
        have hown : ∀ {k' i}, (upd st.op k (.delivered id) k').owns i → (st.op k').owns i := by
          intro k' j h
          rcases owns_upd h with ⟨e, h'⟩ | ⟨_, h'⟩
          · rw [e, hth]; exact h'
          · exact h'
        refine ⟨?_, ?_, fun k' k'' j h h' => hI.ownsUniq _ _ _ (hown h) (hown h'),
          fun k' j h => List.mem_cons_of_mem _ (hI.ownsTr _ _ (hown h)),
          fun k' i i' h h' => hI.openOnce k' i i' (by simpa using h) (by simpa using h'), ?_, ?_, ?_, ?_, ?_⟩
        · intro i h
          by_cases hi : i = id
          · subst hi
            have := (hI.ownsReq k i (by rw [hth]; rfl)).1
            have h : st.back i = true := h
            rw [this] at h; cases h
          · simp only [upd_ne _ _ hi]; exact hI.backReq i h
        · intro k' i h
          have := hI.ownsReq k' i (hown h)
          refine ⟨this.1, ?_⟩
          by_cases hi : i = id
          · subst hi; simp [upd]
          · simp only [upd_ne _ _ hi]; exact this.2
        · intro k' i h
          by_cases hk : k' = k
          · subst hk; simp [upd]
          · simp only [upd_ne _ _ hk]; exact hI.openSt k' i (by simpa using h)
        · intro i k' h
          rcases List.mem_cons.mp h with e | e
          · injection e with e1 e2; subst e1; subst e2; simp [upd]
          · have := hI.gotOp i k' e
            by_cases hk : k' = k
            · subst hk; rw [hth] at this; cases this
            · simp only [upd_ne _ _ hk]; exact this
        · intro i k' h
          rcases List.mem_cons.mp h with e | e
          · injection e with e1 e2; subst e1; subst e2; simp [upd]
          · have := hI.gotReq i k' e
            by_cases hi : i = id
            · subst hi; rw [hreq] at this; cases this
            · simp only [upd_ne _ _ hi]; exact this
        · intro k' h
          by_cases hk : k' = k
          · subst hk; exact ⟨id, Or.inr (upd_same _ _ _)⟩
          · simp only [upd_ne _ _ hk]; exact hI.okOp k' (by simpa using h)
        · intro k' h
          have := hI.errOp k' (by simpa using h)
          by_cases hk : k' = k
          · subst hk; rw [hth] at this; cases this
          · simp only [upd_ne _ _ hk]; exact this
      · cases hx
    · cases hx

theorem BReach.inv {st : BSt} (h : BReach st) : BInv st := by
  induction h with
  | init => exact .init
  | step a _ hx ih => exact ih.exec hx

/-- **C39 (exactly the requester, at most once).**  In every interleaving of any number of
connection requests, client streams (with arbitrary ids), timeouts and write failures: a
stream that reaches a requester was opened by the client with that requester's id, a
requester receives at most one stream, and a stream reaches at most one requester. -/
theorem C39_exactly_requester (st : BSt) (h : BReach st) :
    (∀ j k, .got j k ∈ st.tr → .opened k j ∈ st.tr) ∧
    (∀ j k k', .got j k ∈ st.tr → .got j k' ∈ st.tr → k = k') ∧
    (∀ j j' k, .got j k ∈ st.tr → .got j' k ∈ st.tr → j = j') := by
  have hI := h.inv
  refine ⟨?_, ?_, ?_⟩
  · intro j k h
    exact hI.ownsTr k j (by rw [hI.gotOp j k h]; rfl)
  · intro j k k' h h'
    have a := hI.gotReq j k h; have b := hI.gotReq j k' h'
    rw [a] at b; injection b
  · intro j j' k h h'
    have a := hI.gotOp j k h; have b := hI.gotOp j' k h'
    rw [a] at b; injection b

/-- **C39 (unknown or reused ids are rejected).**  At most one of the streams opened with an
id gets a success response; a stream never gets both a success and an error response; and a
success response is only sent for an id generated by a request of this session. -/
theorem C39_one_success_per_id (st : BSt) (h : BReach st) :
    (∀ k k' i, .opened k i ∈ st.tr → .opened k' i ∈ st.tr →
      .replyOk k ∈ st.tr → .replyOk k' ∈ st.tr → k = k') ∧
    (∀ k, .replyOk k ∈ st.tr → .replyErr k ∉ st.tr) ∧
    (∀ k i, .opened k i ∈ st.tr → .replyOk k ∈ st.tr → st.req i ≠ .start) := by
  have hI := h.inv
  have hown : ∀ k i, .opened k i ∈ st.tr → .replyOk k ∈ st.tr → (st.op k).owns i := by
    intro k i h1 h2
    obtain ⟨j, hj⟩ := hI.okOp k h2
    have ho : (st.op k).owns j := by rcases hj with hj | hj <;> (rw [hj]; rfl)
    have := hI.openOnce k i j h1 (hI.ownsTr k j ho)
    rw [this]; exact ho
  refine ⟨?_, ?_, ?_⟩
  · intro k k' i h1 h2 h3 h4
    exact hI.ownsUniq k k' i (hown k i h1 h3) (hown k' i h2 h4)
  · intro k h1 h2
    obtain ⟨j, hj⟩ := hI.okOp k h1
    rw [hI.errOp k h2] at hj
    rcases hj with hj | hj <;> cases hj
  · intro k i h1 h2
    exact (hI.ownsReq k i (hown k i h1 h2)).2

/-- A stream whose id is not pending when it arrives is answered with an error (if the
answer can be written at all). -/
theorem C39_unknown_rejected (st st1 st2 : BSt) (h : BReach st) (k id : Nat)
    (hnp : st.back id = false) (h1 : bexec st (.open_ k id) = some st1)
    (h2 : bexec st1 (.reply k true) = some st2) : .replyErr k ∈ st2.tr ∧ .replyOk k ∉ st2.tr := by
  have hr : BReach st2 := .step _ (.step _ h h1) h2
  have : .replyErr k ∈ st2.tr := by
    simp only [bexec] at h1
    split at h1
    · rw [hnp] at h1
      simp only [Bool.false_eq_true, if_false] at h1
      injection h1 with h1; subst h1
      simp only [bexec, upd_same, if_true] at h2
      injection h2 with h2; subst h2; simp
    · cases h1
  exact ⟨this, fun h' => (C39_one_success_per_id st2 hr).2.1 k h' this⟩

/-- While the requester is waiting, the hand-over of an accepted stream is possible. -/
theorem C158_delivery_partial (st : BSt) (k j : Nat) (h1 : st.op k = .sending j)
    (h2 : st.req j = .waiting) : ∃ st', bexec st (.handOver j k) = some st' ∧ .got j k ∈ st'.tr := by
  refine ⟨{ st with req := upd st.req j (.got k), op := upd st.op k (.delivered j),
                    tr := .got j k :: st.tr }, ?_, by simp⟩
  simp only [bexec, h1, h2, if_true]

/-- **C158 (every accepted stream is delivered) is false of the code**: if the requester
times out between the lookup and the hand-over, the client is told that the stream is open,
yet it is never delivered: the handler stays blocked in every continuation. -/
theorem C158_accepted_never_delivered_false : ∃ st, BReach st ∧ .replyOk 0 ∈ st.tr ∧
    ∀ st', BSteps st st' → st'.op 0 = .sending 7 ∧ ∀ j, .got j 0 ∉ st'.tr := by
  refine ⟨_, .step (.timeout 7) (.step (.reply 0 true) (.step (.open_ 0 7) (.step (.sendReq 7 true)
    (.step (.register 7) .init rfl) rfl) rfl) rfl) rfl, by simp, ?_⟩
  intro st' hs
  have key : st'.op 0 = .sending 7 ∧ st'.req 7 = .failed ∧ ∀ j, .got j 0 ∉ st'.tr := by
    induction hs with
    | refl => exact ⟨rfl, rfl, by intro j; simp [BSt.init]⟩
    | step a _ hx ih =>
      rename_i st1 st2 _
      obtain ⟨h1, h2, h3⟩ := ih
      cases a with
      | register j =>
        simp only [bexec] at hx
        split at hx
        · rename_i hth; injection hx with hx; subst hx
          refine ⟨h1, ?_, h3⟩
          show upd st1.req j .stored 7 = .failed
          rw [upd_ne]
          · exact h2
          · intro e; rw [← e, h2] at hth; cases hth
        · cases hx
      | sendReq j ok =>
        simp only [bexec] at hx
        split at hx
        · rename_i hth
          have hj : 7 ≠ j := by intro e; rw [← e, h2] at hth; cases hth
          split at hx
          · injection hx with hx; subst hx
            exact ⟨h1, by show upd st1.req j _ 7 = _; rw [upd_ne _ _ hj]; exact h2, by intro i; simpa using h3 i⟩
          · injection hx with hx; subst hx
            exact ⟨h1, by show upd st1.req j _ 7 = _; rw [upd_ne _ _ hj]; exact h2, by intro i; simpa using h3 i⟩
        · cases hx
      | timeout j =>
        simp only [bexec] at hx
        split at hx
        · rename_i hth
          have hj : 7 ≠ j := by intro e; rw [← e, h2] at hth; cases hth
          injection hx with hx; subst hx
          exact ⟨h1, by show upd st1.req j _ 7 = _; rw [upd_ne _ _ hj]; exact h2, by intro i; simpa using h3 i⟩
        · cases hx
      | open_ k id =>
        simp only [bexec] at hx
        split at hx
        · rename_i hth
          have hk : 0 ≠ k := by intro e; rw [← e, h1] at hth; cases hth
          split at hx
          · injection hx with hx; subst hx
            exact ⟨by show upd st1.op k _ 0 = _; rw [upd_ne _ _ hk]; exact h1, h2, by intro i; simpa using h3 i⟩
          · injection hx with hx; subst hx
            exact ⟨by show upd st1.op k _ 0 = _; rw [upd_ne _ _ hk]; exact h1, h2, by intro i; simpa using h3 i⟩
        · cases hx
      | reply k ok =>
        simp only [bexec] at hx
        split at hx
        · rename_i hth
          have hk : 0 ≠ k := by intro e; rw [← e, h1] at hth; cases hth
          split at hx
          · injection hx with hx; subst hx
            exact ⟨by show upd st1.op k _ 0 = _; rw [upd_ne _ _ hk]; exact h1, h2, by intro i; simpa using h3 i⟩
          · injection hx with hx; subst hx
            exact ⟨by show upd st1.op k _ 0 = _; rw [upd_ne _ _ hk]; exact h1, h2, by intro i; simpa using h3 i⟩
        · rename_i hth
          have hk : 0 ≠ k := by intro e; rw [← e, h1] at hth; cases hth
          split at hx
          · injection hx with hx; subst hx
            exact ⟨by show upd st1.op k _ 0 = _; rw [upd_ne _ _ hk]; exact h1, h2, by intro i; simpa using h3 i⟩
          · injection hx with hx; subst hx
            exact ⟨by show upd st1.op k _ 0 = _; rw [upd_ne _ _ hk]; exact h1, h2, by intro i; simpa using h3 i⟩
        · cases hx
      | handOver j k =>
        simp only [bexec] at hx
        split at hx
        · rename_i id hreq hth
          split at hx
          · rename_i hid; subst hid
            have hk : 0 ≠ k := by
              intro e; rw [← e, h1] at hth; injection hth with hth
              rw [← hth, h2] at hreq; cases hreq
            have hj : 7 ≠ id := by intro e; rw [← e, h2] at hreq; cases hreq
            injection hx with hx; subst hx
            refine ⟨by show upd st1.op k _ 0 = _; rw [upd_ne _ _ hk]; exact h1,
              by show upd st1.req id _ 7 = _; rw [upd_ne _ _ hj]; exact h2, ?_⟩
            intro i hm
            rcases List.mem_cons.mp hm with e | e
            · injection e with _ e; exact hk e
            · exact h3 i e
          · cases hx
        · cases hx
  exact ⟨key.1, key.2.2⟩

/-- **C158 (reported to the client as errors) is false of the code**: whatever error the
server sets in the response, the client's `OpenTCPStream` reports success, because it tests
the field that is not transported. -/
theorem C158_client_told_false (t e : String) :
    clientOpenTCPStream ((BaseResponse.zero.setError t e).transport) = true := rfl

/-- In contrast the control stream handshake does report every non-empty error. -/
theorem C158_control_stream_told (t e : String) (he : e ≠ "") :
    clientControlStream ((BaseResponse.zero.setError t e).transport) = false ∧
    clientControlStream (BaseResponse.zero.transport) = true := by
  constructor
  · simp [clientControlStream, BaseResponse.transport, BaseResponse.setError, he]
  · simp [clientControlStream, BaseResponse.transport, BaseResponse.zero]

/-- Non-vacuity: two pending requests, answered out of order; a reused id and an unknown id
are refused. -/
example : ∃ st, BReach st ∧ st.tr = [.replyErr 3, .opened 3 99, .replyErr 2, .opened 2 1,
    .got 0 1, .got 1 0, .replyOk 1, .opened 1 0, .replyOk 0, .opened 0 1, .requested 1, .requested 0] :=
  ⟨_, .step (.reply 3 true) (.step (.open_ 3 99) (.step (.reply 2 true) (.step (.open_ 2 1)
    (.step (.handOver 0 1) (.step (.handOver 1 0) (.step (.reply 1 true) (.step (.open_ 1 0)
    (.step (.reply 0 true) (.step (.open_ 0 1) (.step (.sendReq 1 true) (.step (.register 1)
    (.step (.sendReq 0 true) (.step (.register 0) .init rfl) rfl) rfl) rfl) rfl) rfl) rfl) rfl)
    rfl) rfl) rfl) rfl) rfl) rfl, rfl⟩

end Verif.Tunnel
