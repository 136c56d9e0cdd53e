import Verif.Wasm.Conn
/-! # C42 Filtered connections are transparent byte streams -/
namespace Verif.Wasm

/-- Failing reads of the underlying connection return no bytes (end of file may). -/
def CleanErrors (net : List NetEv) : Prop :=
  ∀ ev ∈ net, ev.err = none ∨ ev.err = some .eof ∨ ev.bytes = []

theorem netRead_bytes {k net ev net'} (h : netRead k net = some (ev, net')) :
    ev.bytes ++ netBytes net' = netBytes net := by
  cases net with
  | nil => cases h
  | cons e rest =>
    simp only [netRead] at h
    split at h
    · injection h with h; injection h with h1 h2; subst h1; subst h2; simp [netBytes]
    · injection h with h; injection h with h1 h2; subst h1; subst h2
      simp [netBytes, ← List.append_assoc]

theorem netRead_clean {k net ev net'} (h : netRead k net = some (ev, net')) (hc : CleanErrors net) :
    CleanErrors net' ∧ (ev.err = none ∨ ev.err = some .eof ∨ ev.bytes = []) := by
  cases net with
  | nil => cases h
  | cons e rest =>
    simp only [netRead] at h
    have h1 := hc e (by simp)
    split at h
    · injection h with h; injection h with h1' h2; subst h1'; subst h2
      exact ⟨fun ev hev => hc ev (List.mem_cons_of_mem _ hev), h1⟩
    · injection h with h; injection h with h1' h2; subst h1'; subst h2
      refine ⟨?_, .inl rfl⟩
      intro ev hev
      rcases List.mem_cons.1 hev with hev | hev
      · subst hev
        rcases h1 with h1 | h1 | h1
        · exact .inl h1
        · exact .inr (.inl h1)
        · exact .inr (.inr (by simp [h1]))
      · exact hc ev (List.mem_cons_of_mem _ hev)

theorem readLoop_bytes {k} : ∀ {fs rbuf net r rbuf' net' fs'},
    readLoop k fs rbuf net = some (r, rbuf', net', fs') → CleanErrors net →
    rbuf' ++ netBytes net' = rbuf ++ netBytes net ∧ CleanErrors net' := by
  intro fs
  induction fs with
  | nil =>
    intro rbuf net r rbuf' net' fs' h hc
    unfold readLoop at h
    cases hn : netRead k net with
    | none => rw [hn] at h; cases h
    | some p =>
      obtain ⟨ev, net1⟩ := p
      rw [hn] at h
      have hb := netRead_bytes hn
      obtain ⟨hc1, he⟩ := netRead_clean hn hc
      simp only at h
      split at h
      · rename_i hev
        injection h with h; simp only [Prod.mk.injEq] at h
        obtain ⟨_, rfl, rfl, _⟩ := h
        rw [hev] at he
        have : ev.bytes = [] := by simpa using he
        rw [← hb, this]; exact ⟨by simp, hc1⟩
      · rename_i hev
        injection h with h; simp only [Prod.mk.injEq] at h
        obtain ⟨_, rfl, rfl, _⟩ := h
        rw [hev] at he
        have : ev.bytes = [] := by simpa using he
        rw [← hb, this]; exact ⟨by simp, hc1⟩
      · cases h
  | cons f fs ih =>
    intro rbuf net r rbuf' net' fs' h hc
    unfold readLoop at h
    cases hn : netRead k net with
    | none => rw [hn] at h; cases h
    | some p =>
      obtain ⟨ev, net1⟩ := p
      rw [hn] at h
      have hb := netRead_bytes hn
      obtain ⟨hc1, he⟩ := netRead_clean hn hc
      simp only at h
      split at h
      · rename_i hev
        injection h with h; simp only [Prod.mk.injEq] at h
        obtain ⟨_, rfl, rfl, _⟩ := h
        rw [hev] at he
        have : ev.bytes = [] := by simpa using he
        rw [← hb, this]; exact ⟨by simp, hc1⟩
      · rename_i hev
        injection h with h; simp only [Prod.mk.injEq] at h
        obtain ⟨_, rfl, rfl, _⟩ := h
        rw [hev] at he
        have : ev.bytes = [] := by simpa using he
        rw [← hb, this]; exact ⟨by simp, hc1⟩
      · cases f with
        | err =>
          injection h with h; simp only [Prod.mk.injEq] at h
          obtain ⟨_, rfl, rfl, _⟩ := h
          rw [← hb]; exact ⟨by simp, hc1⟩
        | cont =>
          injection h with h; simp only [Prod.mk.injEq] at h
          obtain ⟨_, rfl, rfl, _⟩ := h
          rw [← hb]; exact ⟨by simp, hc1⟩
        | pause =>
          simp only at h
          split at h
          · injection h with h; simp only [Prod.mk.injEq] at h
            obtain ⟨_, rfl, rfl, _⟩ := h
            rw [← hb]; exact ⟨by simp, hc1⟩
          · obtain ⟨i1, i2⟩ := ih h hc1
            exact ⟨by rw [i1, ← hb]; simp, i2⟩

/-- What is still to be delivered: cached, buffered, and in the network. -/
def RdSt.pending (st : RdSt) : Bytes := st.cache ++ st.rbuf ++ netBytes st.net

theorem read1_bytes {st : RdSt} {len st' out e} (h : st.read1 len = some (st', out, e))
    (hc : CleanErrors st.net) :
    out ++ st'.pending = st.pending ∧ CleanErrors st'.net ∧ out.length ≤ len := by
  simp only [RdSt.read1] at h
  split at h
  · injection h with h; simp only [Prod.mk.injEq] at h
    obtain ⟨rfl, rfl, _⟩ := h
    exact ⟨rfl, hc, by simp⟩
  · split at h
    · rename_i hx
      injection h with h; simp only [Prod.mk.injEq] at h
      obtain ⟨rfl, rfl, _⟩ := h
      refine ⟨?_, hc, by omega⟩
      simp only [RdSt.pending, ← List.append_assoc, List.take_append_drop]
    · rename_i hx
      have hlen : st.cache.length < len := by
        simp only [List.length_take] at hx; omega
      have hd : st.cache.drop len = [] := List.drop_eq_nil_of_le (by omega)
      have ht : st.cache.take len = st.cache := List.take_of_length_le (by omega)
      generalize (if st.ibuf < len then len else st.ibuf) = k at h
      cases hl : readLoop k st.filt st.rbuf st.net with
      | none => rw [hl] at h; cases h
      | some p =>
        obtain ⟨r, rbuf, net, fs⟩ := p
        rw [hl] at h
        obtain ⟨hb, hc'⟩ := readLoop_bytes hl hc
        cases r with
        | fail er =>
          injection h with h; simp only [Prod.mk.injEq] at h
          obtain ⟨rfl, rfl, _⟩ := h
          refine ⟨?_, hc', by simp only [List.length_take]; omega⟩
          simp only [RdSt.pending, hd, ht, List.nil_append, List.append_assoc, hb]
        | done er =>
          injection h with h; simp only [Prod.mk.injEq] at h
          obtain ⟨rfl, rfl, _⟩ := h
          refine ⟨?_, hc', by simp only [List.length_append, List.length_take]; omega⟩
          simp only [RdSt.pending, hd, ht, List.nil_append, List.append_assoc, List.append_nil]
          rw [← hb, ← List.append_assoc (rbuf.take _), List.take_append_drop]

theorem read_bytes {st : RdSt} {len st' out e} (h : st.read len = some (st', out, e))
    (hc : CleanErrors st.net) :
    out ++ st'.pending = st.pending ∧ CleanErrors st'.net ∧ out.length ≤ len := by
  simp only [RdSt.read] at h
  cases h1 : st.read1 len with
  | none => rw [h1] at h; cases h
  | some p =>
    obtain ⟨st1, out1, e1⟩ := p
    rw [h1] at h
    obtain ⟨b1, c1, l1⟩ := read1_bytes h1 hc
    simp only at h
    split at h
    · rename_i hz
      obtain ⟨b2, c2, l2⟩ := read1_bytes h c1
      have : out1 = [] := List.eq_nil_of_length_eq_zero hz.1
      rw [this, List.nil_append] at b1
      exact ⟨b2.trans b1, c2, l2⟩
    · injection h with h; simp only [Prod.mk.injEq] at h
      obtain ⟨rfl, rfl, _⟩ := h
      exact ⟨b1, c1, l1⟩

theorem reads_bytes : ∀ {ns : List Nat} {st st' : RdSt} {outs}, st.reads ns = some (st', outs) →
    CleanErrors st.net →
    (outs.map (·.1)).flatten ++ st'.pending = st.pending ∧ CleanErrors st'.net
      ∧ outs.length = ns.length ∧ ∀ o ∈ outs.zip ns, o.1.1.length ≤ o.2
  | [], st, st', outs, h, hc => by
    injection h with h; simp only [Prod.mk.injEq] at h
    obtain ⟨rfl, rfl⟩ := h
    exact ⟨rfl, hc, rfl, by simp⟩
  | n :: ns, st, st', outs, h, hc => by
    simp only [RdSt.reads] at h
    cases h1 : st.read n with
    | none => rw [h1] at h; cases h
    | some p =>
      obtain ⟨st1, out1, e1⟩ := p
      rw [h1] at h
      obtain ⟨b1, c1, l1⟩ := read_bytes h1 hc
      simp only at h
      cases h2 : st1.reads ns with
      | none => rw [h2] at h; cases h
      | some q =>
        obtain ⟨st2, outs2⟩ := q
        rw [h2] at h
        injection h with h; simp only [Prod.mk.injEq] at h
        obtain ⟨rfl, rfl⟩ := h
        obtain ⟨b2, c2, l2, l3⟩ := reads_bytes h2 c1
        refine ⟨?_, c2, by simp [l2], ?_⟩
        · simp only [List.map_cons, List.flatten_cons, List.append_assoc, b2, b1]
        · intro o ho
          simp only [List.zip_cons_cons, List.mem_cons] at ho
          rcases ho with rfl | ho
          · exact l1
          · exact l3 o ho

/-- **C42** If failing reads of the underlying connection return no bytes: for every
chunking of the stream, every sequence of buffer sizes and every sequence of filter answers
(also pauses and filter errors): the bytes returned so far, followed by what is still buffered
or in the network, are exactly the bytes the peer sent: nothing lost, duplicated or reordered. -/
theorem C42_reads {net : List NetEv} {filt : List FAns} {ns : List Nat} {st : RdSt}
    {outs : List (Bytes × Option RErr)} (hc : CleanErrors net)
    (h : (RdSt.init net filt).reads ns = some (st, outs)) :
    (outs.map (·.1)).flatten ++ st.cache ++ st.rbuf ++ netBytes st.net = netBytes net ∧
    ∀ o ∈ outs.zip ns, o.1.1.length ≤ o.2 := by
  obtain ⟨h1, _, _, h2⟩ := reads_bytes h hc
  refine ⟨?_, h2⟩
  simp only [RdSt.pending, RdSt.init, List.nil_append, ← List.append_assoc] at h1 ⊢
  exact h1

/-- A failing read that returns bytes loses them. -/
theorem C195_reads_false : ∃ net filt st outs, (RdSt.init net filt).reads [4, 4] = some (st, outs) ∧
    (outs.map (·.1)).flatten ++ st.cache ++ st.rbuf ++ netBytes st.net ≠ netBytes net :=
  ⟨[⟨[1, 2], some .net⟩, ⟨[3], none⟩], [.cont], _, _, rfl, by decide⟩

/-! ### End of stream -/

/-- The loop of `read` ends with EOF exactly when the event it consumed last is an EOF. -/
theorem readLoop_eof {k} : ∀ {fs rbuf net rbuf' net' fs'},
    readLoop k fs rbuf net = some (.done (some .eof), rbuf', net', fs') →
    ∃ pre ev, net = pre ++ ev :: net' ∧ ev.err = some .eof := by
  intro fs
  induction fs with
  | nil =>
    intro rbuf net rbuf' net' fs' h
    unfold readLoop at h
    cases hn : netRead k net with
    | none => rw [hn] at h; cases h
    | some p =>
      obtain ⟨ev, net1⟩ := p
      rw [hn] at h
      simp only at h
      split at h <;> first | cases h | (injection h with h; simp at h)
  | cons f fs ih =>
    intro rbuf net rbuf' net' fs' h
    unfold readLoop at h
    cases hn : netRead k net with
    | none => rw [hn] at h; cases h
    | some p =>
      obtain ⟨ev, net1⟩ := p
      rw [hn] at h
      have hdone : ev.err = some .eof → ∃ pre e, net = pre ++ e :: net1 ∧ e.err = some .eof := by
        intro he
        cases net with
        | nil => cases hn
        | cons e rest =>
          simp only [netRead] at hn
          split at hn
          · injection hn with hn; simp only [Prod.mk.injEq] at hn
            obtain ⟨rfl, rfl⟩ := hn
            exact ⟨[], e, rfl, he⟩
          · injection hn with hn; simp only [Prod.mk.injEq] at hn
            obtain ⟨rfl, rfl⟩ := hn
            cases he
      have hrest : ∀ {net2}, (∃ pre e, net1 = pre ++ e :: net2 ∧ e.err = some .eof) →
          ∃ pre e, net = pre ++ e :: net2 ∧ e.err = some .eof := by
        intro net2 ⟨pre, e, hp, he⟩
        cases net with
        | nil => cases hn
        | cons e0 rest =>
          simp only [netRead] at hn
          split at hn
          · injection hn with hn; simp only [Prod.mk.injEq] at hn
            obtain ⟨rfl, rfl⟩ := hn
            exact ⟨e0 :: pre, e, by rw [hp]; rfl, he⟩
          · injection hn with hn; simp only [Prod.mk.injEq] at hn
            obtain ⟨_, rfl⟩ := hn
            cases pre with
            | nil =>
              simp only [List.nil_append, List.cons.injEq] at hp
              obtain ⟨hp1, rfl⟩ := hp
              exact ⟨[], e0, rfl, by rw [← hp1] at he; exact he⟩
            | cons e1 pre =>
              simp only [List.cons_append, List.cons.injEq] at hp
              exact ⟨e0 :: pre, e, by rw [hp.2]; rfl, he⟩
      simp only at h
      split at h
      · injection h with h; simp at h
      · injection h with h; simp at h
      · cases f with
        | err => injection h with h; simp at h
        | cont =>
          injection h with h; simp only [Prod.mk.injEq, LoopRes.done.injEq] at h
          obtain ⟨he, _, rfl, _⟩ := h
          exact hdone he
        | pause =>
          simp only at h
          split at h
          · rename_i he
            injection h with h; simp only [Prod.mk.injEq] at h
            obtain ⟨_, _, rfl, _⟩ := h
            exact hdone he
          · exact hrest (ih h)

theorem read1_eof {st : RdSt} {len st' out} (h : st.read1 len = some (st', out, some .eof))
    (hcl : st.closed = false) :
    (∃ pre ev, st.net = pre ++ ev :: st'.net ∧ ev.err = some .eof) ∧
    (out.length < len → st'.cache = [] ∧ st'.rbuf = []) := by
  simp only [RdSt.read1, hcl] at h
  simp only [Bool.false_eq_true, if_false] at h
  split at h
  · injection h with h; simp at h
  · rename_i hx
    have hlen : st.cache.length < len := by
      simp only [List.length_take] at hx; omega
    have hd : st.cache.drop len = [] := List.drop_eq_nil_of_le (by omega)
    have ht : st.cache.take len = st.cache := List.take_of_length_le (by omega)
    generalize (if st.ibuf < len then len else st.ibuf) = k at h
    cases hl : readLoop k st.filt st.rbuf st.net with
    | none => rw [hl] at h; cases h
    | some p =>
      obtain ⟨r, rbuf, net, fs⟩ := p
      rw [hl] at h
      cases r with
      | fail er =>
        injection h with h; simp only [Prod.mk.injEq] at h
        obtain ⟨_, _, h3⟩ := h
        injection h3 with h3
        subst h3
        exfalso
        -- the loop never fails with EOF
        exact absurd rfl (readLoop_fail_ne hl)
      | done er =>
        injection h with h; simp only [Prod.mk.injEq] at h
        obtain ⟨rfl, rfl, rfl⟩ := h
        refine ⟨readLoop_eof hl, ?_⟩
        intro ho
        simp only [ht, List.length_append, List.length_take] at ho
        refine ⟨?_, rfl⟩
        simp only [hd, ht, List.nil_append]
        exact List.drop_eq_nil_of_le (by omega)
where
  readLoop_fail_ne {k} : ∀ {fs rbuf net e rbuf' net' fs'},
      readLoop k fs rbuf net = some (.fail e, rbuf', net', fs') → e ≠ .eof := by
    intro fs
    induction fs with
    | nil =>
      intro rbuf net e rbuf' net' fs' h
      unfold readLoop at h
      cases hn : netRead k net with
      | none => rw [hn] at h; cases h
      | some p =>
        obtain ⟨ev, net1⟩ := p
        rw [hn] at h
        simp only at h
        split at h
        · injection h with h; simp only [Prod.mk.injEq, LoopRes.fail.injEq] at h
          rw [← h.1]; simp
        · injection h with h; simp only [Prod.mk.injEq, LoopRes.fail.injEq] at h
          rw [← h.1]; simp
        · cases h
    | cons f fs ih =>
      intro rbuf net e rbuf' net' fs' h
      unfold readLoop at h
      cases hn : netRead k net with
      | none => rw [hn] at h; cases h
      | some p =>
        obtain ⟨ev, net1⟩ := p
        rw [hn] at h
        simp only at h
        split at h
        · injection h with h; simp only [Prod.mk.injEq, LoopRes.fail.injEq] at h
          rw [← h.1]; simp
        · injection h with h; simp only [Prod.mk.injEq, LoopRes.fail.injEq] at h
          rw [← h.1]; simp
        · cases f with
          | err =>
            injection h with h; simp only [Prod.mk.injEq, LoopRes.fail.injEq] at h
            rw [← h.1]; simp
          | cont => injection h with h; simp at h
          | pause =>
            simp only at h
            split at h
            · injection h with h; simp at h
            · exact ih h

/-- **C195** (partial: the caller's buffer was not filled)  When `Read` reports end of stream
without filling the buffer, the underlying connection has reported it and no byte is left
undelivered in the connection. -/
theorem C195_eof_partial {st st' : RdSt} {len : Nat} {out : Bytes} (hcl : st.closed = false)
    (h : st.read len = some (st', out, some .eof)) :
    (∃ pre ev, st.net = pre ++ ev :: st'.net ∧ ev.err = some .eof) ∧
    (out.length < len → st'.cache = [] ∧ st'.rbuf = []) := by
  simp only [RdSt.read] at h
  cases h1 : st.read1 len with
  | none => rw [h1] at h; cases h
  | some p =>
    obtain ⟨st1, out1, e1⟩ := p
    rw [h1] at h
    simp only at h
    split at h
    · rename_i hz
      obtain ⟨_, he⟩ := hz
      subst he
      have hcl1 : st1.closed = false := by
        have := h1
        simp only [RdSt.read1, hcl, Bool.false_eq_true, if_false] at this
        split at this
        · injection this with this; simp only [Prod.mk.injEq] at this; rw [← this.1]
        · split at this
          · cases this
          · injection this with this; simp only [Prod.mk.injEq] at this; rw [← this.1]
          · injection this with this; simp only [Prod.mk.injEq] at this; rw [← this.1]
      obtain ⟨⟨pre, ev, hp, hev⟩, hrest⟩ := read1_eof h hcl1
      refine ⟨?_, hrest⟩
      obtain ⟨pre0, ev0, hp0, he0⟩ := read1_suffix h1 hp
      exact ⟨pre0, ev0, hp0, he0.trans hev⟩
    · injection h with h; simp only [Prod.mk.injEq] at h
      obtain ⟨rfl, rfl, rfl⟩ := h
      exact read1_eof h1 hcl
where
  netRead_suffix {k net ev net1 pre e net2} (hn : netRead k net = some (ev, net1))
      (hp : net1 = pre ++ e :: net2) : ∃ pre' e', net = pre' ++ e' :: net2 ∧ e'.err = e.err := by
    cases net with
    | nil => cases hn
    | cons e0 rest =>
      simp only [netRead] at hn
      split at hn
      · injection hn with hn; simp only [Prod.mk.injEq] at hn
        obtain ⟨rfl, rfl⟩ := hn
        exact ⟨e0 :: pre, e, by rw [hp]; rfl, rfl⟩
      · injection hn with hn; simp only [Prod.mk.injEq] at hn
        obtain ⟨_, rfl⟩ := hn
        cases pre with
        | nil =>
          simp only [List.nil_append, List.cons.injEq] at hp
          obtain ⟨hp1, rfl⟩ := hp
          exact ⟨[], e0, rfl, by rw [← hp1]⟩
        | cons e1 pre =>
          simp only [List.cons_append, List.cons.injEq] at hp
          exact ⟨e0 :: pre, e, by rw [hp.2]; rfl, rfl⟩
  readLoop_suffix {k} : ∀ {fs rbuf net r rbuf' net' fs' pre e net2},
      readLoop k fs rbuf net = some (r, rbuf', net', fs') → net' = pre ++ e :: net2 →
      ∃ pre' e', net = pre' ++ e' :: net2 ∧ e'.err = e.err := by
    intro fs
    induction fs with
    | nil =>
      intro rbuf net r rbuf' net' fs' pre e net2 h hp
      unfold readLoop at h
      cases hn : netRead k net with
      | none => rw [hn] at h; cases h
      | some p =>
        obtain ⟨ev, net1⟩ := p
        rw [hn] at h
        simp only at h
        split at h
        · injection h with h; simp only [Prod.mk.injEq] at h
          exact netRead_suffix hn (h.2.2.1.trans hp)
        · injection h with h; simp only [Prod.mk.injEq] at h
          exact netRead_suffix hn (h.2.2.1.trans hp)
        · cases h
    | cons f fs ih =>
      intro rbuf net r rbuf' net' fs' pre e net2 h hp
      unfold readLoop at h
      cases hn : netRead k net with
      | none => rw [hn] at h; cases h
      | some p =>
        obtain ⟨ev, net1⟩ := p
        rw [hn] at h
        simp only at h
        split at h
        · injection h with h; simp only [Prod.mk.injEq] at h
          exact netRead_suffix hn (h.2.2.1.trans hp)
        · injection h with h; simp only [Prod.mk.injEq] at h
          exact netRead_suffix hn (h.2.2.1.trans hp)
        · cases f with
          | err =>
            injection h with h; simp only [Prod.mk.injEq] at h
            exact netRead_suffix hn (h.2.2.1.trans hp)
          | cont =>
            injection h with h; simp only [Prod.mk.injEq] at h
            exact netRead_suffix hn (h.2.2.1.trans hp)
          | pause =>
            simp only at h
            split at h
            · injection h with h; simp only [Prod.mk.injEq] at h
              exact netRead_suffix hn (h.2.2.1.trans hp)
            · obtain ⟨p1, e1, h1, h2⟩ := ih h hp
              obtain ⟨p2, e2, h3, h4⟩ := netRead_suffix hn h1
              exact ⟨p2, e2, h3, h4.trans h2⟩
  read1_suffix {st : RdSt} {len st' out er pre e net2} (h : st.read1 len = some (st', out, er))
      (hp : st'.net = pre ++ e :: net2) : ∃ pre' e', st.net = pre' ++ e' :: net2 ∧ e'.err = e.err := by
    simp only [RdSt.read1] at h
    split at h
    · injection h with h; simp only [Prod.mk.injEq] at h
      rw [h.1]; exact ⟨pre, e, hp, rfl⟩
    · split at h
      · injection h with h; simp only [Prod.mk.injEq] at h
        rw [← h.1] at hp; exact ⟨pre, e, hp, rfl⟩
      · generalize (if st.ibuf < len then len else st.ibuf) = k at h
        cases hl : readLoop k st.filt st.rbuf st.net with
        | none => rw [hl] at h; cases h
        | some p =>
          obtain ⟨r, rbuf, net, fs⟩ := p
          rw [hl] at h
          cases r <;>
          · injection h with h; simp only [Prod.mk.injEq] at h
            rw [← h.1] at hp
            exact readLoop_suffix hl hp

/-- End of stream is reported although bytes are left: after a paused filter let five bytes
accumulate, a `Read` of two bytes returns two bytes together with EOF. -/
theorem C195_eof_false : ∃ net filt st st' out, (RdSt.init net filt).reads [] = some (st, []) ∧
    st.read 2 = some (st', out, some .eof) ∧ st'.cache = [3, 4, 5] :=
  ⟨[⟨[1, 2, 3], none⟩, ⟨[4, 5], none⟩, ⟨[], some .eof⟩], [.pause, .pause, .cont], _, _, _, rfl,
    rfl, rfl⟩

/-- A `Read` blocks although it has bytes to return: the peer sent three bytes and waits. -/
theorem C195_read_blocks_false : ∃ net filt st outs, (RdSt.init net filt).reads [2] = some (st, outs) ∧
    outs = [([1, 2], none)] ∧ st.cache = [3] ∧ st.net = [] ∧ st.read 2 = none :=
  ⟨[⟨[1, 2, 3], none⟩], [.cont, .cont], _, _, rfl, rfl, rfl, rfl, rfl⟩

theorem readLoop_first {ev : NetEv} {net : List NetEv} {fs : List FAns} {rbuf : Bytes} {b : UInt8}
    {bs : Bytes} (m : Nat) (he : ev.err = none) (hb : ev.bytes = b :: bs) :
    ∃ c cs net', readLoop (m + 1) (.cont :: fs) rbuf (ev :: net) =
      some (.done none, rbuf ++ c :: cs, net', fs) := by
  unfold readLoop
  by_cases hl : ev.bytes.length ≤ m + 1
  · refine ⟨b, bs, net, ?_⟩
    simp only [netRead]
    rw [if_pos hl]
    simp [he, hb]
  · refine ⟨b, bs.take m, ⟨ev.bytes.drop (m + 1), ev.err⟩ :: net, ?_⟩
    simp only [netRead]
    rw [if_neg hl]
    simp [he, hb]

/-- **C42** `Read` makes progress: when nothing is buffered, the peer's next bytes are there and
the filters continue, `Read` returns at least one byte and no error. -/
theorem C42_read_progress {st : RdSt} {len : Nat} {ev : NetEv} {net : List NetEv} {fs : List FAns}
    (hcl : st.closed = false) (hc : st.cache = []) (hn : st.net = ev :: net) (hb : ev.bytes ≠ [])
    (he : ev.err = none) (hf : st.filt = .cont :: fs) (hl : 0 < len) (hi : 0 < st.ibuf) :
    ∃ st' out, st.read len = some (st', out, none) ∧ out ≠ [] := by
  obtain ⟨b, bs, hbs⟩ : ∃ b bs, ev.bytes = b :: bs := by
    cases hh : ev.bytes with
    | nil => exact absurd hh hb
    | cons b bs => exact ⟨b, bs, rfl⟩
  obtain ⟨len, rfl⟩ : ∃ m, len = m + 1 := ⟨len - 1, by omega⟩
  have hx : ¬ ((st.cache.take (len + 1)).length = len + 1) := by rw [hc]; simp
  have hk : ∃ m, (if st.ibuf < len + 1 then len + 1 else st.ibuf) = m + 1 := by
    split
    · exact ⟨len, rfl⟩
    · exact ⟨st.ibuf - 1, by omega⟩
  obtain ⟨m, hm⟩ := hk
  have hr : ∃ out st', st.read1 (len + 1) = some (st', out, none) ∧ out ≠ [] := by
    simp only [RdSt.read1, hcl, Bool.false_eq_true, if_false]
    rw [if_neg hx, hm, hf, hn]
    obtain ⟨c, cs, net', hl⟩ := readLoop_first (fs := fs) (net := net) (rbuf := st.rbuf) m he hbs
    rw [hl]
    refine ⟨_, _, rfl, ?_⟩
    rw [hc]
    cases hrb : st.rbuf with
    | nil => simp
    | cons c cs => simp
  obtain ⟨out, st', h1, h2⟩ := hr
  refine ⟨st', out, ?_, h2⟩
  simp only [RdSt.read, h1]
  rw [if_neg]
  intro hz
  exact h2 (List.eq_nil_of_length_eq_zero hz.1)

/-! ### Writing -/

theorem flushLoop_spec : ∀ {fails : List Bool} {n : Nat} {wbuf wire wbuf' wire' fails' n' ok},
    flushLoop n wbuf wire fails = some (wbuf', wire', fails', n', ok) →
    (ok = true → wbuf' = [] ∧ wire' = wire ++ wbuf ∧ n' = n) ∧
    (ok = false → n' = 0 ∧ ∃ sent lost, wire' = wire ++ sent ∧ wbuf = sent ++ lost ++ wbuf' ∧
      lost ≠ []) := by
  intro fails
  induction fails with
  | nil =>
    intro n wbuf wire wbuf' wire' fails' n' ok h
    unfold flushLoop at h
    split at h
    · rename_i hw
      injection h with h; simp only [Prod.mk.injEq] at h
      obtain ⟨rfl, rfl, _, rfl, rfl⟩ := h
      rw [hw]; simp
    · cases h
  | cons b fs ih =>
    intro n wbuf wire wbuf' wire' fails' n' ok h
    unfold flushLoop at h
    split at h
    · rename_i hw
      injection h with h; simp only [Prod.mk.injEq] at h
      obtain ⟨rfl, rfl, _, rfl, rfl⟩ := h
      rw [hw]; simp
    · rename_i hw
      cases b with
      | true =>
        injection h with h; simp only [Prod.mk.injEq] at h
        obtain ⟨rfl, rfl, _, rfl, rfl⟩ := h
        refine ⟨by simp, fun _ => ⟨rfl, [], wbuf.take 4096, by simp, by simp, ?_⟩⟩
        cases wbuf with
        | nil => exact absurd rfl hw
        | cons x xs => simp
      | false =>
        simp only at h
        obtain ⟨i1, i2⟩ := ih h
        refine ⟨fun ho => ?_, fun ho => ?_⟩
        · obtain ⟨a, b, c⟩ := i1 ho
          exact ⟨a, by rw [b, List.append_assoc, List.take_append_drop], c⟩
        · obtain ⟨a, sent, lost, b, c, d⟩ := i2 ho
          refine ⟨a, wbuf.take 4096 ++ sent, lost, by rw [b]; simp, ?_, d⟩
          have : wbuf = wbuf.take 4096 ++ wbuf.drop 4096 := (List.take_append_drop ..).symm
          rw [c] at this
          simpa using this

/-- No call of the underlying `Write` fails. -/
def NoFails (fails : List Bool) : Prop := ∀ b ∈ fails, b = false

theorem flushLoop_ok : ∀ {fails : List Bool} {n : Nat} {wbuf wire wbuf' wire' fails' n' ok},
    flushLoop n wbuf wire fails = some (wbuf', wire', fails', n', ok) → NoFails fails →
    ok = true ∧ NoFails fails' := by
  intro fails
  induction fails with
  | nil =>
    intro n wbuf wire wbuf' wire' fails' n' ok h hf
    unfold flushLoop at h
    split at h
    · injection h with h; simp only [Prod.mk.injEq] at h
      obtain ⟨_, _, rfl, _, rfl⟩ := h
      exact ⟨rfl, hf⟩
    · cases h
  | cons b fs ih =>
    intro n wbuf wire wbuf' wire' fails' n' ok h hf
    unfold flushLoop at h
    split at h
    · injection h with h; simp only [Prod.mk.injEq] at h
      obtain ⟨_, _, rfl, _, rfl⟩ := h
      exact ⟨rfl, hf⟩
    · cases b with
      | true => exact absurd (hf true (by simp)) (by simp)
      | false => exact ih h (fun b hb => hf b (List.mem_cons_of_mem _ hb))

/-- **C42** If the underlying `Write` does not fail: for every sequence of writes and
filter answers: the bytes sent to the peer followed by the bytes held back by pausing filters
are exactly the bytes written, in order; every call reports all its bytes as written. -/
theorem C42_writes : ∀ {bs : List Bytes} {st st' : WrSt} {rs : List (Nat × Bool)},
    st.closed = false → NoFails st.fails → st.writes bs = some (st', rs) →
    st'.wire ++ st'.wbuf = st.wire ++ st.wbuf ++ bs.flatten ∧ rs.map (·.1) = bs.map List.length
  | [], st, st', rs, _, _, h => by
    injection h with h; simp only [Prod.mk.injEq] at h
    obtain ⟨rfl, rfl⟩ := h
    simp
  | b :: bs, st, st', rs, hc, hf, h => by
    simp only [WrSt.writes] at h
    cases h1 : st.write b with
    | none => rw [h1] at h; cases h
    | some p =>
      obtain ⟨st1, n, ok⟩ := p
      rw [h1] at h
      simp only at h
      cases h2 : st1.writes bs with
      | none => rw [h2] at h; cases h
      | some q =>
        obtain ⟨st2, rs2⟩ := q
        rw [h2] at h
        injection h with h; simp only [Prod.mk.injEq] at h
        obtain ⟨rfl, rfl⟩ := h
        have key : st1.closed = false ∧ NoFails st1.fails ∧
            st1.wire ++ st1.wbuf = st.wire ++ st.wbuf ++ b ∧ n = b.length := by
          simp only [WrSt.write, hc, Bool.false_eq_true, if_false] at h1
          cases hfilt : st.filt with
          | nil => rw [hfilt] at h1; cases h1
          | cons f fs =>
            rw [hfilt] at h1
            cases f with
            | err =>
              injection h1 with h1; simp only [Prod.mk.injEq] at h1
              obtain ⟨rfl, rfl, _⟩ := h1
              exact ⟨rfl, hf, by simp, rfl⟩
            | pause =>
              injection h1 with h1; simp only [Prod.mk.injEq] at h1
              obtain ⟨rfl, rfl, _⟩ := h1
              exact ⟨rfl, hf, by simp, rfl⟩
            | cont =>
              simp only at h1
              cases hfl : flushLoop b.length (st.wbuf ++ b) st.wire st.fails with
              | none => rw [hfl] at h1; cases h1
              | some r =>
                obtain ⟨wbuf', wire', fails', n', ok'⟩ := r
                rw [hfl] at h1
                injection h1 with h1; simp only [Prod.mk.injEq] at h1
                obtain ⟨rfl, rfl, _⟩ := h1
                obtain ⟨k1, k2⟩ := flushLoop_ok hfl hf
                obtain ⟨k3, k4, k5⟩ := (flushLoop_spec hfl).1 k1
                exact ⟨rfl, k2, by simp [k3, k4], k5⟩
        obtain ⟨k1, k2, k3, k4⟩ := key
        obtain ⟨i1, i2⟩ := C42_writes k1 k2 h2
        refine ⟨by rw [i1, k3]; simp, by simp [k4, i2]⟩

/-- **C42** When the filters continue and the underlying `Write` does not fail, everything
written so far, also what earlier pauses held back, has been sent when `Write` returns. -/
theorem C42_write_flushes {st st' : WrSt} {b : Bytes} {n : Nat} {ok : Bool} {fs : List FAns}
    (hc : st.closed = false) (hf : NoFails st.fails) (hfilt : st.filt = .cont :: fs)
    (h : st.write b = some (st', n, ok)) :
    ok = true ∧ n = b.length ∧ st'.wbuf = [] ∧ st'.wire = st.wire ++ st.wbuf ++ b := by
  simp only [WrSt.write, hc, Bool.false_eq_true, if_false, hfilt] at h
  cases hfl : flushLoop b.length (st.wbuf ++ b) st.wire st.fails with
  | none => rw [hfl] at h; cases h
  | some r =>
    obtain ⟨wbuf', wire', fails', n', ok'⟩ := r
    rw [hfl] at h
    injection h with h; simp only [Prod.mk.injEq] at h
    obtain ⟨rfl, rfl, rfl⟩ := h
    obtain ⟨k1, k2⟩ := flushLoop_ok hfl hf
    obtain ⟨k3, k4, k5⟩ := (flushLoop_spec hfl).1 k1
    exact ⟨k1, k5, k3, by simp [k4]⟩

/-- Bytes reported as written while a filter paused are lost by `Close`. -/
theorem C195_close_loses_writes_false : ∃ filt st rs,
    (WrSt.init [] filt).writes [[1, 2]] = some (st, rs) ∧ rs = [(2, true)] ∧
    st.close.wire = [] ∧ st.close.closed = true ∧ st.close.write [3] = some (st.close, 0, false) :=
  ⟨[.pause], _, _, rfl, rfl, rfl, rfl, rfl⟩

/-- Non-vacuity: three reads over two chunks with a pause, and writes with a pause. -/
example : (RdSt.init [⟨[1, 2, 3], none⟩, ⟨[4], none⟩, ⟨[], some .eof⟩] [.pause, .cont, .cont]).reads [3, 1, 2] =
    some (⟨[], [], 2048, false, [], []⟩, [([1, 2, 3], none), ([4], none), ([], some .eof)]) := by
  decide +kernel

example : (WrSt.init [false, false] [.pause, .cont]).writes [[1, 2], [3]] =
    some (⟨[], false, [1, 2, 3], [false], []⟩, [(2, true), (1, true)]) := by decide +kernel

/-- **C42** After `Close`, every `Read` returns end of file and no bytes, and changes nothing. -/
theorem C42_closed_reads {st : RdSt} (hcl : st.closed = true) (ns : List Nat) :
    st.reads ns = some (st, ns.map fun _ => ([], some .eof)) := by
  induction ns with
  | nil => rfl
  | cons n ns ih => simp [RdSt.reads, RdSt.read, RdSt.read1, hcl, ih]

example : ({ RdSt.init [] [] with closed := true }).reads [3, 0] =
    some ({ RdSt.init [] [] with closed := true }, [([], some .eof), ([], some .eof)]) := by
  exact C42_closed_reads rfl _

end Verif.Wasm
