import Verif.Exp.JavaIo
/-
Properties C253 and C254: channels and streams of Java programs carry the bytes of the connection.
-/
namespace Verif.Exp.JavaIo

/-! ### C253 -/

/-- the bytes that buffers still have to give, in order (specification) -/
def pending (bs : List Buf) : Bytes := bs.flatMap Buf.content

theorem content_length {b : Buf} (h : b.ok) : b.content.length = b.remaining := by
  obtain ⟨h1, h2⟩ := h
  simp only [Buf.content, Buf.remaining, List.length_drop, List.length_take]
  omega

theorem drop_take_content {b : Buf} : (b.data.drop b.pos).take b.remaining = b.content := by
  simp only [Buf.content, Buf.remaining, List.drop_take]

/-- **C253**: what a read returns is what the connection gave: the bytes stand at the position of the buffer, the position is behind them, the rest of the buffer is as
before; `-1` is returned exactly at the end -/
theorem C253_read (conn : Nat → Got) {dst : Buf} (hd : dst.ok) (hc : ∀ n bs, conn n = .bytes bs → bs.length ≤ n) :
    (conn dst.remaining = .eof → chRead conn dst = (dst, -1)) ∧
    ∀ bs, conn dst.remaining = .bytes bs → (chRead conn dst).2 = bs.length ∧ (chRead conn dst).1.ok ∧
      (chRead conn dst).1.lim = dst.lim ∧ (chRead conn dst).1.pos = dst.pos + bs.length ∧
      (chRead conn dst).1.data.length = dst.data.length ∧
      ((chRead conn dst).1.data.drop dst.pos).take bs.length = bs ∧
      (chRead conn dst).1.data.take dst.pos = dst.data.take dst.pos ∧
      (chRead conn dst).1.data.drop (dst.pos + bs.length) = dst.data.drop (dst.pos + bs.length) := by
  obtain ⟨h1, h2⟩ := hd
  refine ⟨fun h => by simp only [chRead, h], ?_⟩
  intro bs h
  have hl := hc _ _ h
  simp only [Buf.remaining] at hl
  simp only [chRead, h, Buf.put]
  have hp : (dst.data.take dst.pos).length = dst.pos := by simp only [List.length_take]; omega
  refine ⟨trivial, ⟨?_, ?_⟩, trivial, trivial, ?_, ?_, ?_, ?_⟩
  · show dst.pos + bs.length ≤ dst.lim
    omega
  · show dst.lim ≤ (dst.data.take dst.pos ++ bs ++ dst.data.drop (dst.pos + bs.length)).length
    simp only [List.length_append, hp, List.length_drop]
    omega
  · simp only [List.length_append, hp, List.length_drop]
    omega
  · rw [List.append_assoc, List.drop_append_of_le_length (by omega), List.drop_eq_nil_of_le (by omega), List.nil_append, List.take_append_of_le_length (by omega),
      List.take_length]
  · rw [List.append_assoc, List.take_append_of_le_length (by omega), List.take_of_length_le (by omega)]
  · rw [List.drop_append, List.drop_eq_nil_of_le (by simp only [List.length_append, hp]; omega)]
    simp only [List.length_append, hp, List.nil_append]
    rw [show dst.pos + bs.length - (dst.pos + bs.length) = 0 by omega, List.drop_zero]

theorem pending_cons (b : Buf) (bs : List Buf) : pending (b :: bs) = b.content ++ pending bs := by simp [pending]

/-- one buffer: some bytes at the front are accepted, the others stay -/
theorem chWrite_spec (k : Nat) {b : Buf} (h : b.ok) : (chWrite k b).2.1 = b.content.take (chWrite k b).2.2 ∧
    (chWrite k b).1.content = b.content.drop (chWrite k b).2.2 ∧ (chWrite k b).2.2 = min k b.remaining ∧ (chWrite k b).1.ok ∧
    (chWrite k b).1.data = b.data ∧ (chWrite k b).1.lim = b.lim := by
  obtain ⟨h1, h2⟩ := h
  unfold chWrite
  by_cases hr : b.remaining = 0
  · simp only [hr, if_true]
    simp only [List.take_zero, List.drop_zero, Nat.min_zero, true_and]
    exact ⟨⟨h1, h2⟩, trivial⟩
  · simp only [hr, if_false]
    have hd : ∀ n, n ≤ b.remaining → ({ b with pos := b.pos + n } : Buf).content = b.content.drop n := by
      intro n _
      simp only [Buf.content, List.drop_drop]
    by_cases hk : min k b.remaining < b.remaining
    · simp only [hk, if_true]
      refine ⟨by rw [drop_take_content], hd _ (by omega), trivial, ⟨?_, h2⟩, trivial, trivial⟩
      show b.pos + min k b.remaining ≤ b.lim
      simp only [Buf.remaining] at *
      omega
    · have hm : min k b.remaining = b.remaining := by omega
      simp only [hk, if_false]
      rw [hm]
      refine ⟨by rw [drop_take_content], hd _ (Nat.le_refl _), trivial, ⟨?_, h2⟩, trivial, trivial⟩
      show b.pos + b.remaining ≤ b.lim
      simp only [Buf.remaining] at *
      omega

/-- the loop of the gathering write -/
theorem gatherLoop_spec : ∀ (bs : List Buf) (ks : List Nat), (∀ b ∈ bs, b.ok) →
    (gatherLoop ks bs).2.1 = (pending bs).take (gatherLoop ks bs).2.2 ∧ pending (gatherLoop ks bs).1 = (pending bs).drop (gatherLoop ks bs).2.2 ∧
    (gatherLoop ks bs).2.1.length = (gatherLoop ks bs).2.2 ∧ (gatherLoop ks bs).1.length = bs.length ∧ (∀ b ∈ (gatherLoop ks bs).1, b.ok) ∧
    (gatherLoop ks bs).1.map (fun b => (b.data, b.lim)) = bs.map (fun b => (b.data, b.lim)) := by
  intro bs
  induction bs with
  | nil => intro ks _; simp [gatherLoop, pending]
  | cons b rest ih =>
    intro ks hok
    have hb : b.ok := hok b (List.mem_cons_self ..)
    have hrest : ∀ x ∈ rest, x.ok := fun x hx => hok x (List.mem_cons_of_mem _ hx)
    have hlen := content_length hb
    simp only [gatherLoop]
    by_cases hr : b.remaining = 0
    · simp only [hr, if_true]
      obtain ⟨i1, i2, i3, i4, i5, i6⟩ := ih ks hrest
      have hc : b.content = [] := List.length_eq_zero_iff.1 (by rw [hlen, hr])
      refine ⟨?_, ?_, i3, by simp [i4], ?_, by simp [i6]⟩
      · simpa [pending, hc] using i1
      · simpa [pending, hc] using i2
      · intro x hx
        rcases List.mem_cons.1 hx with rfl | hx
        · exact hb
        · exact i5 x hx
    · simp only [hr, if_false]
      generalize ks.headD 0 = k
      obtain ⟨c1, c2, c3, c4, c5, c6⟩ := chWrite_spec k hb
      have hcl : (chWrite k b).2.2 ≤ b.content.length := by rw [c3, hlen]; omega
      by_cases hk : (chWrite k b).2.2 < b.remaining
      · simp only [hk, if_true]
        refine ⟨?_, ?_, ?_, by simp, ?_, ?_⟩
        · rw [c1, pending_cons, List.take_append_of_le_length hcl]
        · rw [pending_cons, c2, pending_cons, List.drop_append_of_le_length hcl]
        · rw [c1, List.length_take, Nat.min_eq_left hcl]
        · intro x hx
          rcases List.mem_cons.1 hx with rfl | hx
          · exact c4
          · exact hrest x hx
        · simp [c5, c6]
      · simp only [hk, if_false]
        have hfull : (chWrite k b).2.2 = b.content.length := by rw [c3, hlen] at *; omega
        obtain ⟨i1, i2, i3, i4, i5, i6⟩ := ih ks.tail hrest
        rw [hfull] at c1 c2
        rw [List.take_length] at c1
        rw [List.drop_length] at c2
        refine ⟨?_, ?_, ?_, by simp [i4], ?_, by simp [c5, c6, i6]⟩
        · rw [c1, i1, hfull, pending_cons, List.take_append, List.take_of_length_le (l := b.content) (Nat.le_add_right ..), Nat.add_sub_cancel_left]
        · rw [pending_cons, c2, List.nil_append, hfull, pending_cons, List.drop_append, List.drop_eq_nil_of_le (by omega)]
          simp only [List.nil_append, Nat.add_sub_cancel_left]
          exact i2
        · rw [List.length_append, i3, c1, hfull]
        · intro x hx
          rcases List.mem_cons.1 hx with rfl | hx
          · exact c4
          · exact i5 x hx

/-- **C253**: a gathering write gives the connection the bytes of the buffers in order: what is accepted is a beginning of them, its length is returned, what
is not accepted stays in the buffers, and no other buffer is touched -/
theorem C253_gather (ks : List Nat) {srcs : List Buf} {offset length : Nat} (hok : ∀ b ∈ srcs, b.ok) (hr : offset + length ≤ srcs.length) :
    ∃ mid acc n, gather ks srcs offset length = some (srcs.take offset ++ mid ++ srcs.drop (offset + length), acc, n) ∧
      mid.length = length ∧ acc.length = n ∧ acc ++ pending mid = pending ((srcs.drop offset).take length) ∧ (∀ b ∈ mid, b.ok) ∧
      mid.map (fun b => (b.data, b.lim)) = ((srcs.drop offset).take length).map (fun b => (b.data, b.lim)) := by
  obtain ⟨i1, i2, i3, i4, i5, i6⟩ := gatherLoop_spec ((srcs.drop offset).take length) ks
    (fun b hb => hok b (List.mem_of_mem_drop (List.mem_of_mem_take hb)))
  refine ⟨_, _, _, by simp only [gather]; rw [if_pos hr], ?_, i3, ?_, i5, i6⟩
  · rw [i4, List.length_take, List.length_drop]; omega
  · rw [i1, i2, List.take_append_drop]

/-- **C253**: a write that accepts all it is asked to accepts everything; nothing is held back -/
theorem C253_all {bs : List Buf} (hok : ∀ b ∈ bs, b.ok) (N : Nat) (hN : ∀ b ∈ bs, b.remaining ≤ N) :
    (gatherLoop (List.replicate bs.length N) bs).2.1 = pending bs := by
  induction bs with
  | nil => rfl
  | cons b rest ih =>
    have hb : b.ok := hok b (List.mem_cons_self ..)
    have hrest : ∀ x ∈ rest, x.ok := fun x hx => hok x (List.mem_cons_of_mem _ hx)
    have hNr : ∀ x ∈ rest, x.remaining ≤ N := fun x hx => hN x (List.mem_cons_of_mem _ hx)
    have hlen := content_length hb
    obtain ⟨c1, c2, c3, c4, c5, c6⟩ := chWrite_spec N hb
    simp only [gatherLoop]
    by_cases hr : b.remaining = 0
    · simp only [hr, if_true]
      have hc : b.content = [] := List.length_eq_zero_iff.1 (by rw [hlen, hr])
      have h0 : ∀ (l : List Buf) (n : Nat), (∀ x ∈ l, x.ok) → (∀ x ∈ l, x.remaining ≤ N) →
          (gatherLoop (List.replicate (l.length + n) N) l).2.1 = pending l := by
        intro l
        induction l with
        | nil => intro n _ _; rfl
        | cons c cs ihc =>
          intro n ho hn
          have hcl := content_length (ho c (List.mem_cons_self ..))
          obtain ⟨d1, d2, d3, d4, d5, d6⟩ := chWrite_spec N (ho c (List.mem_cons_self ..))
          simp only [gatherLoop]
          by_cases hcr : c.remaining = 0
          · simp only [hcr, if_true]
            have hcc : c.content = [] := List.length_eq_zero_iff.1 (by rw [hcl, hcr])
            have := ihc (n + 1) (fun x hx => ho x (List.mem_cons_of_mem _ hx)) (fun x hx => hn x (List.mem_cons_of_mem _ hx))
            simp only [pending, List.flatMap_cons, hcc, List.nil_append]
            rw [show (c :: cs).length + n = cs.length + (n + 1) by simp; omega]
            exact this
          · simp only [hcr, if_false]
            rw [show (c :: cs).length + n = (cs.length + n) + 1 by simp; omega, List.replicate_succ, List.headD_cons, List.tail_cons]
            have hm : min N c.remaining = c.remaining := by have := hn c (List.mem_cons_self ..); omega
            rw [hm] at d3
            simp only [d3, Nat.lt_irrefl, if_false]
            rw [ihc n (fun x hx => ho x (List.mem_cons_of_mem _ hx)) (fun x hx => hn x (List.mem_cons_of_mem _ hx)), d1, d3, ← hcl, List.take_length]
            rfl
      have := h0 rest 1 hrest hNr
      simp only [pending, List.flatMap_cons, hc, List.nil_append]
      exact this
    · simp only [hr, if_false]
      rw [List.length_cons, List.replicate_succ, List.headD_cons, List.tail_cons]
      have hm : min N b.remaining = b.remaining := by have := hN b (List.mem_cons_self ..); omega
      rw [hm] at c3
      simp only [c3, Nat.lt_irrefl, if_false]
      rw [ih hrest hNr, c1, c3, ← hlen, List.take_length]
      rfl

/-- a program that writes its buffers again and again: what the connection accepts in total, and the buffers in the end (specification) -/
def writes : List (List Nat) → List Buf → List Buf × Bytes
  | [], bs => (bs, [])
  | ks :: kss, bs => match gather ks bs 0 bs.length with
    | some (bs', acc, _) => let (bs'', acc') := writes kss bs'
                            (bs'', acc ++ acc')
    | none => (bs, [])

/-- **C253**: however little the connection accepts each time, a program that writes its buffers again and again sends their bytes in order, none lost, none twice -/
theorem C253_writes (kss : List (List Nat)) {bs : List Buf} (hok : ∀ b ∈ bs, b.ok) : (writes kss bs).2 ++ pending (writes kss bs).1 = pending bs := by
  induction kss generalizing bs with
  | nil => rfl
  | cons ks kss ih =>
    obtain ⟨mid, acc, n, h1, h2, h3, h4, h5, h6⟩ := C253_gather ks (offset := 0) (length := bs.length) hok (by omega)
    have hmid : bs.take 0 ++ mid ++ bs.drop (0 + bs.length) = mid := by simp
    rw [hmid] at h1
    simp only [List.drop_zero, List.take_length] at h4
    simp only [writes, h1]
    rw [List.append_assoc, ih h5, h4]

/-- the hypotheses are met: two buffers, of which the connection accepts the first, then nothing, then the rest -/
example : writes [[9, 0], [0], [9]] [⟨[1, 2, 3], 0, 3⟩, ⟨[7, 4, 5, 7], 1, 3⟩] = ([⟨[1, 2, 3], 3, 3⟩, ⟨[7, 4, 5, 7], 3, 3⟩], [1, 2, 3, 4, 5]) := by decide

example : chRead (fun n => .bytes (List.replicate (min n 2) 5)) ⟨[1, 2, 3, 4], 1, 4⟩ = (⟨[1, 5, 5, 4], 3, 4⟩, 2) := by decide

/-! ### C254 -/

/-- what `InputStream.read(b, off, len)` has to do when the connection gives the bytes `bs` (specification: the JDK) -/
def ReadsInto (b : Bytes) (off : Nat) (bs : Bytes) (r : Bytes × Ret) : Prop :=
  r = (b.take off ++ bs ++ b.drop (off + bs.length), .num bs.length)

/-- what `OutputStream.write(b, off, len)` has to send (specification: the JDK) -/
def slice (b : Bytes) (off len : Nat) : Bytes := (b.drop off).take len

/-- **C254**: reading into a whole array, and the end of the stream and errors in every case -/
theorem C254_read_partial (conn : Nat → Ans) (b : Bytes) :
    (∀ bs, conn b.length = .bytes bs → ReadsInto b 0 bs (isRead conn b 0 b.length)) ∧
    ∀ off len, off + len ≤ b.length → (conn len = .eof → isRead conn b off len = (b, .num (-1))) ∧
      (conn len = .error → isRead conn b off len = (b, .ioException)) := by
  refine ⟨?_, ?_⟩
  · intro bs h
    simp [isRead, ReadsInto, h]
  · intro off len hl
    have h1 : ¬ b.length < len := by omega
    refine ⟨fun h => ?_, fun h => ?_⟩ <;> simp only [isRead, h1, if_false, h] <;> split <;> rfl

/-- **C254**: a read for more bytes than the array has is refused and changes nothing, whatever the connection has -/
theorem C254_bounds (conn : Nat → Ans) (b : Bytes) (off len : Nat) (h : b.length < len) : isRead conn b off len = (b, .ioException) := by
  simp [isRead, h]

/-- **C254** is false of the code: reading into a part of an array returns the number of bytes but never any of the bytes: they are lost -/
theorem C254_part_false (conn : Nat → Ans) (b : Bytes) (off len : Nat) (hl : off + len ≤ b.length) (hp : len < b.length) {bs : Bytes}
    (hc : conn len = .bytes bs) : isRead conn b off len = (b, .num bs.length) ∧
      (b.take off ++ bs ++ b.drop (off + bs.length) ≠ b → ¬ ReadsInto b off bs (isRead conn b off len)) := by
  have h1 : ¬ b.length < len := by omega
  have h2 : ¬ b.length = len := by omega
  have : isRead conn b off len = (b, .num bs.length) := by simp only [isRead, h1, h2, if_false, hc]
  refine ⟨this, ?_⟩
  intro hne hr
  rw [ReadsInto, this] at hr
  exact hne (Prod.mk.inj hr).1.symm

/-- a connection that has the bytes `s` and then ends, and gives as many as fit (specification; a plain read of 0 bytes gives 0 bytes) -/
def source (s : Bytes) (n : Nat) : Ans := if n = 0 then .bytes [] else if s = [] then .eof else .bytes (s.take n)

/-- **C254** is false of the code: reading one byte always returns 0 and takes nothing from the connection, whatever it has, and even at its end -/
theorem C254_byte_false (s : Bytes) : isReadByte (source s) = .num 0 := by
  simp [isReadByte, isRead, source]

/-- **C254**: writing a whole array, and writing one byte -/
theorem C254_write_partial (b : Bytes) (n : Nat) : osWrite b 0 b.length = some (slice b 0 b.length) ∧ osWriteByte n = some [UInt8.ofNat n] := by
  simp [osWrite, osWriteByte, slice]

/-- **C254** is false of the code: writing a part of an array always sends as many bytes as the array is long, filled up with zeros, and from the beginning of the
array whatever the offset -/
theorem C254_write_false (b : Bytes) (off len : Nat) (hl : off + len ≤ b.length) (hp : len < b.length) :
    (∃ bs, osWrite b off len = some bs ∧ bs.length = b.length ∧ bs ≠ slice b off len) ∧ osWrite b off len = osWrite b 0 len := by
  refine ⟨⟨b.take len ++ List.replicate (b.length - len) 0, ?_, ?_, ?_⟩, rfl⟩
  · simp only [osWrite]; rw [if_pos (by omega)]
  · simp only [List.length_append, List.length_take, List.length_replicate]; omega
  · intro h
    have := congrArg List.length h
    simp only [List.length_append, List.length_take, List.length_replicate, slice, List.length_drop] at this
    omega

/-- the cases exist -/
example : isRead (source [7, 8, 9]) [1, 2, 3, 4] 0 2 = ([1, 2, 3, 4], .num 2) := by decide

example : osWrite [1, 2, 3, 4] 1 2 = some [1, 2, 0, 0] := by decide

example : isRead (source [7, 8, 9]) [1, 2] 0 2 = ([7, 8], .num 2) := by decide

end Verif.Exp.JavaIo
