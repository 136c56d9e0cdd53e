import Verif.Props.TcpMetaCode
/-
Properties C268 (where the exchange is not invisible), C270 (with whom metadata are exchanged).
-/
namespace Verif.TcpMeta
open Verif

section
variable {mc ms : Bytes} {idc ids : Bytes} {nc ns : Node} (alp : String)

theorem frame_take {md : Bytes} {b : Bytes} {k : Nat} (hk : k ≤ 8) : (frame md ++ b).take k = (magic ++ be32 md.length).take k := by
  have : frame md ++ b = (magic ++ be32 md.length) ++ (md ++ b) := by
    rw [frame, List.append_assoc, List.append_assoc]
  rw [this, List.take_append_of_le_length]
  rw [List.length_append, be32_length, magic_length]
  exact hk

theorem inc_look (md : Bytes) : ∃ a, (Filt.new md).look (inc alp) = { Filt.new md with dir := 1, alpn := a } := by
  simp only [Filt.look, Filt.new, if_true]
  exact ⟨_, rfl⟩

theorem inc_dir (md : Bytes) : ((Filt.new md).look (inc alp)).dir = 1 := by obtain ⟨a, h⟩ := inc_look alp md; rw [h]

theorem inc_sent (md : Bytes) : ((Filt.new md).look (inc alp)).sent = false := by obtain ⟨a, h⟩ := inc_look alp md; rw [h]; rfl

theorem inc_md (md : Bytes) : ((Filt.new md).look (inc alp)).md = md := by obtain ⟨a, h⟩ := inc_look alp md; rw [h]; rfl

theorem inc_disabled (md : Bytes) : ((Filt.new md).look (inc alp)).disabled = false := by obtain ⟨a, h⟩ := inc_look alp md; rw [h]; rfl

theorem inc_exchanged (md : Bytes) : ((Filt.new md).look (inc alp)).exchanged = false := by obtain ⟨a, h⟩ := inc_look alp md; rw [h]; rfl

theorem inc_received (md : Bytes) : ((Filt.new md).look (inc alp)).received = false := by obtain ⟨a, h⟩ := inc_look alp md; rw [h]; rfl

theorem inc_peer (md : Bytes) : ((Filt.new md).look (inc alp)).peer = none := by obtain ⟨a, h⟩ := inc_look alp md; rw [h]; rfl

theorem inc_calm (md : Bytes) : Calm (inc alp) ((Filt.new md).look (inc alp)) :=
  (calm_look (e := inc alp) (fun h => absurd h (inc_ne alp)) ⟨.inl rfl, .inl rfl, fun h => absurd h (inc_ne alp)⟩).1

/-- the server's filter once it gave up waiting -/
def lateS (ms : Bytes) (alp : String) : Filt :=
  { (Filt.new ms).look (inc alp) with exchanged := true }

theorem part_eq_take (buf : Bytes) (n : Nat) : part buf 0 n = buf.take n := by rw [part, List.drop_zero]

/-- a short read: not enough for the magic number -/
theorem read_short (c : Bytes) (h : c.length < 4) : (Side.new ms).read (inc alp) c = some (⟨(Filt.new ms).look (inc alp), [], []⟩, c) := by
  refine read_inc_of ?_
  unfold onDown
  rw [show (Filt.new ms).disabled = false from rfl, show (Filt.new ms).exchanged = false from rfl, if_neg Bool.false_ne_true, if_neg Bool.false_ne_true]
  dsimp only
  rw [if_neg (by rw [inc_dir]; decide), if_pos (inc_dir alp ms), if_pos (by rw [part_eq_take, List.length_take]; omega)]

theorem look_look (md : Bytes) : ((Filt.new md).look (inc alp)).look (inc alp) = (Filt.new md).look (inc alp) := by
  unfold Filt.look
  by_cases h : alp = ""
  · simp [Filt.new, inc, h]
  · simp [Filt.new, inc, h]

/-- data that do not begin with the magic number end the waiting -/
theorem read_other (c : Bytes) (h4 : 4 ≤ c.length) (hm : c.take 4 ≠ magic) :
    Side.read ⟨(Filt.new ms).look (inc alp), [], []⟩ (inc alp) c = some (⟨lateS ms alp, [], []⟩, c) := by
  refine read_inc_of ?_
  have h1 : ((Filt.new ms).look (inc alp)).disabled = false := inc_disabled alp ms
  have h2 : ((Filt.new ms).look (inc alp)).exchanged = false := inc_exchanged alp ms
  unfold onDown
  rw [h1, h2, if_neg Bool.false_ne_true, if_neg Bool.false_ne_true, look_look]
  dsimp only
  rw [if_neg (by rw [inc_dir]; decide), if_pos (inc_dir alp ms), if_neg (by rw [part_eq_take, List.length_take]; omega), if_neg (by rw [part_eq_take]; exact hm)]
  rfl

/-- the server reads all that is under way -/
theorem exec_sr {c s0 s : Side} {buf sc cw sg sw cg got : Bytes} {cr sr : Bool} (h : s0.read (inc alp) buf = some (s, got)) :
    (mk c s0 buf sc cw sg sw cg cr sr).exec (out mx) (inc alp) (.sr buf.length) = some (mk c s [] sc cw (sg ++ got) sw cg cr true) := by
  simp only [Sys.exec, mk, List.take_length, h, List.drop_length]

/-- the client reads all that is under way -/
theorem exec_cr {c0 s c : Side} {cs buf cw sg sw cg got : Bytes} {cr sr : Bool} (h : c0.read (out mx) buf = some (c, got)) :
    (mk c0 s cs buf cw sg sw cg cr sr).exec (out mx) (inc alp) (.cr buf.length) = some (mk c s cs [] cw sg sw (cg ++ got) true sr) := by
  simp only [Sys.exec, mk, List.take_length, h, List.drop_length]

/-- **C268**: if the first read gets less than four bytes of the metadata, the program gets all of them, in front of what the client wrote -/
theorem C268_cut_early_false (b : Bytes) {k : Nat} (h0 : 0 < k) (h4 : k < 4) :
    ∃ x y z, (Sys.new mc ms).exec (out mx) (inc alp) (.cw b) = some x ∧ x.exec (out mx) (inc alp) (.sr k) = some y ∧
      y.exec (out mx) (inc alp) (.sr y.cs.length) = some z ∧ z.sGot = frame mc ++ b ∧ z.cWrote = b ∧ z.s.f.peer = none := by
  have hlen : ((frame mc ++ b).take k).length < 4 := by rw [List.length_take]; omega
  have hdl : 4 ≤ ((frame mc ++ b).drop k).length := by rw [List.length_drop, List.length_append, frame_length]; omega
  have hm : ((frame mc ++ b).drop k).take 4 ≠ magic := by
    have : ((frame mc ++ b).drop k).take 4 = ((magic ++ be32 mc.length).drop k).take 4 := by
      rw [List.take_drop, List.take_drop, frame_take (by omega)]
    rw [this]
    intro h
    have h2 := congrArg (·[0]?) h
    obtain rfl | rfl | rfl : k = 1 ∨ k = 2 ∨ k = 3 := by omega
    · revert h2
      simp [magic]
    · revert h2
      simp [magic]
    · revert h2
      simp [magic]
  refine ⟨mk ⟨sentF mc, [], []⟩ (.new ms) (frame mc ++ b) [] b [] [] [] false false,
    mk ⟨sentF mc, [], []⟩ ⟨(Filt.new ms).look (inc alp), [], []⟩ ((frame mc ++ b).drop k) [] b ((frame mc ++ b).take k) [] [] false true,
    mk ⟨sentF mc, [], []⟩ ⟨lateS ms alp, [], []⟩ [] [] b (frame mc ++ b) [] [] false true, ?_, ?_, ?_, rfl, rfl, ?_⟩
  · have h := write_first (mc := mc) b
    simp only [Sys.exec, Sys.new, h, mk, List.nil_append]
  · have h := read_short (ms := ms) alp _ hlen
    simp only [Sys.exec, mk, h, List.nil_append]
  · have h := read_other (ms := ms) alp _ hdl hm
    simp only [Sys.exec, mk, List.take_length, h, List.drop_length, List.take_append_drop]
  · exact inc_peer alp ms

/-- **C268**: if the first read gets the magic number but not the whole length, the filter panics -/
theorem C268_cut_length_false (b : Bytes) {k : Nat} (h4 : 4 ≤ k) (h8 : k < 8) :
    ∃ x, (Sys.new mc ms).exec (out mx) (inc alp) (.cw b) = some x ∧ x.exec (out mx) (inc alp) (.sr k) = none := by
  have h := write_first (mc := mc) b
  refine ⟨mk ⟨sentF mc, [], []⟩ (.new ms) (frame mc ++ b) [] b [] [] [] false false, by simp only [Sys.exec, Sys.new, h, mk, List.nil_append], ?_⟩
  have hbuf : (frame mc ++ b).take k = (magic ++ be32 mc.length).take k := frame_take (by omega)
  have hp4 : part ((magic ++ be32 mc.length).take k) 0 4 = magic := by
    rw [part_eq_take, List.take_take, Nat.min_eq_left h4]
    exact List.take_left' magic_length
  have hrm : readMeta ((magic ++ be32 mc.length).take k) ((magic ++ be32 mc.length).take k).length = none := by
    have hl : (part ((magic ++ be32 mc.length).take k) 4 4).length < 4 := by
      rw [part, List.length_take, List.length_drop, List.length_take, List.length_append, be32_length, magic_length]
      omega
    have hr : ∀ x : Bytes, x.length < 4 → readBe32 x = none := by
      intro x hx
      match x, hx with
      | [], _ => rfl
      | [_], _ => rfl
      | [_, _], _ => rfl
      | [_, _, _], _ => rfl
      | _ :: _ :: _ :: _ :: _, hx => simp only [List.length_cons] at hx; omega
    rw [readMeta, hr _ hl]
  have hd : onDown (inc alp) ((magic ++ be32 mc.length).take k).length (.new ms) ([] ++ (magic ++ be32 mc.length).take k) [] = none := by
    rw [List.nil_append]
    unfold onDown
    rw [show (Filt.new ms).disabled = false from rfl, show (Filt.new ms).exchanged = false from rfl, if_neg Bool.false_ne_true, if_neg Bool.false_ne_true]
    dsimp only
    rw [if_neg (by rw [inc_dir]; decide), if_pos (inc_dir alp ms), if_neg (by rw [hp4]; decide), if_pos hp4, hrm]
  have hs : (Side.new ms).read (inc alp) ((magic ++ be32 mc.length).take k) = none := by
    unfold Side.read
    rw [if_neg (inc_ne alp)]
    simp only [Side.new, hd]
  simp only [Sys.exec, mk, hbuf, hs]

/-- **C268**: if the server speaks before it has heard of the client, the client's program gets the server's metadata in the middle of the data -/
theorem C268_server_first_false (hc : Says mc idc nc) {g : Bytes} (h4 : 4 ≤ g.length) (hg : ¬ magic <+: g) (b r : Bytes) :
    ∃ x1 x2 x3 x4 x5 x6, (Sys.new mc ms).exec (out mx) (inc alp) (.sw g) = some x1 ∧ x1.exec (out mx) (inc alp) (.cw b) = some x2 ∧
      x2.exec (out mx) (inc alp) (.cr x2.sc.length) = some x3 ∧ x3.exec (out mx) (inc alp) (.sr x3.cs.length) = some x4 ∧
      x4.exec (out mx) (inc alp) (.sw r) = some x5 ∧ x5.exec (out mx) (inc alp) (.cr x5.sc.length) = some x6 ∧
      x6.sWrote = g ++ r ∧ x6.cGot = g ++ (frame ms ++ r) ∧ x6.sGot = b := by
  have hlook := inc_calm alp ms
  -- the server writes
  have h1 : (Side.new ms).write (inc alp) g = some (⟨(Filt.new ms).look (inc alp), [], []⟩, g) := by
    have hd := inc_dir alp ms
    have hr : ((Filt.new ms).look (inc alp)).received = false := inc_received alp ms
    refine write_inc_of (down := []) ?_
    unfold onUp
    rw [show (Filt.new ms).disabled = false from rfl, show (Filt.new ms).exchanged = false from rfl, if_neg Bool.false_ne_true, if_neg Bool.false_ne_true]
    dsimp only
    rw [if_neg (by rw [hd]; decide), if_pos hd, if_pos (.inl (by rw [hr]; decide)), List.nil_append]
  -- the client reads it
  have h3 : Side.read ⟨sentF mc, [], []⟩ (out mx) g = some (⟨{ sentF mc with disabled := true }, [], []⟩, g) := by
    refine read_out_of ?_
    unfold onUp
    rw [show (sentF mc).disabled = false from rfl, show (sentF mc).exchanged = false from rfl, if_neg Bool.false_ne_true, if_neg Bool.false_ne_true,
      show (sentF mc).look (out mx) = sentF mc from rfl]
    dsimp only
    rw [if_pos (show (sentF mc).dir = 2 from rfl), if_neg (by rw [part_eq_take, List.length_take]; omega), if_neg (fun h => hg ((part_magic_iff g).1 h))]
  -- the server hears of the client
  have h4' : Side.read ⟨(Filt.new ms).look (inc alp), [], []⟩ (inc alp) (frame mc ++ b) = some (⟨doneS ms idc nc alp, [], frame ms⟩, b) := by
    obtain ⟨hl, fs, vi, vn, hp, hi, hn, rfl, rfl⟩ := hc
    have hr := readMeta_frame (rest := b) (size := (frame mc ++ b).length) hl hp (by rw [List.length_append]; omega)
    have hd := inc_dir alp ms
    have hse : ((Filt.new ms).look (inc alp)).sent = false := inc_sent alp ms
    have hmd : ((Filt.new ms).look (inc alp)).md = ms := inc_md alp ms
    have h5 : ((Filt.new ms).look (inc alp)).disabled = false := inc_disabled alp ms
    have h6 : ((Filt.new ms).look (inc alp)).exchanged = false := inc_exchanged alp ms
    have := down_server (f := (Filt.new ms).look (inc alp)) (n := (frame mc ++ b).length) (e := inc alp) h5 h6 (by rw [look_look]; exact hd) (by rw [look_look]; exact hse)
      (part_not_short mc b) (part_magic mc b) hr hi hn
    rw [look_look, hmd] at this
    exact read_inc_of this
  have hxs : (doneS ms idc nc alp).exchanged = true := rfl
  -- the client reads the rest
  have h6 : Side.read ⟨{ sentF mc with disabled := true }, [], []⟩ (out mx) (frame ms ++ r) = some (⟨{ sentF mc with disabled := true }, [], []⟩, frame ms ++ r) := by
    refine read_out_of ?_
    unfold onUp
    rw [if_pos (show ({ sentF mc with disabled := true } : Filt).disabled = true from rfl)]
  refine ⟨mk (.new mc) ⟨(Filt.new ms).look (inc alp), [], []⟩ [] g [] [] g [] false false,
    mk ⟨sentF mc, [], []⟩ ⟨(Filt.new ms).look (inc alp), [], []⟩ (frame mc ++ b) g b [] g [] false false,
    mk ⟨{ sentF mc with disabled := true }, [], []⟩ ⟨(Filt.new ms).look (inc alp), [], []⟩ (frame mc ++ b) [] b [] g g true false,
    mk ⟨{ sentF mc with disabled := true }, [], []⟩ ⟨doneS ms idc nc alp, [], frame ms⟩ [] [] b b g g true true,
    mk ⟨{ sentF mc with disabled := true }, [], []⟩ ⟨doneS ms idc nc alp, [], []⟩ [] (frame ms ++ r) b b (g ++ r) g true true,
    mk ⟨{ sentF mc with disabled := true }, [], []⟩ ⟨doneS ms idc nc alp, [], []⟩ [] [] b b (g ++ r) (g ++ (frame ms ++ r)) true true, ?_, ?_, ?_, ?_, ?_, ?_, rfl, rfl, rfl⟩
  · simp only [Sys.exec, Sys.new, h1, mk, List.nil_append]
  · have h2 := write_first (mc := mc) b
    simp only [Sys.exec, h2, mk, List.nil_append]
  · simp only [Sys.exec, mk, List.take_length, h3, List.drop_length, List.nil_append]
  · simp only [Sys.exec, mk, List.take_length, h4', List.drop_length, List.nil_append]
  · have h5 := write_inc hxs alp (frame ms) r
    simp only [Sys.exec, mk, h5, List.nil_append]
  · simp only [Sys.exec, mk, List.take_length, h6, List.drop_length]

/-! ### C270 -/

/-- an outgoing connection that has not agreed on the exchange -/
def Mute (e : Env) (s : Side) : Prop := s.rbuf = [] ∧ s.wbuf = [] ∧ (s.f.dir = 0 ∨ s.f.dir = e.dir) ∧ s.f.alpn ≠ mx

theorem learn_keeps (f : Filt) (fs : Fields) : (f.learn fs).dir = f.dir ∧ (f.learn fs).alpn = f.alpn := by
  unfold Filt.learn
  split <;> split <;> exact ⟨rfl, rfl⟩

theorem mute_look {e : Env} (h : e.dir = 2) (he : e.alpn ≠ mx) {f : Filt} (hd : f.dir = 0 ∨ f.dir = e.dir) (ha : f.alpn ≠ mx) :
    (f.look e).dir = 2 ∧ (f.look e).alpn ≠ mx := by
  have hc : ∃ a, f.look e = { f with dir := e.dir, alpn := a } ∧ a ≠ mx := by
    have hu : "unspecified" ≠ mx := by decide
    have ha' : (if e.alpn = "" then "unspecified" else e.alpn) ≠ mx := by
      by_cases h1 : e.alpn = ""
      · rw [if_pos h1]; exact hu
      · rw [if_neg h1]; exact he
    unfold Filt.look
    by_cases h0 : f.dir = 0
    · by_cases h1 : f.alpn = ""
      · exact ⟨_, by simp only [h0, if_true, h1], ha'⟩
      · exact ⟨f.alpn, by simp only [h0, if_true, h1, if_false], ha⟩
    · have hd := hd.resolve_left h0
      have hf : f = { f with dir := e.dir } := by rw [← hd]
      by_cases h1 : f.alpn = ""
      · exact ⟨_, by simp only [h0, if_true, h1, if_false]; rw [← hd], ha'⟩
      · exact ⟨f.alpn, by simp only [h0, h1, if_false]; exact hf, ha⟩
  obtain ⟨a, h1, h2⟩ := hc
  rw [h1]
  exact ⟨h, h2⟩

theorem mute_write {e : Env} (h : e.dir = 2) (he : e.alpn ≠ mx) {s s' : Side} (hs : Mute e s) {b o : Bytes} (hw : s.write e b = some (s', o)) : o = b ∧ Mute e s' := by
  obtain ⟨f, rb, wb⟩ := s
  obtain ⟨rfl, rfl, hd, ha⟩ : rb = [] ∧ wb = [] ∧ (f.dir = 0 ∨ f.dir = e.dir) ∧ f.alpn ≠ mx := hs
  have key : ∃ f', onDown e b.length f b [] = some (f', b, []) ∧ (f'.dir = 0 ∨ f'.dir = e.dir) ∧ f'.alpn ≠ mx := by
    obtain ⟨hl1, hl2⟩ := mute_look h he hd ha
    unfold onDown
    by_cases h3 : f.disabled = true
    · rw [if_pos h3]; exact ⟨f, rfl, hd, ha⟩
    rw [if_neg h3]
    by_cases h4 : f.exchanged = true
    · rw [if_pos h4]; exact ⟨f, rfl, hd, ha⟩
    rw [if_neg h4]
    dsimp only
    rw [if_pos hl1, if_pos (.inl hl2)]
    exact ⟨_, rfl, .inr (hl1.trans h.symm), hl2⟩
  obtain ⟨f'', h3, h4, h5⟩ := key
  unfold Side.write at hw
  simp only [h, if_true, List.nil_append, h3, Option.some.injEq, Prod.mk.injEq] at hw
  obtain ⟨rfl, rfl⟩ := hw
  exact ⟨rfl, rfl, rfl, h4, h5⟩

theorem mute_read {e : Env} (h : e.dir = 2) (he : e.alpn ≠ mx) {s s' : Side} (hs : Mute e s) {c o : Bytes} (hw : s.read e c = some (s', o)) : Mute e s' := by
  obtain ⟨f, rb, wb⟩ := s
  obtain ⟨rfl, rfl, hd, ha⟩ : rb = [] ∧ wb = [] ∧ (f.dir = 0 ∨ f.dir = e.dir) ∧ f.alpn ≠ mx := hs
  obtain ⟨hl1, hl2⟩ := mute_look h he hd ha
  have key : ∀ f' d u, onUp e c.length f [] c = some (f', d, u) → d = [] ∧ (f'.dir = 0 ∨ f'.dir = e.dir) ∧ f'.alpn ≠ mx := by
    intro f' d u hu
    unfold onUp at hu
    by_cases h3 : f.disabled = true
    · rw [if_pos h3] at hu
      cases hu
      exact ⟨rfl, hd, ha⟩
    rw [if_neg h3] at hu
    by_cases h4 : f.exchanged = true
    · rw [if_pos h4] at hu
      cases hu
      exact ⟨rfl, hd, ha⟩
    rw [if_neg h4] at hu
    dsimp only at hu
    rw [if_pos hl1] at hu
    by_cases h5 : (part c 0 4).length < 4
    · rw [if_pos h5] at hu
      cases hu
      exact ⟨rfl, .inr (hl1.trans h.symm), hl2⟩
    rw [if_neg h5] at hu
    by_cases h6 : part c 0 4 = magic
    · rw [if_pos h6] at hu
      cases hr : readMeta c c.length with
      | none => rw [hr] at hu; cases hu
      | some x =>
        obtain ⟨fs, rest⟩ := x
        rw [hr] at hu
        obtain ⟨k1, k2⟩ := learn_keeps (f.look e) fs
        cases hu
        exact ⟨rfl, .inr (by rw [h]; exact k1.trans hl1), by show ((f.look e).learn fs).alpn ≠ mx; rw [k2]; exact hl2⟩
    · rw [if_neg h6] at hu
      cases hu
      exact ⟨rfl, .inr (hl1.trans h.symm), hl2⟩
  unfold Side.read at hw
  simp only [h, if_true, List.nil_append] at hw
  cases hu : onUp e c.length f [] c with
  | none => rw [hu] at hw; cases hw
  | some x =>
    obtain ⟨f', d, u⟩ := x
    rw [hu] at hw
    obtain ⟨k1, k2, k3⟩ := key f' d u hu
    simp only [Option.some.injEq, Prod.mk.injEq] at hw
    obtain ⟨rfl, rfl⟩ := hw
    exact ⟨rfl, k1, k2, k3⟩

/-- **C270**: an outgoing connection that has not agreed on the exchange sends what the program writes and nothing else, whatever arrives -/
theorem C270_outgoing_partial (md : Bytes) {alp : String} (ha : alp ≠ mx) (ops : List Op) {g w : Bytes} (h : (Side.new md).run (out alp) ops = some (g, w)) : w = written ops := by
  have key : ∀ (ops : List Op) (s : Side) (g w : Bytes), Mute (out alp) s → s.run (out alp) ops = some (g, w) → w = written ops := by
    intro ops
    induction ops with
    | nil => intro s g w _ h; simp only [Side.run, Option.some.injEq, Prod.mk.injEq] at h; exact h.2.symm
    | cons op ops ih =>
      intro s g w hs h
      cases op with
      | write b =>
        rw [Side.run] at h
        cases hw : s.write (out alp) b with
        | none => rw [hw] at h; cases h
        | some x =>
          obtain ⟨s', o⟩ := x
          rw [hw] at h
          obtain ⟨rfl, hs'⟩ := mute_write (e := out alp) rfl ha hs hw
          dsimp only at h
          cases hr : s'.run (out alp) ops with
          | none => rw [hr] at h; cases h
          | some y =>
            obtain ⟨g', w'⟩ := y
            rw [hr] at h
            simp only [Option.map_some, Option.some.injEq, Prod.mk.injEq] at h
            obtain ⟨rfl, rfl⟩ := h
            rw [ih s' _ _ hs' hr, written]
      | read c =>
        rw [Side.run] at h
        cases hw : s.read (out alp) c with
        | none => rw [hw] at h; cases h
        | some x =>
          obtain ⟨s', o⟩ := x
          rw [hw] at h
          have hs' := mute_read (e := out alp) rfl ha hs hw
          dsimp only at h
          cases hr : s'.run (out alp) ops with
          | none => rw [hr] at h; cases h
          | some y =>
            obtain ⟨g', w'⟩ := y
            rw [hr] at h
            simp only [Option.map_some, Option.some.injEq, Prod.mk.injEq] at h
            obtain ⟨rfl, rfl⟩ := h
            rw [ih s' _ _ hs' hr, written]
  exact key ops _ g w ⟨rfl, rfl, .inl rfl, fun h => absurd h (by decide : ¬ "" = mx)⟩ h

/-- **C270**: an accepted connection says nothing about itself as long as nothing has arrived that begins with the magic number -/
theorem C270_accepted_partial (md : Bytes) (alp : String) (ops : List Op) (hc : ∀ c, Op.read c ∈ ops → ¬ magic <+: c) :
    (Side.new md).run (inc alp) ops = some (arrived ops, written ops) := C268_plain _ _ (fun h => absurd h (inc_ne alp)) ops hc

/-- **C270**: but whoever connects, whatever protocol was negotiated, is believed to be who it says it is, and is told who the server is -/
theorem C270_any_client_false {md : Bytes} {id : Bytes} {n : Node} (h : Says md id n) (alp : String) (w b : Bytes) :
    ∃ s s', (Side.new ms).read (inc alp) (frame md ++ w) = some (s, w) ∧ s.f.peerId = some id ∧ s.f.peer = some n ∧ s.write (inc alp) b = some (s', frame ms ++ b) := by
  refine ⟨_, _, read_server alp h w, rfl, rfl, write_inc (by rfl) alp (frame ms) b⟩

/-- metadata that name any node -/
theorem says_any (n : Node) (id : Bytes) (h : (encMeta (fun m => m) n id).length < 4294967296) : ∃ n', Says (encMeta (fun m => m) n id) id n' ∧ Seen n n' :=
  C269_round_trip _ (fun _ => List.Perm.refl _) n id h

end

/-- the node of the examples -/
def exampleNode : Node := ⟨some (txt "a"), some (txt "ns"), none, none, none, none, none, some [txt "c"], some [(txt "app", txt "a")], none, none⟩

example : ∃ n', Says (encMeta (fun m => m) exampleNode (txt "id")) (txt "id") n' ∧ Seen exampleNode n' := says_any _ _ (by decide +kernel)

example : ∃ id node, Says (encMeta (fun m => m) exampleNode (txt "id")) id node := by
  obtain ⟨n', h, _⟩ := says_any exampleNode (txt "id") (by decide +kernel)
  exact ⟨_, _, h⟩

/-- a fair run of the exchange in which both programs get what the other wrote -/
example (mc ms : Bytes) (alp : String) (idc ids : Bytes) (nc ns : Node) (hc : Says mc idc nc) (hs : Says ms ids ns) (b r : Bytes) :
    ∃ x, Reach mc ms alp x ∧ x.sGot = b ∧ x.cGot = r := by
  have r1 : Reach mc ms alp (mk ⟨sentF mc, [], []⟩ (.new ms) (frame mc ++ b) [] b [] [] [] false false) :=
    .step .new (a := .cw b) trivial (by have h := write_first (mc := mc) b; simp only [Sys.exec, Sys.new, h, mk, List.nil_append])
  have r2 : Reach mc ms alp (mk ⟨sentF mc, [], []⟩ ⟨doneS ms idc nc alp, [], frame ms⟩ [] [] b b [] [] false true) :=
    .step r1 (a := .sr (frame mc ++ b).length) (by
      simp only [Fair, mk, List.length_append, frame_length]
      exact ⟨by omega, by omega, fun _ => by omega⟩)
      (by
        have h := read_server (ms := ms) alp hc b
        exact exec_sr alp h)
  have r3 : Reach mc ms alp (mk ⟨sentF mc, [], []⟩ ⟨doneS ms idc nc alp, [], []⟩ [] (frame ms ++ r) b b r [] false true) :=
    .step r2 (a := .sw r) rfl (by
      have h := write_inc (f := doneS ms idc nc alp) rfl alp (frame ms) r
      simp only [Sys.exec, mk, h, List.nil_append])
  have r4 : Reach mc ms alp (mk ⟨doneC mc ids ns, [], []⟩ ⟨doneS ms idc nc alp, [], []⟩ [] [] b b r r true true) :=
    .step r3 (a := .cr (frame ms ++ r).length) (by
      simp only [Fair, mk, List.length_append, frame_length]
      exact ⟨by omega, by omega, fun _ => by omega⟩)
      (by
        have h := read_client (mc := mc) hs r
        exact exec_cr alp h)
  exact ⟨_, r4, rfl, rfl⟩

end Verif.TcpMeta
