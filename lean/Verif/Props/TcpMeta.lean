import Verif.Exp.TcpMeta
/-
Properties C268 (the exchange of metadata is invisible), C270 (with whom metadata are exchanged).
-/
namespace Verif.TcpMeta
open Verif

/-! ### specification -/

/-- the protocol two sidecars agree on when they want to exchange metadata (specification) -/
def mx : String := "istio-peer-exchange"

/-- the environment of an outgoing connection with this negotiated protocol (specification) -/
def out (alpn : String) : Env := ⟨2, alpn⟩

/-- the environment of an accepted connection with this negotiated protocol (specification) -/
def inc (alpn : String) : Env := ⟨1, alpn⟩

/-- bytes that say: my id is `id`, my node is `node` (specification) -/
def Says (md : Bytes) (id : Bytes) (node : Node) : Prop := md.length < 4294967296 ∧
  ∃ fs vi vn, parseMeta md = some fs ∧ get (txt "x-envoy-peer-metadata-id") fs = some vi ∧ get (txt "x-envoy-peer-metadata") fs = some vn ∧
    vi.text = id ∧ nodeOf vn.fields = node

/-! ### reading metadata -/

theorem be32_length (n : Nat) : (be32 n).length = 4 := rfl

theorem magic_length : magic.length = 4 := rfl

theorem frame_length (md : Bytes) : (frame md).length = 8 + md.length := by
  rw [frame, List.length_append, List.length_append, be32_length, magic_length]

theorem be32_read {n : Nat} (h : n < 4294967296) : readBe32 (be32 n) = some n := by
  have e : ∀ a b c d : UInt8, readBe32 [a, b, c, d] = some (a.toNat * 16777216 + b.toNat * 65536 + c.toNat * 256 + d.toNat) := fun _ _ _ _ => rfl
  rw [be32, e, UInt8.toNat_ofNat', UInt8.toNat_ofNat', UInt8.toNat_ofNat', UInt8.toNat_ofNat']
  have : n / 16777216 % 2 ^ 8 * 16777216 + n / 65536 % 2 ^ 8 * 65536 + n / 256 % 2 ^ 8 * 256 + n % 2 ^ 8 = n := by omega
  rw [this]

theorem part_magic (md r : Bytes) : part (frame md ++ r) 0 4 = magic := by
  rw [part, List.drop_zero, frame, List.append_assoc, List.append_assoc]
  exact List.take_left' magic_length

theorem readMeta_frame {md rest : Bytes} {fs : Fields} {size : Nat} (hl : md.length < 4294967296) (hp : parseMeta md = some fs) (hs : rest.length ≤ size) :
    readMeta (frame md ++ rest) size = some (fs, rest) := by
  have hd4 : (frame md ++ rest).drop 4 = be32 md.length ++ (md ++ rest) := by
    rw [frame, List.append_assoc, List.append_assoc]
    exact List.drop_left' magic_length
  have h1 : part (frame md ++ rest) 4 4 = be32 md.length := by
    rw [part, hd4]
    exact List.take_left' (be32_length _)
  have h2 : part (frame md ++ rest) 8 md.length = md := by
    have : (frame md ++ rest).drop 8 = md ++ rest := by
      rw [show (8 : Nat) = 4 + 4 from rfl, ← List.drop_drop, hd4]
      exact List.drop_left' (be32_length _)
    rw [part, this, List.take_left]
  have h3 : part (frame md ++ rest) (md.length + 8) size = rest := by
    have : (frame md ++ rest).drop (md.length + 8) = rest := List.drop_left' (by rw [frame_length]; omega)
    rw [part, this, List.take_of_length_le hs]
  have hm : ∀ buf n, readBe32 (part buf 4 4) = some n → parseMeta (part buf 8 n) = some fs → readMeta buf size = some (fs, part buf (n + 8) size) := by
    intro buf n h1 h2
    rw [readMeta, h1]
    dsimp only
    rw [h2]
  have h4 : readBe32 (part (frame md ++ rest) 4 4) = some md.length := by rw [h1, be32_read hl]
  rw [hm _ md.length h4 (by rw [h2]; exact hp), h3]

/-- what the filter knows after it was told (specification) -/
theorem learn_says {fs : Fields} {vi vn : Val} (hi : get (txt "x-envoy-peer-metadata-id") fs = some vi) (hn : get (txt "x-envoy-peer-metadata") fs = some vn)
    (f : Filt) : f.learn fs = { f with peerId := some vi.text, idReceived := true, peer := some (nodeOf vn.fields), received := true } := by
  unfold Filt.learn
  rw [hi, hn]

/-! ### C268 -/

section
variable (mc ms : Bytes) (idc ids : Bytes) (nc ns : Node) (alp : String)

/-- the client's filter once it has sent its metadata -/
def sentF : Filt := { Filt.new mc with dir := 2, alpn := mx, sent := true }

/-- the client's filter once it has got the server's metadata -/
def doneC : Filt := { sentF mc with peerId := some ids, peer := some ns, exchanged := true }

/-- the server's filter once it has got the client's metadata -/
def doneS : Filt :=
  { (Filt.new ms).look (inc alp) with
    peerId := some idc
    idReceived := true
    peer := some nc
    received := true
    sent := true
    exchanged := true }

/-- a connection with these two ends (specification) -/
def mk (c s : Side) (cs sc cw sg sw cg : Bytes) (cr sr : Bool) : Sys :=
  { c := c
    s := s
    cs := cs
    sc := sc
    cWrote := cw
    sGot := sg
    sWrote := sw
    cGot := cg
    cRead := cr
    sRead := sr }

/-- how far the exchange is -/
inductive Phase : Sys → Prop
  | start : Phase (mk (.new mc) (.new ms) [] [] [] [] [] [] false false)
  | sent (w : Bytes) : Phase (mk ⟨sentF mc, [], []⟩ (.new ms) (frame mc ++ w) [] w [] [] [] false false)
  | got (g r : Bytes) : Phase (mk ⟨sentF mc, [], []⟩ ⟨doneS ms idc nc alp, [], frame ms⟩ r [] (g ++ r) g [] [] false true)
  | answered (g r w : Bytes) : Phase (mk ⟨sentF mc, [], []⟩ ⟨doneS ms idc nc alp, [], []⟩ r (frame ms ++ w) (g ++ r) g w [] false true)
  | done (g r g' r' : Bytes) : Phase (mk ⟨doneC mc ids ns, [], []⟩ ⟨doneS ms idc nc alp, [], []⟩ r r' (g ++ r) g (g' ++ r') g' true true)

/-- what may happen: reads take something that is there, the first one on each side all of the metadata, and the server answers only (specification) -/
def Fair (x : Sys) : Act → Prop
  | .cw _ => True
  | .sr k => 0 < k ∧ k ≤ x.cs.length ∧ (x.sRead = false → (frame mc).length ≤ k)
  | .sw _ => x.sRead = true
  | .cr k => 0 < k ∧ k ≤ x.sc.length ∧ (x.cRead = false → (frame ms).length ≤ k)

/-- the states of a connection whose steps are fair (specification) -/
inductive Reach : Sys → Prop
  | new : Reach (Sys.new mc ms)
  | step {x y a} : Reach x → Fair mc ms x a → x.exec (out mx) (inc alp) a = some y → Reach y

variable {mc ms idc ids nc ns}

theorem write_first (b : Bytes) : (Side.new mc).write (out mx) b = some (⟨sentF mc, [], []⟩, frame mc ++ b) := rfl

theorem write_sent (b : Bytes) : Side.write ⟨sentF mc, [], []⟩ (out mx) b = some (⟨sentF mc, [], []⟩, b) := rfl

theorem inc_ne (s : String) : ¬ (inc s).dir = 2 := fun h => absurd h (by decide : ¬ (1 : Int) = 2)

theorem read_inc_of {f f' : Filt} {s : String} {c wb down up : Bytes} (h : onDown (inc s) c.length f c wb = some (f', down, up)) :
    Side.read ⟨f, [], wb⟩ (inc s) c = some (⟨f', [], up⟩, down) := by
  unfold Side.read
  rw [if_neg (inc_ne s)]
  simp only [List.nil_append, h]

theorem read_out_of {f f' : Filt} {s : String} {c wb down up : Bytes} (h : onUp (out s) c.length f wb c = some (f', down, up)) :
    Side.read ⟨f, [], wb⟩ (out s) c = some (⟨f', [], down⟩, up) := by
  unfold Side.read
  rw [if_pos (show (out s).dir = 2 from rfl)]
  simp only [List.nil_append, h]

theorem write_inc_of {f f' : Filt} {s : String} {b rb wb down up : Bytes} (h : onUp (inc s) b.length f rb (wb ++ b) = some (f', down, up)) :
    Side.write ⟨f, rb, wb⟩ (inc s) b = some (⟨f', down, []⟩, up) := by
  unfold Side.write
  rw [if_neg (inc_ne s)]
  simp only [h]

theorem write_out_of {f f' : Filt} {s : String} {b rb wb down up : Bytes} (h : onDown (out s) b.length f (wb ++ b) rb = some (f', down, up)) :
    Side.write ⟨f, rb, wb⟩ (out s) b = some (⟨f', up, []⟩, down) := by
  unfold Side.write
  rw [if_pos (show (out s).dir = 2 from rfl)]
  simp only [h]

theorem down_done {f : Filt} (hx : f.exchanged = true) (e : Env) (n : Nat) (d u : Bytes) : onDown e n f d u = some (f, d, u) := by
  unfold onDown
  by_cases h : f.disabled = true
  · rw [if_pos h]
  · rw [if_neg h, if_pos hx]

theorem up_done {f : Filt} (hx : f.exchanged = true) (e : Env) (n : Nat) (d u : Bytes) : onUp e n f d u = some (f, d, u) := by
  unfold onUp
  by_cases h : f.disabled = true
  · rw [if_pos h]
  · rw [if_neg h, if_pos hx]

theorem write_out {f : Filt} (hx : f.exchanged = true) (s : String) (b : Bytes) : Side.write ⟨f, [], []⟩ (out s) b = some (⟨f, [], []⟩, b) :=
  write_out_of (down_done hx _ _ _ _)

theorem write_inc {f : Filt} (hx : f.exchanged = true) (s : String) (w b : Bytes) : Side.write ⟨f, [], w⟩ (inc s) b = some (⟨f, [], []⟩, w ++ b) :=
  write_inc_of (up_done hx _ _ _ _)

theorem read_out {f : Filt} (hx : f.exchanged = true) (s : String) (b : Bytes) : Side.read ⟨f, [], []⟩ (out s) b = some (⟨f, [], []⟩, b) :=
  read_out_of (up_done hx _ _ _ _)

theorem read_inc {f : Filt} (hx : f.exchanged = true) (s : String) (w b : Bytes) : Side.read ⟨f, [], w⟩ (inc s) b = some (⟨f, [], w⟩, b) :=
  read_inc_of (down_done hx _ _ _ _)

theorem part_not_short (md r : Bytes) : ¬ (part (frame md ++ r) 0 4).length < 4 := by
  rw [part_magic]
  exact (by decide : ¬ magic.length < 4)

theorem down_server {f : Filt} {n : Nat} {buf w : Bytes} {fs : Fields} {vi vn : Val} (h1 : f.disabled = false) (h2 : f.exchanged = false)
    {e : Env} (hd : (f.look e).dir = 1) (hse : (f.look e).sent = false)
    (hp4 : ¬ (part buf 0 4).length < 4) (hpm : part buf 0 4 = magic) (hr : readMeta buf n = some (fs, w))
    (hi : get (txt "x-envoy-peer-metadata-id") fs = some vi) (hn : get (txt "x-envoy-peer-metadata") fs = some vn) :
    onDown e n f buf [] = some ({ f.look e with peerId := some vi.text, idReceived := true, peer := some (nodeOf vn.fields), received := true,
                                                sent := true, exchanged := true }, w, frame (f.look e).md) := by
  unfold onDown
  rw [h1, h2]
  rw [if_neg Bool.false_ne_true, if_neg Bool.false_ne_true]
  dsimp only
  rw [if_neg (by rw [hd]; decide), if_pos hd, if_neg hp4, if_pos hpm, hr]
  dsimp only
  rw [learn_says hi hn]
  dsimp only
  rw [if_pos ⟨rfl, rfl, by rw [hse]; decide⟩, List.append_nil]

theorem up_client {f : Filt} {n : Nat} {buf w : Bytes} {fs : Fields} {vi vn : Val} (h1 : f.disabled = false) (h2 : f.exchanged = false)
    {e : Env} (hd : (f.look e).dir = 2)
    (hp4 : ¬ (part buf 0 4).length < 4) (hpm : part buf 0 4 = magic) (hr : readMeta buf n = some (fs, w))
    (hi : get (txt "x-envoy-peer-metadata-id") fs = some vi) (hn : get (txt "x-envoy-peer-metadata") fs = some vn) :
    onUp e n f [] buf = some ({ f.look e with peerId := some vi.text, peer := some (nodeOf vn.fields), exchanged := true }, [], w) := by
  unfold onUp
  rw [h1, h2]
  rw [if_neg Bool.false_ne_true, if_neg Bool.false_ne_true]
  dsimp only
  rw [if_pos hd, if_neg hp4, if_pos hpm, hr]
  dsimp only
  rw [learn_says hi hn]

/-- the first read of the server -/
theorem read_server (hc : Says mc idc nc) (w : Bytes) : (Side.new ms).read (inc alp) (frame mc ++ w) = some (⟨doneS ms idc nc alp, [], frame ms⟩, w) := by
  obtain ⟨hl, fs, vi, vn, hp, hi, hn, rfl, rfl⟩ := hc
  have hr := readMeta_frame (rest := w) (size := (frame mc ++ w).length) hl hp (by rw [List.length_append]; omega)
  have hlook : ∃ a, (Filt.new ms).look (inc alp) = { Filt.new ms with dir := 1, alpn := a } := by
    simp only [Filt.look, Filt.new, if_true]
    exact ⟨_, rfl⟩
  have hd : ((Filt.new ms).look (inc alp)).dir = 1 := by obtain ⟨a, h⟩ := hlook; rw [h]
  have hse : ((Filt.new ms).look (inc alp)).sent = false := by obtain ⟨a, h⟩ := hlook; rw [h]; rfl
  have hmd : ((Filt.new ms).look (inc alp)).md = ms := by obtain ⟨a, h⟩ := hlook; rw [h]; rfl
  have := down_server (f := Filt.new ms) (n := (frame mc ++ w).length) rfl rfl hd hse (part_not_short mc w) (part_magic mc w) hr hi hn
  rw [hmd] at this
  exact read_inc_of this

/-- the first read of the client -/
theorem read_client (hs : Says ms ids ns) (w : Bytes) : Side.read ⟨sentF mc, [], []⟩ (out mx) (frame ms ++ w) = some (⟨doneC mc ids ns, [], []⟩, w) := by
  obtain ⟨hl, fs, vi, vn, hp, hi, hn, rfl, rfl⟩ := hs
  have hr := readMeta_frame (rest := w) (size := (frame ms ++ w).length) hl hp (by rw [List.length_append]; omega)
  have hlook : (sentF mc).look (out mx) = sentF mc := rfl
  have := up_client (f := sentF mc) (n := (frame ms ++ w).length) rfl rfl (e := out mx) (by rw [hlook]; rfl) (part_not_short ms w) (part_magic ms w) hr hi hn
  rw [hlook] at this
  exact read_out_of this

theorem phase_step (hc : Says mc idc nc) (hs : Says ms ids ns) {x : Sys} (h : Phase mc ms idc ids nc ns alp x) {a : Act} (hf : Fair mc ms x a) :
    ∃ y, x.exec (out mx) (inc alp) a = some y ∧ Phase mc ms idc ids nc ns alp y := by
  have split : ∀ (fr w : Bytes) (k : Nat), fr.length ≤ k → (fr ++ w).take k = fr ++ w.take (k - fr.length) ∧ (fr ++ w).drop k = w.drop (k - fr.length) := by
    intro fr w k hk
    constructor
    · rw [List.take_append, List.take_of_length_le hk]
    · rw [List.drop_append, List.drop_of_length_le hk, List.nil_append]
  have hxs : (doneS ms idc nc alp).exchanged = true := rfl
  have hxc : (doneC mc ids ns).exchanged = true := rfl
  cases h with
  | start =>
    cases a with
    | cw b => exact ⟨_, by simp only [Sys.exec, mk, write_first, List.nil_append], .sent b⟩
    | sr k => simp only [Fair, mk, List.length_nil] at hf; omega
    | sw b => simp [Fair, mk] at hf
    | cr k => simp only [Fair, mk, List.length_nil] at hf; omega
  | sent w =>
    cases a with
    | cw b => exact ⟨_, by simp only [Sys.exec, mk, write_sent, List.append_assoc], .sent (w ++ b)⟩
    | sr k =>
      obtain ⟨h1, h2⟩ := split (frame mc) w k (hf.2.2 rfl)
      have := Phase.got (mc := mc) (ms := ms) (idc := idc) (ids := ids) (nc := nc) (ns := ns) (alp := alp)
        (w.take (k - (frame mc).length)) (w.drop (k - (frame mc).length))
      rw [List.take_append_drop] at this
      exact ⟨_, by simp only [Sys.exec, mk, h1, h2, read_server alp hc, List.nil_append], this⟩
    | sw b => simp [Fair, mk] at hf
    | cr k => simp only [Fair, mk, List.length_nil] at hf; omega
  | got g r =>
    cases a with
    | cw b => exact ⟨_, by simp only [Sys.exec, mk, write_sent, List.append_assoc], .got g (r ++ b)⟩
    | sr k =>
      have := Phase.got (mc := mc) (ms := ms) (idc := idc) (ids := ids) (nc := nc) (ns := ns) (alp := alp) (g ++ r.take k) (r.drop k)
      rw [List.append_assoc, List.take_append_drop] at this
      exact ⟨_, by simp only [Sys.exec, mk, read_inc hxs], this⟩
    | sw b => exact ⟨_, by simp only [Sys.exec, mk, write_inc hxs, List.nil_append], .answered g r b⟩
    | cr k => simp only [Fair, mk, List.length_nil] at hf; omega
  | answered g r w =>
    cases a with
    | cw b => exact ⟨_, by simp only [Sys.exec, mk, write_sent, List.append_assoc], .answered g (r ++ b) w⟩
    | sr k =>
      have := Phase.answered (mc := mc) (ms := ms) (idc := idc) (ids := ids) (nc := nc) (ns := ns) (alp := alp) (g ++ r.take k) (r.drop k) w
      rw [List.append_assoc, List.take_append_drop] at this
      exact ⟨_, by simp only [Sys.exec, mk, read_inc hxs], this⟩
    | sw b => exact ⟨_, by simp only [Sys.exec, mk, write_inc hxs, List.nil_append, List.append_assoc], .answered g r (w ++ b)⟩
    | cr k =>
      obtain ⟨h1, h2⟩ := split (frame ms) w k (hf.2.2 rfl)
      have := Phase.done (mc := mc) (ms := ms) (idc := idc) (ids := ids) (nc := nc) (ns := ns) (alp := alp)
        g r (w.take (k - (frame ms).length)) (w.drop (k - (frame ms).length))
      rw [List.take_append_drop] at this
      exact ⟨_, by simp only [Sys.exec, mk, h1, h2, read_client hs, List.nil_append], this⟩
  | done g r g' r' =>
    cases a with
    | cw b => exact ⟨_, by simp only [Sys.exec, mk, write_out hxc, List.append_assoc], .done g (r ++ b) g' r'⟩
    | sr k =>
      have := Phase.done (mc := mc) (ms := ms) (idc := idc) (ids := ids) (nc := nc) (ns := ns) (alp := alp) (g ++ r.take k) (r.drop k) g' r'
      rw [List.append_assoc g, List.take_append_drop] at this
      exact ⟨_, by simp only [Sys.exec, mk, read_inc hxs], this⟩
    | sw b => exact ⟨_, by simp only [Sys.exec, mk, write_inc hxs, List.nil_append, List.append_assoc], .done g r g' (r' ++ b)⟩
    | cr k =>
      have := Phase.done (mc := mc) (ms := ms) (idc := idc) (ids := ids) (nc := nc) (ns := ns) (alp := alp) g r (g' ++ r'.take k) (r'.drop k)
      rw [List.append_assoc g', List.take_append_drop] at this
      exact ⟨_, by simp only [Sys.exec, mk, read_out hxc], this⟩

theorem reach_phase (hc : Says mc idc nc) (hs : Says ms ids ns) {x : Sys} (h : Reach mc ms alp x) : Phase mc ms idc ids nc ns alp x := by
  induction h with
  | new => exact .start
  | step _ hf he ih =>
    obtain ⟨y, hy, hp⟩ := phase_step alp hc hs ih hf
    rw [he] at hy
    cases hy
    exact hp

/-- **C268**: between two programs that agreed on the exchange, where the client speaks first and the first read of each end gets the metadata whole: no filter panics, what each
program got and what is under way to it (behind the metadata, before the first read) is exactly what the other wrote, and from its first read on each end knows id and node of
the other -/
theorem C268_exchange_partial (hc : Says mc idc nc) (hs : Says ms ids ns) {x : Sys} (h : Reach mc ms alp x) :
    (∀ a, Fair mc ms x a → ∃ y, x.exec (out mx) (inc alp) a = some y) ∧
    (if x.sRead then x.sGot ++ x.cs = x.cWrote ∧ x.s.f.peerId = some idc ∧ x.s.f.peer = some nc
      else x.sGot = [] ∧ (x.cs = frame mc ++ x.cWrote ∨ x.cs = [] ∧ x.cWrote = [])) ∧
    (if x.cRead then x.cGot ++ x.sc = x.sWrote ∧ x.c.f.peerId = some ids ∧ x.c.f.peer = some ns
      else x.cGot = [] ∧ (x.sc = frame ms ++ x.sWrote ∨ x.sc = [] ∧ x.sWrote = [])) := by
  have hp := reach_phase alp hc hs h
  refine ⟨fun a ha => ?_, ?_⟩
  · obtain ⟨y, hy, _⟩ := phase_step alp hc hs hp ha
    exact ⟨y, hy⟩
  · cases hp with
    | start => simp [mk]
    | sent w => simp [mk]
    | got g r => simp [mk, doneS]
    | answered g r w => simp [mk, doneS]
    | done g r g' r' => simp [mk, doneS, doneC]

/-- **C268**: the client speaks whenever it wants, and after the server's first read the server too; whatever is under way can be read -/
theorem C268_free {x : Sys} (b : Bytes) (k : Nat) (hs : x.sRead = true) (hk : 0 < k) :
    Fair mc ms x (.cw b) ∧ Fair mc ms x (.sw b) ∧ (k ≤ x.cs.length → Fair mc ms x (.sr k)) ∧ (x.cRead = true → k ≤ x.sc.length → Fair mc ms x (.cr k)) := by
  refine ⟨trivial, hs, fun h => ⟨hk, h, ?_⟩, fun h1 h2 => ⟨hk, h2, ?_⟩⟩
  · rw [hs]; simp
  · rw [h1]; simp

end

/-! ### C268: connections without exchange -/

/-- what a program does at one end: it writes, or it gets data that arrived together (specification) -/
inductive Op where
  | write (b : Bytes)
  | read (c : Bytes)

/-- one end: what the program got and what was sent -/
def Side.run (e : Env) : Side → List Op → Option (Bytes × Bytes)
  | _, [] => some ([], [])
  | s, .write b :: ops => match s.write e b with
    | none => none
    | some (s', o) => (run e s' ops).map fun (g, w) => (g, o ++ w)
  | s, .read c :: ops => match s.read e c with
    | none => none
    | some (s', o) => (run e s' ops).map fun (g, w) => (o ++ g, w)

/-- what is written and what arrives (specification) -/
def written : List Op → Bytes
  | [] => []
  | .write b :: ops => b ++ written ops
  | .read _ :: ops => written ops

/-- what arrives (specification) -/
def arrived : List Op → Bytes
  | [] => []
  | .write _ :: ops => arrived ops
  | .read c :: ops => c ++ arrived ops

theorem part_magic_iff (c : Bytes) : part c 0 4 = magic ↔ magic <+: c := by
  unfold part
  rw [List.drop_zero, List.prefix_iff_eq_take]
  exact eq_comm

/-- nothing is prepared to be sent with this filter -/
def Calm (e : Env) (f : Filt) : Prop := (f.received = false ∨ f.sent = true) ∧ (f.dir = 0 ∨ f.dir = e.dir) ∧ (e.dir = 2 → f.alpn ≠ mx)

theorem calm_look {e : Env} (he : e.dir = 2 → e.alpn ≠ mx) {f : Filt} (h : Calm e f) : Calm e (f.look e) ∧ (f.look e).dir = e.dir := by
  obtain ⟨hrec, hd, ha⟩ := h
  have hu : "unspecified" ≠ mx := by decide
  have key : ∃ a, f.look e = { f with dir := e.dir, alpn := a } ∧ (e.dir = 2 → a ≠ mx) := by
    have ha' : e.dir = 2 → (if e.alpn = "" then "unspecified" else e.alpn) ≠ mx := by
      intro h2
      by_cases h1 : e.alpn = ""
      · rw [if_pos h1]; exact hu
      · rw [if_neg h1]; exact he h2
    unfold Filt.look
    by_cases h0 : f.dir = 0
    · by_cases h1 : f.alpn = ""
      · exact ⟨_, by simp only [h0, if_true, h1], ha'⟩
      · exact ⟨f.alpn, by simp only [h0, if_true, h1, if_false], ha⟩
    · have hd := hd.resolve_left h0
      have hf : f = { f with dir := e.dir } := by rw [← hd]
      by_cases h1 : f.alpn = ""
      · exact ⟨_, by simp only [h0, if_true, h1, if_false]; rw [← hd], ha'⟩
      · exact ⟨f.alpn, by simp only [h0, h1, if_false]; exact hf, ha⟩
  obtain ⟨a, h1, h2⟩ := key
  rw [h1]
  exact ⟨⟨hrec, .inr rfl, h2⟩, rfl⟩

theorem calm_down_out {e : Env} (he : e.dir = 2 → e.alpn ≠ mx) (h2 : e.dir = 2) {f : Filt} (h : Calm e f) (n : Nat) (b : Bytes) :
    ∃ f', onDown e n f b [] = some (f', b, []) ∧ Calm e f' := by
  obtain ⟨hl, hd⟩ := calm_look he h
  unfold onDown
  by_cases h3 : f.disabled = true
  · rw [if_pos h3]; exact ⟨f, rfl, h⟩
  rw [if_neg h3]
  by_cases h4 : f.exchanged = true
  · rw [if_pos h4]; exact ⟨f, rfl, h⟩
  rw [if_neg h4]
  generalize f.look e = g at hl hd
  dsimp only
  rw [if_pos (hd.trans h2), if_pos (.inl (hl.2.2 h2))]
  exact ⟨g, rfl, hl⟩

theorem calm_up_inc {e : Env} (he : e.dir = 2 → e.alpn ≠ mx) (h2 : ¬ e.dir = 2) {f : Filt} (h : Calm e f) (n : Nat) (b : Bytes) :
    ∃ f', onUp e n f [] b = some (f', [], b) ∧ Calm e f' := by
  obtain ⟨hl, hd⟩ := calm_look he h
  unfold onUp
  by_cases h3 : f.disabled = true
  · rw [if_pos h3]; exact ⟨f, rfl, h⟩
  rw [if_neg h3]
  by_cases h4 : f.exchanged = true
  · rw [if_pos h4]; exact ⟨f, rfl, h⟩
  rw [if_neg h4]
  generalize f.look e = g at hl hd
  dsimp only
  rw [if_neg (by rw [hd]; exact h2)]
  by_cases h1 : g.dir = 1
  · rw [if_pos h1, if_pos (by rcases hl.1 with h | h <;> simp [h])]
    exact ⟨g, rfl, hl⟩
  · rw [if_neg h1]
    exact ⟨g, rfl, hl⟩

theorem calm_up_out {e : Env} (he : e.dir = 2 → e.alpn ≠ mx) (h2 : e.dir = 2) {f : Filt} (h : Calm e f) (n : Nat) (c : Bytes) (hc : part c 0 4 ≠ magic) :
    ∃ f', onUp e n f [] c = some (f', [], c) ∧ Calm e f' := by
  obtain ⟨hl, hd⟩ := calm_look he h
  unfold onUp
  by_cases h3 : f.disabled = true
  · rw [if_pos h3]; exact ⟨f, rfl, h⟩
  rw [if_neg h3]
  by_cases h4 : f.exchanged = true
  · rw [if_pos h4]; exact ⟨f, rfl, h⟩
  rw [if_neg h4]
  generalize f.look e = g at hl hd
  dsimp only
  rw [if_pos (hd.trans h2)]
  by_cases h5 : (part c 0 4).length < 4
  · rw [if_pos h5]; exact ⟨g, rfl, hl⟩
  · rw [if_neg h5, if_neg hc]; exact ⟨_, rfl, hl⟩

theorem calm_down_inc {e : Env} (he : e.dir = 2 → e.alpn ≠ mx) (h2 : ¬ e.dir = 2) {f : Filt} (h : Calm e f) (n : Nat) (c : Bytes) (hc : part c 0 4 ≠ magic) :
    ∃ f', onDown e n f c [] = some (f', c, []) ∧ Calm e f' := by
  obtain ⟨hl, hd⟩ := calm_look he h
  unfold onDown
  by_cases h3 : f.disabled = true
  · rw [if_pos h3]; exact ⟨f, rfl, h⟩
  rw [if_neg h3]
  by_cases h4 : f.exchanged = true
  · rw [if_pos h4]; exact ⟨f, rfl, h⟩
  rw [if_neg h4]
  generalize f.look e = g at hl hd
  dsimp only
  rw [if_neg (by rw [hd]; exact h2)]
  by_cases h1 : g.dir = 1
  · rw [if_pos h1]
    by_cases h5 : (part c 0 4).length < 4
    · rw [if_pos h5]; exact ⟨g, rfl, hl⟩
    · rw [if_neg h5, if_neg hc]; exact ⟨_, rfl, hl⟩
  · rw [if_neg h1]; exact ⟨g, rfl, hl⟩

theorem quiet_write {e : Env} (he : e.dir = 2 → e.alpn ≠ mx) {f : Filt} (h : Calm e f) (b : Bytes) :
    ∃ f', Side.write ⟨f, [], []⟩ e b = some (⟨f', [], []⟩, b) ∧ Calm e f' := by
  unfold Side.write
  by_cases h2 : e.dir = 2
  · obtain ⟨f', h3, h4⟩ := calm_down_out he h2 h b.length b
    simp only [h2, if_true, List.nil_append, h3]
    exact ⟨f', rfl, h4⟩
  · obtain ⟨f', h3, h4⟩ := calm_up_inc he h2 h b.length b
    simp only [h2, if_false, List.nil_append, h3]
    exact ⟨f', rfl, h4⟩

theorem quiet_read {e : Env} (he : e.dir = 2 → e.alpn ≠ mx) {f : Filt} (h : Calm e f) (c : Bytes) (hc : ¬ magic <+: c) :
    ∃ f', Side.read ⟨f, [], []⟩ e c = some (⟨f', [], []⟩, c) ∧ Calm e f' := by
  have hm : part c 0 4 ≠ magic := fun hp => hc ((part_magic_iff c).1 hp)
  unfold Side.read
  by_cases h2 : e.dir = 2
  · obtain ⟨f', h3, h4⟩ := calm_up_out he h2 h c.length c hm
    simp only [h2, if_true, List.nil_append, h3]
    exact ⟨f', rfl, h4⟩
  · obtain ⟨f', h3, h4⟩ := calm_down_inc he h2 h c.length c hm
    simp only [h2, if_false, List.nil_append, h3]
    exact ⟨f', rfl, h4⟩

/-- **C268**: where an outgoing connection has not agreed on the exchange, and nothing arrives that begins with the magic number, everything passes unchanged: no metadata are sent -/
theorem C268_plain (e : Env) (md : Bytes) (he : e.dir = 2 → e.alpn ≠ mx) (ops : List Op) (hc : ∀ c, Op.read c ∈ ops → ¬ magic <+: c) :
    (Side.new md).run e ops = some (arrived ops, written ops) := by
  have key : ∀ (ops : List Op) (f : Filt), Calm e f → (∀ c, Op.read c ∈ ops → ¬ magic <+: c) → Side.run e ⟨f, [], []⟩ ops = some (arrived ops, written ops) := by
    intro ops
    induction ops with
    | nil => intro f _ _; rfl
    | cons op ops ih =>
      intro f hs hc
      cases op with
      | write b =>
        obtain ⟨f', h1, h2⟩ := quiet_write he hs b
        simp only [Side.run, h1, ih f' h2 (fun c h => hc c (by simp [h])), Option.map_some, arrived, written]
      | read c =>
        obtain ⟨f', h1, h2⟩ := quiet_read he hs c (hc c (by simp))
        simp only [Side.run, h1, ih f' h2 (fun c h => hc c (by simp [h])), Option.map_some, arrived, written]
  exact key ops _ ⟨.inl rfl, .inl rfl, fun _ => (by simp [Filt.new, mx])⟩ hc

end Verif.TcpMeta
