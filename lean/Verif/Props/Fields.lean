import Verif.Kafka.SchemaSize
/-
Property theorems C04–C07 and C11 (field part): the field processors.
`v` is the message version, `c` the context of the field, `c.supported v`, `c.flexible v` (compact encoding),
`c.nullable v` its version ranges.
-/
namespace Verif.Props
open Verif Verif.Kafka

/-! #### C04 -/

/-- number of bytes of a fixed-width primitive (`none`: not fixed-width) -/
def fixedWidth : Prim → Option Nat
  | .bool => some 1 | .int k => some k | .u16 => some 2 | .f64 => some 8 | .uuid => some 16
  | .str => none | .bytes => none | .records => none

/-- the unsigned number a fixed-width value stands for: two's complement for signed integers -/
def fixedNat : (p : Prim) → p.Val → Nat
  | .bool, b => if b then 1 else 0
  | .int k, i => (i % (256 ^ k : Nat)).toNat
  | .u16, n => n
  | .f64, n => n
  | .uuid, u => beNat u 0
  | .str, _ => 0 | .bytes, _ => 0 | .records, _ => 0

/-- reading the fixed-width formats: exact round trip and truncation in one lemma -/
theorem fixed_rt_cut (x : Ext) (c : Ctx) (v : Int) (p : Prim) (n : Nat) (hp : fixedWidth p = some n) (hn : 0 < n)
    (hs : c.supported v = true) (a : p.Val) (ha : PrimOk p a) (cur : p.Val) :
    ∃ e, primWrite x c v p a = .ok e ∧ e.length = n ∧ beNat e 0 = fixedNat p a ∧
      RT e (primRead x c v p cur) a ∧ Cut e (primRead x c v p cur) := by
  cases p with
  | bool =>
    simp only [fixedWidth, Option.some.injEq] at hp; subst hp
    refine ⟨putBool a, by simp [primWrite, writeFixed, hs], rfl, ?_, ?_, ?_⟩
    · cases a <;> rfl
    · simp only [primRead, readFixed_sup hs]; exact RT.bool a
    · simp only [primRead, readFixed_sup hs]; exact Cut.bool a
  | int k =>
    simp only [fixedWidth, Option.some.injEq] at hp; subst hp
    refine ⟨putInt k a, by simp [primWrite, writeFixed, hs], by simp, ?_, ?_, ?_⟩
    · unfold putInt
      rw [beNat_beBytes, Nat.zero_mul, Nat.zero_add, Nat.mod_eq_of_lt (wrapU_lt k a)]; rfl
    · simp only [primRead, readFixed_sup hs]; exact RT.int k hn a ha
    · simp only [primRead, readFixed_sup hs]; exact Cut.int k hn a
  | u16 =>
    simp only [fixedWidth, Option.some.injEq] at hp; subst hp
    refine ⟨beBytes 2 a, by simp [primWrite, writeFixed, hs], by simp, ?_, ?_, ?_⟩
    · rw [beNat_beBytes, Nat.zero_mul, Nat.zero_add]; exact Nat.mod_eq_of_lt ha
    · simp only [primRead, readFixed_sup hs]; exact RT.uint 2 (by decide) a ha
    · simp only [primRead, readFixed_sup hs]; exact Cut.uint 2 (by decide) a
  | f64 =>
    simp only [fixedWidth, Option.some.injEq] at hp; subst hp
    refine ⟨beBytes 8 a, by simp [primWrite, writeFixed, hs], by simp, ?_, ?_, ?_⟩
    · rw [beNat_beBytes, Nat.zero_mul, Nat.zero_add]; exact Nat.mod_eq_of_lt ha
    · simp only [primRead, readFixed_sup hs]; exact RT.uint 8 (by decide) a ha
    · simp only [primRead, readFixed_sup hs]; exact Cut.uint 8 (by decide) a
  | uuid =>
    simp only [fixedWidth, Option.some.injEq] at hp; subst hp
    refine ⟨a, by simp [primWrite, writeFixed, hs], ha, rfl, ?_, ?_⟩
    · simp only [primRead, readFixed_sup hs]; exact RT.uuid a ha
    · simp only [primRead, readFixed_sup hs]; exact Cut.uuid a ha
  | str => simp [fixedWidth] at hp
  | bytes => simp [fixedWidth] at hp
  | records => simp [fixedWidth] at hp

/-- C04: a fixed-width value of a supported field is written in exactly its width, big-endian, SizeInBytes agrees, and it
is read back unchanged, whatever the variable held and whatever follows. -/
theorem C04_fixed_roundtrip (x : Ext) (c : Ctx) (v : Int) (p : Prim) (n : Nat) (hp : fixedWidth p = some n)
    (hn : 0 < n) (hs : c.supported v = true) (a : p.Val) (ha : PrimOk p a) (cur : p.Val) (rest : Bytes) :
    ∃ e, primWrite x c v p a = .ok e ∧ e.length = n ∧ beNat e 0 = fixedNat p a ∧ primSize c v p a = .ok n ∧
      primRead x c v p cur (e ++ rest) = .ok (a, rest) := by
  obtain ⟨e, h1, h2, h3, h4, -⟩ := fixed_rt_cut x c v p n hp hn hs a ha cur
  refine ⟨e, h1, h2, h3, ?_, h4 rest⟩
  cases p <;> simp_all [fixedWidth, primSize, sizeFixed]

/-- C04: fewer bytes than the width are rejected. -/
theorem C04_fixed_truncated (x : Ext) (c : Ctx) (v : Int) (p : Prim) (n : Nat) (hp : fixedWidth p = some n)
    (hs : c.supported v = true) (cur : p.Val) (bs : Bytes) (hb : bs.length < n) :
    ∃ e, primRead x c v p cur bs = .error e := by
  have key : ∀ {α : Type} (k : Nat) (f : Bytes → Dec α), bs.length < k → ∃ e, (readExact k ⟫= f) bs = .error e := by
    intro α k f hk
    obtain ⟨e, he⟩ := readExact_short hk
    exact ⟨e, by unfold Dec.andThen; rw [he]⟩
  cases p with
  | bool =>
    simp only [fixedWidth, Option.some.injEq] at hp; subst hp
    simp only [primRead, readFixed_sup hs]; exact key 1 _ hb
  | int k =>
    simp only [fixedWidth, Option.some.injEq] at hp; subst hp
    simp only [primRead, readFixed_sup hs]; exact key k _ hb
  | u16 =>
    simp only [fixedWidth, Option.some.injEq] at hp; subst hp
    simp only [primRead, readFixed_sup hs]; exact key 2 _ hb
  | f64 =>
    simp only [fixedWidth, Option.some.injEq] at hp; subst hp
    simp only [primRead, readFixed_sup hs]; exact key 8 _ hb
  | uuid =>
    simp only [fixedWidth, Option.some.injEq] at hp; subst hp
    simp only [primRead, readFixed_sup hs]
    by_cases h8 : bs.length < 8
    · exact key 8 _ h8
    · unfold readUuid Dec.andThen
      cases h1 : readExact 8 bs with
      | error e => exact ⟨e, rfl⟩
      | ok r =>
        obtain ⟨a, r⟩ := r
        obtain ⟨hl, hbs⟩ := readExact_ok h1
        have : r.length < 8 := by
          have := congrArg List.length hbs
          simp only [List.length_append] at this
          omega
        obtain ⟨e, he⟩ := readExact_short this
        exact ⟨e, by simp only [he]⟩
  | str => simp [fixedWidth] at hp
  | bytes => simp [fixedWidth] at hp
  | records => simp [fixedWidth] at hp

/-- C04: at a version that does not support the field nothing is written, counted or consumed and the variable keeps
its value (all primitive types). -/
theorem C04_unsupported (x : Ext) (c : Ctx) (v : Int) (p : Prim) (hs : c.supported v = false) (a cur : p.Val)
    (bs : Bytes) :
    primWrite x c v p a = .ok [] ∧ primSize c v p a = .ok 0 ∧ primRead x c v p cur bs = .ok (cur, bs) := by
  cases p <;>
    simp [primWrite, primRead, primSize, writeFixed, readFixed, sizeFixed, writeStr, readStr, sizeStr, writeBytesF,
      readBytesF, sizeBytesF, writeRecordsF, readRecordsF, sizeRecordsF, hs, Dec.ret]

/-- a context supported and nullable from version 0, compact from version 2 -/
def exCtx : Ctx := { lo := 0, hi := 32767, flo := 2, fhi := 32767, nlo := 0, nhi := 32767 }

example (x : Ext) : ∃ e, primWrite x exCtx 1 (.int 4) (-2 : Int) = .ok e ∧ e.length = 4 ∧ beNat e 0 = 4294967294 ∧
    primSize exCtx 1 (.int 4) (-2 : Int) = .ok 4 ∧ primRead x exCtx 1 (.int 4) (5 : Int) (e ++ [7]) = .ok ((-2 : Int), [7]) := by
  have := C04_fixed_roundtrip x exCtx 1 (.int 4) 4 rfl (by decide) (by decide) (-2 : Int)
    (by unfold PrimOk InS; constructor <;> decide) (5 : Int) [7]
  exact this

/-! #### C05 -/

/-- C05: an accepted string is read back unchanged in both encodings, unless it is the four characters "null"
(`s.isNil → s.value = []` holds for every value built with the API). -/
theorem C05_string_roundtrip (c : Ctx) (v : Int) (s : NStr) (e : Bytes) (cur : NStr)
    (hs : c.supported v = true) (hnil : s.isNil = true → s.value = []) (hnull : s.isNil = false → s.value ≠ nullBytes)
    (hw : writeStr c v s = .ok e) (rest : Bytes) : readStr c v cur (e ++ rest) = .ok (s, rest) := by
  have := RT.str cur hs hw rest
  rw [this]
  congr 2
  unfold NStr.norm
  obtain ⟨val, nil⟩ := s
  cases nil with
  | true =>
    have h0 : val = [] := hnil rfl
    subst h0
    rfl
  | false =>
    have := hnull rfl
    simp only [Bool.false_eq_true, ↓reduceIte, NStr.mk.injEq, true_and]
    simpa using this

/-- C05: what the writer accepts: non-null strings up to 32767 bytes, null where the field is nullable; SizeInBytes is
then the number of bytes written. -/
theorem C05_string_accepted (c : Ctx) (v : Int) (s : NStr) (hs : c.supported v = true) :
    (∃ e, writeStr c v s = .ok e) ↔
      (if s.isNil then c.nullable v = true else s.value.length ≤ 32767) := by
  unfold writeStr
  simp only [hs, Bool.not_true, Bool.false_eq_true, ↓reduceIte, writeUvarint32_ok, writeLen_ok, wseq_ok]
  cases s.isNil with
  | true =>
    simp only [↓reduceIte]
    cases c.nullable v with
    | true => simp only [Bool.not_true, Bool.false_eq_true, ↓reduceIte, iff_true]; split <;> exact ⟨_, rfl⟩
    | false => simp
  | false =>
    simp only [Bool.false_eq_true, ↓reduceIte]
    split
    · simp; omega
    · simp; omega

theorem C05_string_size (c : Ctx) (v : Int) (s : NStr) (e : Bytes) (hw : writeStr c v s = .ok e) :
    sizeStr c v s = .ok e.length := sizeStr_eq hw

/-- C187 is false for the text "null": setting the string value "null" yields a null string, and a non-null string with
these bytes on the wire is read as null. -/
theorem C187_null_text_false :
    (∃ s : Bytes, s ≠ [] ∧ (NStr.ofValue s).isNil = true) ∧
    (∃ (c : Ctx) (v : Int) (s : NStr) (e : Bytes) (s' : NStr), c.supported v = true ∧ s.isNil = false ∧
      writeStr c v s = .ok e ∧ readStr c v ⟨[], false⟩ e = .ok (s', []) ∧ s'.isNil = true) := by
  refine ⟨⟨nullBytes, by decide, by decide⟩, exCtx, 0, ⟨nullBytes, false⟩, putInt 2 4 ++ nullBytes, ⟨nullBytes, true⟩,
    by decide, rfl, by decide, by decide +kernel, rfl⟩

example : writeStr exCtx 0 ⟨[104, 105], false⟩ = .ok [0, 2, 104, 105] ∧
    readStr exCtx 0 ⟨[1], true⟩ ([0, 2, 104, 105] ++ [9]) = .ok (⟨[104, 105], false⟩, [9]) :=
  ⟨by decide, C05_string_roundtrip exCtx 0 _ _ _ (by decide) (by decide) (by decide) (by decide) _⟩

/-! #### C06 -/

/-- C06: an accepted byte slice is read (into a fresh variable) as the same slice, nil and empty distinguished. -/
theorem C06_bytes_roundtrip (c : Ctx) (v : Int) (d : Option Bytes) (e : Bytes) (hs : c.supported v = true)
    (hw : writeBytesF c v d = .ok e) (rest : Bytes) : readBytesF c v none (e ++ rest) = .ok (d, rest) :=
  RT.bytesF hs hw rest

/-- C164: an accepted array of primitive values whose length fits the length field is read back as the same array, nil
and empty distinguished (element values as in C04, C05, C164, C16: `primNorm` only changes the text "null" and the
length/CRC fields of record batches). -/
theorem C164_array_roundtrip_partial (x : Ext) (c : Ctx) (v : Int) (p : Prim) (hp : p.wf = true)
    (d : Option (List p.Val)) (e : Bytes) (hs : c.supported v = true)
    (hl : ∀ l, d = some l → (if c.flexible v then l.length < 2^32 - 1 else l.length < 2^31))
    (hv : ∀ l, d = some l → ∀ a ∈ l, PrimOk p a ∧ primNorm x p a = a)
    (hw : writeArr c v (primWrite x c v p) d = .ok e) (rest : Bytes) :
    readArr c v (primRead x c v p p.zero) (e ++ rest) = .ok (d, rest) := by
  have hz : primDflt p .none = p.zero := by cases p <;> rfl
  have hel := primOps_rt x c v p .none false hp
  have := RT.arr (primWrite x c v p) (primRead x c v p p.zero) (primNorm x p) d hs
    (fun l h => by have := hl l h; unfold ArrLenOk; split <;> simp_all <;> omega)
    (fun l h b hb e hw => by
      have := hel.rt hs b e ((hv l h b hb).1) hw
      simp only [primOps, hz] at this
      exact this) e hw rest
  rw [this]
  congr 2
  cases d with
  | none => rfl
  | some l =>
    simp only [Option.map_some, Option.some.injEq]
    conv => rhs; rw [← List.map_id l]
    exact List.map_congr_left fun a ha => (hv l rfl a ha).2

/-- C164: the same for arrays of structures (`s` any well-formed structure; `StructOk`/`structNorm`: see C09). -/
theorem C164_array_of_struct_roundtrip_partial (x : Ext) (c : Ctx) (v : Int) (flo fhi : Int) (s : Sch)
    (hwf : s.wf v (inRange flo fhi v) = true) (d : Option (List (StructVal s.Val))) (e : Bytes)
    (hs : c.supported v = true)
    (hl : ∀ l, d = some l → (if c.flexible v then l.length < 2^32 - 1 else l.length < 2^31))
    (hv : ∀ l, d = some l → ∀ a ∈ l, StructOk rtCover s.tags (s.Ok rtCover x v) a)
    (hw : writeArr c v (structWrite flo fhi v (s.ops x v)) d = .ok e) (rest : Bytes) :
    readArr c v (structRead flo fhi v (s.ops x v)) (e ++ rest) =
      .ok (d.map (·.map (structNorm (s.norm x v))), rest) :=
  RT.arr (structWrite flo fhi v (s.ops x v)) (structRead flo fhi v (s.ops x v)) (structNorm (s.norm x v)) d hs
    (fun l h => by have := hl l h; unfold ArrLenOk; split <;> simp_all <;> omega)
    (fun l h b hb e hw => (structRT (s.rt x v _ hwf) flo fhi v b (hv l h b hb) e hw).1) e hw rest

theorem writeItems_replicate (n : Nat) : ∃ e, writeItems (fun b => Except.ok (putBool b)) (List.replicate n true) = .ok e := by
  induction n with
  | zero => exact ⟨[], rfl⟩
  | succ n ih =>
    obtain ⟨e, he⟩ := ih
    exact ⟨putBool true ++ e, by simp [List.replicate_succ, writeItems, he]⟩

/-- C164 is false for arrays too long for the length field: there is no length check in the array writer, the length
wraps around and the array is read back as empty. -/
theorem C164_array_too_long_false (x : Ext) :
    ∃ (c : Ctx) (v : Int) (l : List Bool) (e : Bytes), c.supported v = true ∧ l ≠ [] ∧
      writeArr c v (primWrite x c v .bool) (some l) = .ok e ∧
      ∃ rest, readArr c v (primRead x c v .bool false) e = .ok (some [], rest) := by
  obtain ⟨e, he⟩ := writeItems_replicate (2^32)
  have hl : (List.replicate (2^32) true).length = 2^32 := List.length_replicate
  have hw : primWrite x exCtx 0 .bool = fun b => Except.ok (putBool b) := by
    funext b; exact writeFixed_sup (by decide)
  refine ⟨exCtx, 0, List.replicate (2^32) true, putInt 4 (2^32 : Nat) ++ e, by decide, ?_, ?_, e, ?_⟩
  · intro h; rw [h] at hl; simp at hl
  · unfold writeArr
    rw [hw]
    have hf : exCtx.flexible 0 = false := by decide
    have hsup : exCtx.supported 0 = true := by decide
    simp only [hsup, Bool.not_true, Bool.false_eq_true, ↓reduceIte, hl, hf, writeLen_ok, he, wseq_ok]
    rw [if_neg (by decide)]
  · have hp : putInt 4 ((2^32 : Nat) : Int) = putInt 4 0 := by decide
    rw [hp]
    unfold readArr
    have hsup : exCtx.supported 0 = true := by decide
    have hf : exCtx.flexible 0 = false := by decide
    simp only [hsup, Bool.not_true, Bool.false_eq_true, ↓reduceIte, hf]
    unfold Dec.andThen
    rw [show readLen false 4 (putInt 4 0 ++ e) = .ok ((0 : Int), e) from
      RT.int 4 (by decide) 0 (by unfold InS; constructor <;> decide) e]
    rfl

example (x : Ext) : ∃ e, writeArr exCtx 0 (primWrite x exCtx 0 (.int 2)) (some [(5 : Int), -1]) = .ok e ∧
    readArr exCtx 0 (primRead x exCtx 0 (.int 2) (0 : Int)) (e ++ [1]) = .ok (some [(5 : Int), -1], [1]) := by
  refine ⟨putInt 4 2 ++ (putInt 2 5 ++ putInt 2 (-1)), by rfl, ?_⟩
  refine C164_array_roundtrip_partial x exCtx 0 (.int 2) (by decide) _ _ (by decide) ?_ ?_ (by rfl) [1]
  · intro l h; injection h with h; subst h; decide
  · intro l h; injection h with h; subst h
    intro a ha
    simp only [List.mem_cons, List.not_mem_nil, or_false] at ha
    rcases ha with rfl | rfl <;> exact ⟨by unfold PrimOk InS; constructor <;> decide, rfl⟩

/-! #### C07 -/

/-- C07: writing succeeds exactly when no tag occurs twice (and sizes fit the uint32 fields of the format, which holds
for everything that fits in memory of 4 GiB). -/
theorem C07_tags_accepted (l : List RawTag) (hn : l.length < 2^32) (hf : ∀ a ∈ l, a.tag < 2^32 ∧ a.value.length < 2^32) :
    (∃ e, writeRawTags l = .ok e) ↔ (l.map (·.tag)).Nodup := by
  constructor
  · rintro ⟨e, he⟩; exact ((writeRawTags_ok (fun a ha => (hf a ha).1)).mp he).2.1
  · intro h; exact ⟨_, (writeRawTags_ok (fun a ha => (hf a ha).1)).mpr ⟨hn, h, hf, rfl⟩⟩

/-- C07: the fields are written in strictly ascending tag order: the bytes are a count followed by the fields (tag,
length, value) of the strictly sorted list with the same elements. -/
theorem C07_tags_ascending (l : List RawTag) (ht : ∀ a ∈ l, a.tag < 2^32) (e : Bytes) (hw : writeRawTags l = .ok e) :
    ∃ m : List RawTag, m.Perm l ∧ m.Pairwise (·.tag < ·.tag) ∧
      e = putUvarint l.length ++ (m.map fun a => putUvarint a.tag ++ (putUvarint a.value.length ++ a.value)).flatten := by
  obtain ⟨h1, h2, h3, h4⟩ := (writeRawTags_ok ht).mp hw
  exact ⟨sortTags l, sortTags_perm l, sort_strict h2, h4⟩

/-- C165: reading the section yields exactly those fields (in tag order) and leaves what follows. Proved when the section
is followed by something or no value is empty; see `C165_empty_last_false`. -/
theorem C165_tags_roundtrip_partial (l : List RawTag) (ht : ∀ a ∈ l, a.tag < 2^32) (e : Bytes)
    (hw : writeRawTags l = .ok e) (rest : Bytes) (hr : rest ≠ [] ∨ ∀ a ∈ l, a.value ≠ []) :
    ∃ m : List RawTag, readRawTags (e ++ rest) = .ok (m, rest) ∧ m.Perm l ∧ m.Pairwise (·.tag < ·.tag) := by
  obtain ⟨h1, h2, h3, h4⟩ := (writeRawTags_ok ht).mp hw
  have hp := sortTags_perm l
  refine ⟨sortTags l, ?_, hp, sort_strict h2⟩
  have := readRawTags_enc (sortTags l) (by rw [hp.length_eq]; exact h1) (fun a ha => h3 a (hp.mem_iff.mp ha)) rest
    (hr.imp id fun h a ha => h a (hp.mem_iff.mp ha))
  rw [hp.length_eq] at this
  rw [h4]; exact this

/-- C165 is false for a field with an empty value at the very end of the input: it is written but reading fails. -/
theorem C165_empty_last_false :
    ∃ l e, writeRawTags l = .ok e ∧ (l.map (·.tag)).Nodup ∧ ∃ err, readRawTags e = .error err := by
  refine ⟨[⟨5, []⟩], [1, 5, 0], ?_, by decide, .eof, ?_⟩ <;> decide +kernel

example : ∃ m : List RawTag, readRawTags (([2, 1, 1, 9, 7, 2, 8, 8] : Bytes) ++ []) = .ok (m, []) ∧
    m.Perm [⟨7, [8, 8]⟩, ⟨1, [9]⟩] ∧ m.Pairwise (·.tag < ·.tag) :=
  C165_tags_roundtrip_partial [⟨7, [8, 8]⟩, ⟨1, [9]⟩] (by decide) _ (by decide +kernel) [] (.inr (by decide))

/-! #### C11, field part -/

/-- C11: null strings, bytes, record sets are rejected by Write and SizeInBytes at supported versions at which the field
is not nullable. -/
theorem C11_null_not_written (x : Ext) (c : Ctx) (v : Int) (p : Prim) (a : p.Val) (hs : c.supported v = true)
    (hn : c.nullable v = false) (ha : p.null a = true) :
    (∃ e, primWrite x c v p a = .error e) ∧ (∃ e, primSize c v p a = .error e) := by
  cases p with
  | str =>
    have ha : a.isNil = true := ha
    constructor <;> exact ⟨.other, by simp [primWrite, primSize, writeStr, sizeStr, hs, hn, ha]⟩
  | bytes =>
    have ha : a = none := by simpa [Prim.null] using ha
    subst ha
    constructor <;> exact ⟨.other, by simp [primWrite, primSize, writeBytesF, sizeBytesF, hs, hn]⟩
  | records =>
    have ha : a.isNil = true := ha
    constructor <;> exact ⟨.other, by simp [primWrite, primSize, writeRecordsF, sizeRecordsF, hs, hn, ha]⟩
  | _ => simp [Prim.null] at ha

/-- C11: the same for arrays of any element type. -/
theorem C11_null_array_not_written {α : Type} (c : Ctx) (v : Int) (w : α → Res Bytes) (sz : α → Res Nat)
    (hs : c.supported v = true) (hn : c.nullable v = false) :
    (∃ e, writeArr c v w none = .error e) ∧ (∃ e, sizeArr c v sz none = .error e) := by
  constructor <;> exact ⟨.other, by simp [writeArr, sizeArr, hs, hn]⟩

/-- C11: a reader never returns null for a supported field at a version at which it is not nullable, whatever the input
and the previous content of the variable (the text "null" is the exception C05 reports). -/
theorem C11_null_not_read (x : Ext) (c : Ctx) (v : Int) (p : Prim) (cur a : p.Val) (bs rest : Bytes)
    (hs : c.supported v = true) (hn : c.nullable v = false)
    (h : primRead x c v p cur bs = .ok (a, rest)) (ha : p.null a = true) :
    ∃ s : NStr, p = .str ∧ HEq a s ∧ s.value = nullBytes := by
  cases p with
  | str =>
    refine ⟨a, rfl, HEq.rfl, ?_⟩
    simp only [primRead, readStr, hs, Bool.not_true, Bool.false_eq_true, ↓reduceIte] at h
    obtain ⟨n, r, -, h⟩ := andThen_ok h
    have ha : a.isNil = true := ha
    unfold readStrValue at h
    simp only [hn, Bool.false_eq_true, ↓reduceIte] at h
    split at h
    · simp [Dec.fail] at h
    · split at h
      · simp [Dec.fail] at h
      · split at h
        · simp only [Dec.ret, Except.ok.injEq, Prod.mk.injEq] at h; rw [← h.1] at ha; simp at ha
        · obtain ⟨b, r', -, h⟩ := andThen_ok h
          simp only [Dec.ret, Except.ok.injEq, Prod.mk.injEq] at h
          rw [← h.1] at ha ⊢; simpa using ha
  | bytes =>
    exfalso
    simp only [primRead, readBytesF, hs, Bool.not_true, Bool.false_eq_true, ↓reduceIte] at h
    obtain ⟨n, r, -, h⟩ := andThen_ok h
    have ha : a = none := by simpa [Prim.null] using ha
    unfold readBytesValue at h
    simp only [hn, Bool.false_eq_true, ↓reduceIte] at h
    split at h
    · simp [Dec.fail] at h
    · split at h
      · simp [Dec.fail] at h
      · split at h
        · simp only [Dec.ret, Except.ok.injEq, Prod.mk.injEq] at h; rw [← h.1] at ha; simp at ha
        · obtain ⟨b, r', -, h⟩ := andThen_ok h
          simp only [Dec.ret, Except.ok.injEq, Prod.mk.injEq] at h
          rw [← h.1] at ha; simp at ha
  | records =>
    exfalso
    simp only [primRead, readRecordsF, hs, Bool.not_true, Bool.false_eq_true, ↓reduceIte] at h
    obtain ⟨n, r, -, h⟩ := andThen_ok h
    have ha : a.isNil = true := ha
    unfold readRecordsValue at h
    simp only [hn, Bool.false_eq_true, ↓reduceIte] at h
    split at h
    · simp [Dec.fail] at h
    · split at h
      · simp only [Dec.ret, Except.ok.injEq, Prod.mk.injEq] at h; rw [← h.1] at ha; simp at ha
      · dsimp only at h
        split at h
        · simp at h
        · obtain ⟨b, r', -, h⟩ := andThen_ok h
          simp only [Dec.ret, Except.ok.injEq, Prod.mk.injEq] at h
          rw [← h.1] at ha; simp at ha
  | _ => simp [Prim.null] at ha

/-- C11: the same for arrays. -/
theorem C11_null_array_not_read {α : Type} (c : Ctx) (v : Int) (d : Dec α) (bs rest : Bytes) (a : Option (List α))
    (hs : c.supported v = true) (hn : c.nullable v = false) (h : readArr c v d bs = .ok (a, rest)) : a ≠ none := by
  simp only [readArr, hs, Bool.not_true, Bool.false_eq_true, ↓reduceIte] at h
  obtain ⟨n, r, -, h⟩ := andThen_ok h
  unfold readArrValue at h
  simp only [hn, Bool.false_eq_true, ↓reduceIte] at h
  split at h
  · simp [Dec.fail] at h
  · obtain ⟨b, r', -, h⟩ := andThen_ok h
    simp only [Dec.ret, Except.ok.injEq, Prod.mk.injEq] at h
    rw [← h.1]; simp

/-- a context that is not nullable from version 1 on -/
def exCtxNN : Ctx := { lo := 0, hi := 32767, flo := 2, fhi := 32767 }
example (x : Ext) : (∃ e, primWrite x exCtxNN 1 .str ⟨[], true⟩ = .error e) ∧ (∃ e, primSize exCtxNN 1 .str ⟨[], true⟩ = .error e) :=
  C11_null_not_written x exCtxNN 1 .str ⟨[], true⟩ (by decide) (by decide) rfl
example : readArr exCtxNN 1 readBool [0, 0, 0, 1, 1] = .ok (some [true], []) ∧ (some [true] ≠ (none : Option (List Bool))) :=
  ⟨by decide, C11_null_array_not_read exCtxNN 1 readBool [0, 0, 0, 1, 1] [] _ (by decide) (by decide) (by decide)⟩

end Verif.Props
