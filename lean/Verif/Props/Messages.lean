import Verif.Kafka.SchemaReject
import Verif.Kafka.Gen.Messages
import Verif.Props.Fields
/-
Property theorems C08–C12: generated messages.

`m : Msg` ranges over every structure the generator can emit, `x : Ext` over every CRC and compression implementation,
`v` over all versions. Vocabulary (Verif/Kafka/SchemaSpec.lean):
* `m.wf v`: tags distinct, tagged versions inside the supported and flexible versions (checked for all shipped messages, C10);
* `m.Ok rtCover x v s`: integers in their Go range, UUIDs of 16 bytes, valid record batches, arrays shorter than 2^31, no
  null structures, unknown tagged fields non-empty with unknown tags;
* `m.norm x v s`: `s` with the fields the version does not carry set to their defaults (and the exceptions C05, C16);
* `Faithful`: values for which `norm` changes nothing.
-/
namespace Verif.Props
open Verif Verif.Kafka Verif.Kafka.Gen

/-! #### C09 -/

/-- C09: reading what Write produced, followed by anything, yields the value as the version carries it and leaves the
following bytes unread. -/
theorem C09_message_roundtrip (m : Msg) (x : Ext) (v : Int) (hwf : m.wf v = true) (s : m.Val)
    (hOk : m.Ok rtCover x v s) (e : Bytes) (hw : m.write x v s = .ok e) (rest : Bytes) :
    m.read x v (e ++ rest) = .ok (m.norm x v s, rest) :=
  m.rt x v hwf s hOk e hw rest

/-- C09: values that only use what the version carries are read back identical. -/
theorem C09_message_roundtrip_exact (m : Msg) (x : Ext) (v : Int) (hwf : m.wf v = true) (s : m.Val)
    (hOk : m.Ok rtCover x v s) (hF : StructFaithful (m.fields.Faithful x v) s) (e : Bytes)
    (hw : m.write x v s = .ok e) (rest : Bytes) : m.read x v (e ++ rest) = .ok (s, rest) := by
  rw [m.rt x v hwf s hOk e hw rest]
  congr 2
  exact structNorm_of (m.fields.norm_of_faithful x v) s hF

/-- a structure with one boolean field -/
def boolMsg : Msg := ⟨32767, 32767, .prim { lo := 0, hi := 32767 } false .bool .none .nil⟩

/-- C189 is false for null structures: they are written as nothing and cannot be read back. -/
theorem C189_null_struct_false (x : Ext) :
    boolMsg.wf 0 = true ∧ ∃ s : boolMsg.Val, s.isNil = true ∧ boolMsg.write x 0 s = .ok [] ∧
      ∃ err, boolMsg.read x 0 [] = .error err :=
  ⟨by decide, ⟨true, ((true : Bool), ()), []⟩, rfl, rfl, .eof, rfl⟩

/-! #### C10: the shipped messages -/

/-- every shipped request and response struct with its advertised versions -/
def shipped : List Entry := requests ++ responses

/-- versions advertised by an entry -/
def Entry.versions (e : Entry) : List Int := (List.range (e.hi - e.lo + 1).toNat).map fun (i : Nat) => e.lo + (i : Int)

theorem mem_versions (e : Entry) (v : Int) : v ∈ Entry.versions e ↔ e.lo ≤ v ∧ v ≤ e.hi := by
  simp only [Entry.versions, List.mem_map, List.mem_range]
  constructor
  · rintro ⟨i, hi, rfl⟩; omega
  · rintro ⟨h1, h2⟩; exact ⟨(v - e.lo).toNat, by omega, by omega⟩

theorem table_ok : shipped.all (fun e => (Entry.versions e).all fun v =>
    e.msg.wf v && e.msg.fields.structsSupported v && e.msg.fields.dfltOk) = true := by
  decide +kernel

/-- C10: every shipped message satisfies the assumptions of C08, C09 and C12 at every version it advertises. -/
theorem C10_shipped_wf (e : Entry) (he : e ∈ shipped) (v : Int) (h1 : e.lo ≤ v) (h2 : v ≤ e.hi) :
    e.msg.wf v = true ∧ e.msg.fields.structsSupported v = true ∧ e.msg.fields.dfltOk = true := by
  have h := List.all_eq_true.mp table_ok e he
  have h := List.all_eq_true.mp h v ((mem_versions e v).mpr ⟨h1, h2⟩)
  simp only [Bool.and_eq_true] at h
  exact ⟨h.1.1, h.1.2, h.2⟩

/-- C10: both header structs too (request headers 0–2, response headers 0–1). -/
theorem C10_headers_wf :
    (∀ v : Int, 0 ≤ v → v ≤ 2 → m_request_Header.wf v = true) ∧
    (∀ v : Int, 0 ≤ v → v ≤ 1 → m_response_Header.wf v = true) := by
  constructor
  · intro v h1 h2
    have : v = 0 ∨ v = 1 ∨ v = 2 := by omega
    rcases this with rfl | rfl | rfl <;> decide
  · intro v h1 h2
    have : v = 0 ∨ v = 1 := by omega
    rcases this with rfl | rfl <;> decide

/-- C10: hence every shipped message round-trips at every version it advertises. -/
theorem C10_shipped_roundtrip (t : Entry) (ht : t ∈ shipped) (x : Ext) (v : Int) (h1 : t.lo ≤ v) (h2 : v ≤ t.hi)
    (s : t.msg.Val) (hOk : t.msg.Ok rtCover x v s) (e : Bytes) (hw : t.msg.write x v s = .ok e) (rest : Bytes) :
    t.msg.read x v (e ++ rest) = .ok (t.msg.norm x v s, rest) :=
  t.msg.rt x v (C10_shipped_wf t ht v h1 h2).1 s hOk e hw rest

/-- C10: 68 api keys have exactly one request and one response each. -/
theorem C10_shipped_keys :
    (requests.map (·.apiKey)).Nodup ∧ (responses.map (·.apiKey)).Nodup ∧
    (requests.map fun e => (e.apiKey, e.lo, e.hi)) = (responses.map fun e => (e.apiKey, e.lo, e.hi)) ∧
    requests.length = 68 := by
  refine ⟨?_, ?_, ?_, ?_⟩ <;> decide +kernel

/-! #### C08 -/

/-- C08: whenever Write succeeds, SizeInBytes is exactly the number of bytes written. Requires that nested structures
are supported at the version (all shipped messages, C10) and: byte slices are not exactly 2^31-1 long, record batches
have the exact sizes of C13, UUIDs have 16 bytes (`sizeCover`). -/
theorem C08_size_exact (m : Msg) (x : Ext) (v : Int) (hwf : m.wf v = true)
    (hs : m.fields.structsSupported v = true) (s : m.Val) (hOk : m.Ok (sizeCover x) x v s) (e : Bytes)
    (hw : m.write x v s = .ok e) : m.size x v s = .ok e.length :=
  m.sz x v hwf hs s hOk e hw

/-- C08 for the shipped messages. -/
theorem C08_shipped_size_exact (t : Entry) (ht : t ∈ shipped) (x : Ext) (v : Int) (h1 : t.lo ≤ v) (h2 : v ≤ t.hi)
    (s : t.msg.Val) (hOk : t.msg.Ok (sizeCover x) x v s) (e : Bytes) (hw : t.msg.write x v s = .ok e) :
    t.msg.size x v s = .ok e.length :=
  t.msg.sz x v (C10_shipped_wf t ht v h1 h2).1 (C10_shipped_wf t ht v h1 h2).2.1 s hOk e hw

/-- a structure with a nested structure introduced in version 1 -/
def nestedMsg : Msg :=
  ⟨32767, 32767, .struct { lo := 1, hi := 32767 } true 32767 32767 (.prim { lo := 0, hi := 32767 } false (.int 4) .none .nil) .nil⟩

/-- C188 is false in general: a nested structure that the version does not support is not written but is counted. -/
theorem C188_nested_struct_false (x : Ext) :
    nestedMsg.wf 0 = true ∧ ∃ s : nestedMsg.Val, nestedMsg.write x 0 s = .ok [] ∧ nestedMsg.size x 0 s = .ok 4 :=
  ⟨by decide, ⟨false, (⟨false, ((0 : Int), ()), []⟩, ()), []⟩, rfl, rfl⟩

/-- C188 is false for byte slices of 2^31-1 bytes in the compact encoding: Write accepts them, SizeInBytes does not. -/
theorem C188_bytes_limit_false :
    ∃ (c : Ctx) (v : Int) (b : Bytes), (∃ e, writeBytesF c v (some b) = .ok e) ∧ ∃ err, sizeBytesF c v (some b) = .error err := by
  have hl : (List.replicate 2147483647 (0 : UInt8)).length = 2147483647 := List.length_replicate
  have hne : List.replicate 2147483647 (0 : UInt8) ≠ [] := by intro h; rw [h] at hl; simp at hl
  have h1 : exCtx.supported 2 = true := by decide
  have h2 : exCtx.flexible 2 = true := by decide
  refine ⟨exCtx, 2, List.replicate 2147483647 (0 : UInt8), ?_, .other, ?_⟩
  · simp only [writeBytesF, h1, Bool.not_true, Bool.false_eq_true, ↓reduceIte, hne, hl, writeLen_ok, wseq_ok]
    exact ⟨_, if_neg (by decide)⟩
  · simp only [sizeBytesF, h1, Bool.not_true, Bool.false_eq_true, ↓reduceIte, hne, h2, hl]
    exact if_pos (by decide)

/-! #### C11, message part -/

/-- C11: a message in which some carried field (at any depth) is null at a version at which that field's declared
nullable range does not include it is rejected by Write and by SizeInBytes. -/
theorem C11_null_message_rejected (m : Msg) (x : Ext) (v : Int) (hwf : m.wf v = true) (s : m.Val)
    (hn : s.isNil = false) (h : m.fields.Has .null x v s.fields) :
    (∃ e, m.write x v s = .error e) ∧ (∃ e, m.size x v s = .error e) :=
  (m.fields.fails .null x v _ hwf s.fields h).struct hn

/-- C77 is false against the protocol specification: fields without nullable versions in the specification (here the
transactional id of AddOffsetsToTxn, assets/protocol_spec/AddOffsetsToTxnRequest.json) are declared nullable at version 0,
and a null is written and read back there. -/
theorem C77_nullable_at_version_zero_false (x : Ext) :
    ∃ s : (⟨3, 32767, s_addoffsetstotxn_Request⟩ : Msg).Val, s.fields.1.isNil = true ∧
      ∃ e, (⟨3, 32767, s_addoffsetstotxn_Request⟩ : Msg).write x 0 s = .ok e ∧
        (⟨3, 32767, s_addoffsetstotxn_Request⟩ : Msg).read x 0 e = .ok (s, []) := by
  refine ⟨⟨false, (⟨[], true⟩, (1 : Int), (2 : Int), ⟨[103], false⟩, ()), []⟩, rfl, ?_⟩
  have hw : (⟨3, 32767, s_addoffsetstotxn_Request⟩ : Msg).write x 0
      ⟨false, (⟨[], true⟩, (1 : Int), (2 : Int), ⟨[103], false⟩, ()), []⟩ =
      .ok [255, 255, 0, 0, 0, 0, 0, 0, 0, 1, 0, 2, 0, 1, 103] := by with_unfolding_all rfl
  refine ⟨_, hw, ?_⟩
  refine C09_message_roundtrip_exact _ x 0 (by decide) _ ?_ ?_ _ hw []
  · refine ⟨rfl, ⟨fun _ => trivial, fun _ => ?_, fun _ => ?_, fun _ => trivial, trivial⟩, by simp⟩
    · show InS 8 1
      unfold InS; constructor <;> decide
    · show InS 2 2
      unfold InS; constructor <;> decide
  · exact ⟨rfl, ⟨rfl, rfl, rfl, rfl, trivial⟩, by simp⟩

/-! #### C12 -/

/-- C12: a message holding a non-default value in a non-ignorable field introduced after version 0 that the version does
not support (in any structure that would be written) is rejected by Write and SizeInBytes. -/
theorem C12_lost_field_rejected (m : Msg) (x : Ext) (v : Int) (hwf : m.wf v = true) (s : m.Val)
    (hn : s.isNil = false) (h : m.fields.Has .lost x v s.fields) :
    (∃ e, m.write x v s = .error e) ∧ (∃ e, m.size x v s = .error e) :=
  (m.fields.fails .lost x v _ hwf s.fields h).struct hn

/-- C12: fields the version does not carry contribute no bytes: replacing them by their defaults gives the same bytes. -/
theorem C12_uncarried_no_bytes (m : Msg) (x : Ext) (v : Int) (hd : m.fields.dfltOk = true) (s : m.Val) (e : Bytes)
    (hw : m.write x v s = .ok e) : m.write x v { s with fields := m.fields.blank x v s.fields } = .ok e :=
  m.write_blank x v hd s e hw

/-- FindCoordinatorRequest with the given key, key type and coordinator keys -/
def findCoordinator (key : Bytes) (keys : List NStr) : (⟨3, 32767, s_findcoordinator_Request⟩ : Msg).Val :=
  ⟨false, (⟨key, false⟩, (0 : Int), some keys, ()), []⟩

/-- C179 is false for fields removed in a later version: FindCoordinatorRequest.Key (versions 0-3, not ignorable, see
assets/protocol_spec/FindCoordinatorRequest.json) is silently dropped at version 4. -/
theorem C179_removed_field_lost_false (x : Ext) :
    (⟨10, true, 0, 4, ⟨3, 32767, s_findcoordinator_Request⟩⟩ : Entry) ∈ requests ∧
    ∃ e, (⟨3, 32767, s_findcoordinator_Request⟩ : Msg).write x 4 (findCoordinator [103] []) = .ok e ∧
      (⟨3, 32767, s_findcoordinator_Request⟩ : Msg).write x 4 (findCoordinator [] []) = .ok e := by
  refine ⟨by simp [requests], [0, 1, 0], ?_, ?_⟩ <;> with_unfolding_all rfl

/-! non-vacuity -/

/-- a FindCoordinator v4 message with two keys and an unknown tagged field -/
def exFind : (⟨3, 32767, s_findcoordinator_Request⟩ : Msg).Val :=
  ⟨false, (⟨[], false⟩, (1 : Int), some [⟨[103, 49], false⟩, ⟨[103, 50], false⟩], ()), [⟨9, [1, 2]⟩]⟩

theorem exFind_ok (x : Ext) : (⟨3, 32767, s_findcoordinator_Request⟩ : Msg).Ok rtCover x 4 exFind := by
  refine ⟨rfl, ⟨fun _ => trivial, fun _ => ?_, fun _ => ?_, trivial⟩, ?_⟩
  · show InS 1 1
    unfold InS; constructor <;> decide
  · intro l h
    injection h with h
    subst h
    exact ⟨by unfold ArrLenOk; decide, fun b _ => trivial⟩
  · intro a ha
    simp only [exFind, List.mem_cons, List.not_mem_nil, or_false] at ha
    subst ha
    exact ⟨by decide, by decide, by decide⟩

example (x : Ext) : ∃ e, (⟨3, 32767, s_findcoordinator_Request⟩ : Msg).write x 4 exFind = .ok e ∧
    (⟨3, 32767, s_findcoordinator_Request⟩ : Msg).read x 4 (e ++ [7]) = .ok (exFind, [7]) := by
  refine ⟨[1, 3, 3, 103, 49, 3, 103, 50, 1, 9, 2, 1, 2], by with_unfolding_all rfl, ?_⟩
  refine C09_message_roundtrip_exact _ x 4 (by decide) exFind (exFind_ok x) ?_ _ (by with_unfolding_all rfl) [7]
  refine ⟨rfl, ⟨?_, ?_, ?_, trivial⟩, by simp [exFind]⟩
  · rfl
  · rfl
  · rw [if_pos (by decide)]
    intro l h
    injection h with h
    subst h
    intro y hy
    simp only [List.mem_cons, List.not_mem_nil, or_false] at hy
    rcases hy with rfl | rfl <;> rfl

example (x : Ext) : (⟨3, 32767, s_findcoordinator_Request⟩ : Msg).size x 4 exFind = .ok 13 := by
  refine C08_size_exact _ x 4 (by decide) (by decide) exFind ?_
    [1, 3, 3, 103, 49, 3, 103, 50, 1, 9, 2, 1, 2] (by with_unfolding_all rfl)
  refine ⟨trivial, ⟨fun _ => trivial, fun _ => trivial, fun _ => ?_, trivial⟩, ?_⟩
  · intro l h
    injection h with h
    subst h
    exact ⟨by unfold ArrLenOk; decide, fun b _ => trivial⟩
  · intro a ha
    simp only [exFind, List.mem_cons, List.not_mem_nil, or_false] at ha
    subst ha
    show 9 < 2^32
    decide

example (x : Ext) : ∃ e, (⟨3, 32767, s_findcoordinator_Request⟩ : Msg).write x 0 exFind = .error e :=
  (C12_lost_field_rejected _ x 0 (by decide) exFind rfl
    (Or.inr (Or.inr (Or.inl ⟨rfl, by unfold lostField; decide⟩)))).1

example (x : Ext) : ∃ e, (⟨3, 32767, s_findcoordinator_Request⟩ : Msg).write x 4
    ⟨false, (⟨[], false⟩, (1 : Int), some [⟨[], true⟩], ()), []⟩ = .error e :=
  (C11_null_message_rejected ⟨3, 32767, s_findcoordinator_Request⟩ x 4 (by decide) _ rfl
    (Or.inr (Or.inr (Or.inr (Or.inr (Or.inr (Or.inl ⟨rfl, by decide, by decide, Or.inr ⟨_, rfl, _, List.mem_cons_self .., rfl⟩⟩))))))).1

end Verif.Props
