import Verif.Kafka.WriteLemmas
import Verif.Props.Wire
/-
Property theorems C58: Write accepts exactly the values the version can carry, and writes the wire format for them.
Specification: Verif/Kafka/WriteSpec.lean (`Wire.messageWritable`), Verif/Kafka/WireSpec.lean (`Wire.message`).
-/
namespace Verif.Props
open Verif Verif.Kafka Verif.Kafka.Gen

/-- C58: Write succeeds exactly on the writable values (null only where nullable, lengths within their limits, nothing
non-ignorable lost, tags distinct, no tagged fields in non-flexible versions, batches with a known codec). -/
theorem C58_accepts (m : Msg) (x : Ext) (v : Int) (hm : Wire.soundMsg m v = true) (hp : Wire.plain v m.fields = true)
    (s : m.Val) (hs : Wire.validMsg Wire.acceptReq v m s) :
    (∃ e, m.write x v s = .ok e) ↔ Wire.messageWritable x v m s := by
  rw [soundMsg_eq] at hm
  exact m.accepts x v hm hp s (validMsg_ok acceptReq_ok x v m hm s hs)

/-- C58 with C57: Write is completely determined: it returns the wire format of writable values and an error otherwise. -/
theorem C58_write_spec (m : Msg) (x : Ext) (v : Int) (hm : Wire.soundMsg m v = true)
    (hp : Wire.plain v m.fields = true) (s : m.Val) (hs : Wire.validMsg Wire.acceptReq v m s) (e : Bytes) :
    m.write x v s = .ok e ↔ Wire.messageWritable x v m s ∧ e = Wire.message x v m s := by
  rw [← C58_accepts m x v hm hp s hs]
  have hw : ∀ e, m.write x v s = .ok e → e = Wire.message x v m s := by
    intro e he
    rw [soundMsg_eq] at hm
    exact m.wire x v hm s (validMsg_ok acceptReq_wire x v m hm s hs) e he
  constructor
  · intro h; exact ⟨⟨e, h⟩, hw e h⟩
  · rintro ⟨⟨e', h⟩, rfl⟩
    rw [← hw e' h]; exact h

theorem plain_ok : shipped.all (fun e => (Entry.versions e).all fun v => Wire.plain v e.msg.fields) = true := by
  decide +kernel

/-- every shipped message is plain at every version it advertises -/
theorem shipped_plain (t : Entry) (ht : t ∈ shipped) (v : Int) (h1 : t.lo ≤ v) (h2 : v ≤ t.hi) :
    Wire.plain v t.msg.fields = true :=
  List.all_eq_true.mp (List.all_eq_true.mp plain_ok t ht) v ((mem_versions t v).mpr ⟨h1, h2⟩)

/-- C58 for every shipped request and response at every version it advertises. -/
theorem C58_shipped (t : Entry) (ht : t ∈ shipped) (x : Ext) (v : Int) (h1 : t.lo ≤ v) (h2 : v ≤ t.hi)
    (s : t.msg.Val) (hs : Wire.validMsg Wire.acceptReq v t.msg s) (e : Bytes) :
    t.msg.write x v s = .ok e ↔ Wire.messageWritable x v t.msg s ∧ e = Wire.message x v t.msg s :=
  C58_write_spec t.msg x v (shipped_sound t ht v h1 h2) (shipped_plain t ht v h1 h2) s hs e

/-- C58: the same for record batches alone: magic 2, a codec up to 4 whose compressor succeeds, length within uint32. -/
theorem C58_batch (x : Ext) (b : RecordBatch)
    (h : ∀ r ∈ b.records.getD [], Wire.RecordFits r ∧ Wire.exactTs r.timestampDelta) (hc : Wire.clean b) (e : Bytes) :
    b.write x = .ok e ↔ Wire.batchWritable x b ∧ e = Wire.batch x b := by
  have heq : ∀ e, b.write x = .ok e → e = Wire.batch x b := fun e hw => by
    rw [batch_eq x b (fun r hr => ⟨(h r hr).1.ok, (h r hr).2⟩) e hw, clean_trailer x b hc, List.append_nil]
  have h' : ∀ r ∈ b.recordList, r.Ok ∧ Wire.exactTs r.timestampDelta := fun r hr => ⟨(h r hr).1.ok, (h r hr).2⟩
  rw [← batch_ex x b h']
  constructor
  · intro hw; exact ⟨⟨e, hw⟩, heq e hw⟩
  · rintro ⟨⟨e', hw⟩, rfl⟩
    rw [← heq e' hw]; exact hw

/-- the request and response headers are written the same way (request headers 0–2, response headers 0–1) -/
theorem C58_headers (x : Ext) :
    (∀ v : Int, 0 ≤ v → v ≤ 2 → ∀ s : m_request_Header.Val, Wire.validMsg Wire.acceptReq v m_request_Header s → ∀ e,
      (m_request_Header.write x v s = .ok e ↔
        Wire.messageWritable x v m_request_Header s ∧ e = Wire.message x v m_request_Header s)) ∧
    (∀ v : Int, 0 ≤ v → v ≤ 1 → ∀ s : m_response_Header.Val, Wire.validMsg Wire.acceptReq v m_response_Header s → ∀ e,
      (m_response_Header.write x v s = .ok e ↔
        Wire.messageWritable x v m_response_Header s ∧ e = Wire.message x v m_response_Header s)) := by
  constructor
  · intro v h1 h2 s hs e
    refine C58_write_spec _ x v (by rw [soundMsg_eq]; exact C10_headers_wf.1 v h1 h2) ?_ s hs e
    have : v = 0 ∨ v = 1 ∨ v = 2 := by omega
    rcases this with rfl | rfl | rfl <;> decide
  · intro v h1 h2 s hs e
    refine C58_write_spec _ x v (by rw [soundMsg_eq]; exact C10_headers_wf.2 v h1 h2) ?_ s hs e
    have : v = 0 ∨ v = 1 := by omega
    rcases this with rfl | rfl <;> decide

/-! non-vacuity -/

theorem exFind_accept : Wire.validMsg Wire.acceptReq 4 ⟨3, 32767, s_findcoordinator_Request⟩ exFind := by
  refine ⟨trivial, ⟨fun _ => trivial, fun _ => trivial, fun _ => ?_, trivial⟩, ?_⟩
  · intro l h
    injection h with h
    subst h
    exact ⟨by unfold Wire.lenFits; decide, fun _ _ => trivial⟩
  · intro a ha
    simp only [exFind, List.mem_cons, List.not_mem_nil, or_false] at ha
    subst ha
    show 9 < 2^32
    decide

/-- FindCoordinator v4 is writable -/
example (x : Ext) : Wire.messageWritable x 4 ⟨3, 32767, s_findcoordinator_Request⟩ exFind :=
  (C58_accepts _ x 4 (by decide) (by decide) exFind exFind_accept).mp ⟨_, by with_unfolding_all rfl⟩

/-- with a null coordinator key it is not -/
def exFindNull : (⟨3, 32767, s_findcoordinator_Request⟩ : Msg).Val :=
  ⟨false, (⟨[], false⟩, (1 : Int), some [⟨[], true⟩], ()), []⟩

theorem exFindNull_accept : Wire.validMsg Wire.acceptReq 4 ⟨3, 32767, s_findcoordinator_Request⟩ exFindNull := by
  refine ⟨trivial, ⟨fun _ => trivial, fun _ => trivial, fun _ => ?_, trivial⟩, ?_⟩
  · intro l h
    injection h with h
    subst h
    exact ⟨by unfold Wire.lenFits; decide, fun _ _ => trivial⟩
  · intro a ha
    simp [exFindNull] at ha

example (x : Ext) : ¬ Wire.messageWritable x 4 ⟨3, 32767, s_findcoordinator_Request⟩ exFindNull := by
  rw [← C58_accepts _ x 4 (by decide) (by decide) exFindNull exFindNull_accept]
  have : (⟨3, 32767, s_findcoordinator_Request⟩ : Msg).write x 4 exFindNull = .error .other := by with_unfolding_all rfl
  rw [this]; simp

end Verif.Props
