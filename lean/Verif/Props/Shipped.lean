import Verif.Props.Generator
import Verif.Kafka.Gen.Spec
import Verif.Kafka.Gen.Messages
import Verif.Kafka.Gen.Names
import Verif.Props.ParseSafe
/-
C76: the shipped message codecs are what the generator makes of the bundled specifications (both tables are complete:
every JSON file of assets/protocol_spec that describes a request, a response or a header, and every generated message).
C77: nullable fields of the shipped messages.
-/
namespace Verif.Props
open Verif Verif.Kafka Verif.Kafka.Layout Verif.Kafka.Gen

/-! ### the shipped messages -/

deriving instance DecidableEq for Sch
deriving instance DecidableEq for Msg
deriving instance DecidableEq for Entry

/-- the entry of the message tables that the generator makes of a specification -/
def genEntry (m : MSpec) : Option Entry :=
  (genMsg m).map fun g => ⟨m.apiKey, decide (m.typ = "request".toList), g.lo, g.hi, g.msg⟩

/-- **C76** The request codecs in the package are, entry by entry, what the generator makes of the bundled request
specifications: the same API key, the same supported versions, the same flexible versions and the same fields. -/
theorem C76_requests_regenerated : requestSpecs.map genEntry = requests.map some := by decide +kernel
/-- **C76** The same for the responses. -/
theorem C76_responses_regenerated : responseSpecs.map genEntry = responses.map some := by decide +kernel
/-- **C76** The same for the two message headers. -/
theorem C76_headers_regenerated : (headerSpecs.map fun m => (genMsg m).map (·.msg)) = [some m_request_Header, some m_response_Header] := by
  decide +kernel
/-- **C76** The fields of the generated structures have the names of the specifications. -/
theorem C76_names : requestSpecs.map genMsgNames = requestNames ∧ responseSpecs.map genMsgNames = responseNames ∧
    headerSpecs.map genMsgNames = headerNames := by decide +kernel
/-- all bundled specifications are written in the usual form that C75 speaks about -/
theorem C76_usual : (headerSpecs ++ requestSpecs ++ responseSpecs).all usualMessage = true := by decide +kernel

/-- two lists related entry by entry: partners exist in both directions -/
theorem map_partner {α β : Type} {f : α → Option β} {xs : List α} {ys : List β} (h : xs.map f = ys.map some) :
    (∀ y ∈ ys, ∃ x ∈ xs, f x = some y) ∧ (∀ x ∈ xs, ∃ y ∈ ys, f x = some y) := by
  constructor
  · intro y hy
    have : some y ∈ xs.map f := h ▸ List.mem_map_of_mem hy
    obtain ⟨x, hx, e⟩ := List.mem_map.mp this
    exact ⟨x, hx, e⟩
  · intro x hx
    have : f x ∈ ys.map some := h ▸ List.mem_map_of_mem hx
    obtain ⟨y, hy, e⟩ := List.mem_map.mp this
    exact ⟨y, hy, e.symm⟩

/-- The message codec `e` of the package is a codec of the specification `m`: same kind and API key, same supported
versions, and at every version the specified fields in the specified order with the specified types, defaults, tags and
length formats (`Message`, LayoutSpec.lean; `ofSch` reads the layout off the field table of the codec). -/
structure CodecOf (m : MSpec) (e : Entry) : Prop where
  key : e.apiKey = m.apiKey
  kind : e.isRequest = true ↔ m.typ = "request".toList
  versions : Denotes m.valid e.lo e.hi
  layout : ∀ v : Int, 0 ≤ v → v < 32767 → Message m v (Wire.within e.msg.flo e.msg.fhi v) (ofSch v e.msg.fields)

theorem codec_of {m : MSpec} {e : Entry} (hu : usualMessage m = true) (h : genEntry m = some e) : CodecOf m e := by
  unfold genEntry at h
  simp only [Option.map_eq_some_iff] at h
  obtain ⟨g, hg, rfl⟩ := h
  exact ⟨rfl, by simp, C75_versions hu hg, fun v h0 h1 => C75_layout hu hg h0 h1⟩

theorem usual_request {m : MSpec} (h : m ∈ requestSpecs) : usualMessage m = true :=
  List.all_eq_true.mp C76_usual m (by simp [h])
theorem usual_response {m : MSpec} (h : m ∈ responseSpecs) : usualMessage m = true :=
  List.all_eq_true.mp C76_usual m (by simp [h])

/-- **C76** Every request and every response codec the package ships is a codec of a bundled specification of that kind. -/
theorem C76_shipped {e : Entry} (h : e ∈ requests ++ responses) : ∃ m ∈ requestSpecs ++ responseSpecs, CodecOf m e := by
  rcases List.mem_append.mp h with h | h
  · obtain ⟨m, hm, e⟩ := (map_partner C76_requests_regenerated).1 _ h
    exact ⟨m, by simp [hm], codec_of (usual_request hm) e⟩
  · obtain ⟨m, hm, e⟩ := (map_partner C76_responses_regenerated).1 _ h
    exact ⟨m, by simp [hm], codec_of (usual_response hm) e⟩

/-- **C76** Conversely, every bundled request and response specification has its codec. -/
theorem C76_complete {m : MSpec} (h : m ∈ requestSpecs ++ responseSpecs) : ∃ e ∈ requests ++ responses, CodecOf m e := by
  rcases List.mem_append.mp h with h | h
  · obtain ⟨e, he, g⟩ := (map_partner C76_requests_regenerated).2 _ h
    exact ⟨e, by simp [he], codec_of (usual_request h) g⟩
  · obtain ⟨e, he, g⟩ := (map_partner C76_responses_regenerated).2 _ h
    exact ⟨e, by simp [he], codec_of (usual_response h) g⟩

/-- **C76** The two header codecs have the layout of the two header specifications, at every version. -/
theorem C76_headers {v : Int} (h0 : 0 ≤ v) (h1 : v < 32767) :
    Message p_RequestHeader v (Wire.within m_request_Header.flo m_request_Header.fhi v) (ofSch v m_request_Header.fields) ∧
    Message p_ResponseHeader v (Wire.within m_response_Header.flo m_response_Header.fhi v) (ofSch v m_response_Header.fields) := by
  have hr := C76_headers_regenerated
  simp only [headerSpecs, List.map_cons, List.map_nil, List.cons.injEq, Option.map_eq_some_iff, and_true] at hr
  obtain ⟨⟨g, hg, e⟩, ⟨g', hg', e'⟩⟩ := hr
  rw [← e, ← e']
  have hu := C76_usual
  simp only [List.all_eq_true] at hu
  exact ⟨C75_layout (hu _ (by simp [headerSpecs])) hg h0 h1, C75_layout (hu _ (by simp [headerSpecs])) hg' h0 h1⟩

/-- **C76** An API key names one request and one response: no two shipped requests, and no two responses, share a key;
the keys of the requests are the keys of the responses. -/
theorem C76_keys : (requests.map (·.apiKey)).Nodup ∧ (responses.map (·.apiKey)).Nodup ∧
    ∀ k, k ∈ requests.map (·.apiKey) ↔ k ∈ responses.map (·.apiKey) := by
  have h : requests.map (·.apiKey) = responses.map (·.apiKey) := by decide +kernel
  exact ⟨by decide +kernel, by decide +kernel, fun k => by rw [h]⟩

/-! ### C77: null where the specification does not allow it -/

theorem not_denotes_nil {lo hi : Int} : ¬ Denotes [] lo hi := by
  intro h; have := C25_forms_parsed h
  rw [show versionRange [] = none by decide] at this; cases this

theorem nullable_unsaid {o : Bool} {v : Int} {b : Bool} (h : Nullable o v [] b) : b = o := by
  generalize hs : ([] : List Char) = s at h
  cases h with
  | unsaid => rfl
  | range hd _ => subst hs; exact absurd hd not_denotes_nil

/-- **C77** (negation) At version 0 of the AddOffsetsToTxn request the codec accepts a null transactional id, which the
specification does not allow: a field without nullable versions is nullable at version 0. -/
theorem C77_version_zero_false :
    e_addoffsetstotxn_Request ∈ requests ∧ p_AddOffsetsToTxnRequest ∈ requestSpecs ∧
    CodecOf p_AddOffsetsToTxnRequest e_addoffsetstotxn_Request ∧
    ¬ NullsAsSpecified p_AddOffsetsToTxnRequest 0 e_addoffsetstotxn_Request.msg.fields ∧
    -- the bytes of a request with a null transactional id, and they are accepted
    how (e_addoffsetstotxn_Request.msg.read exExt 0 [255, 255, 0, 0, 0, 0, 0, 0, 0, 1, 0, 2, 0, 1, 103]) = .value := by
  refine ⟨.head _, .head _, codec_of (usual_request (.head _)) (by decide +kernel), ?_, by decide +kernel⟩
  intro h
  unfold NullsAsSpecified p_AddOffsetsToTxnRequest e_addoffsetstotxn_Request s_addoffsetstotxn_Request at h
  cases h with
  | prim hn _ => exact absurd (nullable_unsaid hn) (by decide)

/-- **C77** (negation) At every version of the CreatePartitions request the codec accepts a null list of broker ids inside
an assignment: only the list of assignments is nullable, and the generator passes that on to the fields inside. -/
theorem C77_nested_false {v : Int} (h0 : 0 ≤ v) (h1 : v < 32767) :
    e_createpartitions_Request ∈ requests ∧ p_CreatePartitionsRequest ∈ requestSpecs ∧
    CodecOf p_CreatePartitionsRequest e_createpartitions_Request ∧
    ¬ NullsAsSpecified p_CreatePartitionsRequest v e_createpartitions_Request.msg.fields ∧
    -- version 3, one topic with one assignment whose broker ids are null
    how (e_createpartitions_Request.msg.read exExt 3 [2, 2, 116, 0, 0, 0, 1, 2, 0, 0, 0, 0, 0, 0, 0, 0, 0]) = .value := by
  have hm : p_CreatePartitionsRequest ∈ requestSpecs := by unfold requestSpecs; repeat (first | exact .head _ | apply List.Mem.tail)
  refine ⟨?_, hm, codec_of (usual_request hm) (by decide +kernel), ?_, by decide +kernel⟩
  · unfold requests; repeat (first | exact .head _ | apply List.Mem.tail)
  intro h
  unfold NullsAsSpecified p_CreatePartitionsRequest e_createpartitions_Request s_createpartitions_Request at h
  cases h with
  | arrS _ hs _ =>
    unfold s_createpartitions_request_CreatePartitionsTopic at hs
    cases hs with
    | prim _ hs => cases hs with
      | prim _ hs => cases hs with
        | arrS _ hs _ =>
          unfold s_createpartitions_request_createpartitionstopic_CreatePartitionsAssignment at hs
          cases hs with
          | arr hn _ =>
            have := nullable_unsaid hn
            simp only [Wire.within, decide_eq_false_iff_not] at this
            omega

/-- The shipped specifications for which C77 holds from version 1 on -/
def c77Count : Nat := ((requestSpecs ++ responseSpecs).filter fun m => flatNulls m.fields && m.common.all (flatNulls ·.2)).length
example : c77Count = 125 ∧ (requestSpecs ++ responseSpecs).length = 136 := by decide +kernel

/-! ### non-vacuity of C75 -/

/-- a small specification: a string nullable from version 1, an array of structures with a tagged field, from version 2 -/
def exSpec : MSpec where
  apiKey := 99
  typ := "request".toList
  name := "ExampleRequest".toList
  valid := "0-3".toList
  flex := "2+".toList
  common := [("Pair".toList, .cons { name := "A".toList, typ := "int16".toList, versions := "0+".toList, dflt := some (.str "-1".toList) } .nil .nil)]
  fields :=
    .cons { name := "Id".toList, typ := "string".toList, versions := "0+".toList, nullable := "1+".toList } .nil
    (.cons { name := "Items".toList, typ := "[]Item".toList, versions := "1+".toList }
      (.cons { name := "N".toList, typ := "int32".toList, versions := "1-2".toList, dflt := some (.str "0x1f".toList) } .nil
      (.cons { name := "Extra".toList, typ := "Pair".toList, versions := "2+".toList, tag := some 0, tagged := "2+".toList } .nil .nil))
    .nil)

example : usualMessage exSpec = true ∧ (genMsg exSpec).isSome = true := by decide +kernel
/-- its layout at version 2, read off the generated codec; by C75_layout it is the specified one -/
example : (genMsg exSpec).map (fun g => ofSch 2 g.msg.fields) = some
    (.prim none true .str (.str []) (.arrS none true true
      (.prim none true (.int 4) (.int 31) (.struct (some 0) true (.prim none true (.int 2) (.int (-1)) .nil) .nil)) .nil)) := by
  decide +kernel
/-- at version 0 only the id is there, with a two-byte length -/
example : (genMsg exSpec).map (fun g => ofSch 0 g.msg.fields) = some (.prim none false .str (.str []) .nil) := by decide +kernel

end Verif.Props
