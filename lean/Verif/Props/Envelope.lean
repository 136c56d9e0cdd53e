import Verif.Kafka.Envelope
import Verif.Props.Messages
/-
Property theorems C19–C21: request and response envelopes.
-/
namespace Verif.Props
open Verif Verif.Kafka Verif.Kafka.Gen

/-! #### C19 -/

/-- is the message flexible at `v`? -/
def Entry.flexible (t : Entry) (v : Int) : Bool := inRange t.msg.flo t.msg.fhi v

theorem reqTable_ok : requests.all (fun t => (Entry.versions t).all fun v =>
    decide (requestHeaderVersion t.apiKey v =
      if t.apiKey = 7 ∧ v = 0 then 0 else if Entry.flexible t v then 2 else 1)) = true := by
  decide +kernel

theorem respTable_ok : responses.all (fun t => (Entry.versions t).all fun v =>
    decide (responseHeaderVersion t.apiKey v =
      if t.apiKey = 18 then 0 else if Entry.flexible t v then 1 else 0)) = true := by
  decide +kernel

/-- C19: at every advertised version a request uses the flexible header (2) exactly when its body is flexible, the
non-flexible header 1 otherwise; ControlledShutdown v0 uses header 0. -/
theorem C19_request_header (t : Entry) (ht : t ∈ requests) (v : Int) (h1 : t.lo ≤ v) (h2 : v ≤ t.hi) :
    requestHeaderVersion t.apiKey v =
      if t.apiKey = 7 ∧ v = 0 then 0 else if Entry.flexible t v then 2 else 1 :=
  of_decide_eq_true (List.all_eq_true.mp (List.all_eq_true.mp reqTable_ok t ht) v ((mem_versions t v).mpr ⟨h1, h2⟩))

/-- C19: a response uses header 1 exactly when its body is flexible, header 0 otherwise; ApiVersions always uses 0. -/
theorem C19_response_header (t : Entry) (ht : t ∈ responses) (v : Int) (h1 : t.lo ≤ v) (h2 : v ≤ t.hi) :
    responseHeaderVersion t.apiKey v =
      if t.apiKey = 18 then 0 else if Entry.flexible t v then 1 else 0 :=
  of_decide_eq_true (List.all_eq_true.mp (List.all_eq_true.mp respTable_ok t ht) v ((mem_versions t v).mpr ⟨h1, h2⟩))

theorem hswitch_unknown (tab : List HCase) (k v : Int) (h : k ∉ tab.map (·.key)) : hswitch tab k v = -1 := by
  unfold hswitch
  rw [List.find?_eq_none.mpr]
  intro c hc
  simp only [beq_iff_eq]
  intro he
  exact h (List.mem_map.mpr ⟨c, hc, he⟩)

theorem header_keys : (∀ k ∈ requestHeaderTable.map (·.key), k ∈ requests.map (·.apiKey)) ∧
    (∀ k ∈ responseHeaderTable.map (·.key), k ∈ responses.map (·.apiKey)) := by
  constructor <;> decide +kernel

/-- C19: a key no shipped message has is rejected, at every version. -/
theorem C19_unknown_key (k v : Int) :
    (k ∉ requests.map (·.apiKey) → requestHeaderVersion k v = -1) ∧
    (k ∉ responses.map (·.apiKey) → responseHeaderVersion k v = -1) :=
  ⟨fun h => hswitch_unknown _ _ _ fun hk => h (header_keys.1 k hk),
   fun h => hswitch_unknown _ _ _ fun hk => h (header_keys.2 k hk)⟩

theorem newRequest_map : requests.map (fun t => newRequest t.apiKey) = requests.map some := by
  with_unfolding_all rfl
theorem newResponse_map : responses.map (fun t => newResponse t.apiKey) = responses.map some := by
  with_unfolding_all rfl

theorem map_pointwise {α β : Type} {f g : α → β} : ∀ {l : List α}, l.map f = l.map g → ∀ a ∈ l, f a = g a
  | b :: l, h, a, ha => by
    simp only [List.map_cons, List.cons.injEq] at h
    rcases List.mem_cons.mp ha with rfl | ha
    · exact h.1
    · exact map_pointwise h.2 a ha

/-- C19: the struct created for a key is the shipped message with that key. -/
theorem C19_new_message (t : Entry) :
    (t ∈ requests → newRequest t.apiKey = some t) ∧ (t ∈ responses → newResponse t.apiKey = some t) :=
  ⟨map_pointwise newRequest_map t, map_pointwise newResponse_map t⟩

/-! #### C20 -/

theorem inCap_ok {n : Res Nat} {w : Res Bytes} {e : Bytes} (h : inCap n w = .ok e) : w = .ok e := by
  unfold inCap at h
  split at h
  · simp at h
  · split at h
    · simp at h
    · split at h
      · exact h
      · simp at h

theorem req_header_starts (x : Ext) (hv : Int) (h0 : 0 ≤ hv) (h2 : hv ≤ 2) (hdr : m_request_Header.Val)
    (hn : hdr.isNil = false) (e : Bytes) (hw : m_request_Header.write x hv hdr = .ok e) :
    ∃ r, e = putInt 2 hdr.fields.1 ++ (putInt 2 hdr.fields.2.1 ++ r) := by
  obtain ⟨n, ⟨k, ver, c, cl, u⟩, un⟩ := hdr
  simp only at hn
  subst hn
  unfold Msg.write structWrite at hw
  simp only [Bool.false_eq_true, ↓reduceIte] at hw
  split at hw
  · simp at hw
  · rw [wseq_eq_ok] at hw
    obtain ⟨a, b, ha, -, rfl⟩ := hw
    have hc : ∀ c : Ctx, c.lo = 0 → c.hi = 32767 → c.supported hv = true := by
      intro c h1 h2; simp [Ctx.supported, inRange, h1, h2]; omega
    simp only [m_request_Header, s_request_Header, Sch.ops, consField] at ha
    rw [wseq_eq_ok] at ha
    obtain ⟨a1, b1, ha1, hb1, rfl⟩ := ha
    rw [wseq_eq_ok] at hb1
    obtain ⟨a2, b2, ha2, hb2, rfl⟩ := hb1
    have e1 : a1 = putInt 2 k := by
      simp [Ctx.onlyTagged, Ctx.tagged, primOps, primWrite, writeFixed, hc] at ha1
      exact ha1.symm
    have e2 : a2 = putInt 2 ver := by
      simp [Ctx.onlyTagged, Ctx.tagged, primOps, primWrite, writeFixed, hc] at ha2
      exact ha2.symm
    exact ⟨b2 ++ b, by rw [e1, e2]; simp⟩

/-- header versions used at advertised versions are header versions the library has -/
theorem reqHeader_range (t : Entry) (ht : t ∈ requests) (v : Int) (h1 : t.lo ≤ v) (h2 : v ≤ t.hi) :
    0 ≤ requestHeaderVersion t.apiKey v ∧ requestHeaderVersion t.apiKey v ≤ 2 := by
  rw [C19_request_header t ht v h1 h2]
  split
  · omega
  · split <;> omega
theorem respHeader_range (t : Entry) (ht : t ∈ responses) (v : Int) (h1 : t.lo ≤ v) (h2 : v ≤ t.hi) :
    0 ≤ responseHeaderVersion t.apiKey v ∧ responseHeaderVersion t.apiKey v ≤ 1 := by
  rw [C19_response_header t ht v h1 h2]
  split
  · omega
  · split <;> omega

/-- What C20 requires of a request: the header names the data's api key and the version it is serialized at, that version
is advertised, and header and data hold values covered by C09. -/
structure Request.Covered (x : Ext) (r : Request) (v : Int) : Prop where
  shipped : r.data.1 ∈ requests
  key : r.apiKey = r.data.1.apiKey
  ver : r.apiVersion = v
  lo : r.data.1.lo ≤ v
  hi : v ≤ r.data.1.hi
  hdr : m_request_Header.Ok rtCover x (requestHeaderVersion r.apiKey v) r.hdr
  body : r.data.1.msg.Ok rtCover x v r.data.2

theorem int16_of_header (x : Ext) (hv : Int) (h0 : 0 ≤ hv) (h2 : hv ≤ 2) (hdr : m_request_Header.Val)
    (h : m_request_Header.Ok rtCover x hv hdr) : InS 2 hdr.fields.1 ∧ InS 2 hdr.fields.2.1 := by
  obtain ⟨-, ⟨h1, h2', -⟩, -⟩ := h
  have hc : ∀ c : Ctx, c.lo = 0 → c.hi = 32767 → c.tag = none → c.tlo ≠ c.lo ∨ c.thi ≠ c.hi →
      ∀ {α : Type} (f : α → Bool) (a : α), carried c hv f a = true := by
    intro c e1 e2 e3 e4 α f a
    have : c.onlyTagged = false := by
      simp only [Ctx.onlyTagged]
      rcases e4 with e4 | e4 <;> simp [e4]
    simp [carried, Ctx.tagged, e3, this, Ctx.supported, inRange, e1, e2]; omega
  exact ⟨h1 (hc _ rfl rfl rfl (by decide) _ _), h2' (hc _ rfl rfl rfl (by decide) _ _)⟩

/-- C20: parsing a serialized request, whatever follows it in the buffer, yields the same header and data as the version
carries them (`norm`: fields the version does not carry come back as defaults, see C09). -/
theorem C20_request_roundtrip (x : Ext) (r : Request) (v : Int) (hr : Request.Covered x r v) (e : Bytes)
    (hs : r.serialize x v = .ok e) (rest : Bytes) :
    Request.parse x (e ++ rest) =
      .ok ⟨m_request_Header.norm x (requestHeaderVersion r.apiKey v) r.hdr, ⟨r.data.1, r.data.1.msg.norm x v r.data.2⟩⟩ := by
  obtain ⟨hdr, t, d⟩ := r
  obtain ⟨hsh, hkey, hver, hlo, hhi, hhdr, hbody⟩ := hr
  simp only at hsh hlo hhi hhdr hbody
  have hkey : hdr.fields.1 = t.apiKey := hkey
  have hver : hdr.fields.2.1 = v := hver
  have hr := reqHeader_range t hsh v hlo hhi
  simp only [Request.serialize, Request.apiKey, hkey] at hs
  simp only [Request.apiKey] at hhdr ⊢
  rw [hkey] at hhdr ⊢
  rw [if_neg (by omega), if_neg (by omega)] at hs
  have hw := inCap_ok hs
  rw [wseq_eq_ok] at hw
  obtain ⟨e1, e2, hw1, hw2, rfl⟩ := hw
  obtain ⟨i1, i2⟩ := int16_of_header x _ hr.1 hr.2 hdr hhdr
  obtain ⟨q, hq⟩ := req_header_starts x _ hr.1 hr.2 hdr hhdr.1 e1 hw1
  rw [hkey] at i1 hq
  rw [hver] at i2 hq
  have hR := m_request_Header.rt x _ (C10_headers_wf.1 _ hr.1 hr.2) hdr hhdr e1 hw1 (e2 ++ rest)
  have hB := t.msg.rt x v (C10_shipped_wf t (List.mem_append_left _ hsh) v hlo hhi).1 d hbody e2 hw2 rest
  have htake : (e1 ++ e2 ++ rest).take 4 = putInt 2 t.apiKey ++ (putInt 2 v ++ []) := by
    rw [hq]
    simp only [← List.append_assoc]
    rw [List.take_append_of_le_length (by simp; omega), List.take_append_of_le_length (by simp; omega),
      List.take_append_of_le_length (by simp)]
    rw [List.take_of_length_le (by simp)]
    simp
  have hlen : ¬ (e1 ++ e2 ++ rest).length < 4 := by
    rw [hq]; simp; omega
  unfold Request.parse
  rw [if_neg hlen, htake, RT.int 2 (by decide) _ i1]
  simp only []
  rw [RT.int 2 (by decide) _ i2]
  simp only []
  rw [if_neg (by omega), if_neg (by omega), List.append_assoc, hR]
  simp only [(C19_new_message t).1 hsh]
  rw [hB]

/-- C20: a request that only holds what its version carries is read back identical. -/
theorem C20_request_roundtrip_exact (x : Ext) (r : Request) (v : Int) (hr : Request.Covered x r v)
    (hF : StructFaithful (m_request_Header.fields.Faithful x (requestHeaderVersion r.apiKey v)) r.hdr)
    (hF' : StructFaithful (r.data.1.msg.fields.Faithful x v) r.data.2) (e : Bytes)
    (hs : r.serialize x v = .ok e) (rest : Bytes) : Request.parse x (e ++ rest) = .ok r := by
  rw [C20_request_roundtrip x r v hr e hs rest]
  obtain ⟨hdr, t, d⟩ := r
  have h1 : m_request_Header.norm x (requestHeaderVersion (Request.apiKey ⟨hdr, t, d⟩) v) hdr = hdr :=
    structNorm_of (m_request_Header.fields.norm_of_faithful x _) hdr hF
  have h2 : t.msg.norm x v d = d := structNorm_of (t.msg.fields.norm_of_faithful x v) d hF'
  simp only [h1, h2]

/-- C20: Serialize succeeds with header followed by data whenever both can be written (for values with exact sizes, C08). -/
theorem C20_request_serialize (x : Ext) (r : Request) (v : Int) (hsh : r.data.1 ∈ requests)
    (hkey : r.apiKey = r.data.1.apiKey) (hlo : r.data.1.lo ≤ v) (hhi : v ≤ r.data.1.hi)
    (hh : m_request_Header.Ok (sizeCover x) x (requestHeaderVersion r.apiKey v) r.hdr)
    (hb : r.data.1.msg.Ok (sizeCover x) x v r.data.2) (e1 e2 : Bytes)
    (hw1 : m_request_Header.write x (requestHeaderVersion r.apiKey v) r.hdr = .ok e1)
    (hw2 : r.data.1.msg.write x v r.data.2 = .ok e2) : r.serialize x v = .ok (e1 ++ e2) := by
  have hr := reqHeader_range r.data.1 hsh v hlo hhi
  rw [← hkey] at hr
  have s1 := m_request_Header.sz x _ (C10_headers_wf.1 _ hr.1 hr.2) rfl r.hdr hh e1 hw1
  have hwf := C10_shipped_wf r.data.1 (List.mem_append_left _ hsh) v hlo hhi
  have s2 := r.data.1.msg.sz x v hwf.1 hwf.2.1 r.data.2 hb e2 hw2
  unfold Request.serialize Request.size
  simp only [s1, s2, hw1, hw2]
  rw [if_neg (by omega), if_neg (by omega), if_neg (by omega), if_neg (by omega)]
  simp [inCap, sadd]

/-- What C20 requires of a response. -/
structure Response.Covered (x : Ext) (r : Response) (v : Int) : Prop where
  shipped : r.data.1 ∈ responses
  lo : r.data.1.lo ≤ v
  hi : v ≤ r.data.1.hi
  hdr : m_response_Header.Ok rtCover x (responseHeaderVersion r.data.1.apiKey v) r.hdr
  body : r.data.1.msg.Ok rtCover x v r.data.2

/-- the correlation id is carried by every response header version -/
theorem resp_norm_corr (x : Ext) (hv : Int) (h0 : 0 ≤ hv) (h1 : hv ≤ 1) (hdr : m_response_Header.Val) :
    (m_response_Header.norm x hv hdr).fields.1 = hdr.fields.1 := by
  obtain ⟨n, ⟨c, u⟩, un⟩ := hdr
  have : hv = 0 ∨ hv = 1 := by omega
  rcases this with rfl | rfl <;> rfl

/-- C20: parsing a serialized response with the key, version and correlation id of the request yields the same header and
data as the version carries them. -/
theorem C20_response_roundtrip (x : Ext) (r : Response) (v : Int) (hr : Response.Covered x r v) (e : Bytes)
    (hs : r.serialize x v = .ok e) (rest : Bytes) :
    Response.parse x (e ++ rest) r.data.1.apiKey v r.correlationId =
      .ok ⟨m_response_Header.norm x (responseHeaderVersion r.data.1.apiKey v) r.hdr,
        ⟨r.data.1, r.data.1.msg.norm x v r.data.2⟩⟩ := by
  obtain ⟨hdr, t, d⟩ := r
  obtain ⟨hsh, hlo, hhi, hhdr, hbody⟩ := hr
  simp only at hsh hlo hhi hhdr hbody
  have hr := respHeader_range t hsh v hlo hhi
  simp only [Response.serialize] at hs
  rw [if_neg (by omega), if_neg (by omega)] at hs
  have hw := inCap_ok hs
  rw [wseq_eq_ok] at hw
  obtain ⟨e1, e2, hw1, hw2, rfl⟩ := hw
  have hR := m_response_Header.rt x _ (C10_headers_wf.2 _ hr.1 hr.2) hdr hhdr e1 hw1 (e2 ++ rest)
  have hB := t.msg.rt x v (C10_shipped_wf t (List.mem_append_right _ hsh) v hlo hhi).1 d hbody e2 hw2 rest
  simp only [Response.parse, Response.correlationId]
  rw [if_neg (by omega), List.append_assoc, hR]
  simp only [(C19_new_message t).2 hsh, resp_norm_corr x _ hr.1 hr.2]
  rw [hB]
  simp

/-- C20: a response that only holds what its version carries is read back identical. -/
theorem C20_response_roundtrip_exact (x : Ext) (r : Response) (v : Int) (hr : Response.Covered x r v)
    (hF : StructFaithful (m_response_Header.fields.Faithful x (responseHeaderVersion r.data.1.apiKey v)) r.hdr)
    (hF' : StructFaithful (r.data.1.msg.fields.Faithful x v) r.data.2) (e : Bytes)
    (hs : r.serialize x v = .ok e) (rest : Bytes) :
    Response.parse x (e ++ rest) r.data.1.apiKey v r.correlationId = .ok r := by
  rw [C20_response_roundtrip x r v hr e hs rest]
  obtain ⟨hdr, t, d⟩ := r
  have h1 : m_response_Header.norm x (responseHeaderVersion t.apiKey v) hdr = hdr :=
    structNorm_of (m_response_Header.fields.norm_of_faithful x _) hdr hF
  have h2 : t.msg.norm x v d = d := structNorm_of (t.msg.fields.norm_of_faithful x v) d hF'
  simp only [h1, h2]

/-- C184: whatever the bytes, a response is only returned if it carries the correlation id of the request, and its data
is of the type of the request's key. -/
theorem C184_response_matches_request (x : Ext) (msg : Bytes) (key ver corr : Int) (r : Response)
    (h : Response.parse x msg key ver corr = .ok r) :
    r.correlationId = corr ∧ newResponse key = some r.data.1 := by
  unfold Response.parse at h
  simp only at h
  split at h
  · simp at h
  · split at h
    · simp at h
    · rename_i hdr r2 _
      split at h
      · simp at h
      · rename_i hc
        simp only [ne_eq, Decidable.not_not] at hc
        split at h
        · simp at h
        · rename_i t ht
          split at h
          · injection h with h; subst h; exact ⟨hc, ht⟩
          · split at h
            · split at h
              · injection h with h; subst h; exact ⟨hc, ht⟩
              · simp at h
            · simp at h

/-- C184: whatever the bytes, a parsed request carries data of the type its header names. -/
theorem C184_request_type (x : Ext) (msg : Bytes) (r : Request) (h : Request.parse x msg = .ok r) :
    ∃ key ver, newRequest key = some r.data.1 ∧ readInt 2 (msg.take 4) = .ok (key, (msg.take 4).drop 2) ∧
      readInt 2 ((msg.take 4).drop 2) = .ok (ver, []) ∧ requestHeaderVersion key ver ≠ -1 := by
  unfold Request.parse at h
  split at h
  · simp at h
  · rename_i hl
    split at h
    · simp at h
    · rename_i key r1 hk
      split at h
      · simp at h
      · rename_i ver r1' hv
        have hk' : r1 = (msg.take 4).drop 2 := by
          unfold readInt Dec.andThen at hk
          split at hk
          · simp at hk
          · rename_i b rr hb
            obtain ⟨hb1, hb2⟩ := readExact_ok hb
            simp [Dec.ret] at hk
            rw [← hk.2, hb2]
            simp [← hb1]
        have hv' : r1' = [] := by
          unfold readInt Dec.andThen at hv
          split at hv
          · simp at hv
          · rename_i b rr hb
            obtain ⟨hb1, hb2⟩ := readExact_ok hb
            simp [Dec.ret] at hv
            rw [← hv.2]
            have := congrArg List.length hb2
            rw [hk'] at this
            simp at this
            apply List.length_eq_zero_iff.mp
            omega
        simp only at h
        split at h
        · simp at h
        · rename_i hne
          split at h
          · simp at h
          · split at h
            · simp at h
            · split at h
              · simp at h
              · rename_i t ht
                split at h
                · simp at h
                · injection h with h
                  subst h
                  subst hk' hv'
                  exact ⟨key, ver, ht, hk, hv, hne⟩

/-- a FindCoordinator request: header version field `hver`, the coordinator key "g" and a key type -/
def findReq (hver : Int) (keyType : Int) : Request :=
  ⟨⟨false, ((10 : Int), hver, (7 : Int), ⟨[99], false⟩, ()), []⟩,
   ⟨e_findcoordinator_Request, ⟨false, (⟨[103], false⟩, keyType, some [], ()), []⟩⟩⟩

/-- C193 is false when Serialize is called with a version other than the one in the header (the version is not checked and
the header keeps the old one): this request has key type 1, the parsed one has key type 0, and no error is returned. -/
theorem C193_serialize_other_version_false (x : Ext) :
    ∃ e, (findReq 0 1).serialize x 1 = .ok e ∧ ∃ r, Request.parse x e = .ok r ∧ r.apiVersion = 0 ∧
      r.data = ⟨e_findcoordinator_Request, ⟨false, (⟨[103], false⟩, (0 : Int), none, ()), []⟩⟩ := by
  refine ⟨[0, 10, 0, 0, 0, 0, 0, 7, 0, 1, 99, 0, 1, 103, 1], by with_unfolding_all rfl, ?_⟩
  have hs : (findReq 0 0).serialize x 0 = .ok [0, 10, 0, 0, 0, 0, 0, 7, 0, 1, 99, 0, 1, 103] := by with_unfolding_all rfl
  have hc : Request.Covered x (findReq 0 0) 0 := by
    refine ⟨by simp [findReq, requests, e_findcoordinator_Request], rfl, rfl, ?_, ?_, ?_, ?_⟩
    · show (0 : Int) ≤ 0; decide
    · show (0 : Int) ≤ 4; decide
    · refine ⟨rfl, ⟨fun _ => ?_, fun _ => ?_, fun _ => ?_, fun _ => trivial, trivial⟩, by simp [findReq]⟩
      · show InS 2 10
        unfold InS; constructor <;> decide
      · show InS 2 0
        unfold InS; constructor <;> decide
      · show InS 4 7
        unfold InS; constructor <;> decide
    · refine ⟨rfl, ⟨fun _ => trivial, fun _ => ?_, fun h => ?_, trivial⟩, by simp [findReq]⟩
      · show InS 1 0
        unfold InS; constructor <;> decide
      · exact absurd h (by decide)
  exact ⟨_, C20_request_roundtrip x (findReq 0 0) 0 hc _ hs [1], rfl, rfl⟩

/-! #### C21 -/

theorem resp_header_seven (x : Ext) (rest : Bytes) :
    m_response_Header.read x 0 ([0, 0, 0, 7] ++ rest) = .ok (⟨false, ((7 : Int), ()), []⟩, rest) := by
  refine m_response_Header.rt x 0 (by decide) ⟨false, ((7 : Int), ()), []⟩ ?_ [0, 0, 0, 7] (by with_unfolding_all rfl) rest
  refine ⟨rfl, ⟨fun _ => ?_, trivial⟩, by simp⟩
  show InS 4 7
  unfold InS; constructor <;> decide

theorem apiVersions_parse (x : Ext) (v : Int) (body : Bytes) (h18 : v ≠ 18) :
    Response.parse x ([0, 0, 0, 7] ++ body) 18 v 7 = match e_apiversions_Response.msg.read x v body with
      | .ok (d, _) => .ok ⟨⟨false, ((7 : Int), ()), []⟩, ⟨e_apiversions_Response, d⟩⟩
      | .error e => .error e := by
  have hn : newResponse 18 = some e_apiversions_Response := by with_unfolding_all rfl
  have hv : responseHeaderVersion 18 v = 0 := by with_unfolding_all rfl
  simp only [Response.parse, hv, resp_header_seven, hn]
  rw [if_neg (by decide), if_neg (by decide)]
  split <;> rename_i h <;> simp only [h]
  rw [if_neg (fun h => h18 h.1)]

/-- C21 is false: an ApiVersions response at version 0 (here error code 35 UNSUPPORTED_VERSION and no api keys), the answer
of an older broker, is rejected when the request was sent at version 1, 2 or 3; the fallback tests the api version instead
of the api key. -/
theorem C21_fallback_false (x : Ext) :
    (∃ r, Response.parse x [0, 0, 0, 7, 0, 35, 0, 0, 0, 0] 18 0 7 = .ok r) ∧
    ∀ v : Int, 1 ≤ v → v ≤ 3 → ∃ err, Response.parse x [0, 0, 0, 7, 0, 35, 0, 0, 0, 0] 18 v 7 = .error err := by
  have hp := fun v h => apiVersions_parse x v [0, 35, 0, 0, 0, 0] h
  simp only [List.cons_append, List.nil_append] at hp
  constructor
  · rw [hp 0 (by decide)]
    obtain ⟨d, hd⟩ : ∃ d, e_apiversions_Response.msg.read x 0 [0, 35, 0, 0, 0, 0] = .ok d :=
      ⟨_, by with_unfolding_all rfl⟩
    rw [hd]
    exact ⟨_, rfl⟩
  · intro v h1 h2
    rw [hp v (by omega)]
    have : v = 1 ∨ v = 2 ∨ v = 3 := by omega
    have he : ∃ err, e_apiversions_Response.msg.read x v [0, 35, 0, 0, 0, 0] = .error err := by
      rcases this with rfl | rfl | rfl
      · exact ⟨.eof, by with_unfolding_all rfl⟩
      · exact ⟨.eof, by with_unfolding_all rfl⟩
      · exact ⟨.other, by with_unfolding_all rfl⟩
    obtain ⟨err, he⟩ := he
    rw [he]
    exact ⟨_, rfl⟩

/-- C21: the fallback happens for a request sent at version 18, which does not exist: there the same response is
understood as the version 0 response it is. -/
theorem C21_fallback_version18 (x : Ext) :
    Response.parse x [0, 0, 0, 7, 0, 35, 0, 0, 0, 0] 18 18 7 = Response.parse x [0, 0, 0, 7, 0, 35, 0, 0, 0, 0] 18 0 7 := by
  have h0 := apiVersions_parse x 0 [0, 35, 0, 0, 0, 0] (by decide)
  simp only [List.cons_append, List.nil_append] at h0
  rw [h0]
  obtain ⟨d, hd⟩ : ∃ d, e_apiversions_Response.msg.read x 0 [0, 35, 0, 0, 0, 0] = .ok d := ⟨_, by with_unfolding_all rfl⟩
  have he : e_apiversions_Response.msg.read x 18 [0, 35, 0, 0, 0, 0] = .error .other := by with_unfolding_all rfl
  have hn : newResponse 18 = some e_apiversions_Response := by with_unfolding_all rfl
  have hv : responseHeaderVersion 18 18 = 0 := by with_unfolding_all rfl
  have hh := resp_header_seven x [0, 35, 0, 0, 0, 0]
  simp only [List.cons_append, List.nil_append] at hh
  simp only [Response.parse, hv, hh, hn]
  rw [if_neg (by decide), if_neg (by decide), he]
  simp only [hd]
  rfl

/-- C21: what holds instead. A response is understood when it is in the version of the request (C20) — in particular a
version 0 ApiVersions response to a version 0 request. -/
theorem C21_version_zero_partial (x : Ext) (r : Response) (ht : r.data.1 = e_apiversions_Response)
    (hh : m_response_Header.Ok rtCover x 0 r.hdr) (hb : r.data.1.msg.Ok rtCover x 0 r.data.2) (e : Bytes)
    (hs : r.serialize x 0 = .ok e) :
    Response.parse x e 18 0 r.correlationId =
      .ok ⟨m_response_Header.norm x 0 r.hdr, ⟨r.data.1, r.data.1.msg.norm x 0 r.data.2⟩⟩ := by
  have hk : r.data.1.apiKey = 18 := by rw [ht]; rfl
  have h0 : responseHeaderVersion r.data.1.apiKey 0 = 0 := by rw [hk]; rfl
  have hm : r.data.1 ∈ responses := by
    rw [ht]
    exact (by simp [responses, e_apiversions_Response] : e_apiversions_Response ∈ responses)
  have h := C20_response_roundtrip x r 0
    ⟨hm, by rw [ht]; decide, by rw [ht]; decide, by rw [h0]; exact hh, hb⟩ e hs []
  rw [List.append_nil, hk, show responseHeaderVersion 18 0 = 0 from rfl] at h
  exact h

/-! non-vacuity -/

theorem findReq_covered (x : Ext) (kt : Int) (hk : InS 1 kt) : Request.Covered x (findReq 1 kt) 1 where
  shipped := by simp [findReq, requests, e_findcoordinator_Request]
  key := rfl
  ver := rfl
  lo := by show (0 : Int) ≤ 1; decide
  hi := by show (1 : Int) ≤ 4; decide
  hdr := by
    refine ⟨rfl, ⟨fun _ => ?_, fun _ => ?_, fun _ => ?_, fun _ => trivial, trivial⟩, by simp [findReq]⟩
    · show InS 2 10
      unfold InS; constructor <;> decide
    · show InS 2 1
      unfold InS; constructor <;> decide
    · show InS 4 7
      unfold InS; constructor <;> decide
  body := by
    refine ⟨rfl, ⟨fun _ => trivial, fun _ => hk, fun h => ?_, trivial⟩, by simp [findReq]⟩
    exact absurd h (by decide)

example (x : Ext) : ∃ e, (findReq 1 1).serialize x 1 = .ok e ∧ ∃ r, Request.parse x e = .ok r ∧
    r.hdr = (findReq 1 1).hdr ∧ r.data.1 = e_findcoordinator_Request := by
  have hs : (findReq 1 1).serialize x 1 = .ok [0, 10, 0, 1, 0, 0, 0, 7, 0, 1, 99, 0, 1, 103, 1] := by
    with_unfolding_all rfl
  have h := C20_request_roundtrip x (findReq 1 1) 1
    (findReq_covered x 1 (by unfold InS; constructor <;> decide)) _ hs []
  rw [List.append_nil] at h
  exact ⟨_, hs, _, h, rfl, rfl⟩

end Verif.Props
