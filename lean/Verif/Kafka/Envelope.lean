import Verif.Kafka.SchemaReject
import Verif.Kafka.Gen.Headers
/-
Model of the request and response envelopes: components/kafka-protocol-go/pkg/request/request.go and
pkg/response/response.go (Serialize, SizeInBytes, Parse).
-/
namespace Verif.Kafka
open Verif Verif.Kafka.Gen

/-- request/header.go:20-305 `headerVersion` -/
def requestHeaderVersion (key ver : Int) : Int := hswitch requestHeaderTable key ver
/-- response/header.go:20-… `headerVersion` -/
def responseHeaderVersion (key ver : Int) : Int := hswitch responseHeaderTable key ver

/-- protocol/messages/requests.go:95 `NewRequest` -/
def newRequest (key : Int) : Option Entry := (newRequestTable.find? (fun p => p.1 == key)).map (·.2)
/-- protocol/messages/requests.go:238 `NewResponse` -/
def newResponse (key : Int) : Option Entry := (newResponseTable.find? (fun p => p.1 == key)).map (·.2)

/-- request.go:35-38. `data` is a value of one of the generated message types (`protocol.MessageData`; a nil interface,
which only the zero Request holds, is not modelled). -/
structure Request where
  hdr : m_request_Header.Val
  data : (t : Entry) × t.msg.Val

/-- the accessors of messages/request/header.go -/
def Request.apiKey (r : Request) : Int := r.hdr.fields.1
/-- the header field (messages/request/header.go, generated) -/
def Request.apiVersion (r : Request) : Int := r.hdr.fields.2.1
/-- the header field (messages/request/header.go, generated) -/
def Request.correlationId (r : Request) : Int := r.hdr.fields.2.2.1
/-- the header field (messages/request/header.go, generated) -/
def Request.clientId (r : Request) : NStr := r.hdr.fields.2.2.2.1

/-- response.go:35-38 -/
structure Response where
  hdr : m_response_Header.Val
  data : (t : Entry) × t.msg.Val
/-- the header field (messages/response/header.go, generated) -/
def Response.correlationId (r : Response) : Int := r.hdr.fields.1

/-- request.go:92-114 `SizeInBytes` -/
def Request.size (x : Ext) (r : Request) (v : Int) : Res Nat :=
  let hv := requestHeaderVersion r.apiKey v
  if hv = -1 then .error .other
  else if hv < 0 ∨ hv > 2 then .error .other
  else sadd (m_request_Header.size x hv r.hdr) (r.data.1.msg.size x v r.data.2)

/-- request.go:60-89 `Serialize`: header and data are written into a SliceWriter of exactly SizeInBytes capacity -/
def Request.serialize (x : Ext) (r : Request) (v : Int) : Res Bytes :=
  let hv := requestHeaderVersion r.apiKey v
  if hv = -1 then .error .other
  else if hv < 0 ∨ hv > 2 then .error .other
  else inCap (r.size x v) (m_request_Header.write x hv r.hdr +++ r.data.1.msg.write x v r.data.2)

/-- request.go:129-188 `Parse`: bytes after the message are ignored -/
def Request.parse (x : Ext) (msg : Bytes) : Res Request :=
  if msg.length < 4 then .error .other
  else match readInt 2 (msg.take 4) with
    | .error e => .error e
    | .ok (key, r1) => match readInt 2 r1 with
      | .error e => .error e
      | .ok (ver, _) =>
        let hv := requestHeaderVersion key ver
        if hv = -1 then .error .other
        else if hv < 0 ∨ hv > 2 then .error .other
        else match m_request_Header.read x hv msg with
          | .error e => .error e
          | .ok (hdr, r2) => match newRequest key with
            | none => .error .other
            | some t => match t.msg.read x ver r2 with
              | .error e => .error e
              | .ok (d, _) => .ok ⟨hdr, ⟨t, d⟩⟩

/-- response.go:91-113 `SizeInBytes`; the range checked is the one of the request header -/
def Response.size (x : Ext) (r : Response) (v : Int) : Res Nat :=
  let hv := responseHeaderVersion r.data.1.apiKey v
  if hv = -1 then .error .other
  else if hv < 0 ∨ hv > 2 then .error .other
  else sadd (m_response_Header.size x hv r.hdr) (r.data.1.msg.size x v r.data.2)

/-- response.go:59-88 `Serialize`; the key is the ApiKey() of the data -/
def Response.serialize (x : Ext) (r : Response) (v : Int) : Res Bytes :=
  let hv := responseHeaderVersion r.data.1.apiKey v
  if hv = -1 then .error .other
  else if hv < 0 ∨ hv > 1 then .error .other
  else inCap (r.size x v) (m_response_Header.write x hv r.hdr +++ r.data.1.msg.write x v r.data.2)

/-- response.go:128-182 `Parse`. The fallback for older brokers (line 163) tests the api *version* against 18. -/
def Response.parse (x : Ext) (msg : Bytes) (key ver corr : Int) : Res Response :=
  let hv := responseHeaderVersion key ver
  if hv = -1 then .error .other
  else match m_response_Header.read x hv msg with
    | .error e => .error e
    | .ok (hdr, r2) =>
      if hdr.fields.1 ≠ corr then .error .other
      else match newResponse key with
        | none => .error .other
        | some t => match t.msg.read x ver r2 with
          | .ok (d, _) => .ok ⟨hdr, ⟨t, d⟩⟩
          | .error e =>
            if ver = 18 ∧ ver ≠ 0 then
              match t.msg.read x 0 r2 with
              | .ok (d, _) => .ok ⟨hdr, ⟨t, d⟩⟩
              | .error e => .error e
            else .error e

end Verif.Kafka
