import Verif.Tunnel.Sessions
/-
Model of how a tunnelled connection finds its requester: `RequestConn`
(`/repo/pkg/network/tunnel/server/session.go:207-252`), `openTCPStream` (280-331), and the
client side `OpenTCPStream` (`/repo/pkg/network/tunnel/client/session.go:75-114`), as an
interleaving system of requester goroutines `j` (one per accepted TCP connection) and
handler goroutines `k` (one per stream the client opened).

Connection ids are `uuid.NewUUID()` values; the model identifies the id with the requester
that generated it, i.e. assumes that generated ids are pairwise distinct (trusted).  The
client may send any id.  The channel is unbuffered (session.go:212), so sending and
receiving is one rendezvous action.  Proxying after the hand-over is not modelled.
-/
namespace Verif.Tunnel

/-- Program counter of `RequestConn`. the state of pkg/network/tunnel/server/session.go, with the environment and ghost fields -/
inductive RSt
  | start
  /-- channel stored under the id (session.go:213), next: send the request message -/
  | stored
  /-- in the `select` (session.go:232) -/
  | waiting
  /-- received stream `k` -/
  | got (k : Nat)
  /-- returned an error -/
  | failed
deriving Repr, DecidableEq

/-- Program counter of `openTCPStream` on stream `k`. the state of pkg/network/tunnel/server/session.go, with the environment and ghost fields -/
inductive OSt
  | start
  /-- `LoadAndDelete` found the channel of `id` (session.go:304), next: success response -/
  | taken (id : Nat)
  /-- nothing found, next: error response (session.go:310-322) -/
  | unknown
  /-- success response sent, at `ch <- stream` (session.go:328) -/
  | sending (id : Nat)
  | delivered (id : Nat)
  | rejected
  | failed
deriving Repr, DecidableEq

/-- Observable events, newest first. specification / ghost trace; models no code -/
inductive BEv
  /-- a connection request with this id was sent to the client -/
  | requested (j : Nat)
  /-- the client opened stream `k` with this id -/
  | opened (k id : Nat)
  /-- success / error response on stream `k` -/
  | replyOk (k : Nat)
  | replyErr (k : Nat)
  /-- requester `j` received stream `k` -/
  | got (j k : Nat)
  /-- requester `j` gave up -/
  | gaveUp (j : Nat)
deriving Repr, DecidableEq

/-- the state of pkg/network/tunnel/server/session.go, with the environment and ghost fields -/
structure BSt where
  /-- keys of `backChannels` (session.go:45) -/
  back : Nat → Bool
  req : Nat → RSt
  op : Nat → OSt
  tr : List BEv

/-- the state of pkg/network/tunnel/server/session.go, with the environment and ghost fields -/
def BSt.init : BSt :=
  { back := fun _ => false, req := fun _ => .start, op := fun _ => .start, tr := [] }

/-- the atomic steps and calls of pkg/network/tunnel/server/session.go, and what the surroundings do; the lines are cited at the steps or in the transition function -/
inductive BAct
  /-- session.go:208-213 -/
  | register (j : Nat)
  /-- session.go:217-227: send the request; on error delete the id and return -/
  | sendReq (j : Nat) (ok : Bool)
  /-- session.go:234-237: timeout -/
  | timeout (j : Nat)
  /-- session.go:280-305: message arrives, `LoadAndDelete` -/
  | open_ (k id : Nat)
  /-- session.go:307-326: send the response; the write may fail -/
  | reply (k : Nat) (ok : Bool)
  /-- the rendezvous of session.go:233 and session.go:328 -/
  | handOver (j k : Nat)
deriving Repr, DecidableEq

/-- the transition function of the steps (pkg/network/tunnel/server/session.go); the lines are cited at the steps or at the cases -/
def bexec (st : BSt) : BAct → Option BSt
  | .register j =>
    match st.req j with
    | .start => some { st with back := upd st.back j true, req := upd st.req j .stored }
    | _ => none
  | .sendReq j ok =>
    match st.req j with
    | .stored =>
      if ok then some { st with req := upd st.req j .waiting, tr := .requested j :: st.tr }
      else some { st with back := upd st.back j false, req := upd st.req j .failed,
                          tr := .gaveUp j :: st.tr }
    | _ => none
  | .timeout j =>
    match st.req j with
    | .waiting => some { st with back := upd st.back j false, req := upd st.req j .failed,
                                 tr := .gaveUp j :: st.tr }
    | _ => none
  | .open_ k id =>
    match st.op k with
    | .start =>
      if st.back id then
        some { st with back := upd st.back id false, op := upd st.op k (.taken id),
                       tr := .opened k id :: st.tr }
      else some { st with op := upd st.op k .unknown, tr := .opened k id :: st.tr }
    | _ => none
  | .reply k ok =>
    match st.op k with
    | .taken id =>
      if ok then some { st with op := upd st.op k (.sending id), tr := .replyOk k :: st.tr }
      else some { st with op := upd st.op k .failed }
    | .unknown =>
      if ok then some { st with op := upd st.op k .rejected, tr := .replyErr k :: st.tr }
      else some { st with op := upd st.op k .failed }
    | _ => none
  | .handOver j k =>
    match st.req j, st.op k with
    | .waiting, .sending id =>
      if id = j then
        some { st with req := upd st.req j (.got k), op := upd st.op k (.delivered id),
                       tr := .got j k :: st.tr }
      else none
    | _, _ => none

/-- runs (specification; models no code) -/
inductive BReach : BSt → Prop
  | init : BReach BSt.init
  | step {st st' : BSt} (a : BAct) : BReach st → bexec st a = some st' → BReach st'

/-- Continuations of a state. specification / ghost trace; models no code -/
inductive BSteps : BSt → BSt → Prop
  | refl (st : BSt) : BSteps st st
  | step {st st1 st2 : BSt} (a : BAct) : BSteps st st1 → bexec st1 a = some st2 → BSteps st st2

/-! ### Client side -/

/-- `BaseReponse` (`/repo/pkg/network/tunnel/api/message.go:50-54`); Go strings. -/
structure BaseResponse where
  errorType : String
  errorMessage : String
  error : Option String
deriving Repr, DecidableEq

/-- The zero response (session.go:307). -/
def BaseResponse.zero : BaseResponse := ⟨"", "", none⟩

/-- `SetError` (message.go:56-60). -/
def BaseResponse.setError (_ : BaseResponse) (t e : String) : BaseResponse := ⟨t, e, some e⟩

/-- What the peer decodes: the field `Error` is tagged `json:"-"` (message.go:53), the others
are encoded (an omitted empty string decodes to the empty string). -/
def BaseResponse.transport (r : BaseResponse) : BaseResponse := { r with error := none }

/-- The end of the client's `OpenTCPStream` (client/session.go:95-111) for a decoded
response: `true` is a connection, `false` an error. -/
def clientOpenTCPStream (r : BaseResponse) : Bool :=
  match r.error with
  | some _ => false
  | none => true

/-- The end of the client's `createControlStream` (client/session.go:143-147). -/
def clientControlStream (r : BaseResponse) : Bool :=
  if r.errorMessage ≠ "" then false else true

end Verif.Tunnel
