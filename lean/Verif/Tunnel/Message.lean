/-
Model of the messages on the streams of the tunnel: `/repo/pkg/network/tunnel/api/message.go:25-33, 107-141` (`Message`, `CreateMessage`,
`SendMessage`), `/repo/pkg/network/tunnel/common/messagehandler.go:44-64` (`Handle`), `/repo/pkg/network/tunnel/common/messagehandler_registry.go:40-52`,
`buffered` and its uses in `/repo/pkg/network/tunnel/client/session.go:65-73, 87-111, 129-150` and `handleStream` in
`/repo/pkg/network/tunnel/server/session.go:254-264`.

JSON is a parameter: how a message looks on the wire and how many bytes a decoder needs to recognise it (`Codec`, with its laws in the
specification). What Go's `json.Decoder` does with a stream is modelled: it reads the stream in pieces of any size, keeps what it has not
used, and decodes into the variable it is given, so that fields which are absent on the wire keep their value. A message is written with one
`Write`, which the stream passes on in one go.
-/
namespace Verif.Tunnel.Msg

/-- bytes (as used in api/message.go) -/
abbrev Bytes := List UInt8

/-- `Message` (api/message.go:25-29) -/
structure Message where
  id : String := ""
  type : String := ""
  data : Bytes := []
deriving DecidableEq, Repr

/-- a message on the wire: all fields are `omitempty` (api/message.go:25-29) -/
structure Wire where
  id : Option String
  type : Option String
  data : Option Bytes
deriving DecidableEq, Repr

/-- `json.Marshal` of a `Message` (api/message.go:25-29, 124): empty fields are left out -/
def Message.wire (m : Message) : Wire :=
  ⟨if m.id = "" then none else some m.id, if m.type = "" then none else some m.type, if m.data = [] then none else some m.data⟩

/-- `json.Unmarshal` into a variable holding `old` (messagehandler.go:51): absent fields are left alone -/
def Message.fill (old : Message) (w : Wire) : Message := ⟨w.id.getD old.id, w.type.getD old.type, w.data.getD old.data⟩

/-- what the scanner of the JSON decoder says about the bytes it has (Go's encoding/json, as used in messagehandler.go:49-56) -/
inductive Scan where
  /-- a complete value and what follows -/
  | done (w : Wire) (rest : Bytes)
  /-- more bytes are needed -/
  | more
  | bad
deriving DecidableEq, Repr

/-- JSON (Go's encoding/json, as used in api/message.go and messagehandler.go) -/
structure Codec where
  enc : Wire → Bytes
  scan : Bytes → Scan

/-- what `Decode` returns: the value, what the decoder still holds and what is left of the stream; end of file without a value; an error
(Go's encoding/json, as used in messagehandler.go:51-56) -/
inductive Res where
  | value (w : Wire) (buf : Bytes) (rest : List Bytes)
  | eof
  | error
deriving DecidableEq, Repr

/-- `Decoder.Decode` (Go's encoding/json): `buf` is what the decoder holds, `cs` are the pieces in which the stream arrives, until it ends -/
def decode (c : Codec) : Bytes → List Bytes → Res
  | buf, cs => match c.scan buf with
    | .done w r => .value w r cs
    | .bad => .error
    | .more => match cs with
      | [] => if buf = [] then .eof else .error
      | x :: cs => decode c (buf ++ x) cs
termination_by _ cs => cs.length

/-- how `Handle` ends (messagehandler.go:51-56) -/
inductive End where
  | ok | error
deriving DecidableEq, Repr

/-- the loop of `Handle` (messagehandler.go:47-63): the messages for which a goroutine is started, in this order, and how it ends. `msg` is
the one variable of all rounds (line 47). `n` bounds the number of rounds; the value needs at least a byte -/
def handleLoop (c : Codec) : Nat → Message → Bytes → List Bytes → List Message × End
  | 0, _, _, _ => ([], .error)
  | n + 1, msg, buf, cs => match decode c buf cs with
    | .value w buf cs =>
      let msg := msg.fill w
      let r := handleLoop c n msg buf cs
      (msg :: r.1, r.2)
    | .eof => ([], .ok)
    | .error => ([], .error)

/-- `Handle` (messagehandler.go:44-64) of a stream arriving in pieces; every round takes at least a byte or a piece -/
def handle (c : Codec) (cs : List Bytes) : List Message × End := handleLoop c (cs.flatten.length + 1) {} [] cs

/-- `HandleMessage` (messagehandler_registry.go:44-52): the handler called, none: ErrInvalidMessageType -/
def route (handlers : List (String × Nat)) (m : Message) : Option Nat := (handlers.find? (·.1 == m.type)).map (·.2)

/-- `CreateMessageWithID` (api/message.go:111-130); `data` is the payload as JSON, at least the four bytes of `null` -/
def create (id type : String) (data : Bytes) : Message := ⟨id, type, data⟩

/-- the bytes `SendMessage` writes (api/message.go:124, 132-141) -/
def Message.bytes (c : Codec) (m : Message) : Bytes := c.enc m.wire

/-- what a reader of `buffered` gets after the answer was decoded (client/session.go:87-110, 129-148): first what the decoder holds, then the
rest of the stream. None: no connection -/
def openStream (c : Codec) (cs : List Bytes) : Option (Message × List Bytes) :=
  match decode c [] cs with
  | .value w buf cs => some (({} : Message).fill w, buf :: cs)
  | _ => none

/-- what is left of a stream after the server read the first message (server/session.go:257-266): the decoder is thrown away with what it
holds -/
def acceptStream (c : Codec) (cs : List Bytes) : Option (Message × List Bytes) :=
  match decode c [] cs with
  | .value w _ cs => some (({} : Message).fill w, cs)
  | _ => none

/-! ### The goroutines of Handle -/

/-- messages being handled: a goroutine each (messagehandler.go:58-62) -/
structure St where
  /-- still to be read -/
  todo : List Message
  /-- started and not yet run -/
  live : List Message := []
  /-- handed to their handlers, newest first -/
  done : List Message := []
deriving DecidableEq, Repr

/-- the steps: the loop starts a goroutine, the `i`th goroutine runs (messagehandler.go:50-63) -/
inductive Act where
  | read | go (i : Nat)
deriving DecidableEq, Repr

/-- one step (messagehandler.go:50-63) -/
def exec (s : St) : Act → Option St
  | .read => match s.todo with
    | [] => none
    | m :: l => some { s with todo := l, live := s.live ++ [m] }
  | .go i => match s.live[i]? with
    | none => none
    | some m => some { s with live := s.live.eraseIdx i, done := m :: s.done }

/-- runs (specification; models no code) -/
def run : St → List Act → Option St
  | s, [] => some s
  | s, a :: as => match exec s a with
    | some s' => run s' as
    | none => none

end Verif.Tunnel.Msg
