import Verif.Base

/-!
The run of the code generator over all messages: `generate`
(components/kafka-protocol-go/cmd/gen/main.go:98-195) with `generateMessageFactoryCode` (main.go:337-386).

`S` is the text of a file. What is generated for one message (`generateMessageProcessors`,
main.go:197-252, modelled in `Kafka/Generator.lean`) is given as the files and texts in the order in
which they are added to the map, `none` for an error. Rendering of the factories is a parameter; it is a
function of the sorted requests and responses, as the imports are sorted. Failures while the files are
written are not modelled.
-/

namespace Verif.Kafka.GenAll

/-- `Type` of a message (main.go:130-153) -/
inductive Kind where
  | header
  | request
  | response
  | data
  | other
deriving DecidableEq

/-- An entry of the factories, `messageTypeSpecTemplateData` (main.go:92-96). -/
structure Entry where
  apiKey : Int
  pkg : String
  name : String
deriving DecidableEq

/-- A message specification (main.go:130-153): its kind, its entry, and the files generated for it. -/
structure Msg (S : Type) where
  kind : Kind
  entry : Entry
  files : Option (List (String × S))

/-- `sourceCode`, `requestsTypeSpec`, `responsesTypeSpec` (main.go:120-123) -/
structure St (S : Type) where
  code : List (String × S) := []
  reqs : List Entry := []
  resps : List Entry := []

/-- Adding files, each if there is none of the name yet (main.go:389-392, 459). -/
def addFiles {S : Type} (acc : List (String × S)) : List (String × S) → Option (List (String × S))
  | [] => some acc
  | (k, v) :: r => if acc.any (fun e => e.1 = k) then none else addFiles (acc ++ [(k, v)]) r

/-- The loop over the messages, in an order of iteration of the map (main.go:130-158). -/
def collect {S : Type} : List (Msg S) → St S → Option (St S)
  | [], s => some s
  | m :: r, s =>
    if m.kind = .other then none
    else if m.kind = .data then collect r s
    else match m.files with
      | none => none
      | some fs => match addFiles s.code fs with
        | none => none
        | some code => collect r
            { code := code
              reqs := if m.kind = .request then s.reqs ++ [m.entry] else s.reqs
              resps := if m.kind = .response then s.resps ++ [m.entry] else s.resps }

/-- the file of the factories (main.go:338) -/
def factoryFile : String := "pkg/protocol/messages/requests.go"

/-- `generate` up to the writing (main.go:98-161): the files. `srt` is `sort.Slice` by the API key. -/
def generate {S : Type} (srt : List Entry → List Entry) (render : List Entry → List Entry → Option S)
    (l : List (Msg S)) : Option (List (String × S)) :=
  match collect l {} with
  | none => none
  | some s =>
    if s.code.any (fun e => e.1 = factoryFile) then none
    else match render (srt s.reqs) (srt s.resps) with
      | none => none
      | some f => some (s.code ++ [(factoryFile, f)])

/-- The directory afterwards: each file is created or replaced, nothing is removed (main.go:163-192). -/
def write {S : Type} (disk : String → Option S) : Option (List (String × S)) → String → Option S
  | none, p => disk p
  | some out, p => match out.find? (fun e => e.1 = p) with
    | some e => some e.2
    | none => disk p

end Verif.Kafka.GenAll
