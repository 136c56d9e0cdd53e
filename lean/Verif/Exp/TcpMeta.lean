import Verif.Wasm.Pairs
/-
Model of the filter that exchanges metadata between the two ends of a TCP connection (experimental/wasm-tcp-metadata/src/lib.rs, shipped as
`tcp-metadata-exchange-filter.wasm` and used by default for every TCP connection, pkg/istio/istio.go:786-836), together with the connection that calls it
(pkg/proxywasm/tcp/conn.go).

* A string of the filter is the list of its UTF-8 bytes; the checks that bytes are UTF-8 are left out.
* The host reads a part of a buffer as the ABI prescribes: what there is of it. `set(0, 0, x)` puts `x` in front, `set(0, MAX, x)` replaces everything.
* A flat buffer is the node it contains (its bytes: Wasm/FlatNode.lean). The local metadata are kept as Base64 text and decoded before use (lib.rs:74, 180): left out.
* Protobuf messages are modelled byte by byte. A hash map is a list without repeated keys; the order in which its entries are written is arbitrary (`ord`).
* A panic of the filter is `none`.
-/
namespace Verif.TcpMeta
open Verif

/-! ### protobuf (crate protobuf 3.2, used in lib.rs:72-74, 215-216, 801) -/

/-- a varint (`write_raw_varint32`, used in lib.rs:801): at most `fuel + 1` bytes -/
def encVar : Nat → Nat → Bytes
  | 0, n => [UInt8.ofNat (n % 128)]
  | fuel + 1, n => if n < 128 then [UInt8.ofNat n] else UInt8.ofNat (128 + n % 128) :: encVar fuel (n / 128)

/-- reading a varint (used in lib.rs:215): the number and the rest -/
def decVar : Nat → Bytes → Option (Nat × Bytes)
  | _, [] => none
  | 0, b :: r => if b.toNat < 128 then some (b.toNat, r) else none
  | fuel + 1, b :: r => if b.toNat < 128 then some (b.toNat, r) else match decVar fuel r with
    | some (n, r') => some (b.toNat - 128 + 128 * n, r')
    | none => none

/-- a field of bytes: tag, length, bytes (used in lib.rs:801) -/
def encData (k : Nat) (d : Bytes) : Bytes := encVar 9 (8 * k + 2) ++ encVar 9 d.length ++ d

/-- the content of a field -/
inductive Pay where
  | num (n : Nat)
  | data (d : Bytes)
deriving DecidableEq, Repr

/-- the content of a field of wire type `t` and what follows (used in lib.rs:215). Groups (wire types 3 and 4), which the crate skips, are errors here. -/
def payload (t : Nat) (bs : Bytes) : Option (Pay × Bytes) :=
  if t = 0 then (decVar 9 bs).map fun (n, r) => (.num n, r)
  else if t = 1 then if 8 ≤ bs.length then some (.data (bs.take 8), bs.drop 8) else none
  else if t = 2 then match decVar 9 bs with
    | some (n, r) => if n ≤ r.length then some (.data (r.take n), r.drop n) else none
    | none => none
  else if t = 5 then if 4 ≤ bs.length then some (.data (bs.take 4), bs.drop 4) else none
  else none

/-- the fields of a message in order, with their wire types (used in lib.rs:215); every field has at least one byte, so `fuel` is the length -/
def fieldsOf : Nat → Bytes → Option (List (Nat × Nat × Pay))
  | _, [] => some []
  | 0, _ => none
  | fuel + 1, bs => match decVar 9 bs with
    | none => none
    | some (tag, r) => if tag / 8 = 0 then none else match payload (tag % 8) r with
      | none => none
      | some (p, r') => (fieldsOf fuel r').map ((tag / 8, tag % 8, p) :: ·)

/-- the fields of a message (used in lib.rs:215) -/
def wire (bs : Bytes) : Option (List (Nat × Nat × Pay)) := fieldsOf bs.length bs

/-- the last field `k` of bytes: later ones replace earlier ones (used in lib.rs:215) -/
def lastData (k : Nat) : List (Nat × Nat × Pay) → Option Bytes
  | [] => none
  | (n, t, p) :: r => match lastData k r with
    | some d => some d
    | none => match p with
      | .data d => if n = k ∧ t = 2 then some d else none
      | .num _ => none

/-- a `google.protobuf.Value` (used in lib.rs:216-233): a text, a struct, or any other kind -/
inductive Val where
  | str (s : Bytes)
  | struct (fs : List (Bytes × Val))
  | other

/-- the entries of a map -/
abbrev Fields := List (Bytes × Val)

/-- `HashMap::insert` (used in lib.rs:462, 551 and below lib.rs:216) -/
def put {α : Type} (k : Bytes) (v : α) : List (Bytes × α) → List (Bytes × α)
  | [] => [(k, v)]
  | (k', v') :: r => if k' = k then (k, v) :: r else (k', v') :: put k v r

/-- a map from entries, later ones replace earlier ones (used in lib.rs:461-463, 588-595) -/
def toMap {α : Type} (es : List (Bytes × α)) : List (Bytes × α) := es.foldl (fun m e => put e.1 e.2 m) []

/-- `HashMap::get` (used in lib.rs:218, 389) -/
def get {α : Type} (k : Bytes) : List (Bytes × α) → Option α
  | [] => none
  | (k', v) :: r => if k' = k then some v else get k r

/-- the kind of a value is the last one given: numbers 1 to 6 (google/protobuf/struct.proto, used in lib.rs:216); `rec` reads a struct -/
def pickVal (rec : Bytes → Option Fields) : List (Nat × Nat × Pay) → Option Val → Option Val
  | [], v => v
  | (k, t, p) :: r, v => match p with
    | .data d =>
      if k = 3 ∧ t = 2 then pickVal rec r (some (.str d))
      else if k = 5 ∧ t = 2 then match rec d with
        | some fs => pickVal rec r (some (.struct fs))
        | none => none
      else if k = 2 ∨ k = 6 then pickVal rec r (some .other)
      else pickVal rec r v
    | .num _ => if k = 1 ∨ k = 4 then pickVal rec r (some .other) else pickVal rec r v

/-- a value (used in lib.rs:216) -/
def parseVal (rec : Bytes → Option Fields) (bs : Bytes) : Option Val := (wire bs).bind fun fs => pickVal rec fs (some .other)

/-- an entry of the map of a struct: key 1, value 2 (used in lib.rs:216) -/
def parseEntry (rec : Bytes → Option Fields) (e : Bytes) : Option (Bytes × Val) := (wire e).bind fun fs =>
  match lastData 2 fs with
  | none => some ((lastData 1 fs).getD [], .other)
  | some v => (parseVal rec v).map fun v => ((lastData 1 fs).getD [], v)

/-- all entries of a struct (used in lib.rs:216) -/
def parseEntries (rec : Bytes → Option Fields) : List (Nat × Nat × Pay) → Option Fields
  | [] => some []
  | (k, t, p) :: r => match p with
    | .data d => if k = 1 ∧ t = 2 then (parseEntry rec d).bind fun e => (parseEntries rec r).map (e :: ·) else parseEntries rec r
    | .num _ => parseEntries rec r

/-- `Struct::parse_from_bytes` (lib.rs:216, 298); `depth`: how deep structs may be nested (the crate allows 100 messages) -/
def parseStruct : Nat → Bytes → Option Fields
  | 0, _ => none
  | depth + 1, bs => (wire bs).bind fun fs => (parseEntries (parseStruct depth) fs).map toMap

/-- `Any::parse_from_bytes` and `Struct::parse_from_bytes` of its value (lib.rs:215-216, 297-298); without a value it is empty -/
def parseMeta (bs : Bytes) : Option Fields := (wire bs).bind fun fs => parseStruct 33 ((lastData 2 fs).getD [])

/-- a value that is a text (lib.rs:534, written below lib.rs:801) -/
def valStr (s : Bytes) : Bytes := encData 3 s

/-- a value that is a struct (lib.rs:597, written below lib.rs:801) -/
def valStruct (b : Bytes) : Bytes := encData 5 b

/-- a struct from the encoded values of its map, in the order in which the hash map lists them (lib.rs:801) -/
def encStruct (ord : List (Bytes × Bytes) → List (Bytes × Bytes)) (m : List (Bytes × Bytes)) : Bytes :=
  (ord m).flatMap fun e => encData 1 (encData 1 e.1 ++ encData 2 e.2)

/-! ### nodes -/

/-- text as bytes (lib.rs:28-29 and the names of fields) -/
def txt (s : String) : Bytes := s.toUTF8.toList

/-- the content of a `FlatNode` (src/node_info.fbs; lib.rs:486-516) -/
structure Node where
  name : Option Bytes
  ns : Option Bytes
  owner : Option Bytes
  workload : Option Bytes
  version : Option Bytes
  mesh : Option Bytes
  cluster : Option Bytes
  containers : Option (List Bytes)
  labels : Option (List (Bytes × Bytes))
  platform : Option (List (Bytes × Bytes))
  ips : Option (List Bytes)
deriving DecidableEq, Repr

/-- `split(",")` (lib.rs:426, 476): the parts between commas -/
def split : Bytes → List Bytes
  | [] => [[]]
  | b :: r => if b = 44 then [] :: split r else match split r with
    | p :: ps => (b :: p) :: ps
    | [] => [[b]]

/-- `split_terminator(",")` (lib.rs:426, 476, 731, 741): an empty part at the end is left out -/
def splitTerm (s : Bytes) : List Bytes := if (split s).getLast? = some [] then (split s).dropLast else split s

/-- `join(",")` (lib.rs:624, 637; pkg/environment/istio.go:199-200) -/
def join : List Bytes → Bytes
  | [] => []
  | [p] => p
  | p :: ps => p ++ 44 :: join ps

/-- `string_value()`: empty for anything that is no text (lib.rs:390) -/
def Val.text : Val → Bytes
  | .str s => s
  | _ => []

/-- `struct_value()`: empty for anything that is no struct (lib.rs:228, 437) -/
def Val.fields : Val → Fields
  | .struct fs => fs
  | _ => []

/-- insertion into a `BTreeMap` of texts (lib.rs:438, 461): sorted by key, a known key gets the new value -/
def insertSorted (k v : Bytes) : List (Bytes × Bytes) → List (Bytes × Bytes)
  | [] => [(k, v)]
  | (k', v') :: r => if k = k' then (k, v) :: r else if Wasm.Pairs.leBytes k k' then (k, v) :: (k', v') :: r else (k', v') :: insertSorted k v r

/-- the sorted pairs of a struct (lib.rs:433-450, 453-473) -/
def sortedPairs (fs : Fields) : List (Bytes × Bytes) := fs.foldl (fun m e => insertSorted e.1 e.2.text m) []

/-- `extract_node_flat_buffer_from_struct` (lib.rs:385-521) -/
def nodeOf (fs : Fields) : Node :=
  { name := (get (txt "NAME") fs).map Val.text
    ns := (get (txt "NAMESPACE") fs).map Val.text
    owner := (get (txt "OWNER") fs).map Val.text
    workload := (get (txt "WORKLOAD_NAME") fs).map Val.text
    version := (get (txt "ISTIO_VERSION") fs).map Val.text
    mesh := (get (txt "MESH_ID") fs).map Val.text
    cluster := (get (txt "CLUSTER_ID") fs).map Val.text
    containers := (get (txt "APP_CONTAINERS") fs).map fun v => splitTerm v.text
    labels := (get (txt "LABELS") fs).map fun v => sortedPairs v.fields
    platform := (get (txt "PLATFORM_METADATA") fs).map fun v => sortedPairs v.fields
    ips := (get (txt "INSTANCE_IPS") fs).map fun v => splitTerm v.text }

/-- a text field of the struct (lib.rs:532-575) -/
def strField (k : String) (v : Option Bytes) : List (Bytes × Bytes) := match v with
  | some s => [(txt k, valStr s)]
  | none => []

/-- a map field of the struct (lib.rs:583-616) -/
def mapField (ord : List (Bytes × Bytes) → List (Bytes × Bytes)) (k : String) (v : Option (List (Bytes × Bytes))) : List (Bytes × Bytes) := match v with
  | some m => [(txt k, valStruct (encStruct ord (toMap (m.map fun e => (e.1, valStr e.2)))))]
  | none => []

/-- the struct of a node (lib.rs:527-645), before it becomes a map -/
def structOf (ord : List (Bytes × Bytes) → List (Bytes × Bytes)) (n : Node) : List (Bytes × Bytes) :=
  strField "NAME" n.name ++ strField "NAMESPACE" n.ns ++ strField "OWNER" n.owner ++ strField "WORKLOAD_NAME" n.workload ++
  strField "ISTIO_VERSION" n.version ++ strField "MESH_ID" n.mesh ++ strField "CLUSTER_ID" n.cluster ++
  mapField ord "LABELS" n.labels ++ mapField ord "PLATFORM_METADATA" n.platform ++
  strField "APP_CONTAINERS" (n.containers.map join) ++ strField "INSTANCE_IPS" (n.ips.map join)

/-- the type of the message inside (`Any::pack`, lib.rs:658) -/
def typeUrl : Bytes := txt "type.googleapis.com/google.protobuf.Struct"

/-- `extract_struct_from_node_flat_buffer` and `serialize_to_string_deterministic` (lib.rs:523-660, 796-802): the bytes of the metadata -/
def encMeta (ord : List (Bytes × Bytes) → List (Bytes × Bytes)) (n : Node) (id : Bytes) : Bytes :=
  encData 1 typeUrl ++ encData 2 (encStruct ord [(txt "x-envoy-peer-metadata", valStruct (encStruct ord (toMap (structOf ord n)))),
    (txt "x-envoy-peer-metadata-id", valStr id)])

/-! ### the local node -/

/-- `&bytes[p..p + n]`, a panic outside (lib.rs:779, 781) -/
def slice (b : Bytes) (p n : Nat) : Option Bytes := if p + n ≤ b.length then some ((b.drop p).take n) else none

/-- `u32::from_le_bytes(bytes[s..s + 4])` (lib.rs:774, 778, 781) -/
def u32At (b : Bytes) (s : Nat) : Option Nat := match slice b s 4 with
  | some [x0, x1, x2, x3] => some (x0.toNat + 256 * x1.toNat + 65536 * x2.toNat + 16777216 * x3.toNat)
  | _ => none

/-- the loop of `deserialize_map` (lib.rs:776-791) -/
def desLoop (b : Bytes) : Nat → Nat → Nat → Option (List (Bytes × Bytes))
  | 0, _, _ => some []
  | c + 1, n, p =>
    match u32At b (4 + n * 8) with
    | none => none
    | some ks => match slice b p ks with
      | none => none
      | some key => match u32At b (4 + n * 8 + 4) with
        | none => none
        | some vs => match slice b (p + (ks + 1)) vs with
          | none => none
          | some val => (desLoop b c (n + 1) (p + (ks + 1) + (vs + 1))).map ((key, val) :: ·)

/-- `deserialize_map` (lib.rs:769-794) -/
def deserializeMap (b : Bytes) : Option (List (Bytes × Bytes)) := if b = [] then some [] else match u32At b 0 with
  | none => none
  | some size => desLoop b size 0 (4 + size * 8)

/-- what the host has under `node.metadata` (pkg/environment/istio.go:177-212) -/
structure Props where
  name : Option Bytes
  ns : Option Bytes
  owner : Option Bytes
  workload : Option Bytes
  version : Option Bytes
  mesh : Option Bytes
  cluster : Option Bytes
  labels : Option Bytes
  platform : Option Bytes
  containers : Option Bytes
  ips : Option Bytes
deriving DecidableEq, Repr

/-- a map the filter asks for: an absent one is empty (lib.rs:698-724) -/
def mapProp : Option Bytes → Option (List (Bytes × Bytes))
  | none => some []
  | some b => deserializeMap b

/-- `extract_local_node_flat_buffer` (lib.rs:662-767): the texts must be there -/
def localNode (p : Props) : Option Node :=
  match p.name, p.ns, p.owner, p.workload, p.version, p.mesh, p.cluster, mapProp p.labels, mapProp p.platform with
  | some name, some ns, some owner, some workload, some version, some mesh, some cluster, some labels, some platform => some
    { name := some name
      ns := some ns
      owner := some owner
      workload := some workload
      version := some version
      mesh := some mesh
      cluster := some cluster
      containers := some ((p.containers.map splitTerm).getD [])
      labels := some labels
      platform := some platform
      ips := some ((p.ips.map splitTerm).getD []) }
  | _, _, _, _, _, _, _, _, _ => none

/-- the environment of a workload (pkg/environment/istio.go:26-52, the fields used here) -/
structure IstioEnv where
  podName : Bytes
  podNamespace : Bytes
  podOwner : Bytes
  workloadName : Bytes
  istioVersion : Bytes
  meshID : Bytes
  clusterID : Bytes
  labels : List (Bytes × Bytes)
  platform : List (Bytes × Bytes)
  containers : List Bytes
  ips : List Bytes

/-- `GetNodePropertiesFromEnvironment` (pkg/environment/istio.go:177-212) as the filter gets it: texts as they are, maps as pairs
(pkg/proxywasm/properties.go:66-106). Additional metadata are left out. -/
def IstioEnv.props (e : IstioEnv) : Props :=
  { name := some e.podName
    ns := some e.podNamespace
    owner := some e.podOwner
    workload := some e.workloadName
    version := some e.istioVersion
    mesh := some e.meshID
    cluster := some e.clusterID
    labels := some (Wasm.Pairs.stringify (.anyMap (e.labels.map fun l => (l.1, some l.2))))
    platform := some (Wasm.Pairs.stringify (.anyMap (e.platform.map fun l => (l.1, some l.2))))
    containers := some (Wasm.Pairs.stringify (.string (join e.containers)))
    ips := some (Wasm.Pairs.stringify (.string (join e.ips))) }

/-! ### the exchange -/

/-- the magic number, big endian (lib.rs:26, 177, 204) -/
def magic : Bytes := [0x3D, 0x23, 0x04, 0x67]

/-- `BigEndian::write_u32` (lib.rs:181; `as u32`) -/
def be32 (n : Nat) : Bytes := [UInt8.ofNat (n / 16777216), UInt8.ofNat (n / 65536), UInt8.ofNat (n / 256), UInt8.ofNat n]

/-- `BigEndian::read_u32`, a panic if there are less than four bytes (lib.rs:211) -/
def readBe32 : Bytes → Option Nat
  | a :: b :: c :: d :: _ => some (a.toNat * 16777216 + b.toNat * 65536 + c.toNat * 256 + d.toNat)
  | _ => none

/-- the metadata as they are sent (lib.rs:173-183, 246-256, 341-351) -/
def frame (md : Bytes) : Bytes := magic ++ be32 md.length ++ md

/-- the state of a stream context (lib.rs:48-60), with the properties it set for the peer -/
structure Filt where
  md : Bytes
  alpn : String
  dir : Int
  idReceived : Bool
  received : Bool
  exchanged : Bool
  sent : Bool
  disabled : Bool
  peerId : Option Bytes
  peer : Option Node
deriving DecidableEq, Repr

/-- a new stream context (lib.rs:96-110) -/
def Filt.new (md : Bytes) : Filt :=
  { md := md
    alpn := ""
    dir := 0
    idReceived := false
    received := false
    exchanged := false
    sent := false
    disabled := false
    peerId := none
    peer := none }

/-- the properties of the stream: its direction, and the negotiated protocol (lib.rs:120, 135-137) -/
structure Env where
  dir : Int
  alpn : String

/-- `set_direction` and `set_alpn` (lib.rs:117-142): both are looked up once -/
def Filt.look (f : Filt) (e : Env) : Filt :=
  let f := if f.dir = 0 then { f with dir := e.dir } else f
  if f.alpn = "" then { f with alpn := if e.alpn = "" then "unspecified" else e.alpn } else f

/-- a part of a buffer (`get_downstream_data`, lib.rs:197, 211-212) -/
def part (buf : Bytes) (start n : Nat) : Bytes := (buf.drop start).take n

/-- the metadata at the beginning of a buffer: what they say and what is behind them (lib.rs:208-241, 290-322); `size` is the size the host gave -/
def readMeta (buf : Bytes) (size : Nat) : Option (Fields × Bytes) :=
  match readBe32 (part buf 4 4) with
  | none => none
  | some n => match parseMeta (part buf 8 n) with
    | none => none
    | some fs => some (fs, part buf (n + 8) size)

/-- what the metadata say is set as properties (lib.rs:218-233, 300-312) -/
def Filt.learn (f : Filt) (fs : Fields) : Filt :=
  let f := match get (txt "x-envoy-peer-metadata-id") fs with
    | some v => { f with peerId := some v.text, idReceived := true }
    | none => f
  match get (txt "x-envoy-peer-metadata") fs with
  | some v => { f with peer := some (nodeOf v.fields), received := true }
  | none => f

/-- `on_downstream_data` (lib.rs:146-270): the state and both buffers; the answer is always to continue -/
def onDown (e : Env) (size : Nat) (f : Filt) (down up : Bytes) : Option (Filt × Bytes × Bytes) :=
  if f.disabled then some (f, down, up)
  else if f.exchanged then some (f, down, up)
  else
    let f := f.look e
    if f.dir = 2 then
      if f.alpn ≠ "istio-peer-exchange" ∨ f.sent then some (f, down, up)
      else some ({ f with sent := true }, frame f.md ++ down, up)
    else if f.dir = 1 then
      if (part down 0 4).length < 4 then some (f, down, up)
      else if part down 0 4 = magic then match readMeta down size with
        | none => none
        | some (fs, rest) =>
          let f := f.learn fs
          if f.received ∧ f.idReceived ∧ ¬ f.sent then some ({ f with sent := true, exchanged := true }, rest, frame f.md ++ up)
          else some (f, rest, up)
      else some ({ f with exchanged := true }, down, up)
    else some (f, down, up)

/-- `on_upstream_data` (lib.rs:272-382); in the direction of an outgoing connection the peer's properties are set, but not the flags (lib.rs:300-312) -/
def onUp (e : Env) (size : Nat) (f : Filt) (down up : Bytes) : Option (Filt × Bytes × Bytes) :=
  if f.disabled then some (f, down, up)
  else if f.exchanged then some (f, down, up)
  else
    let f := f.look e
    if f.dir = 2 then
      if (part up 0 4).length < 4 then some (f, down, up)
      else if part up 0 4 = magic then match readMeta up size with
        | none => none
        | some (fs, rest) => some ({ f.learn fs with idReceived := f.idReceived, received := f.received, exchanged := true }, down, rest)
      else some ({ f with disabled := true }, down, up)
    else if f.dir = 1 then
      if ¬ f.received ∨ ¬ f.idReceived ∨ f.sent then some (f, down, up)
      else some ({ f with exchanged := true, sent := true }, frame f.md ++ down, up)
    else some (f, down, up)

/-! ### the connection -/

/-- one end of a connection with this filter (pkg/proxywasm/tcp/conn.go:37-53): the buffers between calls. Reads and writes happen one after the other. -/
structure Side where
  f : Filt
  rbuf : Bytes
  wbuf : Bytes
deriving DecidableEq, Repr

/-- a new connection (conn.go:55-72) -/
def Side.new (md : Bytes) : Side := ⟨.new md, [], []⟩

/-- `Write` (conn.go:191-235): what is sent. An outgoing connection (2) has its written data in the downstream buffer, an accepted one (1) in the upstream buffer. -/
def Side.write (s : Side) (e : Env) (b : Bytes) : Option (Side × Bytes) :=
  if e.dir = 2 then match onDown e b.length s.f (s.wbuf ++ b) s.rbuf with
    | none => none
    | some (f, down, up) => some (⟨f, up, []⟩, down)
  else match onUp e b.length s.f s.rbuf (s.wbuf ++ b) with
    | none => none
    | some (f, down, up) => some (⟨f, down, []⟩, up)

/-- `read` of data that arrived together (conn.go:114-189): what the program gets (at once or with the next reads) -/
def Side.read (s : Side) (e : Env) (c : Bytes) : Option (Side × Bytes) :=
  if e.dir = 2 then match onUp e c.length s.f s.wbuf (s.rbuf ++ c) with
    | none => none
    | some (f, down, up) => some (⟨f, [], down⟩, up)
  else match onDown e c.length s.f (s.rbuf ++ c) s.wbuf with
    | none => none
    | some (f, down, up) => some (⟨f, [], up⟩, down)

/-- what happens on a connection between two programs with this filter -/
inductive Act where
  /-- the client writes -/
  | cw (b : Bytes)
  /-- the server gets the next `k` bytes that are under way -/
  | sr (k : Nat)
  /-- the server writes -/
  | sw (b : Bytes)
  /-- the client gets the next `k` bytes that are under way -/
  | cr (k : Nat)
deriving DecidableEq, Repr

/-- both ends, the bytes under way, and (ghost) what the programs wrote and got -/
structure Sys where
  c : Side
  s : Side
  cs : Bytes
  sc : Bytes
  cWrote : Bytes
  sGot : Bytes
  sWrote : Bytes
  cGot : Bytes
  cRead : Bool
  sRead : Bool
deriving DecidableEq, Repr

/-- a new connection between two programs (conn.go:55-72) -/
def Sys.new (mc ms : Bytes) : Sys :=
  { c := .new mc
    s := .new ms
    cs := []
    sc := []
    cWrote := []
    sGot := []
    sWrote := []
    cGot := []
    cRead := false
    sRead := false }

/-- one step (conn.go:102-235); nothing if a filter panics -/
def Sys.exec (ce se : Env) (x : Sys) : Act → Option Sys
  | .cw b => match x.c.write ce b with
    | none => none
    | some (c, out) => some { x with c := c, cs := x.cs ++ out, cWrote := x.cWrote ++ b }
  | .sr k => match x.s.read se (x.cs.take k) with
    | none => none
    | some (s, got) => some { x with s := s, cs := x.cs.drop k, sGot := x.sGot ++ got, sRead := true }
  | .sw b => match x.s.write se b with
    | none => none
    | some (s, out) => some { x with s := s, sc := x.sc ++ out, sWrote := x.sWrote ++ b }
  | .cr k => match x.c.read ce (x.sc.take k) with
    | none => none
    | some (c, got) => some { x with c := c, sc := x.sc.drop k, cGot := x.cGot ++ got, cRead := true }

end Verif.TcpMeta
