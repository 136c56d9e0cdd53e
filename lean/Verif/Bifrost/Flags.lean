/-!
The options of the commands `bifrost server` and `bifrost client`, and what the tunnel client says of
itself: components/bifrost/cmd/bifrost/main.go:36-45, pkg/commands/server.go:62-64, 141-148,
pkg/commands/client.go:52-124, 127-137, and the client of the mesh integration pkg/istio/istio.go:523-551.

Of viper (not part of the repository): `BindPFlags` stores each flag under its name, replacing what was
there; `Get` takes the value of the flag stored if it was set on the command line, else a variable of the
environment that is not empty (`AutomaticEnv`), else the default of the flag stored. Of cobra: only the
flags of the command that runs are read from the command line; the last one given counts, and one that is
not declared is an error. Texts are a type `T`; the conversion to booleans, lists and maps is left out.
-/

namespace Verif.Bifrost.Flags

/-- A flag of a command: its name and default. (server.go:141-143, client.go:127-133) -/
structure Flag (T : Type) where
  name : T
  default : T
deriving DecidableEq

/-- The flags of a command. (server.go:52-151, client.go:43-140) -/
abbrev Cmd (T : Type) := List (Flag T)

/-- The flag of a name in a command. (server.go:141-143, client.go:127-133) -/
def decl {T : Type} [DecidableEq T] (c : Cmd T) (n : T) : Option (Flag T) := c.find? (·.name = n)

/-- What viper stores: for a name, the command that declared it and the flag. (server.go:146) -/
abbrev Store (T : Type) := T → Option (Nat × Flag T)

/-- `viper.BindPFlags(cmd.Flags())` of the `i`-th command (server.go:146, client.go:135) -/
def bind {T : Type} [DecidableEq T] (s : Store T) (i : Nat) (c : Cmd T) : Store T :=
  fun n => match decl c n with
    | some f => some (i, f)
    | none => s n

/-- The commands are made, and their flags bound, in order. (main.go:43-44) -/
def bindAll {T : Type} [DecidableEq T] (s : Store T) : Nat → List (Cmd T) → Store T
  | _, [] => s
  | i, c :: r => bindAll (bind s i c) (i + 1) r

/-- The last value given for a name on the command line. (main.go:48) -/
def given {T : Type} [DecidableEq T] (args : List (T × T)) (n : T) : Option T :=
  (args.reverse.find? (·.1 = n)).map (·.2)

/-- `viper.GetString` and the like while the `run`-th command runs with arguments `args`
(server.go:62-64, client.go:52-58); `env` are the variables that are not empty. -/
def get {T : Type} [DecidableEq T] (st : Store T) (env : T → Option T) (run : Nat) (args : List (T × T)) (n : T) : Option T :=
  match st n with
  | none => env n
  | some (i, f) =>
    match (if i = run then given args n else none) with
    | some v => some v
    | none => match env n with
      | some v => some v
      | none => some f.default

/-- The flags of the server (server.go:141-143) -/
def server : Cmd String := [⟨"server-address", "0.0.0.0:8001"⟩, ⟨"healthcheck-address", "0.0.0.0:8002"⟩, ⟨"with-nasp", "false"⟩]

/-- The flags of the client (client.go:127-133) -/
def client : Cmd String := [⟨"server-address", "127.0.0.1:8001"⟩, ⟨"local-address", "[]"⟩, ⟨"with-nasp", "false"⟩,
  ⟨"with-nasp-bifrost", "true"⟩, ⟨"auth-token", ""⟩, ⟨"k8s-service-name", ""⟩, ⟨"label", "[]"⟩]

/-- `bifrost` (main.go:43-44): the server is command 0, the client command 1. -/
def bifrost : Store String := bindAll (fun _ => none) 0 [server, client]

/-! #### What the client says of itself -/

/-- Labels, the last one of a name counts. (client.go:105-109) -/
abbrev Labels (T : Type) := T → Option T

/-- `labels[k] = v` (client.go:106, istio.go:530) -/
def Labels.set {T : Type} [DecidableEq T] (l : Labels T) (k v : T) : Labels T := fun n => if n = k then some v else l n

/-- What a client of the tunnel sends with its request for a port: token and labels. (client.go:96-115) -/
structure Says (T : Type) where
  token : T
  labels : Labels T

/-- The options given to the client, and those the mesh integration has: the token of its CA, its labels
and canonical service name. (client.go:52-58; istio.go:529-541) -/
structure Input (T : Type) where
  nasp : Bool
  internal : Bool
  token : T
  service : T
  labels : Labels T
  caToken : T
  envLabels : Labels T
  envService : T

/-- The client through which the ports are exposed (client.go:73-124; istio.go:523-551): the direct
one, or the one of the mesh integration. `empty` is the text without characters. -/
def says {T : Type} [DecidableEq T] (empty nameLabel : T) (i : Input T) : Says T :=
  if !i.nasp || !i.internal then
    { token := if i.token ≠ empty then i.token else empty
      labels := if i.service ≠ empty then i.labels.set nameLabel i.service else i.labels }
  else { token := i.caToken, labels := i.envLabels.set nameLabel i.envService }

/-- The labels of the workload's environment after `Run`: `GetLabels` hands out the map itself, which is
then written (environment/istio.go:96-102; istio.go:529-530). Without an address of the tunnel server
nothing is written; its address may also come from the environment, `address` (istio.go:178-180). -/
def envAfter {T : Type} [DecidableEq T] (nameLabel : T) (address : Bool) (i : Input T) : Labels T :=
  if i.nasp && (i.internal || address) then i.envLabels.set nameLabel i.envService else i.envLabels

end Verif.Bifrost.Flags
