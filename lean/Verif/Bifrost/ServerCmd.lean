import Verif.Tunnel.Control

/-!
The start of the command `bifrost server`: components/bifrost/pkg/commands/server.go:61-139. What the parts
do (connecting to the mesh, reading the configuration of the cluster, starting the managers, making the
server) is not modelled, only whether each succeeds. The sessions are those of `Tunnel/Control.lean`.
-/

namespace Verif.Bifrost.ServerCmd

/-- What the command finds. (server.go:61-139) -/
structure World where
  nasp : Bool
  /-- the handler of the mesh is made and runs -/
  naspOk : Bool
  /-- `POD_NAMESPACE` is set -/
  pod : Bool
  /-- the configuration of the cluster is read -/
  kubeOk : Bool
  /-- the managers of config maps and of endpoints -/
  configMapsOk : Bool
  endpointsOk : Bool
  serverOk : Bool

/-- The server started: through the mesh, with the Kubernetes authenticator, with the port events
subscribed. (server.go:67, 81, 103-124) -/
structure Started where
  mesh : Bool := false
  auth : Bool := false
  ports : Bool := false
deriving DecidableEq

/-- `RunE` (server.go:61-139), `none` if it returns an error before the server is started. -/
def start (w : World) : Option Started :=
  if w.nasp && !w.naspOk then none
  else
    let s : Started := { mesh := w.nasp }
    if w.pod then
      if !w.kubeOk then none
      else if !w.configMapsOk then none
      else if !w.endpointsOk then none
      else if !w.serverOk then none
      else some { s with auth := true, ports := true }
    else if !w.serverOk then none
    else some s

/-- What answers a request for a control stream: the Kubernetes authenticator, if there is one, with any
answer of the review. (server.go:98-101) -/
def Answers (_ : Tunnel.CSt) : Tunnel.CAct → Prop
  | .authenticate _ out => ∃ r, out = Tunnel.k8sAuthenticate r
  | _ => True

end Verif.Bifrost.ServerCmd
