import Verif.Ads.Client
/-
Model of `isInitialized` (`/repo/pkg/ads/client.go:108-139`), which gates every answer of the
client's API (`api_http_client.go:133,151`, `api_tcp_client.go:181,199`,
`api_listener_properties.go:163,184`, `client.go:495`): while it is false a lookup stores no
result and a refresh does nothing.
-/
namespace Verif.Ads

/-- Which discovery services the management server provides
(`config.ManagementServerCapabilities`). (pkg/ads/client.go:108-139) -/
structure Provided where
  cluster : Bool
  endpoint : Bool
  listener : Bool
  route : Bool
  nameTable : Bool
deriving Repr, DecidableEq

/-- `isInitialized` (client.go:108-139): the types not provided are skipped. -/
def Client.isInitialized (p : Provided) (c : Client) : Bool :=
  (!p.cluster || c.cl.init) && (!p.endpoint || c.ep.init) && (!p.listener || c.ls.init) &&
    (!p.route || c.rt.init) && (!p.nameTable || c.nt.init)

end Verif.Ads
