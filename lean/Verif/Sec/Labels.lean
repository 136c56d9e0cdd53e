/-
Workload labels: pkg/k8s/labels/labels.go.
-/
import Verif.Base

namespace Verif.Labels

/-- `getLabelValueWithDefault` (labels.go:84-92). -/
def valueWithDefault (labels : String → Option String) : List String → String → String
  | [], d => d
  | k :: ks, d => match labels k with
    | some v => v
    | none => valueWithDefault labels ks d

/-- `IstioCanonicalServiceName` (labels.go:68-74). -/
def canonicalName (labels : String → Option String) (workload : String) : String :=
  valueWithDefault labels ["service.istio.io/canonical-name", "app.kubernetes.io/name", "app"] workload

/-- `IstioCanonicalServiceRevision` (labels.go:76-82). -/
def canonicalRevision (labels : String → Option String) : String :=
  valueWithDefault labels ["service.istio.io/canonical-revision", "app.kubernetes.io/version", "version"] "latest"

end Verif.Labels
