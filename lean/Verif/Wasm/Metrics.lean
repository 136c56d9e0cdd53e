import Verif.Base
/-
Model of the metric handler of `/repo/pkg/proxywasm/metrics.go`.

* A Prometheus vector is described by its kind, its name and its label keys; a sample that
  reaches it by kind, name, label values and value (an `int64`; the conversion to `float64` and
  the arithmetic inside Prometheus are not modelled).
* `registry.Register` fails if the name is registered already (same labels:
  `AlreadyRegisteredError`, other labels: inconsistent descriptor) or if `valid` rejects the
  descriptor; what is registered initially is arbitrary.
* `ParseEnvoyStatTag` (regular expressions) is not modelled: calls take the parsed name and
  labels.  A label map is a list of pairs in canonical form, so that `reflect.DeepEqual` is
  equality.
* Every method holds the handler's mutex while it uses the maps: histories are sequences.
-/
namespace Verif.Wasm.Metrics

/-- metrics.go:36-41 -/
inductive Kind
  | counter | gauge | histogram
deriving Repr, DecidableEq

/-- as used in pkg/proxywasm/metrics.go -/
abbrev Labels := List (String × String)

/-- Label keys of a map. (pkg/proxywasm/metrics.go) -/
def keys (l : Labels) : List String := l.map (·.1)

/-- The `*prometheus.XVec` object. (pkg/proxywasm/metrics.go) -/
structure MVec where
  kind : Kind
  name : String
  keys : List String
deriving Repr, DecidableEq

/-- `metricWithLabels` (metrics.go:54-59). -/
structure Entry where
  id : Int
  name : String
  vec : MVec
  labels : Labels
deriving Repr, DecidableEq

/-- `prometheusMetricHandler` (metrics.go:43-52) and the names in its registry. -/
structure St where
  byID : Int → Option Entry
  byName : String → Option Entry
  latest : Int
  reg : String → Bool

/-- `NewPrometheusMetricHandler` (metrics.go:61-69). -/
def St.init (reg : String → Bool) : St :=
  { byID := fun _ => none, byName := fun _ => none, latest := 0, reg := reg }

/-- update of a component; models no code -/
def set {α β : Type} [DecidableEq α] (f : α → β) (a : α) (b : β) : α → β :=
  fun x => if x = a then b else f x

/-- `int32` increment. arithmetic of Go's fixed-size integers, as used in pkg/proxywasm/metrics.go -/
def incr (n : Int) : Int := if n = 2147483647 then -2147483648 else n + 1

/-- The closure `addMetric` (metrics.go:160-174). -/
def addMetric (st : St) (name : String) (vec : MVec) (labels : Labels) : St × Int :=
  let id := incr st.latest
  let e : Entry := ⟨id, name, vec, labels⟩
  ({ st with latest := id, byName := set st.byName name (some e), byID := set st.byID id (some e) }, id)

/-- `Add` (metrics.go:156-199). -/
def add (valid : MVec → Bool) (st : St) (name : String) (vec : MVec) (labels : Labels) : St × Int :=
  match st.byName name with
  | some e =>
    if e.labels = labels then (st, e.id)
    else addMetric st e.name e.vec labels
  | none =>
    if st.reg name || !valid vec then (st, -1)
    else addMetric { st with reg := set st.reg name true } name vec labels

/-- Calls. `kind = none`: any number that is not a metric type. (pkg/proxywasm/metrics.go) -/
inductive Op
  | define (kind : Option Kind) (name : String) (labels : Labels)
  | remove (id : Int)
  | record (id : Int) (value : Int)
deriving Repr, DecidableEq

/-- What a call does that can be seen: the id returned, the sample that reached Prometheus,
`ErrInvalidMetricType`, or a panic inside Prometheus. the result of a call (pkg/proxywasm/metrics.go), an error or a panic -/
inductive Out
  | id (i : Int)
  | unit
  | sample (kind : Kind) (name : String) (labels : Labels) (value : Int)
  | invalid
  | panic
deriving Repr, DecidableEq

/-- `DefineMetric` (metrics.go:77-108), `Remove` (metrics.go:201-210), `RecordMetric` and
`IncrementMetric` (metrics.go:110-154; the same code).  `With` panics if the label keys are not
those of the vector, a counter's `Add` if the value is negative. -/
def step (valid : MVec → Bool) (st : St) : Op → St × Out
  | .define none _ _ => (st, .id 0)
  | .define (some k) name labels =>
    let r := add valid st name ⟨k, name, keys labels⟩ labels
    (r.1, .id r.2)
  | .remove id =>
    match st.byID id with
    | none => (st, .unit)
    | some e => ({ st with byID := set st.byID id none, byName := set st.byName e.name none }, .unit)
  | .record id v =>
    match st.byID id with
    | none => (st, .invalid)
    | some e =>
      if keys e.labels ≠ e.vec.keys then (st, .panic)
      else if e.vec.kind = .counter ∧ v < 0 then (st, .panic)
      else (st, .sample e.vec.kind e.vec.name e.labels v)

/-- Runs a history, given newest call first; returns the final state and what was seen, newest
first. specification / ghost trace; models no code -/
def run (valid : MVec → Bool) (reg : String → Bool) : List Op → St × List (Op × Out)
  | [] => (St.init reg, [])
  | op :: ops =>
    let r := run valid reg ops
    let s := step valid r.1 op
    (s.1, (op, s.2) :: r.2)

end Verif.Wasm.Metrics
