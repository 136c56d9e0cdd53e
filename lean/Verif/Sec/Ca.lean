/-
Certificate authorities: /repo/pkg/ca/istio/istio_ca.go, /repo/pkg/ca/selfsigned/selfsigned.go,
/repo/pkg/tls/verify/util.go (`GetSANTypeFromSAN`).

Signing itself (CSR, RSA, x509 encoding, the gRPC call) is outside: a signing request either fails
or returns a certificate chosen by the CA.  Times are integers (nanoseconds).
-/
import Verif.Base

namespace Verif.Ca

/-! ### istio_ca.go -/

/-- An issued certificate: the request it answers, the host of that request, its `NotAfter`. the fields of `ca.Certificate` used in pkg/ca/istio/istio_ca.go:71-140 -/
structure Cert where
  req : Nat
  host : String
  notAfter : Int
deriving DecidableEq, Repr

/-- The configuration (istio_ca.go:32-40). -/
structure Config where
  endpoint : String
  endpointSAN : String
deriving DecidableEq, Repr

/-- observable events (ghost trace; models no code) -/
inductive Ev where
  /-- a signing request was sent to the CA; its number, host, requested seconds, at what time -/
  | asked (req : Nat) (host : String) (ttl : Int) (now : Int)
  /-- `GetCertificate host` returned this at time `now`, called with this `ttl` -/
  | returned (host : String) (ttl : Int) (c : Cert) (now : Int)
  | failed (host : String) (now : Int)
deriving DecidableEq, Repr

/-- `IstioCAClient` (istio_ca.go:42-48), plus the number of requests sent and the trace (newest first). -/
structure St where
  certs : List (String × Cert) := []
  reqs : Nat := 0
  trace : List Ev := []

/-- the map lookup `c.certificates[hostname]` in pkg/ca/istio/istio_ca.go:71-140 -/
def find (h : String) : List (String × Cert) → Option Cert
  | [] => none
  | (k, c) :: r => if k = h then some c else find h r

/-- What happens to a signing request. (the environment of pkg/ca/istio/istio_ca.go:71-140) -/
inductive Answer where
  /-- no client, no CSR: nothing was sent -/
  | notSent
  /-- sent, and refused or unusable -/
  | refused
  | signed (notAfter : Int)
deriving DecidableEq, Repr

/-- The reuse test `time.Since(certificate.NotAfter).Seconds() < 0` (istio_ca.go:84). -/
def stillValid (c : Cert) (now : Int) : Bool := now - c.notAfter < 0

/-- `GetCertificate` (istio_ca.go:72-132); one call holds the lock from start to end. -/
def getCertificate (s : St) (host : String) (ttl now : Int) (ans : Answer) : St :=
  match (find host s.certs).filter (stillValid · now) with
  | some c => { s with trace := .returned host ttl c now :: s.trace }
  | none =>
    match ans with
    | .notSent => { s with trace := .failed host now :: s.trace }
    | .refused => { s with reqs := s.reqs + 1, trace := .failed host now :: .asked s.reqs host ttl now :: s.trace }
    | .signed na =>
      let c : Cert := ⟨s.reqs, host, na⟩
      { s with certs := (host, c) :: s.certs, reqs := s.reqs + 1,
               trace := .returned host ttl c now :: .asked s.reqs host ttl now :: s.trace }

/-- Any history of calls. (specification; models no code) -/
inductive Reach : St → Prop where
  | init : Reach {}
  | call {s : St} (host : String) (ttl now : Int) (ans : Answer) : Reach s → Reach (getCertificate s host ttl now ans)

/-- The SAN expected of the CA (istio_ca.go:89-94). `split` is `net.SplitHostPort`: the host and
whether there was an error; on an error it returns an empty host. -/
def endpointSAN (split : String → Except String String) (c : Config) : String :=
  if c.endpointSAN = "" then
    match split c.endpoint with
    | .error _ => ""
    | .ok _ => c.endpointSAN
  else c.endpointSAN

/-! ### selfsigned.go -/

/-- pkg/tls/verify/san.go:26 -/
inductive SanType where
  | uri | email | ip | dns
deriving DecidableEq, Repr

/-- `strings.Contains`. -/
def hasSub (pat : List Char) : List Char → Bool
  | [] => pat.isEmpty
  | c :: r => pat.isPrefixOf (c :: r) || hasSub pat r

/-- `GetSANTypeFromSAN` (verify/util.go:80-94); `isIP` is `net.ParseIP(san) != nil`. -/
def sanType (isIP : List Char → Bool) (san : List Char) : SanType :=
  if hasSub [':', '/', '/'] san then .uri
  else if hasSub ['@'] san then .email
  else if isIP san then .ip
  else .dns

/-- The SAN lists of a template. as filled in pkg/ca/selfsigned/selfsigned.go:103-140 -/
structure Sans where
  uris : List (List Char) := []
  emails : List (List Char) := []
  ips : List (List Char) := []
  dns : List (List Char) := []
deriving DecidableEq, Repr

/-- The loop of `GetCertificateWithSigner` (selfsigned.go:102-121); `url` is whether `url.Parse` succeeds. -/
def addSans (isIP url : List Char → Bool) : Sans → List (List Char) → Option Sans
  | t, [] => some t
  | t, san :: r =>
    match sanType isIP san with
    | .uri => if url san then addSans isIP url { t with uris := [san] } r else none
    | .email => addSans isIP url { t with emails := t.emails ++ [san] } r
    | .ip => addSans isIP url { t with ips := t.ips ++ [san] } r
    | .dns => addSans isIP url { t with dns := t.dns ++ [san] } r

/-- `getNextSerial` (selfsigned.go:213-217): two separate atomic operations. -/
inductive SAct where
  | add (t : Nat)
  | load (t : Nat)
deriving DecidableEq, Repr

/-- the field `serial` of pkg/ca/selfsigned/selfsigned.go:44-51 with ghost fields (calls in progress, numbers given out) -/
structure Ser where
  serial : Nat := 0
  /-- callers between the two operations -/
  waiting : List Nat := []
  /-- serial numbers handed out, newest first -/
  out : List (Nat × Nat) := []

/-- the transition relation of pkg/ca/selfsigned/selfsigned.go:237-241 -/
def sexec (s : Ser) : SAct → Option Ser
  | .add t => if t ∈ s.waiting then none else some { s with serial := s.serial + 1, waiting := t :: s.waiting }
  | .load t => if t ∈ s.waiting then some { s with waiting := s.waiting.erase t, out := (t, s.serial) :: s.out } else none

/-- (specification; models no code) -/
inductive SReach (guard : Ser → SAct → Prop) : Ser → Prop where
  | init : SReach guard {}
  | step {s s' : Ser} {a : SAct} : SReach guard s → guard s a → sexec s a = some s' → SReach guard s'

/-- The root certificate of a client (selfsigned.go:71-88, 163-183): made before the options are applied. -/
structure Client where
  subject : String := ""
  keySize : Nat := 2048
  rootSubject : String := ""
  rootKeySize : Nat := 0
deriving DecidableEq, Repr

/-- pkg/ca/selfsigned/selfsigned.go:65-69, pkg/ca/selfsigned/selfsigned.go:71-75 -/
inductive COpt where
  | keySize (n : Nat)
  | subject (s : String)
deriving DecidableEq, Repr

/-- `createRootCA`: the subject is fixed, the key size the client's. pkg/ca/selfsigned/selfsigned.go:175-192 -/
def createRoot (c : Client) : Client := { c with rootSubject := "ACME CA", rootKeySize := c.keySize }

/-- pkg/ca/selfsigned/selfsigned.go:65-69, pkg/ca/selfsigned/selfsigned.go:71-75 -/
def COpt.apply (c : Client) : COpt → Client
  | .keySize n => { c with keySize := n }
  | .subject s => { c with subject := s }

/-- pkg/ca/selfsigned/selfsigned.go:77-93 -/
def newClient (opts : List COpt) : Client := opts.foldl COpt.apply (createRoot {})

end Verif.Ca
