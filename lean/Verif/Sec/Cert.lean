/-
Certificate verification: pkg/tls/verify/verify.go, and its configuration from the mesh:
pkg/ads/cert_validation.go.

Not modelled, taken as parameters: X.509 parsing and chain building (`crypto/x509`), SHA-256 and the
encodings of hashes.
-/
import Verif.Sec.Match

namespace Verif.Cert
open Verif.Match

/-- What the verifier looks at in a parsed certificate. URIs and IP addresses are in the form their
`String` method gives. (pkg/tls/verify/verify.go:155-201) -/
structure Certificate where
  id : Nat
  emails : List Str := []
  uris : List Str := []
  dns : List Str := []
  ips : List Str := []
  /-- hex SHA-256 of the certificate -/
  hash : Str := []
  /-- base64 SHA-256 of the public key; `none` if it cannot be computed -/
  spki : Option Str := none
deriving DecidableEq

/-- Root certificates (a `CertPool`). (pkg/tls/verify/verify.go:34-81) -/
abbrev Pool := List Nat

/-- crypto/x509 as a parameter of pkg/tls/verify/verify.go:94-115 -/
structure X509 where
  /-- `x509.ParseCertificate` -/
  parse : List Nat → Option Certificate
  /-- `Certificate.Verify` against the given roots (`none`: the system's) with the given
  intermediates: the chains, or an error -/
  verify : Option Pool → List Certificate → Certificate → Option (List (List Certificate))

/-- `CertVerifierConfig` (verify.go:33-82); the clock is part of `X509.verify`. -/
structure Config where
  roots : Option Pool := none
  trustSystemRoots : Bool := false
  spkiHashes : List Str := []
  certHashes : List Str := []
  sans : List SanMatcher := []

/-- `for ... x509.ParseCertificate` (verify.go:158-165). -/
def parseAll (x : X509) : List (List Nat) → Option (List Certificate)
  | [] => some []
  | b :: bs => match x.parse b with
    | none => none
    | some c => (parseAll x bs).map (c :: ·)

/-- `verify` (verify.go:157-204). `certs[1:]` panics on an empty slice. -/
def verifyChain (x : X509) (c : Config) (raw : List (List Nat)) : Outcome (List (List Certificate)) :=
  match parseAll x raw with
  | none => .error
  | some [] => .panic
  | some (leaf :: inter) =>
    let roots : Option Pool := if !c.trustSystemRoots && c.roots.isNone then some [] else c.roots
    match roots with
    | some r =>
      let chains := x.verify (some r) inter leaf
      if !c.trustSystemRoots then
        match chains with
        | some cs => .ok cs
        | none => .error
      else
        match chains.getD [] with
        | [] => match x.verify none inter leaf with
          | some cs => .ok cs
          | none => .error
        | cs => .ok cs
    | none => match x.verify none inter leaf with
      | some cs => .ok cs
      | none => .error

/-- `verifySPKIHash` (verify.go:206-223). -/
def spkiOk (c : Config) (cert : Certificate) : Bool :=
  if c.spkiHashes.length < 1 then true else
  match cert.spki with
  | none => false
  | some h => c.spkiHashes.any (· == h)

/-- `verifyCertificateHash` (verify.go:225-239). -/
def hashOk (c : Config) (cert : Certificate) : Bool :=
  if c.certHashes.length < 1 then true else c.certHashes.any (· == cert.hash)

/-- The names a matcher of type `t` is tried on (verify.go:250-284). -/
def sansOf (t : SanType) (cert : Certificate) : List Str := match t with
  | .email => cert.emails
  | .uri => cert.uris
  | .dns => cert.dns
  | .ip => cert.ips
  | .other => []

/-- `verifyTypedSANs` (verify.go:241-288). -/
def sansOk (e : Env) (c : Config) (cert : Certificate) : Bool :=
  if c.sans.length < 1 then true else
  c.sans.any fun m => (sansOf m.type cert).any fun s => doMatch e m.matcher s

/-- `VerifyCertificate` (verify.go:95-117). -/
def verifyCertificate (e : Env) (x : X509) (c : Config) (raw : List (List Nat)) : Outcome (List Certificate) :=
  match verifyChain x c raw with
  | .panic => .panic
  | .error => .error
  | .ok chains =>
    match chains with
    | (leaf :: rest) :: _ =>
      if hashOk c leaf && spkiOk c leaf && sansOk e c leaf then .ok (leaf :: rest) else .error
    | _ => .error

/-! ### Configuration from the mesh (cert_validation.go) -/

/-- `SanType` of a SubjectAltNameMatcher in the protocol. as read in pkg/ads/cert_validation.go:28-108 -/
inductive WireSanType where
  | unspecified | email | dns | uri | ip | unknown
deriving DecidableEq, Repr

/-- a SubjectAltNameMatcher as read in pkg/ads/cert_validation.go:28-108 -/
structure WireSan where
  type : WireSanType
  matcher : Option Proto
deriving DecidableEq, Repr

/-- The relevant fields of a CertificateValidationContext. `trustedCA`: not given, or its contents
(empty if the file cannot be read or the variable is not set). (pkg/ads/cert_validation.go:28-108) -/
structure Validation where
  trustedCA : Option (List Nat) := none
  spki : List Str := []
  hash : List Str := []
  typed : List WireSan := []
  untyped : List (Option Proto) := []

/-- One matcher of the loop (cert_validation.go:69-105). -/
def addSan (e : Env) (w : WireSan) : List SanMatcher :=
  let one (t : SanType) : List SanMatcher := match fromProto e w.matcher with
    | some m => [⟨t, m⟩]
    | none => []
  match w.type with
  | .dns => one .dns
  | .email => one .email
  | .ip => one .ip
  | .uri => one .uri
  | .unspecified => [SanType.dns, .email, .ip, .uri].flatMap one
  | .unknown => []

/-- `GetCertVerifierConfigFromValidationContext` (cert_validation.go:28-108); `pool` is
`AppendCertsFromPEM`. -/
def configFrom (e : Env) (pool : List Nat → Pool) (v : Validation) : Config :=
  { roots := match v.trustedCA with
      | some pem => if pem.length > 0 then some (pool pem) else none
      | none => none
    spkiHashes := v.spki
    certHashes := v.hash
    sans := (v.typed ++ v.untyped.map fun m => WireSan.mk .unspecified m).flatMap (addSan e) }

end Verif.Cert
