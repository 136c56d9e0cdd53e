import Verif.Sec.Cert
import Verif.Wasm.Middleware

/-!
The names of a certificate as filters and logs see them: pkg/network/cert.go, and what
`SetEnvoyConnectionInfo` (pkg/proxywasm/middleware/envoy_middleware.go:175-196) puts into the
properties of a stream (`Wasm/Middleware.lean`). The subject's text (crypto/x509/pkix) is a parameter;
URIs and IP addresses are in the form their `String` method gives, as in `Sec/Cert.lean`.
-/

namespace Verif.CertNames
open Verif.Cert

/-- `GetFirstURI`, `GetFirstDNSName`, `GetFirstIP` (cert.go:73-95) -/
def first : List Match.Str → Match.Str
  | [] => []
  | s :: _ => s

/-- What filters get of a certificate (cert.go:65-95, envoy_middleware.go:185-196). -/
def seen (subject : Match.Str) (c : Certificate) : Wasm.Middleware.Cert where
  subject := subject
  uri := first c.uris
  dns := first c.dns
  digest := c.hash

/-- One kind of names in the text (cert.go:104-122); no names, no part. -/
def part (label : String) (names : List Match.Str) : List Match.Str :=
  if names.length > 0 then [label.toList ++ Heimdall.join ',' names] else []

/-- `String` (cert.go:97-125) -/
def text (subject : Match.Str) (c : Certificate) : Match.Str :=
  Heimdall.join ' ' ((if subject ≠ [] then ["Subject=".toList ++ subject] else []) ++
    part "URIs=" c.uris ++ part "DNSNames=" c.dns ++ part "IPs=" c.ips)

end Verif.CertNames
