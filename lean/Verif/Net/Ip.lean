/-
Model of what libnasp does with addresses as text: `GetAddress` and the address filter of endpoints (pkg/ads/internal/endpoint/endpoint.go:74-84, 112-129), the keys of
the endpoint counters (pkg/ads/clusterloadassignments.go:99-118, pkg/ads/internal/loadbalancer/lb_wrr.go:60-63, lb_wlr.go:98-101), `ListeningOn`
(pkg/ads/internal/listener/listener.go:51-64) and `matchPrefixRanges` (pkg/ads/api_listener_properties.go:318-337), with what they call in Go's net package (Go 1.20,
go.mod:3): `ParseIP`, `IP.String`, `TCPAddr.String`, `JoinHostPort`, `SplitHostPort`, `ParseCIDR`, `IPNet.Contains`, and how a dialer reads its address.

Text is a list of characters: every character these functions look for is ASCII. An address is a list of bytes as in Go, nothing stands for nil.
-/
namespace Verif.Ip

/-- text (endpoint.go:81) -/
abbrev Str := List Char

/-- bytes of an address, 4 or 16 of them (endpoint.go:81) -/
abbrev Bytes := List UInt8

/-! ### reading (net/parse.go, net/ip.go; used in endpoint.go:81) -/

/-- a decimal digit (net/parse.go `dtoi`, used in endpoint.go:81) -/
def decFig (c : Char) : Option Nat := if 48 ≤ c.toNat ∧ c.toNat ≤ 57 then some (c.toNat - 48) else none

/-- a hexadecimal digit (net/parse.go `xtoi`, used in endpoint.go:81) -/
def hexFig (c : Char) : Option Nat :=
  if 48 ≤ c.toNat ∧ c.toNat ≤ 57 then some (c.toNat - 48)
  else if 97 ≤ c.toNat ∧ c.toNat ≤ 102 then some (c.toNat - 87)
  else if 65 ≤ c.toNat ∧ c.toNat ≤ 70 then some (c.toNat - 55)
  else none

/-- the loop of `dtoi` and `xtoi` (net/parse.go, used in endpoint.go:81): the number and how many digits it has; nothing if it is too big (0xFFFFFF or more) -/
def toi (fig : Char → Option Nat) (base : Nat) : Nat → Nat → Str → Option (Nat × Nat)
  | n, i, [] => some (n, i)
  | n, i, c :: s => match fig c with
    | some d => if 0xFFFFFF ≤ n * base + d then none else toi fig base (n * base + d) (i + 1) s
    | none => some (n, i)

/-- `dtoi` (net/parse.go, used in endpoint.go:81) -/
def dtoi (s : Str) : Option (Nat × Nat) := match toi decFig 10 0 0 s with
  | some (n, i) => if i = 0 then none else some (n, i)
  | none => none

/-- `xtoi` (net/parse.go, used in endpoint.go:81) -/
def xtoi (s : Str) : Option (Nat × Nat) := match toi hexFig 16 0 0 s with
  | some (n, i) => if i = 0 then none else some (n, i)
  | none => none

/-- a number of `parseIPv4`: at most 255, without leading zeros (net/ip.go, used in endpoint.go:81) -/
def v4num (s : Str) : Option (UInt8 × Str) := match dtoi s with
  | none => none
  | some (n, c) => if 0xFF < n then none else if 1 < c ∧ s.head? = some '0' then none else some (UInt8.ofNat n, s.drop c)

/-- the other numbers of `parseIPv4`, each behind a dot, and then the end (net/ip.go, used in endpoint.go:81) -/
def v4more : Nat → Str → Option Bytes
  | 0, s => if s = [] then some [] else none
  | k + 1, '.' :: s => match v4num s with
    | none => none
    | some (n, r) => (v4more k r).map (n :: ·)
  | _ + 1, _ => none

/-- `parseIPv4` (net/ip.go, used in endpoint.go:81): four bytes -/
def parseIPv4 (s : Str) : Option Bytes := match v4num s with
  | none => none
  | some (n, r) => (v4more 3 r).map (n :: ·)

/-- the loop of `parseIPv6` (net/ip.go, used in endpoint.go:81): the bytes read, the position of `::`, and the rest of the text. `k`: how many groups may follow -/
def v6loop : Nat → Bytes → Option Nat → Str → Option (Bytes × Option Nat × Str)
  | 0, acc, e, s => some (acc, e, s)
  | k + 1, acc, e, s => match xtoi s with
    | none => none
    | some (n, c) =>
      if 0xFFFF < n then none
      else if (s.drop c).head? = some '.' then
        if e = none ∧ acc.length ≠ 12 then none
        else if 16 < acc.length + 4 then none
        else match parseIPv4 s with
          | none => none
          | some p => some (acc ++ p, e, [])
      else
        let acc' := acc ++ [UInt8.ofNat (n / 256), UInt8.ofNat n]
        match s.drop c with
        | [] => some (acc', e, [])
        | [_] => none
        | ':' :: ':' :: r =>
          if e ≠ none then none
          else if r = [] then some (acc', some acc'.length, [])
          else v6loop k acc' (some acc'.length) r
        | ':' :: r => v6loop k acc' e r
        | _ => none

/-- the end of `parseIPv6` (net/ip.go, used in endpoint.go:81): the whole text must be used, and `::` stands for the missing groups -/
def v6end : Option (Bytes × Option Nat × Str) → Option Bytes
  | none => none
  | some (acc, e, s) =>
    if s ≠ [] then none
    else if acc.length < 16 then match e with
      | none => none
      | some p => some (acc.take p ++ List.replicate (16 - acc.length) 0 ++ acc.drop p)
    else if e ≠ none then none else some acc

/-- `parseIPv6` (net/ip.go, used in endpoint.go:81) -/
def parseIPv6 : Str → Option Bytes
  | ':' :: ':' :: r => if r = [] then some (List.replicate 16 0) else v6end (v6loop 8 [] (some 0) r)
  | s => v6end (v6loop 8 [] none s)

/-- `IPv4`: the 16 bytes of an IPv4 address (net/ip.go, used in endpoint.go:81) -/
def to16 (p : Bytes) : Bytes := List.replicate 10 0 ++ [0xFF, 0xFF] ++ p

/-- `net.ParseIP` (net/ip.go, used in endpoint.go:81): the first dot or colon decides; `all` is the whole text -/
def parseFrom (all : Str) : Str → Option Bytes
  | [] => none
  | c :: r => if c = '.' then (parseIPv4 all).map to16 else if c = ':' then parseIPv6 all else parseFrom all r

/-- `net.ParseIP` (net/ip.go, used in endpoint.go:81) -/
def parseIP (s : Str) : Option Bytes := parseFrom s s

/-! ### writing -/

/-- the character of a digit (net/ip.go, used in endpoint.go:96) -/
def figOf (d : Nat) : Char := if d < 10 then Char.ofNat (48 + d) else Char.ofNat (87 + d)

/-- a number below `base ^ (fuel + 1)` without leading zeros (net/ip.go `ubtoa`, `appendHex`, `Itoa`; used in endpoint.go:96) -/
def numText (base : Nat) : Nat → Nat → Str
  | 0, n => [figOf (n % base)]
  | fuel + 1, n => if n < base then [figOf n] else numText base fuel (n / base) ++ [figOf (n % base)]

/-- a decimal number of at most 20 digits (used in endpoint.go:96) -/
def dec (n : Nat) : Str := numText 10 20 n

/-- a hexadecimal number of at most 8 digits (used in endpoint.go:96) -/
def hexText (n : Nat) : Str := numText 16 7 n

/-- `To4` (net/ip.go, used in endpoint.go:96) -/
def to4 (ip : Bytes) : Option Bytes :=
  if ip.length = 4 then some ip
  else if ip.length = 16 ∧ ip.take 12 = List.replicate 10 0 ++ [0xFF, 0xFF] then some (ip.drop 12)
  else none

/-- the 16-bit groups of an address (net/ip.go `IP.String`, used in endpoint.go:96) -/
def groups : Bytes → List Nat
  | a :: b :: r => (a.toNat * 256 + b.toNat) :: groups r
  | _ => []

/-- parts with a separator between them (net/ip.go, used in endpoint.go:96) -/
def join (c : Char) : List Str → Str
  | [] => []
  | [w] => w
  | w :: ws => w ++ c :: join c ws

/-- how many zeros a list begins with (net/ip.go `IP.String`, used in endpoint.go:96) -/
def zeros : List Nat → Nat
  | 0 :: r => zeros r + 1
  | _ => 0

/-- the search for the longest run of zeros in `IP.String` (net/ip.go, used in endpoint.go:96): `skip` groups belong to the run found last -/
def findRun : Nat → Nat → List Nat → Nat × Nat → Nat × Nat
  | _, _, [], b => b
  | k + 1, i, _ :: t, b => findRun k (i + 1) t b
  | 0, i, g :: t, b => if b.2 - b.1 < zeros (g :: t) then findRun (zeros (g :: t)) (i + 1) t (i, i + zeros (g :: t)) else findRun 0 (i + 1) t b

/-- `IP.String` for an IPv6 address (net/ip.go, used in endpoint.go:96) -/
def text6 (g : List Nat) : Str :=
  let b := findRun 0 0 g (0, 0)
  if b.2 - b.1 ≤ 1 then join ':' (g.map hexText)
  else join ':' ((g.take b.1).map hexText) ++ ':' :: ':' :: join ':' ((g.drop b.2).map hexText)

/-- `IP.String`, with the empty text for nil as in `TCPAddr.String` (net/ip.go, net/tcpsock.go; used in endpoint.go:96) -/
def ipText : Option Bytes → Str
  | none => []
  | some ip => match to4 ip with
    | some p => join '.' (p.map fun b => dec b.toNat)
    | none => text6 (groups ip)

/-- `net.JoinHostPort` (net/ipsock.go, used in endpoint.go:96 and pkg/ads/api_http_client.go:198-207) -/
def joinHostPort (h p : Str) : Str := if ':' ∈ h then '[' :: h ++ ']' :: ':' :: p else h ++ ':' :: p

/-- a `net.TCPAddr` (endpoint.go:80-83) -/
structure Addr where
  ip : Option Bytes
  port : Nat
deriving DecidableEq, Repr

/-- `TCPAddr.String` (net/tcpsock.go; used in endpoint.go:96, 124, clusterloadassignments.go:113, listener.go:58) -/
def Addr.text (a : Addr) : Str := joinHostPort (ipText a.ip) (dec a.port)

/-! ### where a connection goes -/

/-- the last colon of a text: what is before and behind it (net/ipsock.go `SplitHostPort`, used in pkg/proxywasm/middleware/envoy_middleware.go:207) -/
def splitLast : Str → Option (Str × Str)
  | [] => none
  | c :: r => match splitLast r with
    | some (a, b) => some (c :: a, b)
    | none => if c = ':' then some ([], r) else none

/-- `net.SplitHostPort` (net/ipsock.go, used in envoy_middleware.go:207, 218, pkg/ca/istio/istio_ca.go:90); nothing for an error -/
def splitHostPort (s : Str) : Option (Str × Str) := match splitLast s with
  | none => none
  | some (before, port) => match s with
    | '[' :: inner =>
      let host := inner.takeWhile (· ≠ ']')
      if before = '[' :: host ++ [']'] then
        if '[' ∈ inner ∨ ']' ∈ port then none else some (host, port)
      else none
    | _ => if ':' ∈ before ∨ '[' ∈ s ∨ ']' ∈ s then none else some (before, port)

/-- what a dialer connects to (net/ipsock.go `internetAddrList`, called with the text of an address below pkg/network/dialer.go:146) -/
inductive Target where
  /-- an address and a port -/
  | ip (a : Bytes) (port : Nat)
  /-- no host: the machine the program runs on -/
  | here (port : Nat)
  /-- a name, which is looked up -/
  | name (h : Str) (port : Nat)
deriving DecidableEq, Repr

/-- how a dialer reads its address (net/ipsock.go `internetAddrList`, net/port.go; below dialer.go:146): nothing for an error. Only numbers are modelled as ports. -/
def dialTarget (s : Str) : Option Target := match splitHostPort s with
  | none => none
  | some (h, p) => match dtoi p with
    | none => none
    | some (n, i) => if i ≠ p.length ∨ 65535 < n then none
      else if h = [] then some (.here n) else match parseIP h with
        | some a => some (.ip a n)
        | none => some (.name h n)

/-- `GetAddress` of an endpoint with a socket address (endpoint.go:74-84; the same in clusterloadassignments.go:108-111, lb_wrr.go:60-63, lb_wlr.go:98-101,
listener.go:54-57) -/
def getAddress (host : Str) (port : Nat) : Addr := ⟨parseIP host, port⟩

/-- `listeningOnFilter.Filter` for a listener with a socket address (listener.go:51-60) -/
def listeningOn (host : Str) (port : Nat) (a : Addr) : Bool := (getAddress host port).text = a.text

/-- `endpointWithSocketAddressFilter.Filter` for an endpoint with a socket address (endpoint.go:112-129); `HasSocketAddress` gives no address -/
def withSocketAddress (host : Str) (port : Nat) : Option Addr → Bool
  | none => true
  | some a => a.text = (getAddress host port).text

/-! ### ranges -/

/-- `b & m` for a mask byte with `k` leading ones, as arithmetic (net/ip.go, used in api_listener_properties.go:332) -/
def maskByte (k : Nat) (b : UInt8) : Nat := b.toNat / 2 ^ (8 - k) * 2 ^ (8 - k)

/-- `IP.Mask` with `CIDRMask(n, …)` (net/ip.go `ParseCIDR`, used in api_listener_properties.go:327) -/
def mask : Nat → Bytes → Bytes
  | _, [] => []
  | n, b :: r => UInt8.ofNat (maskByte (min n 8) b) :: mask (n - 8) r

/-- the comparison of `IPNet.Contains` (net/ip.go, used in api_listener_properties.go:332): byte by byte under the mask -/
def agree : Nat → Bytes → Bytes → Bool
  | _, [], _ => true
  | _, _, [] => true
  | n, a :: r, b :: t => decide (maskByte (min n 8) a = maskByte (min n 8) b) && agree (n - 8) r t

/-- `net.IPNet`: the masked address and how many ones the mask has (net/ip.go, used in api_listener_properties.go:327); the mask is as long as the address -/
structure Net where
  ip : Bytes
  ones : Nat
deriving DecidableEq, Repr

/-- `net.ParseCIDR` (net/ip.go, used in api_listener_properties.go:327) -/
def parseCIDR (s : Str) : Option Net :=
  if '/' ∈ s then
    let addr := s.takeWhile (· ≠ '/')
    let mk := (s.dropWhile (· ≠ '/')).drop 1
    let (ip, bits) := match parseIPv4 addr with
      | some p => (some p, 32)
      | none => (parseIPv6 addr, 128)
    match ip, dtoi mk with
    | some p, some (n, i) => if i ≠ mk.length ∨ bits < n then none else some ⟨mask n p, n⟩
    | _, _ => none
  else none

/-- `IPNet.Contains` (net/ip.go, used in api_listener_properties.go:332) -/
def Net.contains (c : Net) (ip : Option Bytes) : Bool := match ip with
  | none => false
  | some a =>
    let nn := (to4 c.ip).getD c.ip
    let ones := if nn.length < c.ip.length then c.ones - 96 else c.ones
    let x := (to4 a).getD a
    decide (x.length = nn.length) && agree ones nn x

/-- a range of a filter chain: prefix and length (api_listener_properties.go:319-326) -/
structure Range where
  pre : Str
  len : Nat
deriving DecidableEq, Repr

/-- `matchPrefixRanges` (api_listener_properties.go:318-337); nothing for an error -/
def matchPrefixRanges : List Range → Option Bytes → Option Bool
  | [], _ => some false
  | r :: rs, ip =>
    if r.pre = [] then matchPrefixRanges rs ip
    else match parseCIDR (r.pre ++ '/' :: dec r.len) with
      | none => none
      | some c => if c.contains ip then some true else matchPrefixRanges rs ip

end Verif.Ip
