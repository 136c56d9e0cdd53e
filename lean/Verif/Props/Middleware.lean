import Verif.Wasm.Middleware
/-
Property theorems C117 (the identity of the client is forwarded), C118 (attributes seen by filters), C119 (the order of the shipped
middlewares does not matter).
-/
namespace Verif.Props.Middleware
open Verif.Heimdall Verif.Wasm.Http Verif.Wasm.Middleware

/-! ### lemmas -/

theorem P_inj {a b : List String} : P a = P b ↔ a = b := by
  constructor
  · intro h
    induction a generalizing b with
    | nil => cases b with
      | nil => rfl
      | cons => cases h
    | cons x a ih => cases b with
      | nil => cases h
      | cons y b =>
        simp only [P, List.map_cons, List.cons.injEq] at h
        rw [String.toList_injective h.1, ih h.2]
  · rintro rfl; rfl

theorem read_nil (p : Path) : read [] p = none := rfl

theorem read_append (s t : Store) (p : Path) : read (s ++ t) p = (read t p).or (read s p) := by
  unfold Verif.Wasm.Middleware.read
  rw [List.reverse_append, List.find?_append]
  cases t.reverse.find? (fun e => decide (e.1 = p)) <;> rfl

theorem read_cons (e : Path × Val) (t : Store) (p : Path) : read (e :: t) p = (read t p).or (if e.1 = p then some e.2 else none) := by
  have := read_append [e] t p
  rw [List.singleton_append] at this
  rw [this]
  congr 1
  unfold Verif.Wasm.Middleware.read
  by_cases h : e.1 = p
  · simp [h]
  · simp [h]

/-- the first parts of the paths written -/
def Heads (l : List String) (s : Store) : Prop := ∀ e ∈ s, ∃ k ∈ l, ∃ x, e.1 = P (k :: x)

theorem heads_nil (l : List String) : Heads l [] := by intro e he; cases he
theorem heads_append {l : List String} {s t : Store} (h1 : Heads l s) (h2 : Heads l t) : Heads l (s ++ t) := by
  intro e he
  rcases List.mem_append.mp he with h | h
  · exact h1 e h
  · exact h2 e h
theorem heads_cons {l : List String} {k : String} {x : List String} {v : Val} {s : Store} (hk : k ∈ l) (h : Heads l s) : Heads l ((P (k :: x), v) :: s) := by
  intro e he
  rcases List.mem_cons.mp he with rfl | he
  · exact ⟨k, hk, x, rfl⟩
  · exact h e he
theorem heads_under {l : List String} {k : String} (hk : k ∈ l) (m : List (String × Val)) : Heads l (under k m) := by
  intro e he
  simp only [under, List.mem_map] at he
  obtain ⟨a, _, rfl⟩ := he
  exact ⟨k, hk, [a.1], rfl⟩

theorem read_heads {l : List String} {s : Store} (h : Heads l s) {k : String} (x : List String) (hk : k ∉ l) : read s (P (k :: x)) = none := by
  unfold Verif.Wasm.Middleware.read
  rw [List.find?_eq_none.mpr]
  · rfl
  · intro e he
    obtain ⟨k', hk', x', hx⟩ := h e (List.mem_reverse.mp he)
    rw [hx]
    simp only [decide_eq_true_eq, P_inj, List.cons.injEq, not_and]
    intro hkk
    exact absurd (hkk ▸ hk') hk

theorem conn_heads (d : Dir) (c : Conn) : Heads ["connection", "upstream", "source", "destination"] (connInfo d c) := by
  have A : ∀ k ∈ ["connection", "upstream", "source", "destination"], ∀ a, Heads ["connection", "upstream", "source", "destination"] (addrProps k a) := by
    intro k hk a
    rcases a with _ | ⟨ip, _ | n⟩
    · exact heads_nil _
    · exact heads_cons hk (heads_nil _)
    · exact heads_cons hk (heads_cons hk (heads_nil _))
  have hck : d.connKey ∈ ["connection", "upstream", "source", "destination"] := by cases d <;> simp [Dir.connKey]
  have hrk : d.remoteKey ∈ ["connection", "upstream", "source", "destination"] := by cases d <;> simp [Dir.remoteKey]
  unfold connInfo
  refine heads_append (heads_append (heads_append (heads_append (heads_append (heads_append ?_ ?_) ?_) ?_) ?_) ?_) ?_
  · exact heads_under hck _
  · cases c.peer with
    | none => exact heads_nil _
    | some p => exact heads_under hck _
  · cases c.loc with
    | none => exact heads_nil _
    | some p => exact heads_under hck _
  · cases c.tls with
    | none => exact heads_nil _
    | some p => exact heads_under hck _
  · exact A _ hrk _
  · exact A _ (by simp) _
  · exact A _ (by simp) _

/-! ### C118: requests -/

theorem request_read (r : Request) (t : Int) (s : Store) :
    let s' := s ++ requestProps r t
    read s' (P ["request", "path"]) = some (.str r.uri) ∧ read s' (P ["request", "url_path"]) = some (.str r.path) ∧
    read s' (P ["request", "host"]) = some (.str r.host) ∧ read s' (P ["request", "scheme"]) = some (.str r.scheme) ∧
    read s' (P ["request", "method"]) = some (.str r.method) ∧ read s' (P ["request", "protocol"]) = some (.str r.proto) ∧
    read s' (P ["request", "query"]) = some (.str r.query) ∧ read s' (P ["request", "headers"]) = some (.smap (flatten r.header)) ∧
    read s' (P ["request", "trailers"]) = some (.smap (flatten r.trailer)) ∧
    read s' (P ["request", "time"]) = some (.int t) := by
  simp only [read_append, requestProps, under, List.map_cons, List.map_nil, read_cons, read_nil, P_inj]
  simp


/-- **C118** Filters see the request: its path, host, scheme, method, protocol, query, headers and trailers, and when it
came. -/
theorem C118_request (render : Xfcc → Str) (d : Dir) (now : Int) (r : Request) (s : Store) (c : Conn)
    (hc : d = .inbound → r.conn = some c) :
    let s' := (envoyBeforeRequest render d now r s).1
    read s' (P ["request", "path"]) = some (.str r.uri) ∧ read s' (P ["request", "url_path"]) = some (.str r.path) ∧
    read s' (P ["request", "host"]) = some (.str r.host) ∧ read s' (P ["request", "scheme"]) = some (.str r.scheme) ∧
    read s' (P ["request", "method"]) = some (.str r.method) ∧ read s' (P ["request", "protocol"]) = some (.str r.proto) ∧
    read s' (P ["request", "query"]) = some (.str r.query) ∧ read s' (P ["request", "headers"]) = some (.smap (flatten r.header)) ∧
    read s' (P ["request", "trailers"]) = some (.smap (flatten r.trailer)) ∧
    read s' (P ["request", "time"]) = some (.int (if d = .inbound then c.ttfb else now)) := by
  cases d with
  | outbound => exact request_read r now s
  | inbound =>
    simp only [envoyBeforeRequest, hc rfl]
    have h : ∀ x, read (s ++ requestProps r c.ttfb ++ connInfo .inbound c) (P ["request", x]) = read (s ++ requestProps r c.ttfb) (P ["request", x]) := by
      intro x
      rw [read_append, read_heads (conn_heads _ _) _ (by simp)]; rfl
    simp only [h, if_true]
    exact request_read r c.ttfb s

/-! ### C118: connections -/

/-- the attributes of the certificates and addresses of a connection, under the names of its direction -/
theorem C118_connection (d : Dir) (c : Conn) (s : Store) :
    let s' := s ++ connInfo d c
    read s' (P [d.connKey, "mtls"]) = some (.bool c.peer.isSome) ∧
    (∀ p, c.peer = some p → read s' (P [d.connKey, "subject_peer_certificate"]) = some (.str p.subject) ∧
      read s' (P [d.connKey, "dns_san_peer_certificate"]) = some (.str p.dns) ∧
      read s' (P [d.connKey, "uri_san_peer_certificate"]) = some (.str p.uri) ∧
      read s' (P [d.connKey, "sha256_peer_certificate_digest"]) = some (.str p.digest)) ∧
    (∀ p, c.loc = some p → read s' (P [d.connKey, "subject_local_certificate"]) = some (.str p.subject) ∧
      read s' (P [d.connKey, "dns_san_local_certificate"]) = some (.str p.dns) ∧
      read s' (P [d.connKey, "uri_san_local_certificate"]) = some (.str p.uri)) ∧
    (∀ n v p, c.tls = some (n, v, p) → read s' (P [d.connKey, "requested_server_name"]) = some (.str n) ∧
      read s' (P [d.connKey, "negotiated_protocol"]) = some (.str p)) ∧
    (∀ ip n, c.remote = some (ip, some n) → read s' (P [d.remoteKey, "address"]) = some (.str ip) ∧
      read s' (P [d.remoteKey, "port"]) = some (.int n)) ∧
    (∀ ip n, d = .inbound → c.local_ = some (ip, some n) → read s' (P ["destination", "address"]) = some (.str ip) ∧
      read s' (P ["destination", "port"]) = some (.int n)) := by
  have A : ∀ (k : String) (a : Addr) (k' x : String), k ≠ k' → read (addrProps k a) (P [k', x]) = none := by
    intro k a k' x h
    rcases a with _ | ⟨ip, _ | n⟩ <;> simp [addrProps, read_cons, read_nil, P_inj, h]
  have A2 : ∀ (k : String) (a : Addr) (x : String), x ≠ "address" → x ≠ "port" → read (addrProps k a) (P [k, x]) = none := by
    intro k a x h h'
    rcases a with _ | ⟨ip, _ | n⟩ <;> simp [addrProps, read_cons, read_nil, P_inj, h.symm, h'.symm]
  have A' : ∀ (k : String) (a : Addr) (k' x : String), x ≠ "address" → x ≠ "port" → read (addrProps k a) (P [k', x]) = none := by
    intro k a k' x h h'
    by_cases hk : k = k'
    · subst hk; exact A2 k a x h h'
    · exact A k a k' x hk
  refine ⟨?_, ?_, ?_, ?_, ?_, ?_⟩
  · simp only [connInfo, read_append]
    rw [A' _ _ _ "mtls" (by decide) (by decide), A' _ _ _ "mtls" (by decide) (by decide), A' _ _ _ "mtls" (by decide) (by decide)]
    rcases c.peer with _ | p <;> rcases c.loc with _ | l <;> rcases c.tls with _ | ⟨n, v, t⟩ <;>
      simp [peerProps, localProps, tlsProps, under, read_cons, read_nil, P_inj]
  · intro p hp
    simp only [connInfo, read_append, hp]
    rw [A' _ _ _ "subject_peer_certificate" (by decide) (by decide), A' _ _ _ "subject_peer_certificate" (by decide) (by decide),
      A' _ _ _ "subject_peer_certificate" (by decide) (by decide), A' _ _ _ "dns_san_peer_certificate" (by decide) (by decide),
      A' _ _ _ "dns_san_peer_certificate" (by decide) (by decide), A' _ _ _ "dns_san_peer_certificate" (by decide) (by decide),
      A' _ _ _ "uri_san_peer_certificate" (by decide) (by decide), A' _ _ _ "uri_san_peer_certificate" (by decide) (by decide),
      A' _ _ _ "uri_san_peer_certificate" (by decide) (by decide), A' _ _ _ "sha256_peer_certificate_digest" (by decide) (by decide),
      A' _ _ _ "sha256_peer_certificate_digest" (by decide) (by decide), A' _ _ _ "sha256_peer_certificate_digest" (by decide) (by decide)]
    rcases c.loc with _ | l <;> rcases c.tls with _ | ⟨n, v, t⟩ <;>
      simp [peerProps, localProps, tlsProps, under, read_cons, read_nil, P_inj]
  · intro p hp
    simp only [connInfo, read_append, hp]
    rw [A' _ _ _ "subject_local_certificate" (by decide) (by decide), A' _ _ _ "subject_local_certificate" (by decide) (by decide),
      A' _ _ _ "subject_local_certificate" (by decide) (by decide), A' _ _ _ "dns_san_local_certificate" (by decide) (by decide),
      A' _ _ _ "dns_san_local_certificate" (by decide) (by decide), A' _ _ _ "dns_san_local_certificate" (by decide) (by decide),
      A' _ _ _ "uri_san_local_certificate" (by decide) (by decide), A' _ _ _ "uri_san_local_certificate" (by decide) (by decide),
      A' _ _ _ "uri_san_local_certificate" (by decide) (by decide)]
    rcases c.tls with _ | ⟨n, v, t⟩ <;> simp [localProps, tlsProps, under, read_cons, read_nil, P_inj]
  · intro n v p hp
    simp only [connInfo, read_append, hp]
    rw [A' _ _ _ "requested_server_name" (by decide) (by decide), A' _ _ _ "requested_server_name" (by decide) (by decide),
      A' _ _ _ "requested_server_name" (by decide) (by decide), A' _ _ _ "negotiated_protocol" (by decide) (by decide),
      A' _ _ _ "negotiated_protocol" (by decide) (by decide), A' _ _ _ "negotiated_protocol" (by decide) (by decide)]
    simp [tlsProps, under, read_cons, read_nil, P_inj]
  · intro ip n hp
    simp only [connInfo, read_append, hp]
    cases d with
    | inbound =>
      simp only [Dir.remoteKey]
      rw [A "destination" _ "source" _ (by decide), A "destination" _ "source" _ (by decide), A "upstream" _ "source" _ (by decide), A "upstream" _ "source" _ (by decide)]
      simp [addrProps, read_cons, read_nil, P_inj]
    | outbound =>
      simp only [Dir.remoteKey]
      rw [A "destination" _ "upstream" _ (by decide), A "destination" _ "upstream" _ (by decide)]
      simp [addrProps, read_cons, read_nil, P_inj]
  · intro ip n _ hp
    simp only [connInfo, read_append, hp]
    simp [addrProps, read_cons, read_nil, P_inj]

/-- **C118** The names: what concerns an incoming connection is below `connection`, an outgoing one below `upstream`. -/
theorem C118_names (c : Conn) (s : Store) (p : Cert) (hp : c.peer = some p) :
    read (s ++ connInfo .inbound c) (P ["connection", "subject_peer_certificate"]) = some (.str p.subject) ∧
    read (s ++ connInfo .outbound c) (P ["upstream", "subject_peer_certificate"]) = some (.str p.subject) ∧
    (∀ x, read s (P ["connection", x]) = none → read (s ++ connInfo .outbound c) (P ["connection", x]) = none) := by
  refine ⟨((C118_connection .inbound c s).2.1 p hp).1, ((C118_connection .outbound c s).2.1 p hp).1, ?_⟩
  intro x hx
  have : Heads ["upstream", "destination"] (connInfo .outbound c) := by
    have A : ∀ (k : String) (a : Addr), k ∈ ["upstream", "destination"] → Heads ["upstream", "destination"] (addrProps k a) := by
      intro k a hk
      rcases a with _ | ⟨ip, _ | n⟩
      · exact heads_nil _
      · exact heads_cons hk (heads_nil _)
      · exact heads_cons hk (heads_cons hk (heads_nil _))
    unfold connInfo
    refine heads_append (heads_append (heads_append (heads_append (heads_append (heads_append ?_ ?_) ?_) ?_) (A _ _ (by decide))) (A _ _ (by decide))) (A _ _ (by decide))
    · exact heads_under (by decide) _
    · cases c.peer with
      | none => exact heads_nil _
      | some c => exact heads_under (by decide) _
    · cases c.loc with
      | none => exact heads_nil _
      | some c => exact heads_under (by decide) _
    · rcases c.tls with _ | ⟨n, v, q⟩
      · exact heads_nil _
      · exact heads_under (by decide) _
  rw [read_append, read_heads this _ (by decide), hx]; rfl

theorem find_self (l : List Str) (k : Str) : l.find? (fun e => decide (e = k)) = if k ∈ l then some k else none := by
  induction l with
  | nil => rfl
  | cons a l ih =>
    by_cases h : a = k
    · subst h; simp
    · rw [List.find?_cons_of_neg (by simpa using h), ih]
      have : (k ∈ a :: l) ↔ k ∈ l := by
        rw [List.mem_cons]
        exact ⟨fun hk => hk.resolve_left (fun hh => h hh.symm), .inr⟩
      by_cases hk : k ∈ l
      · rw [if_pos hk, if_pos (this.mpr hk)]
      · rw [if_neg hk, if_neg (fun hh => hk (this.mp hh))]

/-- **C118** A filter that asks for a header (by its canonical name) gets all its values in their order, with commas between
them, and learns if there is none. -/
theorem C118_header (s : Store) (p : Path) (h : Hdr) (k : Str) (hr : read s p = some (.smap (flatten h))) :
    (∀ v w, h.filter (fun e => decide (e.1 = k)) = (k, v) :: w → getIn s p k = some (.str (join ',' (v :: w.map (·.2))))) ∧
    ((∀ e ∈ h, e.1 ≠ k) → getIn s p k = none) := by
  have key : getIn s p k = if k ∈ h.map (·.1) then some (.str (join ',' ((h.filter fun e => decide (e.1 = k)).map (·.2)))) else none := by
    unfold getIn
    rw [hr]
    simp only [flatten, List.find?_map]
    have : ((fun e : Str × Str => decide (e.1 = k)) ∘ fun k => (k, join ',' ((h.filter fun e => decide (e.1 = k)).map (·.2)))) =
        fun e => decide (e = k) := rfl
    rw [this, find_self]
    by_cases hk : k ∈ h.map (·.1)
    · rw [if_pos hk, if_pos (by rw [List.mem_eraseDups]; exact hk)]; rfl
    · rw [if_neg hk, if_neg (by rw [List.mem_eraseDups]; exact hk)]; rfl
  refine ⟨?_, ?_⟩
  · intro v w hf
    have : (k, v) ∈ h.filter (fun e => decide (e.1 = k)) := by rw [hf]; exact List.mem_cons_self
    rw [key, if_pos (List.mem_map.mpr ⟨(k, v), (List.mem_filter.mp this).1, rfl⟩), hf]; rfl
  · intro hn
    rw [key, if_neg]
    intro hm
    obtain ⟨e, he, hk⟩ := List.mem_map.mp hm
    exact hn e he hk

example : getIn [(P ["request", "headers"], .smap (flatten [("A".toList, "1".toList), ("B".toList, "2".toList), ("A".toList, "3".toList)]))]
    (P ["request", "headers"]) "A".toList = some (.str "1,3".toList) := by decide +kernel

/-- **C118** Filters get numbers as 64 bit two's complement and texts as they are. -/
theorem C118_view :
    (∀ n : Int, -9223372036854775808 ≤ n → n < 9223372036854775808 → ∃ k : Nat, view (.int n) = .num k ∧ k < 18446744073709551616 ∧
      (if k < 9223372036854775808 then (k : Int) else k - 18446744073709551616) = n) ∧
    (∀ t, view (.str t) = .text t) ∧ (∀ b, view (.bool b) = .flag b) ∧ (∀ l, view (.smap l) = .map l) ∧ ∀ n, view (.u64 n) = .num n := by
  refine ⟨?_, fun _ => rfl, fun _ => rfl, fun _ => rfl, fun _ => rfl⟩
  intro n h1 h2
  refine ⟨(n % 18446744073709551616).toNat, rfl, by omega, ?_⟩
  split <;> omega

/-! ### C118: responses -/

/-- **C118** Filters see the status and headers of the response, the flags set before, and how long the request took. -/
theorem C118_response (now : Int) (r : Response) (s : Store) (f t : Int) (hf : read s (P ["response", "flags"]) = some (.int f))
    (ht : read s (P ["request", "time"]) = some (.int t)) :
    let s' := envoyAfterResponse now r s
    read s' (P ["response", "code"]) = some (.int r.status) ∧ read s' (P ["response", "headers"]) = some (.smap (flatten r.header)) ∧
    read s' (P ["response", "flags"]) = some (.int f) ∧ read s' (P ["request", "duration"]) = some (.int (now - t)) := by
  have hi : intProp s (P ["response", "flags"]) = f := by unfold intProp; rw [hf]
  simp only [envoyAfterResponse, responseInfo, ht, hi, read_append, under, List.map_cons, List.map_nil, read_cons, read_nil, P_inj]
  simp

/-- **C208** fails: the size of a request is never seen; whenever the length is a valid number, filters see zero. -/
theorem C208_size_false (r : Request) (t : Int) (s : Store) (h : (atoi (r.header.get "Content-Length".toList)).2 = false) :
    read (s ++ requestProps r t) (P ["request", "size"]) = some (.int 0) := by
  have hz : requestSize r.header = 0 := by
    unfold requestSize
    simp only [h]
    split <;> simp
  simp only [read_append, requestProps, hz, under, List.map_cons, List.map_nil, read_cons, read_nil, P_inj]
  simp

/-- **C208** fails: the referer, the user agent and the id of every request look empty. -/
theorem C208_agent_false (r : Request) (t : Int) (s : Store) : ∀ k ∈ ["referer", "useragent", "id"],
    (read (s ++ requestProps r t) (P ["request", k])).map view = some (.text []) := by
  intro k hk
  simp only [List.mem_cons, List.not_mem_nil, or_false] at hk
  rcases hk with rfl | rfl | rfl <;>
  · simp only [read_append, requestProps, under, List.map_cons, List.map_nil, read_cons, read_nil, P_inj]
    simp [view]

/-- **C208** fails: the upstream of an incoming request is reported to be the client. -/
theorem C208_upstream_false (c : Conn) (s : Store) (ip : Str) (n : Int) (h : c.remote = some (ip, some n)) :
    read (s ++ connInfo .inbound c) (P ["upstream", "address"]) = some (.str ip) := by
  simp only [connInfo, read_append, h]
  rcases c.local_ with _ | ⟨ip', _ | m⟩ <;> simp [addrProps, read_cons, read_nil, P_inj]

/-- **C208** fails: the destination of an outgoing request is reported to be this side of the connection. -/
theorem C208_destination_false (c : Conn) (s : Store) (ip : Str) (n : Int) (h : c.local_ = some (ip, some n)) :
    read (s ++ connInfo .outbound c) (P ["destination", "address"]) = some (.str ip) := by
  simp only [connInfo, read_append, h]
  simp [addrProps, read_cons, read_nil, P_inj]

/-- **C208** fails: the TLS version looks empty. -/
theorem C208_tls_false (d : Dir) (c : Conn) (s : Store) (n p : Str) (v : Nat) (h : c.tls = some (n, v, p)) :
    (read (s ++ connInfo d c) (P [d.connKey, "tls_version"])).map view = some (.text []) := by
  simp only [connInfo, read_append, h]
  have A : ∀ (k : String) (a : Addr) (k' : String), read (addrProps k a) (P [k', "tls_version"]) = none := by
    intro k a k'
    rcases a with _ | ⟨ip, _ | n⟩ <;> simp [addrProps, read_cons, read_nil, P_inj]
  rw [A, A, A]
  simp [tlsProps, under, read_cons, read_nil, P_inj, view]

/-- **C208** fails: the headers are seen in place of the trailers of every response. -/
theorem C208_trailers_false (now : Int) (r : Response) (s : Store) :
    read (envoyAfterResponse now r s) (P ["response", "trailers"]) = some (.smap (flatten r.header)) := by
  simp only [envoyAfterResponse, responseInfo, read_append, under, List.map_cons, List.map_nil, read_cons, read_nil, P_inj]
  cases read s (P ["request", "time"]) with
  | none => simp [read_nil]
  | some v => cases v <;> simp [read_nil, read_cons, P_inj]

/-- **C208** fails: the size of a response of unknown length without headers is the biggest number there is; names of headers must be
given in canonical form; the status of a gRPC call is never seen. -/
theorem C208_more_false :
    read (envoyAfterResponse 0 ⟨200, -1, [], [], none⟩ []) (P ["response", "total_size"]) = some (.u64 18446744073709551615) ∧
    getIn [(P ["request", "headers"], .smap (flatten [("X-Team".toList, "a".toList)]))] (P ["request", "headers"]) "x-team".toList = none ∧
    read (envoyAfterResponse 0 ⟨200, 0, [], [], none⟩ [(P ["grpc", "status"], .other 7)]) (P ["response", "grpc_status"]) = some (.int 0) := by
  decide +kernel

/-! ### C117 -/

/-- the certificate fields the application is told about -/
def peerElement (l p : Cert) : Xfcc := ⟨l.uri, p.digest, p.uri, [[]]⟩

theorem xfcc_read (c : Conn) (s : Store) (l p : Cert) (r : Request) (hp : c.peer = some p) (hl : c.loc = some l)
    (hs : read s (P ["dns_san_peer_certificate"]) = none) :
    xfcc (s ++ requestProps r c.ttfb ++ connInfo .inbound c) = peerElement l p := by
  obtain ⟨-, h2, h3, -⟩ := C118_connection .inbound c (s ++ requestProps r c.ttfb)
  obtain ⟨-, -, h4, h5⟩ := h2 p hp
  obtain ⟨-, -, h6⟩ := h3 l hl
  unfold xfcc strProp peerElement
  simp only [Dir.connKey] at h4 h5 h6
  rw [h4, h5, h6]
  have : read (s ++ requestProps r c.ttfb ++ connInfo .inbound c) (P ["dns_san_peer_certificate"]) = none := by
    have hr : Heads ["request"] (requestProps r c.ttfb) := heads_under (by simp) _
    rw [read_append, read_heads (conn_heads _ _) _ (by simp), read_append, hs, read_heads hr _ (by simp)]
    rfl
  rw [this]

/-- **C117** For a client with a certificate, exactly one element is added at the end, after those the request came with; it
names this workload, the fingerprint and the URI of the certificate the client has proved to own. -/
theorem C117_element (render : Xfcc → Str) (now : Int) (r : Request) (s : Store) (c : Conn) (l p : Cert)
    (hc : r.conn = some c) (hp : c.peer = some p) (hl : c.loc = some l) (hs : read s (P ["dns_san_peer_certificate"]) = none) :
    ((envoyBeforeRequest render .inbound now r s).2.filter fun e => e.1 = xfccName) =
      (r.header.filter fun e => e.1 = xfccName) ++ [(xfccName, render (peerElement l p))] := by
  simp only [envoyBeforeRequest, hc, forwarded, Hdr.add]
  rw [xfcc_read c s l p r hp hl hs]
  rw [List.filter_append, List.filter_append]
  have h1 : ([("X-Forwarded-Proto".toList, "https".toList)] : Hdr).filter (fun e => decide (e.1 = xfccName)) = [] := by decide +kernel
  rw [h1, List.append_nil]
  simp

/-- **C207** fails: a client that sends the header itself decides what the application reads from it. -/
theorem C207_spoof_false (render : Xfcc → Str) (now : Int) (r : Request) (s : Store) (c : Conn) (hc : r.conn = some c) (v : Str) (h : Hdr)
    (hr : r.header = (xfccName, v) :: h) : (envoyBeforeRequest render .inbound now r s).2.get xfccName = v := by
  simp only [envoyBeforeRequest, hc, forwarded, Hdr.add, hr]
  simp [Hdr.get]

/-- **C207** fails: the DNS name of the client's certificate is never forwarded and its URI is given in place of its subject. -/
theorem C207_fields_false (c : Conn) (s : Store) (l p : Cert) (r : Request) (hp : c.peer = some p) (hl : c.loc = some l)
    (hs : read s (P ["dns_san_peer_certificate"]) = none) :
    (xfcc (s ++ requestProps r c.ttfb ++ connInfo .inbound c)).dns = [[]] ∧
    (xfcc (s ++ requestProps r c.ttfb ++ connInfo .inbound c)).subject = p.uri := by
  rw [xfcc_read c s l p r hp hl hs]
  exact ⟨rfl, rfl⟩

/-- **C207** fails: the application is told that a request over a plain connection came over HTTPS. -/
theorem C207_proto_false (render : Xfcc → Str) (now : Int) (r : Request) (s : Store) (c : Conn) (hc : r.conn = some c) (_ht : c.tls = none) :
    ("X-Forwarded-Proto".toList, "https".toList) ∈ (envoyBeforeRequest render .inbound now r s).2 := by
  simp only [envoyBeforeRequest, hc, forwarded, Hdr.add]
  simp

/-- **C117** Nothing is forwarded to others: an outgoing request is sent with the headers the application gave it. -/
theorem C117_outgoing (render : Xfcc → Str) (now : Int) (r : Request) (s : Store) :
    (envoyBeforeRequest render .outbound now r s).2 = r.header := rfl

/-! ### C119 -/

/-- the same for every reader -/
def Same (s t : Store) : Prop := ∀ p, read s p = read t p

theorem disjoint {la lb : List String} {a b : Store} (ha : Heads la a) (hb : Heads lb b) (hd : ∀ k ∈ la, k ∉ lb) (p : Path) :
    read a p = none ∨ read b p = none := by
  cases h : read a p with
  | none => exact .inl rfl
  | some v =>
    refine .inr ?_
    unfold Verif.Wasm.Middleware.read at h
    cases hf : a.reverse.find? (fun e => decide (e.1 = p)) with
    | none => rw [hf] at h; cases h
    | some e =>
      obtain ⟨k, hk, x, hx⟩ := ha e (List.mem_reverse.mp (List.mem_of_find?_eq_some hf))
      have : e.1 = p := of_decide_eq_true (List.find?_some (p := fun e : Path × Val => decide (e.1 = p)) hf)
      rw [← this, hx]
      exact read_heads hb x (hd k hk)

theorem same_swap {s a b : Store} (h : ∀ p, read a p = none ∨ read b p = none) : Same (s ++ a ++ b) (s ++ b ++ a) := by
  intro p
  simp only [read_append]
  rcases h p with h | h <;> rw [h]
  · cases read b p <;> rfl
  · cases read a p <;> rfl

/-- the writes of the Istio middleware -/
def istioWrites (d : Dir) (s : Store) : Store :=
  match d, read s (P ["node", "metadata", "LABELS", "service.istio.io/canonical-name"]) with
  | .inbound, some (.str n) => (serviceName, .str n) :: (match read s (P ["node", "metadata", "NAMESPACE"]) with
      | some (.str ns) => [(serviceHost, .str (hostOf n ns))]
      | _ => [])
  | _, _ => []

theorem istio_writes (d : Dir) (s : Store) : istioBeforeRequest d s = s ++ istioWrites d s := by
  unfold istioBeforeRequest istioWrites
  cases d with
  | outbound => simp
  | inbound =>
    simp only
    cases read s (P ["node", "metadata", "LABELS", "service.istio.io/canonical-name"]) with
    | none => simp
    | some v => cases v <;> first | rfl | simp

theorem istio_heads (d : Dir) (s : Store) : Heads ["cluster_metadata"] (istioWrites d s) := by
  unfold istioWrites
  split
  · refine heads_cons (by simp) ?_
    split
    · exact heads_cons (by simp) (heads_nil _)
    · exact heads_nil _
  · exact heads_nil _

theorem istioWrites_congr (d : Dir) {s t : Store} (h1 : read s (P ["node", "metadata", "LABELS", "service.istio.io/canonical-name"]) =
    read t (P ["node", "metadata", "LABELS", "service.istio.io/canonical-name"]))
    (h2 : read s (P ["node", "metadata", "NAMESPACE"]) = read t (P ["node", "metadata", "NAMESPACE"])) : istioWrites d s = istioWrites d t := by
  unfold istioWrites
  rw [h1, h2]

/-- **C119** The order in which the two shipped middlewares see a request does not matter: filters see the same attributes and the
application the same headers. -/
theorem C119_request (render : Xfcc → Str) (d : Dir) (now : Int) (r : Request) (s : Store) :
    Same (istioBeforeRequest d (envoyBeforeRequest render d now r s).1) (envoyBeforeRequest render d now r (istioBeforeRequest d s)).1 ∧
    (envoyBeforeRequest render d now r s).2 = (envoyBeforeRequest render d now r (istioBeforeRequest d s)).2 := by
  have key : ∀ e : Store, Heads ["request", "connection", "upstream", "source", "destination"] e →
      Same (istioBeforeRequest d (s ++ e)) (istioBeforeRequest d s ++ e) := by
    intro e he
    rw [istio_writes, istio_writes]
    have hn : ∀ x, read (s ++ e) (P ("node" :: x)) = read s (P ("node" :: x)) := by
      intro x; rw [read_append, read_heads he _ (by simp)]; rfl
    rw [istioWrites_congr d (hn _) (hn _)]
    exact same_swap (disjoint he (istio_heads d s) (by simp))
  have hreq : ∀ t, Heads ["request", "connection", "upstream", "source", "destination"] (requestProps r t) := fun t => heads_under (by simp) _
  have hsub : ∀ c, Heads ["request", "connection", "upstream", "source", "destination"] (connInfo .inbound c) := by
    intro c e he
    obtain ⟨k, hk, x⟩ := conn_heads .inbound c e he
    exact ⟨k, by simp at hk ⊢; rcases hk with h | h | h | h <;> simp [h], x⟩
  cases d with
  | outbound => refine ⟨fun _ => rfl, ?_⟩; rfl
  | inbound =>
    cases hc : r.conn with
    | none =>
      simp only [envoyBeforeRequest, hc]
      refine ⟨fun _ => rfl, ?_⟩; trivial
    | some c =>
      simp only [envoyBeforeRequest, hc]
      refine ⟨?_, ?_⟩
      · have := key (requestProps r c.ttfb ++ connInfo .inbound c) (heads_append (hreq _) (hsub _))
        rw [← List.append_assoc, ← List.append_assoc] at this
        exact this
      · unfold forwarded xfcc strProp
        have hx : ∀ k x, k ≠ "cluster_metadata" → read (istioBeforeRequest .inbound s ++ requestProps r c.ttfb ++ connInfo .inbound c) (P (k :: x)) =
            read (s ++ requestProps r c.ttfb ++ connInfo .inbound c) (P (k :: x)) := by
          intro k x hk
          rw [istio_writes]
          simp only [read_append]
          rw [read_heads (istio_heads _ _) _ (by simp [hk])]
          rfl
        rw [hx _ _ (by decide), hx _ _ (by decide), hx _ _ (by decide), hx _ _ (by decide)]

theorem response_heads (now : Int) (r : Response) (s : Store) : Heads ["response", "request"] (responseInfo now r s) := by
  unfold responseInfo
  refine heads_append (heads_under (by simp) _) ?_
  split
  · exact heads_cons (by simp) (heads_nil _)
  · exact heads_nil _

theorem responseInfo_congr (now : Int) (r : Response) {s t : Store} (h : ∀ k x, k ≠ "cluster_metadata" → read s (P (k :: x)) = read t (P (k :: x))) :
    responseInfo now r s = responseInfo now r t := by
  unfold responseInfo intProp
  rw [h _ _ (by decide), h _ _ (by decide), h _ _ (by decide)]

/-- **C119** The same for a response. -/
theorem C119_response (peer : Str → Str × Str) (d : Dir) (now : Int) (r : Response) (s : Store) :
    Same (istioAfterResponse peer d (envoyAfterResponse now r s)) (envoyAfterResponse now r (istioAfterResponse peer d s)) := by
  have hu : ∀ x, read (envoyAfterResponse now r s) (P ("upstream_peer" :: x)) = read s (P ("upstream_peer" :: x)) := by
    intro x
    unfold envoyAfterResponse
    rw [read_append, read_append, read_heads (response_heads now r s) _ (by simp)]
    rw [read_heads (l := ["response"]) (heads_cons (by simp) (heads_nil _)) _ (by simp)]
    rfl
  unfold istioAfterResponse
  rw [hu]
  cases d with
  | inbound => exact fun _ => rfl
  | outbound =>
    cases hp : read s (P ["upstream_peer"]) with
    | none => exact fun _ => rfl
    | some v =>
      cases v with
      | str b =>
        simp only
        generalize hw : [(serviceName, Val.str (peer b).1), (serviceHost, Val.str (hostOf (peer b).1 (peer b).2))] = w
        have hh : Heads ["cluster_metadata"] w := by
          rw [← hw]; exact heads_cons (by simp) (heads_cons (by simp) (heads_nil _))
        unfold envoyAfterResponse
        have hcongr : responseInfo now r (s ++ w) = responseInfo now r s := by
          refine responseInfo_congr now r ?_
          intro k x hk
          rw [read_append, read_heads hh _ (by simp [hk])]; rfl
        rw [hcongr]
        generalize hz : [(P ["response", "total_size"], Val.u64 _)] = z
        have hzz : Heads ["response", "request"] z := by rw [← hz]; exact heads_cons (by simp) (heads_nil _)
        have := same_swap (s := s) (a := responseInfo now r s ++ z) (b := w)
          (disjoint (heads_append (response_heads now r s) hzz) hh (by simp))
        rw [← List.append_assoc, ← List.append_assoc] at this
        exact this
      | _ => exact fun _ => rfl

/-- **C119** The service an incoming request is meant for is named after the workload's labels. -/
theorem C119_service (s : Store) (n ns : Str) (h1 : read s (P ["node", "metadata", "LABELS", "service.istio.io/canonical-name"]) = some (.str n))
    (h2 : read s (P ["node", "metadata", "NAMESPACE"]) = some (.str ns)) :
    read (istioBeforeRequest .inbound s) serviceName = some (.str n) ∧
    read (istioBeforeRequest .inbound s) serviceHost = some (.str (n ++ '.' :: ns ++ ".svc.cluster.local".toList)) := by
  rw [istio_writes]
  unfold istioWrites
  rw [h1, h2]
  simp only [read_append, read_cons, read_nil, serviceName, serviceHost, P_inj]
  simp [hostOf]

/-! ### the length of a request as a number -/

/-- the digits `0` to `9` as characters -/
def figure (d : Nat) : Char := Char.ofNat (48 + d)
/-- the value of a sequence of digits -/
def value : List Nat → Nat
  | [] => 0
  | d :: ds => d * 10 ^ ds.length + value ds
/-- the text is a decimal number of at least one digit with this value -/
def Decimal (s : Str) (n : Nat) : Prop := ∃ ds, ds ≠ [] ∧ (∀ d ∈ ds, d < 10) ∧ s = ds.map figure ∧ n = value ds

theorem figure_nat : ∀ d, d < 10 → (figure d).toNat = 48 + d ∧ '0' ≤ figure d ∧ figure d ≤ '9' := by decide

theorem figure_of {c : Char} (h1 : '0' ≤ c) (h2 : c ≤ '9') : c.toNat - 48 < 10 ∧ c = figure (c.toNat - 48) := by
  have a : 48 ≤ c.toNat := h1
  have b : c.toNat ≤ 57 := h2
  refine ⟨by omega, ?_⟩
  unfold figure
  rw [show 48 + (c.toNat - 48) = c.toNat by omega]
  exact (Char.ofNat_toNat c).symm

theorem fold_value (ds : List Nat) (h : ∀ d ∈ ds, d < 10) : ∀ n, (ds.map figure).foldl (fun n c => n * 10 + (c.toNat - 48)) n = n * 10 ^ ds.length + value ds := by
  induction ds with
  | nil => intro n; simp [value]
  | cons d ds ih =>
    intro n
    rw [List.map_cons, List.foldl_cons, ih (fun e he => h e (by simp [he])), (figure_nat d (h d (by simp))).1]
    simp only [value, List.length_cons, Nat.pow_succ, Nat.add_sub_cancel_left, Nat.add_mul]
    rw [Nat.mul_comm (10 ^ ds.length) 10, ← Nat.mul_assoc]
    omega

def figVal (c : Char) : Nat := c.toNat - 48

theorem digits_iff {s : Str} {n : Nat} : digits s = some n ↔ Decimal s n := by
  unfold digits
  constructor
  · intro h
    split at h
    · cases h
    · rename_i hn
      rw [not_or] at hn
      injection h with h
      have hs : ∀ c ∈ s, '0' ≤ c ∧ c ≤ '9' := by
        intro c hc
        have := hn.2
        simp only [List.any_eq_true, not_exists, not_and] at this
        simpa using this c hc
      have he : s = (s.map figVal).map figure := by
        rw [List.map_map]
        conv => lhs; rw [← List.map_id s]
        apply List.map_congr_left
        intro c hc
        show c = figure (c.toNat - 48)
        exact (figure_of (hs c hc).1 (hs c hc).2).2
      have hd : ∀ d ∈ s.map figVal, d < 10 := by
        intro d hd
        obtain ⟨c, hc, rfl⟩ := List.mem_map.1 hd
        exact (figure_of (hs c hc).1 (hs c hc).2).1
      refine ⟨s.map figVal, fun hm => hn.1 (List.map_eq_nil_iff.1 hm), hd, he, ?_⟩
      have hf := fold_value _ hd 0
      rw [← he] at hf
      rw [← h, hf]
      simp
  · rintro ⟨ds, hne, hd, rfl, rfl⟩
    rw [if_neg, fold_value _ hd]
    · simp
    · rw [not_or]
      refine ⟨by simpa using hne, ?_⟩
      simp only [List.any_eq_true, not_exists, not_and]
      intro c hc
      obtain ⟨d, hdm, rfl⟩ := List.mem_map.1 hc
      have := figure_nat d (hd d hdm)
      simp [this.2.1, this.2.2]

theorem decimal_head {s : Str} {n : Nat} (h : Decimal s n) : (∀ t, s ≠ '-' :: t) ∧ ∀ t, s ≠ '+' :: t := by
  obtain ⟨ds, hne, hd, rfl, _⟩ := h
  cases ds with
  | nil => exact absurd rfl hne
  | cons d ds =>
    have h1 := (figure_nat d (hd d (by simp))).1
    constructor <;> intro t ht <;> rw [List.map_cons] at ht <;> injection ht with ht _ <;> rw [ht] at h1 <;> simp at h1 <;> omega

theorem atoi_plain {s : Str} (h1 : ∀ t, s ≠ '-' :: t) (h2 : ∀ t, s ≠ '+' :: t) : atoi s = match digits s with
    | none => (0, true)
    | some n => if n < 9223372036854775808 then ((n : Int), false) else (9223372036854775807, true) := by
  unfold atoi
  simp only
  cases digits s <;> rfl

/-- **C208** What the length of a request is read as: a decimal number with or without a sign is its value if that fits into 64 bits and an
error together with the nearest number if not. -/
theorem C208_number {s : Str} {n : Nat} (h : Decimal s n) :
    (n < 2 ^ 63 → atoi s = ((n : Int), false) ∧ atoi ('+' :: s) = ((n : Int), false)) ∧
    (2 ^ 63 ≤ n → atoi s = (2 ^ 63 - 1, true) ∧ atoi ('+' :: s) = (2 ^ 63 - 1, true)) ∧
    (n ≤ 2 ^ 63 → atoi ('-' :: s) = (-(n : Int), false)) ∧ (2 ^ 63 < n → atoi ('-' :: s) = (-2 ^ 63, true)) := by
  have hd := digits_iff.2 h
  have hm : atoi s = if n < 9223372036854775808 then ((n : Int), false) else (9223372036854775807, true) := by
    rw [atoi_plain (decimal_head h).1 (decimal_head h).2]
    simp [hd]
  have hp : atoi ('+' :: s) = if n < 9223372036854775808 then ((n : Int), false) else (9223372036854775807, true) := by
    simp [atoi, hd]
  have hq : atoi ('-' :: s) = if n ≤ 9223372036854775808 then (-(n : Int), false) else (-9223372036854775808, true) := by
    simp [atoi, hd]
  rw [hm, hp, hq]
  refine ⟨fun hn => ?_, fun hn => ?_, fun hn => ?_, fun hn => ?_⟩
  · rw [if_pos (by omega)]; exact ⟨rfl, rfl⟩
  · rw [if_neg (by omega)]; exact ⟨rfl, rfl⟩
  · rw [if_pos (by omega)]
  · rw [if_neg (by omega)]; rfl

/-- **C208** Everything else is an error and read as 0. -/
theorem C208_no_number {s : Str} (h : ¬ ∃ n t, Decimal t n ∧ (s = t ∨ s = '+' :: t ∨ s = '-' :: t)) : atoi s = (0, true) := by
  have hnone : ∀ t, (s = t ∨ s = '+' :: t ∨ s = '-' :: t) → digits t = none := by
    intro t ht
    cases hd : digits t with
    | none => rfl
    | some n => exact absurd ⟨n, t, digits_iff.1 hd, ht⟩ h
  by_cases h1 : ∃ t, s = '-' :: t
  · obtain ⟨t, rfl⟩ := h1
    simp [atoi, hnone t (.inr (.inr rfl))]
  by_cases h2 : ∃ t, s = '+' :: t
  · obtain ⟨t, rfl⟩ := h2
    simp [atoi, hnone t (.inr (.inl rfl))]
  rw [atoi_plain (fun t ht => h1 ⟨t, ht⟩) (fun t ht => h2 ⟨t, ht⟩)]
  simp [hnone s (.inl rfl)]

/-- a number with a zero in it -/
example : Decimal "102".toList 102 := ⟨[1, 0, 2], by decide, by decide, by decide, by decide⟩

/-! ### the hypotheses can be met -/

def cert : Cert := ⟨"CN=a".toList, "spiffe://td/ns/a/sa/b".toList, "a.svc".toList, "ab12".toList⟩
def conn : Conn := ⟨some cert, some cert, some ("a".toList, 772, "h2".toList), some ("10.0.0.1".toList, some 4000), some ("10.0.0.2".toList, some 80), 5⟩
def request : Request := ⟨"GET".toList, "h".toList, [], "/x".toList, [], "/x".toList, "HTTP/1.1".toList,
  [(xfccName, "By=evil".toList), ("Content-Length".toList, "12".toList)], [], some conn⟩

example : (atoi (request.header.get "Content-Length".toList)) = (12, false) := by decide +kernel
example : (envoyBeforeRequest (fun x => x.subject) .inbound 7 request []).2.get xfccName = "By=evil".toList := by decide +kernel
example : read (envoyBeforeRequest (fun x => x.subject) .inbound 7 request []).1 (P ["source", "address"]) = some (.str "10.0.0.1".toList) := by decide +kernel
example : read (envoyAfterResponse 9 ⟨200, 3, [], [], none⟩
    ((envoyBeforeRequest (fun x => x.subject) .inbound 7 request []).1 ++ [(P ["response", "flags"], .int 4)])) (P ["request", "duration"]) = some (.int 4) := by
  decide +kernel

end Verif.Props.Middleware
