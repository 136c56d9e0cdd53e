{
"C01": [
"proved",
"all uint32/int32/int64 values, arbitrary following bytes"
],
"C02": [
"proved",
"all 32-bit values; 64-bit sizes: see C163"
],
"C03": [
"proved",
"all byte strings"
],
"C13": [
"proved",
"records and headers within the encodable sizes, every continuation; length prefix: see C161"
],
"C14": [
"proved",
"every record and every truncation point; rejection: C190"
],
"C15": [
"proved",
"all batches, compression and CRC as parameters; bytes behind snappy batches: C191"
],
"C16": [
"proved",
"uncompressed batches with arbitrary following bytes; control batches read hold at most one record; gzip payload for small records, snappy payload, both parametric in the codec; lz4/zstd batches the writer produces cannot be read (C16_lz4_zstd_unreadable)"
],
"C17": [
"partial",
"the property is false of the code: C17_crc_false exhibits an accepted batch with a wrong CRC for every CRC function"
],
"C18": [
"proved",
"every list of valid batches; incomplete last batch: see C168"
],
"C04": [
"proved",
"all fixed-width primitives, all contexts, versions, inputs"
],
"C05": [
"proved",
"every string but the text \"null\" (see C187), every version context and continuation"
],
"C06": [
"proved",
"every slice, version and continuation; arrays: see C164"
],
"C07": [
"proved",
"acceptance (lists and values below 2^32) and order; read-back: see C165"
],
"C08": [
"proved",
"all shipped messages and all schemas with supported nested structures; the rest: C188"
],
"C09": [
"proved",
"every well-formed schema and covered value; null structures: C189"
],
"C10": [
"proved",
"table extracted from all 328 generated structs, checked by kernel evaluation and combined with C09"
],
"C11": [
"proved",
"every field context and version, write, size and read, whole messages; relative to the declared nullable versions (C77)"
],
"C12": [
"proved",
"every schema, version and value; removed fields: see C179"
],
"C19": [
"proved",
"every shipped request and response at every advertised version; unknown keys are rejected; tables extracted from the Go switches"
],
"C20": [
"proved",
"all shipped messages and versions (values as in C09)"
],
"C21": [
"partial",
"false of the code for request versions 1-3 (C21_fallback_false); holds for version 0"
],
"C22": [
"proved",
"every nesting depth, window and call sequence (Read, ReadByte, UnreadByte, ReadAt, Seek, WriteTo, Len) with non-negative sizes; ReadRune/UnreadRune not modelled"
],
"C23": [
"proved",
"every call sequence; positions outside the content: see C175"
],
"C24": [
"proved",
"every history of gets, releases of held buffers and garbage collections; sync.Pool.Get modelled as returning any pooled item or nil"
],
"C25": [
"proved",
"the three forms parse as written; other strings: see C162"
],
"C36": [
"proved",
"exclusivity, range and reuse for all ranges of positive ports and all histories; exhaustion: see C157"
],
"C37": [
"partial",
"interleaving model with unbounded sessions and goroutines; proved for sessions with distinct port names whose requests do not race with Close and whose Close calls do not overlap; false otherwise (three _false theorems)"
],
"C38": [
"proved",
"every interleaving, the shipped Kubernetes authenticator; other authenticators and number of control streams: C194"
],
"C39": [
"proved",
"exact delivery, at-most-once and server-side rejection for all interleavings; delivery and reporting at the client: see C158"
],
"C40": [
"proved",
"every interleaving, also with misbehaving callers; exclusivity and leaks: see C182"
],
"C41": [
"partial",
"Len exact whenever no call is between map and counter update, Close closes and removes all (not overlapping other calls); with non-overlapping calls a cleanup goroutine runs exactly while pools are registered; counterexamples: Len -1, cleanup goroutine never started or never stopped, cleanup removes an open pool, AddPool after Close"
],
"C42": [
"proved",
"every chunking, sequence of buffer sizes and filter answers; end of stream, errors, Close: C195"
],
"C43": [
"proved",
"every history of fewer than 2^31 calls; repeated definitions and kinds: C196"
],
"C44": [
"proved",
"every filter list and behaviour, every body; pauses elsewhere, Close, unknown names: see C169"
],
"C45": [
"proved",
"round trip through an independent decoder, determinism, injectivity; sizes below 2^32 (limit of the format)"
],
"C26": [
"proved",
"All histories of subscribe/response/reconnect events."
],
"C27": [
"proved",
"every cache state and incremental response but name tables; the rest: C228"
],
"C28": [
"proved",
"every history, both protocols; nonces of SotW NACKs, unsupported types, reconnects: see C166"
],
"C29": [
"proved",
"every history, both protocols; subscription books and statistics: see C181"
],
"C30": [
"proved",
"for every policy, load assignment, counter state and random source; existence of an answer: see C159"
],
"C31": [
"proved",
"every finite load table and number of picks below 2^32; closeness from below: see C173"
],
"C32": [
"proved",
"all counters and weights; proportions: see C183"
],
"C33": [
"proved",
"exact selection rule (C33_select) and error cases (C33_error) for all chain lists, ports and addresses; longest prefix: see C153"
],
"C34": [
"proved",
"every route configuration and candidate list; less specific and catch-all hosts: see C180"
],
"C53": [
"proved",
"C53_properties, C53_order for all listener lists; client certificate requirement: see C155"
],
"C54": [
"proved",
"C54_resolves and C54_notFound hold for all tables; empty answers: see C156"
],
"C55": [
"partial",
"C55_target_partial, C55_single; false in general: C55_lastChain_false, C55_erased_false, C55_counted_false."
],
"C56": [
"partial",
"C56_sockets_partial, C56_tls; false: C56_superset_false (endpoint metadata must be a subset, not a superset), C56_crash_false (no default socket)."
],
"C35": [
"proved",
"every schedule of publishers, observers and cancellations; lost updates and progress: see C167"
],
"C46": [
"proved",
"C46_match, C46_refused, C46_case, C46_proto for every pattern and subject; textual forms: see C154"
],
"C47": [
"proved",
"every certificate chain and configuration; restrictions that cannot be compiled: see C178"
],
"C48": [
"partial",
"set/get laws proved for paths of plain object keys; escapes, lists, maps and index paths fail (C48_*_false)"
],
"C49": [
"proved",
"label and revision lookup order for every label map"
],
"C50": [
"proved",
"every stream, chunking and mode; short and silent clients: see C174"
],
"C51": [
"proved",
"every interleaving; ids and Close: see C170"
],
"C57": [
"proved",
"every message of every generated schema, shipped messages at all advertised versions; snappy and the band of C163: see C192"
],
"C58": [
"proved",
"every shipped message, version and value as described; headers, batches"
],
"C59": [
"proved",
"every message type, version and input; panics: see C177"
],
"C60": [
"partial",
"C60_count_partial holds with one close wrapper per connection, literal addresses and endpoints in use staying known; the _false theorems show each condition is needed (shared sync.Once closer, re-added endpoint, dial by name)."
],
"C61": [
"proved",
"all interleavings of dials, reuse, pool removal, cancellation and configuration changes; TLS settings: C197"
],
"C62": [
"partial",
"Holds when callers share one context; false in general (pool factory keeps the creator's context)"
],
"C63": [
"partial",
"Encryption holds whenever discovery answers; exact identity for serial requests with settled settings; false for concurrent requests, changed settings, discovery errors"
],
"C64": [
"proved",
"every configuration and history; types without resources: see C176"
],
"C52": [
"proved",
"every load assignment and counter state; distinct locality names and addresses for the comparisons; priorities: see C172"
],
"C65": [
"proved",
"for callers that keep the contract in the statement; see C68 for the rest"
],
"C66": [
"partial",
"refuted for Delete, concurrent misses, failed creations and the default instance count; proved for creations that do not overlap"
],
"C67": [
"proved",
""
],
"C68": [
"partial",
"refuted by concrete runs; the part that holds is C65"
],
"C69": [
"proved",
""
],
"C70": [
"partial",
"SANs proved for at most one URI, serials for issuances one after the other; the rest is refuted"
],
"C71": [
"partial",
"proved for configurations whose callbacks return a certificate and where the choice is unambiguous; refuted (crash, precedence) otherwise"
],
"C72": [
"partial",
"own state with fresh contexts, no leak while after-hooks succeed, own options without spare capacity; each refuted otherwise"
],
"C73": [
"partial",
"progress and termination if nobody asks during the handshake; deadlock otherwise"
],
"C74": [
"proved",
"for every schedule and failure"
],
"C75": [
"proved",
"For every specification in the usual notation the generator accepts; meaning of a specification in Kafka/LayoutSpec.lean"
],
"C76": [
"proved",
"Both tables extracted from the repository by tools/extract_*.py; regenerated codecs compared in the kernel, layouts for all versions by C75"
],
"C77": [
"partial",
"What the generator does (C77_inherited) for all specifications; exact from version 1 on where no structure is nullable; refuted at version 0 (also for shipped messages, C77_nullable_at_version_zero_false) and inside nullable structures"
],
"C78": [
"proved",
"every text, every pattern set satisfying the contract of regexp (C78_engine for the shipped one), every order; exactness: see C171"
],
"C79": [
"proved",
"for every stream, cutting, interleaving and DetectPII result, while no handler has failed and the stream does not end inside a message (both in the property)"
],
"C80": [
"proved",
""
],
"C81": [
"partial",
"C81_no_failure_partial gives the condition under which the filter does not fail; the full statement is false of the code (C81_*_false)"
],
"C82": [
"proved",
""
],
"C83": [
"proved",
"one key per connection, as the statement says; two keys refuted (C83_two_keys_false)"
],
"C84": [
"partial",
"availability and report before the end of the stream; three _false theorems show data lost and ends not reported"
],
"C85": [
"proved",
"precondition CleanFailure as in the statement"
],
"C86": [
"partial",
"acceptance is all or nothing while open; crash, loss and repetition refuted"
],
"C87": [
"proved",
""
],
"C88": [
"proved",
"every interleaving of any number of dials and failures; keys and failures: C198"
],
"C89": [
"partial",
"with room in the queue; refuted for a full one"
],
"C90": [
"proved",
"Model of the handler for all headers, tokens and cluster answers; JWT parsing and the token review are parameters."
],
"C91": [
"proved",
"every token the cluster confirms; namespaces: C199"
],
"C92": [
"proved",
"Under timely reconciliation (within the margin the controller requests)."
],
"C93": [
"partial",
"False of the code in three ways (C93_*_false); proved if the account does not change and nobody tampers."
],
"C94": [
"proved",
"For every pod."
],
"C95": [
"proved",
"every pod not of an OpenShift DeploymentConfig; repetition: C201"
],
"C96": [
"proved",
"For every name."
],
"C97": [
"proved",
"For pods with labels and names valid in Kubernetes and not of a DeploymentConfig (C95); go-envconfig's parsing rules assumed."
],
"C98": [
"proved",
"every environment; identity and override: C200"
],
"C99": [
"proved",
"Torn writes, any order, any history; clock does not go back."
],
"C100": [
"partial",
"Proved if updates succeed; false otherwise (C100_*_false)."
],
"C101": [
"proved",
"Connections with CloseWrite that do not break; fairness of the scheduler as progress measure."
],
"C102": [
"proved",
"every pair of connection types and every history; losses and open connections: C202"
],
"C103": [
"proved",
""
],
"C104": [
"partial",
"Equal iteration orders or one network; false in general."
],
"C105": [
"proved",
"every interleaving of calls, cancellations, failed subscriptions and updates; freshness: C203"
],
"C106": [
"proved",
"every list of named ports; unnamed: C204"
],
"C107": [
"proved",
"every set of sessions and services and every failure of the API server; completeness: C205"
],
"C108": [
"proved",
"all known labels in every order"
],
"C109": [
"partial",
"cluster host form, prefixes and listeners; the full claim is false"
],
"C110": [
"proved",
""
],
"C111": [
"partial",
"status and body for a wider class; the full claim is false (C111_*_false)"
],
"C112": [
"proved",
""
],
"C113": [
"partial",
"false of the code (C113_*_false)"
],
"C114": [
"proved",
""
],
"C115": [
"partial",
"false of the code (C115_*_false)"
],
"C116": [
"proved",
"every call, target, filter and outcome; what filters see: C206"
],
"C117": [
"proved",
"every request and certificate; spoofing, other fields: C207"
],
"C118": [
"proved",
"every request, response, connection and direction; further attributes: C208"
],
"C119": [
"proved",
"all requests, responses, directions and prior attributes"
],
"C120": [
"proved",
"every layout of the relational format specification, buffers below 2^31 bytes"
],
"C121": [
"proved",
"all bytes; crashes: C227"
],
"C122": [
"proved",
"reads of dotted paths and of parents"
],
"C123": [
"proved",
"every name of one part, value and store; paths: C209"
],
"C124": [
"proved",
"mutual exclusion of ticks and calls for every schedule"
],
"C125": [
"proved",
"every schedule of timers, calls, and changes of the period; termination: C210"
],
"C126": [
"proved",
"sequential calls"
],
"C127": [
"partial",
"errors; _false: concurrent creation, runtime not in key"
],
"C128": [
"proved",
"every interleaving of acquiring and releasing before; afterwards: C211"
],
"C129": [
"proved",
"every sequence of calls and answers; status codes: C212"
],
"C130": [
"proved",
"all histories; counters modulo 2^32"
],
"C131": [
"proved",
"sequential histories"
],
"C132": [
"proved",
"every history with distinct root ids; same root id: C213"
],
"C133": [
"proved",
"for every run of the server model"
],
"C134": [
"partial",
"proved that some policy allowed it or none had come; falsified by early and lost policies, half-written policies and crashes"
],
"C135": [
"proved",
"every cluster; root certificates: C214"
],
"C136": [
"proved",
"every environment and token, every two instances; failing stat: C215"
],
"C137": [
"partial",
"sequential; falsified when GetDiscoveryClient runs concurrently with Run"
],
"C138": [
"proved",
"every history of pushes, failures and the end of the context; what stays: C216"
],
"C139": [
"proved",
"every configuration and every call; without TLS: C217"
],
"C140": [
"proved",
"every host, answer of the mesh, server and history; verification: C218"
],
"C141": [
"proved",
"every configuration, server and answer, every number of requests; chains, closing: C219; the tunnel client of the mesh integration sends the token to the tunnel server too: C290"
],
"C142": [
"proved",
"every intact stream; damaged: C220"
],
"C143": [
"proved",
"sequential calls; threads and hashes: C221"
],
"C144": [
"proved",
"every response without zero bytes; others: C222"
],
"C145": [
"proved",
"up to 1000 waiting lines; beyond: C223"
],
"C146": [
"partial",
"true if strings need no escaping, floats are numbers, no record has headers and no field is called Type; the rest is false in the code (_false theorems)"
],
"C147": [
"proved",
"all pairs and triples of messages without NaN; strict equality: C224"
],
"C148": [
"proved",
"every interleaving of event handlers and reconciles; ports listened on: C225"
],
"C149": [
"partial",
"Every middleware once per phase while none is added or removed; crash and double call otherwise (C149_crash_false, C149_twice_false)."
],
"C150": [
"partial",
"Sections of plain and gzip batches (small records) round-trip in any buffer they fit; false for snappy, growing and empty gzip batches."
],
"C151": [
"proved",
"small records through any splitting of the stream; large: C226"
],
"C152": [
"proved",
"expiry of idle pools (within timeout + 1 s) and idle connections (exactly) for all histories and timings; pools in use: see C160"
],
"C184": [
"proved",
"every input"
],
"C185": [
"proved",
"every number"
],
"C186": [
"proved",
"every interleaving of registry calls"
],
"C153": [
"partial",
"C153_longest_partial: containing ranges of equal length; C153_longest_false otherwise"
],
"C154": [
"partial",
"reading and printing characterised (C154_text, C154_print); printed form not readable, SAN text without colon crashes, lowercased regex differs (_false)"
],
"C155": [
"partial",
"C155_clientCert_partial: TLS chains agree; C155_clientCert_false otherwise"
],
"C156": [
"partial",
"C156_nonempty_partial: known names have a well-formed address; C156_empty_false otherwise"
],
"C157": [
"partial",
"all but the last port of the range (C157_exhaustion_partial, C157_free_smallest_partial); the last one is never handed out (C157_max_never_free)"
],
"C158": [
"partial",
"delivery possible while the requester waits, control streams report errors; timeouts lose accepted streams and clients see success (_false)"
],
"C159": [
"partial",
"random and least request with equal weights (C159_answers_partial); crash with a greater choice count or without healthy endpoint (_false)"
],
"C160": [
"partial",
"not closed early unless used between check and Close; four counterexamples"
],
"C161": [
"partial",
"outside the band of C163; one too large inside"
],
"C162": [
"partial",
"strings without '+'; text after '+' is ignored"
],
"C163": [
"partial",
"exact outside [2^49,2^56), one too large inside"
],
"C164": [
"partial",
"arrays whose length fits the length field; longer ones wrap"
],
"C165": [
"partial",
"unless an empty value ends the input"
],
"C166": [
"partial",
"incremental protocol and supported types; three counterexamples"
],
"C167": [
"partial",
"no lost update and progress under stated scheduling conditions, each necessary (five _false)"
],
"C168": [
"partial",
"incomplete batch of at least 17 bytes; shorter ones are left in the input"
],
"C169": [
"partial",
"new-connection order and successful Close; five counterexamples"
],
"C170": [
"partial",
"non-overlapping calls, no own ids, drained before Close; six counterexamples"
],
"C171": [
"partial",
"patterns that do not interfere; two counterexamples"
],
"C172": [
"partial",
"policies using computed loads, distinct localities; four counterexamples"
],
"C173": [
"partial",
"whole percentages adding up to 100; two counterexamples"
],
"C174": [
"partial",
"short connections are closed or refused (C174_short_partial); bytes lost, silent client blocks (_false)"
],
"C175": [
"partial",
"WriteAt inside the content; two counterexamples"
],
"C176": [
"partial",
"every type has had a non-empty response; C176_empty_type_false otherwise"
],
"C177": [
"partial",
"all messages without record batches; negative counts crash (_false). Memory exhaustion by huge counts is not modelled"
],
"C178": [
"partial",
"one usable matcher; dropped restriction, unreadable CA, empty chain (_false)"
],
"C179": [
"partial",
"false of the code (C179_removed_field_lost_false)"
],
"C180": [
"partial",
"every virtual host has a route for / (C180_select_partial); two counterexamples"
],
"C181": [
"partial",
"exact if something is referenced, first route configuration of a listener, statistics on a change of the subscription; three counterexamples"
],
"C182": [
"partial",
"callers close once; usability needs the Calm guard; six counterexamples"
],
"C183": [
"partial",
"known clusters, total weight below 2^32, (total weight)*(calls) up to 2^51; two counterexamples"
],
"C187": [
"partial",
"false of the code (C187_null_text_false)"
],
"C188": [
"partial",
"false of the code: unsupported nested structures are counted, byte slices of 2^31-1 bytes are refused by SizeInBytes only"
],
"C189": [
"partial",
"false of the code (C189_null_struct_false)"
],
"C190": [
"partial",
"C190_truncated_headers_partial: records without key and value bytes; C190_truncated_false otherwise"
],
"C191": [
"partial",
"false of the code: 16 bytes follow the batch (C191_snappy_false)"
],
"C192": [
"partial",
"C192_snappy_partial: the batch and possibly the compressed empty string; two counterexamples"
],
"C193": [
"partial",
"false of the code (C193_serialize_other_version_false)"
],
"C194": [
"partial",
"authenticators that return an error whenever they reject, sequential control messages; two counterexamples"
],
"C195": [
"partial",
"end of stream with a buffer not filled; four counterexamples"
],
"C196": [
"partial",
"one kind and key set per name, quiet histories; five counterexamples"
],
"C197": [
"partial",
"settled settings; two counterexamples"
],
"C198": [
"partial",
"one key, or one dial per key; three counterexamples"
],
"C199": [
"partial",
"false of the code (C199_other_namespace_false)"
],
"C200": [
"partial",
"environments that agree on three fields; three counterexamples"
],
"C201": [
"partial",
"volumes of the first mutation; two counterexamples"
],
"C202": [
"partial",
"false of the code: three counterexamples"
],
"C203": [
"partial",
"living subscriptions; three counterexamples"
],
"C204": [
"partial",
"false of the code (C204_unnamed_false)"
],
"C205": [
"partial",
"if reads and writes succeed; two counterexamples"
],
"C206": [
"partial",
"false of the code: two counterexamples"
],
"C207": [
"partial",
"false of the code: three counterexamples"
],
"C208": [
"partial",
"false of the code: seven counterexamples"
],
"C209": [
"partial",
"false of the code: three counterexamples"
],
"C210": [
"partial",
"between two ticks; four counterexamples"
],
"C211": [
"partial",
"no acquisition under way; one counterexample"
],
"C212": [
"partial",
"false of the code (C212_status_false)"
],
"C213": [
"partial",
"false of the code: two counterexamples"
],
"C214": [
"partial",
"a config map of the revision exists; two counterexamples"
],
"C215": [
"partial",
"false of the code (C215_source_false)"
],
"C216": [
"partial",
"requests handled in order; one counterexample"
],
"C217": [
"partial",
"false of the code (C217_notls_false)"
],
"C218": [
"partial",
"newest connection; three counterexamples"
],
"C219": [
"partial",
"the chain is proved; connections stay open (C219_closed_false)"
],
"C220": [
"partial",
"false of the code (C220_damaged_false)"
],
"C221": [
"partial",
"false of the code: three counterexamples"
],
"C222": [
"partial",
"false of the code (C222_body_false)"
],
"C223": [
"partial",
"false of the code: two counterexamples"
],
"C224": [
"partial",
"false of the code: four counterexamples"
],
"C225": [
"partial",
"events of a port handled in turn; two counterexamples"
],
"C226": [
"partial",
"false of the code: three counterexamples"
],
"C227": [
"partial",
"false of the code: two counterexamples"
],
"C228": [
"partial",
"subscribed endpoints and routes, name tables; three counterexamples"
],
"C229": [
"proved",
"every interleaving and every failure"
],
"C230": [
"partial",
"instances dropped only while unused; contexts can be created; three counterexamples"
],
"C231": [
"proved",
"addresses and streams as in the request; muxado trusted"
],
"C232": [
"proved",
"ports of a connection only; see C233 for late responses"
],
"C233": [
"partial",
"false as stated: late responses, closed listeners and unresolvable addresses (C233_late_false, C233_close_false, C233_reconnect_false, C233_failed_listener_false, C233_leak_false); proved with guards"
],
"C234": [
"proved",
"timers fire in time"
],
"C235": [
"partial",
"false for timeouts under a second plus the delay, for closing while the timer fires and for timeout 0; proved otherwise"
],
"C236": [
"proved",
"JSON is a parameter with laws (a decoder takes one value and says how many bytes it used); shown to be satisfiable"
],
"C237": [
"partial",
"refuted in general: a goroutine per message, and absent fields keep the values of the message before; proved when handlers finish before the next message is read"
],
"C238": [
"proved",
"JSON as in C236"
],
"C239": [
"partial",
"refuted in general: bytes buffered by the decoder are dropped; proved if the peer waits for the answer, and in general that a suffix is read"
],
"C240": [
"proved",
"match relation defined independently of the matcher"
],
"C241": [
"proved",
"languages of all twenty patterns"
],
"C242": [
"proved",
"every map, name, value and sequence of changes"
],
"C243": [
"partial",
"proved for normalised names with one non-empty value; refuted in general (several values, empty values, raw names, stopping)"
],
"C244": [
"proved",
"all interleavings"
],
"C245": [
"partial",
"proved for orderly runs; leaks after failed start, failed stop and a late stream (_false), and they are permanent (C245_leak_false)"
],
"C246": [
"partial",
"proved for clients that send three bytes or end, and in the fixed modes for all clients; refuted in permissive mode for clients that reset or stay silent"
],
"C247": [
"partial",
"refuted: plain text is answered; proved for TLS clients, strict mode, Serve and load errors"
],
"C248": [
"partial",
"Proved: the certificate names exactly the forms of every service of the configuration that is read. False of the code: C248_both_false (a second configuration of the same name is ignored), C248_url_false (panic on a URL webhook)."
],
"C249": [
"proved",
"For every history and selector; C249_deleted records that a deleted labelled group is retried for ever."
],
"C250": [
"partial",
"Proved for keys that do not index lists. C250_element_false and C250_append_false: lists in a clone."
],
"C251": [
"partial",
"Proved for every schedule: a new stream is opened, the client gives up, or one of three stuck states; without stuck states when the receiver is idle at the break. The stuck states are reachable and permanent (C251_update_false, C251_full_false, C251_unsupported_false)."
],
"C252": [
"partial",
"Proved as long as no server ends a stream with status Canceled; C252_canceled_false without that."
],
"C253": [
"proved",
"all of it for the model of buffers; the JDK's buffers are environment"
],
"C254": [
"partial",
"C254_read_partial and C254_write_partial are proved for whole arrays; reading or writing part of an array and reading one byte are false of the code"
],
"C255": [
"partial",
"proved for reading, writing and accepting with distinct hash codes; the connect event, equal hash codes and interest before connecting are false of the code"
],
"C256": [
"partial",
"proved for programs that call socket() first, do not repeat finishConnect and change interests once; false otherwise"
],
"C257": [
"partial",
"proved for bodies without the byte 255 whose end comes separately; C257_order holds always; the rest is false of the code"
],
"C258": [
"partial",
"headers and status are proved for all responses, the body for at most one buffer; several buffers, cookies and flushing are false of the code"
],
"C259": [
"partial",
"proved for method, address, bytes without NUL and UTF-8 headers of the answer; request headers, text bodies, NUL and other headers are false of the code"
],
"C260": [
"partial",
"C260_text and C260_unread are proved in full; reading from a part that ends inside a character is false of the code"
],
"C261": [
"partial",
"the tables after every update are proved in closed form; that traffic then follows the new configuration is false of the code"
],
"C262": [
"partial",
"attributes and soundness are proved in full; the round trip of subjects for simple values only, the rest is false of the code"
],
"C263": [
"partial",
"proved for programs that close no transport and for servers that end within a second; the rest is false of the code"
],
"C264": [
"partial",
"proved if all addresses resolve and numbers fit; silent mistakes, large ports, one bad address and delays are false of the code"
],
"C265": [
"proved",
"Go 1.20 net text functions and libnasp's users of them"
],
"C266": [
"proved",
"ParseCIDR and Contains from the text of the range"
],
"C267": [
"partial",
"holds for endpoints given by address (C267_reach_partial), false for host names (C267_name_false)"
],
"C268": [
"partial",
"Proved where the client speaks first and the first read of each end gets the metadata whole; what happens otherwise is disproved (cut metadata, server first)."
],
"C269": [
"proved",
"Encoding and decoding byte by byte; UTF-8 checks, Base64 and the bytes of flat buffers are left out."
],
"C270": [
"partial",
"Proved: an outgoing connection that has not agreed sends nothing of its own; an accepted one says nothing before metadata arrived. Disproved for accepted connections in general."
],
"C271": [
"proved",
"at the granularity of one step per call; overlapping calls: C36, C37 and the pool model of Pool/Channel"
],
"C272": [
"partial",
"exact iff both readings fall into the same second; proved to jump back and to hide every full second otherwise"
],
"C273": [
"partial",
"all calls but 25, which are listed exactly and panic"
],
"C274": [
"proved",
"all levels"
],
"C275": [
"partial",
"filters and a granted port; never released"
],
"C276": [
"partial",
"not offered or granted; otherwise always a panic"
],
"C277": [
"proved",
"every record and order of iteration"
],
"C278": [
"partial",
"exact conditions for a protected connection; false: unreadable metadata, match fields that are not an object"
],
"C279": [
"partial",
"clusters with subscribed endpoints; false for all others"
],
"C280": [
"partial",
"latest pick, own pick and sequences without refreshes or overlap; false with them"
],
"C281": [
"partial",
"exact work of a refresh; destinations are never forgotten"
],
"C282": [
"partial",
"the first URI; verified if it is the only one; false with several"
],
"C283": [
"partial",
"the last message of each name; all if names differ, as in the assets; false otherwise"
],
"C284": [
"partial",
"told for names without commas and spaces; false otherwise"
],
"C285": [
"partial",
"same files if API keys differ, as in the assets; every file once; stale files and equal keys (false)"
],
"C286": [
"partial",
"connected sockets; exceptions without a connection"
],
"C287": [
"partial",
"names and IPv4; IPv6 fails"
],
"C288": [
"partial",
"what is shown, one connection, taking up; signing goes on unless a rebuild fails; crash without TLS"
],
"C289": [
"partial",
"client's options, health check, environment; options both commands declare are the client's"
],
"C290": [
"partial",
"a direct client; the mesh's own client drops them"
],
"C291": [
"partial",
"all complete lines; an unterminated last line is dropped"
],
"C292": [
"partial",
"every start and session history in a cluster; outside a cluster nothing is asked of clients"
]
}