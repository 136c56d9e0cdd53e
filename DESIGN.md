# Formal model of cisco-open/libnasp — design

## Approach
Lean 4 (core library only). The model is a set of total computable functions over
`List UInt8`, `Nat`, `Int`, `BitVec`, `Option` and plain structures; stateful cores are `step` functions.
Each definition carries a comment citing the Go file and lines it models and what was simplified.
Property theorems live in `lean/Verif/Props/*.lean`, separate from models (`lean/Verif/<Area>/…`) and helper lemmas.

General modelling conventions
* a Go function returning `(T, error)` becomes `Except Err T`; a `*bytes.Reader` becomes the list of unread bytes, and a read returns the rest;
* a writer becomes the list of bytes it appends; capacity checks of `SliceWriter` are modelled where the code relies on them (C23, request serialisation);
* concurrency: an operation protected by one mutex (or one atomic/sync.Map call) is one atomic step; where the code uses several steps the model has several steps;
* external calls (regexp, TLS, CRC-32C polynomial arithmetic, floats, networks) are parameters or explicit event inputs.

## Plan per property
| Id | What is modelled | How it is proved |
|----|------------------|------------------|
| C01–C03 | varint.go on byte lists and `BitVec` zig-zag | induction on the value / input; size by case bands |
| C04 | int/bool/float/uuid codecs | big-endian base-256 induction |
| C05, C06, C11 | string/bytes/array codecs with version contexts | case analysis + C01 |
| C07 | tagged field section | insertion-sort permutation lemma + list induction |
| C08, C09, C12 | an interpreter of message schemas modelled on struct_processor.tmpl (all generated messages are instances) | mutual structural induction on schemas |
| C10, C19 | tables extracted from the generated Go by a script (tools/) | `decide +kernel` over the finite table lifted to the generic theorem |
| C13–C18 | batchrecord/recordheader/recordbatch/recordbatches/records | as C05/C09; CRC is a parameter |
| C20, C21 | request.go, response.go, header.go | composition of C09 |
| C22, C23 | chunkreader.go, slicewriter.go as state machines | invariants over operation sequences |
| C24 | pool.go | arithmetic on bucket thresholds, ownership invariant |
| C25 | versions.go | string lemmas |
| C26–C29 | resourceCache, ACK/NACK loop, cluster/listener hooks | invariants over histories |
| C30–C32 | load balancers, weighted selection | order lemmas; floats replaced by rationals (stated) |
| C33, C34 | filter-chain and virtual-host selection | decision logic |
| C35 | apiResultObservable | state machine over schedules |
| C36–C39 | tunnel server/client | invariants over histories |
| C40, C41 | pool | invariants over histories |
| C42–C45 | proxywasm conn, metrics, stream, pairs | FIFO refinement, invariants |
| C46–C51 | matchers, verifier, dotn, labels, listeners | decision logic / laws; C51 interleaving model with invariants |
| C53–C56 | listener properties, name table, TCP target, socket matches | decision logic against separate specifications |
| C57 | an independent specification of the wire format (WireSpec) | equality of writer and specification by induction on schemas |
| C58 | an independent predicate for writable values (WriteSpec) | Write succeeds iff the predicate, by induction on schemas |
| C59 | readers of fields, batches, messages and envelopes, with panics as a result | closure of `Tail`/`Calm` under the reader combinators, by induction on schemas; counterexample bytes |
| C60 | endpoint statistics, dial and close wrappers, endpoint updates (`Ads/Active`) | invariant over histories (open connections and requests vs. counter); concrete runs for the negations |
| C61, C62 | `tcpDialer.DialContext` step by step with pools reduced to factory and idle connections (`Net/OutTcp`) | invariants over all interleavings; traces as specification; concrete runs for the negations |
| C63 | `RoundTrip` writes to the shared TLS configuration and transport as atomic steps, `net/http` transport by contract (`Net/OutHttp`) | same |
| C64 | `isInitialized` (`Ads/Init`) over the histories of C26–C29 | invariant: initialised flag = accepted non-empty response since the last connection |
| C52 | `endpoint.go` load distribution (`Ads/Balance`) with float64 arithmetic on rationals | monotonicity of rounding lemmas through levelLoads → localityLoads → loadDistribution; priority failover by exact fold computation |
| C65 | `wasmPlugin` GetInstance/ReleaseInstance/EnsureInstances/Close (`Wasm/Plugin`), one action per critical section | two trace invariants (accounting; list = running instances) under the caller contract; loop lemma for rotation |
| C66 | `wasmPluginManager` (`Wasm/Plugin`, `mexec`) | invariant under no overlapping creations; `Delete` refuted for every state and every continuation; concrete refutations |
| C67 | same model, every schedule | invariant relating answers to map entries |
| C68 | same as C65 without the contract | refuted by concrete runs |
| C69 | `IstioCAClient.GetCertificate` (`Sec/Ca`), the CA and the clock as inputs | trace invariant over all histories |
| C70 | `selfsigned` SAN loop, serial numbers, options (`Sec/Ca`) | induction over the SANs; serial refuted by an interleaving, options refuted for all |
| C71 | `WrapTLSConfig`, client and server certificate callbacks (`Net/TlsWrap`), compared with a model of `crypto/tls` certificate selection | case analysis for all callbacks; refuted for absent, declining and competing callbacks |
| C72 | dialer, connection, connection-state holder, `GotConn` (`Net/Dial`) | invariants over all runs with fresh contexts / succeeding after-hooks; refuted otherwise |
| C73 | lock order of the TLS-state getter and the handshake (`Net/ConnState`) | progress + decreasing measure when nobody asks during the handshake; deadlock refutation |
| C74 | hook order of dial and close (`Net/Dial`) | invariant on the trace, all runs and failures |
| C75 | code generator (`Kafka/Generator`) against an independent meaning of specifications (`Kafka/LayoutSpec`) | induction on the specification, all versions; uniqueness of the meaning |
| C76 | bundled JSON specifications (`Kafka/Gen/Spec`, extracted) and shipped codecs (`Kafka/Gen/Messages`, extracted) | both tables are complete and finite: kernel evaluation of the generator on each specification, then C75 for all versions |
| C77 | nullable versions in `Kafka/Generator` | what the generator does by induction (`C77_inherited`); exact from version 1 on for flat nullability (`_partial`); refuted at version 0 and below nullable structures |
| C78 | `pii.go`: patterns as regular expressions with leftmost-first matching, masking, arbitrary pattern order (`Exp/Pii`) | engine contract by induction on the matcher; masking by induction on matches and order; order independence when patterns do not interfere (`_partial`), refuted otherwise |
| C79, C80 | `kafka-message-pii-filter/main.go`: buffers, handlers, in-flight queue and host buffering (`Exp/PiiFilter`) on top of the message model | invariant over all portions and interleavings; unique framing |
| C81 | same | sufficient condition (`_partial`); refuted by concrete streams |
| C82 | keys as words, `Select` as a fold over the queue (Exp/NioKey) | bit lemmas, induction over the queue, any map order |
| C83, C84 | reader goroutines, `AsyncRead`, scan, errors, Close as atomic steps (Exp/NioConn) | invariant `rcvd = delivered ++ buf ++ held ++ net`; `_false` runs for completeness at the end of the stream |
| C85, C86 | writer goroutines, channel of 64 buffers, partial and failing writes (Exp/NioConn) | invariant `accepted = wire ++ held ++ channel`; `_false` runs for crash, loss, repetition |
| C87 | accepting goroutines, channel of one, queue, answers of the caller (Exp/NioOpen) | invariant over all interleavings, quiescence and decreasing work |
| C88 | dialing goroutines, list of connections, merging of reports (Exp/NioOpen) | conservation; counting invariant under one dial per key (`_partial`); `_false` runs |
| C89 | queue of 64 (Exp/NioKey) | with room (`_partial`), `_false` with a full queue |
| C90 | audiences, header, token review, group lookup (Heimdall/Auth) | split/join lemmas, case analysis of the handler for all headers |
| C91 | as C90 | own CA configuration (`_partial`), `_false` with a foreign service account |
| C92 | reconciliation of the token secret with time (Heimdall/Token) | invariant over histories |
| C93 | as C92 with tampering and changing accounts | account unchanged (`_partial`), `_false` runs (one for all continuations) |
| C94 | mutation of a pod: annotations, labels, variables, ports, mounts, volumes (Heimdall/Pod) | for all pods by computation and map lemmas |
| C95 | as C94, shared label map | not of a DeploymentConfig (`_partial`), `_false` |
| C96 | workload of a pod (GetDeployMetaFromPod with its regular expression) | for all names by list lemmas |
| C97 | variables of the mutated pod, go-envconfig's parsing (Heimdall/Env) | round trip: last variable wins, join/split, permutation of labels |
| C98 | node id, SPIFFE id, Override | split of a join, injectivity (`_partial`), `_false` |
| C99 | certificate directory with torn writes in any order, crashes, damage, time (Heimdall/Cert) | invariant (generations unique), completeness of a full write |
| C100 | webhook configuration, in-memory copy, triggers, failed updates (Heimdall/Cert) | invariant if updates succeed (`_partial`), `_false` (one for any number of ticks) |
| C101 | two relaying goroutines, connections with queues, ends and CloseWrite (Net/Proxy) | invariant per direction over all interleavings, work measure for progress |
| C102 | the same with connections without CloseWrite and with breaks | what holds (`_partial`), lost answer and connections left open (`_false`) |
| C103 | stack of wrapped connections, search for state and TLS (Net/Track) | induction over the stack |
| C104 | addresses joined by commas over two map iterations, split and paired | equal orders or one network (`_partial`), `_false` |
| C105 | store entry, watcher, update channel, calls polling (Ads/ListenerProps) | invariant and progress if the first call lasts (`_partial`), `_false` |
| C106 | getSubset over tunnelled and service ports (Bifrost/Endpoints) | membership characterisation (`_partial`), `_false` |
| C107 | Reconcile over sessions with failing API calls | list characterisation (`_partial`), `_false` |
| C108 | regular expression engine with captures over character lists, the whole tag table and the fold of ParseEnvoyStatTag | induction over the table and the labels; independent rendering of a label set as specification |
| C109 | same model | cluster host form for all names (`_partial`), counterexamples (`_false`) |
| C110 | net/http writer, customResponseWriter and serve as functions of an arbitrary operation list, filters and middlewares arbitrary functions | simulation between the two writers by induction over the operations |
| C111 | same model | status and body for a wider class (`_partial`), counterexamples (`_false`) |
| C112 | same model, trace of phases | case analysis over all failing steps |
| C113 | same model | `_partial`, `_false` |
| C114 | RoundTrip with arbitrary filters and transport, trace | case analysis |
| C115 | same model, contexts and bodies as ghost state | `_partial`, general `_false` theorems |
| C116 | RequestInterceptor | trace characterisation (`_partial`), `_false` |
| C117 | envoyHTTPHandlerMiddleware.BeforeRequest, XFCC element | element characterisation (`_partial`), `_false` |
| C118 | attributes written by both middlewares as an ordered store of writes | read-after-write per attribute (`_partial`), `_false` |
| C119 | both middlewares, in both orders | writes with disjoint path heads commute |
| C120 | flat buffer reader with wrapping offsets and out-of-range failure | reader correct for a relational specification of the format |
| C121 | same reader on arbitrary bytes | results are contained in the buffer (`_partial`), `_false` |
| C122, C123 | host.go:GetProperty/SetProperty over the dotted-path store of C41 ff. and its parents | path laws of the store; C123 `_false` for paths of several parts and names with dots |
| C124, C125 | host.go:SetTickPeriodMilliseconds, Done: timer goroutines, instance lock, channels as atomic actions | invariant lock holder = running tick; `_partial` + runs that hang, leak or crash |
| C126, C127 | vm_store.go as a map with whole calls (C126) and with single accesses (C127) | induction over histories; `_false` runs |
| C128 | api/vm.go user registry: Acquire, Release, Close step by step | invariant; `_false` run |
| C129 | data_store.go sources with arbitrary answers | induction over answers; `_false` |
| C130-C132 | context.go: registry, counters modulo 2^32, plugins and filter contexts | invariants over histories; `_false` for shared root ids and unfinished contexts |
| C133-C134 | istio.go ServeHTTP/updateUnifiedListener, verify/util.go: server, policies written field by field, clients in phases | transition system, invariant after the last write; `_false` runs for early, lost and half-written policies and for crashes |
| C135-C136 | ca/istio/config.go, k8s/service/endpoint.go: lookup of the CA configuration in a cluster, choice of source, Heimdall request | functions over lists of labelled objects; `_false` for root certificates of another revision and gateways without address |
| C137-C139 | istio.go: creation of a handler, its discovery client, pushing of metrics, passthrough handler | atomic actions with guards (invariants), functions of the configuration; `_false` for concurrent GetDiscoveryClient, late pushes, enabled without TLS |
| C140 | proxywasm/grpc/dialer.go: Dial, connection state of calls | plan of a connection and a world of servers; `_false`: certificates are never verified, TLS always |
| C141 | ca/istio/istio_ca_client.go: handshake, token, chain | function of configuration, server, answer; induction over requests; `_false`: connections stay open |
| C142 | kafka-protocol-go compression gzip, snappy | buffered reader over any source; induction over reads; `_false` for damaged streams |
| C143-C144 | python nasp.go: pool of transports, responses in C memory | histories with ghost holders (invariant), allocation numbers; `_false` for races, shared hashes, zero bytes |
| C145 | java log.go: batches over a ring (go-diodes) | refinement of a queue while at most 1000 lines wait; `_false`: one line more loses all before it |
| C146 | kafka MarshalJSON: model of the text (Kafka/Json, with the aliasing of the header's buffer), an independent JSON reader (Kafka/JsonSpec) | induction over schemas: parsing the text gives the value of the message; `_false` theorems: no escaping, record headers never valid, NaN |
| C147 | kafka Equal: content function on schemas (null = empty, no record attributes) | induction: Equal iff same content; equivalence; `_false`: null vs empty, NaN, attributes, "null" |
| C148 | The port listener's events, the two handlers (one goroutine per topic), the set of ports, the trigger channel and the reconciler as atomic actions | Invariant over all schedules in which the events of one port are handled in turn; `C225_taken_false`, `C225_stale_false` are runs of the code as it is. |
| C149 | The map of middlewares, the loops over the live map (start, next, end of an iteration) and changes to it as atomic actions | Invariant (called + still to come = registered) over all schedules without changes; `C149_crash_false`, `C149_twice_false`. |
| C150 | The writer of record batches with the room left in its SliceWriter and the second Close of the snappy writer (Kafka/Section.lean); the readers of Kafka/Batch.lean | Induction over the batches against Wire.batch and Wire.backBatch; `C150_snappy_false`, `C150_snappy_rest_false`, `C150_snappy_length_false`, `C150_grows_false`, `C150_empty_false`. |
| C151 | BatchRecord.Read and RecordHeader.Read over a source of bytes that may return fewer than asked for (Kafka/RecordVia.lean), and the gzip reader as such a source (Kafka/Gzip.lean, Kafka/GzipSource.lean); Kafka/Batch.lean reads gzip batches through it | A source that gives everything below a size reads every encoded record back; the gzip reader is one below 16 KiB; on the plain source the readers equal those of Kafka/Record.lean; `C226_large_false`, `C226_batch_false`, `C226_last_false`. |
| C152 | `Pool/Timed`: clock in ms, the one-second ticker of the pool's idle check (decision and Close apart), idle timers of connections, initial connections; `Pool/Create`: NewChannelPool with a failing factory (part of C40) | invariants on the clocks and the trace (bound on the time since the last use, expiry exactly at the timeout); `_false`: Get between check and Close, connection used longer than the timeout, slow initial connections, initial connections never expire; creation leaks when closing fails |
| C153 | the model of C33: longest prefix | split off C33 so that each id is either proved in full or has its full claim, what holds of it (`_partial`) and its negation (`_false`) in one place |
| C154 | the model of C46: textual matchers | split off C46 so that each id is either proved in full or has its full claim, what holds of it (`_partial`) and its negation (`_false`) in one place |
| C155 | the model of C53: client certificate requirement | split off C53 so that each id is either proved in full or has its full claim, what holds of it (`_partial`) and its negation (`_false`) in one place |
| C156 | the model of C54: empty answers | split off C54 so that each id is either proved in full or has its full claim, what holds of it (`_partial`) and its negation (`_false`) in one place |
| C157 | the model of C36: exhaustion | split off C36 so that each id is either proved in full or has its full claim, what holds of it (`_partial`) and its negation (`_false`) in one place |
| C158 | the model of C39: delivery and errors at the client | split off C39 so that each id is either proved in full or has its full claim, what holds of it (`_partial`) and its negation (`_false`) in one place |
| C159 | the model of C30: answers for every state of health | split off C30 so that each id is either proved in full or has its full claim, what holds of it (`_partial`) and its negation (`_false`) in one place |
| C160 | the model of C152: no expiry while in use | split off C152 so that each id is either proved in full or has its full claim, what holds of it (`_partial`) and its negation (`_false`) in one place |
| C161 | the model of C13: length prefix | split off C13 so that each id is either proved in full or has its full claim, what holds of it (`_partial`) and its negation (`_false`) in one place |
| C162 | the model of C25: refusal of other strings | split off C25 so that each id is either proved in full or has its full claim, what holds of it (`_partial`) and its negation (`_false`) in one place |
| C163 | the model of C02: 64-bit sizes | split off C02 so that each id is either proved in full or has its full claim, what holds of it (`_partial`) and its negation (`_false`) in one place |
| C164 | the model of C06: arrays | split off C06 so that each id is either proved in full or has its full claim, what holds of it (`_partial`) and its negation (`_false`) in one place |
| C165 | the model of C07: read-back | split off C07 so that each id is either proved in full or has its full claim, what holds of it (`_partial`) and its negation (`_false`) in one place |
| C166 | the model of C28: nonces | split off C28 so that each id is either proved in full or has its full claim, what holds of it (`_partial`) and its negation (`_false`) in one place |
| C167 | the model of C35: no lost update, progress, cancellation | split off C35 so that each id is either proved in full or has its full claim, what holds of it (`_partial`) and its negation (`_false`) in one place |
| C168 | the model of C18: incomplete last batch | split off C18 so that each id is either proved in full or has its full claim, what holds of it (`_partial`) and its negation (`_false`) in one place |
| C169 | the model of C44: pauses, Close, unknown names | split off C44 so that each id is either proved in full or has its full claim, what holds of it (`_partial`) and its negation (`_false`) in one place |
| C170 | the model of C51: ids and Close | split off C51 so that each id is either proved in full or has its full claim, what holds of it (`_partial`) and its negation (`_false`) in one place |
| C171 | the model of C78: exact masking | split off C78 so that each id is either proved in full or has its full claim, what holds of it (`_partial`) and its negation (`_false`) in one place |
| C172 | the model of C52: priorities | split off C52 so that each id is either proved in full or has its full claim, what holds of it (`_partial`) and its negation (`_false`) in one place |
| C173 | the model of C31: closeness to the share | split off C31 so that each id is either proved in full or has its full claim, what holds of it (`_partial`) and its negation (`_false`) in one place |
| C174 | the model of C50: short and silent clients | split off C50 so that each id is either proved in full or has its full claim, what holds of it (`_partial`) and its negation (`_false`) in one place |
| C175 | the model of C23: complete writes | split off C23 so that each id is either proved in full or has its full claim, what holds of it (`_partial`) and its negation (`_false`) in one place |
| C176 | the model of C64: types without resources | split off C64 so that each id is either proved in full or has its full claim, what holds of it (`_partial`) and its negation (`_false`) in one place |
| C177 | the model of C59: no panic | split off C59 so that each id is either proved in full or has its full claim, what holds of it (`_partial`) and its negation (`_false`) in one place |
| C178 | the model of C47: dropped restrictions | split off C47 so that each id is either proved in full or has its full claim, what holds of it (`_partial`) and its negation (`_false`) in one place |
| C179 | the model of C12: removed fields | split off C12 so that each id is either proved in full or has its full claim, what holds of it (`_partial`) and its negation (`_false`) in one place |
| C180 | the model of C34: most specific virtual host | split off C34 so that each id is either proved in full or has its full claim, what holds of it (`_partial`) and its negation (`_false`) in one place |
| C181 | the model of C29: subscriptions and statistics | split off C29 so that each id is either proved in full or has its full claim, what holds of it (`_partial`) and its negation (`_false`) in one place |
| C182 | the model of C40: exclusivity, leaks, progress | split off C40 so that each id is either proved in full or has its full claim, what holds of it (`_partial`) and its negation (`_false`) in one place |
| C183 | the model of C32: weights | split off C32 so that each id is either proved in full or has its full claim, what holds of it (`_partial`) and its negation (`_false`) in one place |
| C184 | the model of C20: correlation id and type of what is parsed (holds without restriction) | split off C20 so that each id is either proved in full or has its full claim, what holds of it (`_partial`) and its negation (`_false`) in one place |
| C185 | the model of C57: numbers (holds without restriction) | split off C57 so that each id is either proved in full or has its full claim, what holds of it (`_partial`) and its negation (`_false`) in one place |
| C186 | the model of C41: adding, drift of Len (holds without restriction) | split off C41 so that each id is either proved in full or has its full claim, what holds of it (`_partial`) and its negation (`_false`) in one place |
| C187 | the model of C05 | split off C05 like C153-C186: false of the code (C187_null_text_false) |
| C188 | the model of C08 | split off C08 like C153-C186: false of the code: unsupported nested structures are counted, byte slices of 2^31-1 bytes are refused by SizeInBytes only |
| C189 | the model of C09 | split off C09 like C153-C186: false of the code (C189_null_struct_false) |
| C190 | the model of C14 | split off C14 like C153-C186: C190_truncated_headers_partial: records without key and value bytes; C190_truncated_false otherwise |
| C191 | the model of C15 | split off C15 like C153-C186: false of the code: 16 bytes follow the batch (C191_snappy_false) |
| C192 | the model of C57 | split off C57 like C153-C186: C192_snappy_partial: the batch and possibly the compressed empty string; two counterexamples |
| C193 | the model of C20 | split off C20 like C153-C186: false of the code (C193_serialize_other_version_false) |
| C194 | the model of C38 | split off C38 like C153-C186: authenticators that return an error whenever they reject, sequential control messages; two counterexamples |
| C195 | the model of C42 | split off C42 like C153-C186: end of stream with a buffer not filled; four counterexamples |
| C196 | the model of C43 | split off C43 like C153-C186: one kind and key set per name, quiet histories; five counterexamples |
| C197 | the model of C61 | split off C61 like C153-C186: settled settings; two counterexamples |
| C198 | the model of C88 | split off C88 like C153-C186: one key, or one dial per key; three counterexamples |
| C199 | the model of C91 | split off C91 like C153-C186: false of the code (C199_other_namespace_false) |
| C200 | the model of C98 | split off C98 like C153-C186: environments that agree on three fields; three counterexamples |
| C201 | the model of C95 | split off C95 like C153-C186: volumes of the first mutation; two counterexamples |
| C202 | the model of C102 | split off C102 like C153-C186: false of the code: three counterexamples |
| C203 | the model of C105 | split off C105 like C153-C186: living subscriptions; three counterexamples |
| C204 | the model of C106 | split off C106 like C153-C186: false of the code (C204_unnamed_false) |
| C205 | the model of C107 | split off C107 like C153-C186: if reads and writes succeed; two counterexamples |
| C206 | the model of C116 | split off C116 like C153-C186: false of the code: two counterexamples |
| C207 | the model of C117 | split off C117 like C153-C186: false of the code: three counterexamples |
| C208 | the model of C118 | split off C118 like C153-C186: false of the code: seven counterexamples |
| C209 | the model of C123 | split off C123 like C153-C186: false of the code: three counterexamples |
| C210 | the model of C125 | split off C125 like C153-C186: between two ticks; four counterexamples |
| C211 | the model of C128 | split off C128 like C153-C186: no acquisition under way; one counterexample |
| C212 | the model of C129 | split off C129 like C153-C186: false of the code (C212_status_false) |
| C213 | the model of C132 | split off C132 like C153-C186: false of the code: two counterexamples |
| C214 | the model of C135 | split off C135 like C153-C186: a config map of the revision exists; two counterexamples |
| C215 | the model of C136 | split off C136 like C153-C186: false of the code (C215_source_false) |
| C216 | the model of C138 | split off C138 like C153-C186: requests handled in order; one counterexample |
| C217 | the model of C139 | split off C139 like C153-C186: false of the code (C217_notls_false) |
| C218 | the model of C140 | split off C140 like C153-C186: newest connection; three counterexamples |
| C219 | the model of C141 | split off C141 like C153-C186: the chain is proved; connections stay open (C219_closed_false) |
| C220 | the model of C142 | split off C142 like C153-C186: false of the code (C220_damaged_false) |
| C221 | the model of C143 | split off C143 like C153-C186: false of the code: three counterexamples |
| C222 | the model of C144 | split off C144 like C153-C186: false of the code (C222_body_false) |
| C223 | the model of C145 | split off C145 like C153-C186: false of the code: two counterexamples |
| C224 | the model of C147 | split off C147 like C153-C186: false of the code: four counterexamples |
| C225 | the model of C148 | split off C148 like C153-C186: events of a port handled in turn; two counterexamples |
| C226 | the model of C151 | split off C151 like C153-C186: false of the code: three counterexamples |
| C227 | the model of C121 | split off C121 like C153-C186: false of the code: two counterexamples |
| C228 | the model of C27 | split off C27 like C153-C186: subscribed endpoints and routes, name tables; three counterexamples |
| C229 | `Wasm/Life.lean`: instances and filters as a transition system with the trace of calls into the code | invariants on the trace per filter and per instance, all interleavings and failures |
| C230 | as C229 | invariants under guards; three counterexample runs |
| C231 | `Tunnel/Client.lean`: the tunnel client as an interleaving system (listeners, connects, message handlers as goroutines) with ghost records of requests | invariant over reachable states relating queued connections to requests |
| C232 | the same model | invariant; the effect of connecting computed for every state |
| C233 | the same model with guards | full claim refuted by runs; `_partial` for timely responses, calm closing, resolvable addresses |
| C234 | `Tunnel/Keepalive.lean`: timer, pings and pongs of a control stream in milliseconds | invariant over reachable states of the timed system |
| C235 | the same model | refuted for timeouts under a second, closing while the timer fires and timeout 0; `_partial` for timeouts exceeding the delay of answers by a second, quiet closing |
| C236 | the decoding loop over arbitrarily split bytes (JSON as a parameter with laws), the registry, one goroutine per message | induction over messages and pieces; invariant: done + live + todo is a permutation of the sent |
| C237 | the same model | refuted (goroutine per message; fields of the message variable survive); `_partial` when handlers are faster than messages |
| C238 | client side of opening a stream with `buffered` | decoder rest + unread pieces equal the payload |
| C239 | server side of opening a stream | refuted (decoder's buffer is dropped); `_partial` if the peer waits, and: always a suffix |
| C240 | the backtracking matcher of C78 | soundness and completeness of the matcher against an inductive match relation, by induction on expressions |
| C241 | the twenty patterns | languages of all patterns as sets of words; boundaries |
| C242 | header maps as lists of entries; canonical names of net/textproto and small-letter names of gRPC metadata | case facts for every letter, then map laws by induction |
| C243 | the same model, `Range` as the list of visits | proved for normalised names and single non-empty values (partial); refuted in general by families of maps |
| C244 | accesses to the map of instance contexts as atomic steps, any number of calls in progress | invariant over all runs |
| C245 | the same model with failures of starting and stopping | invariant for orderly runs (partial); leaks by concrete runs and a stability theorem |
| C246 | the loop of net/http around the listener of C50 | induction over the clients; refuted in permissive mode for a client that resets or stays silent, with any clients before and after |
| C247 | the ways to start a server, with the loop of C246 | refuted: plain text is served by servers started with TLS; TLS clients, strict mode and load errors proved |
| C248 | `Heimdall/Webhook`: names of the services of a configuration | membership for every list of webhooks; two counterexamples |
| C249 | `Heimdall/Webhook`: selector, events, reconciler | induction over histories |
| C250 | `Sec/DotnClone`: conversion of nested maps and lists | structural induction; counterexamples for lists |
| C251 | `Ads/Stream`: three goroutines, channels, context | measure and progress (`Leads`: all schedules); permanent stuck states |
| C252 | `Ads/Stream` | invariant over all runs |
| C253 | `Exp/JavaIo`: buffers as data, position and limit; reads and (gathering) writes with arbitrary partial results | invariants of position and limit, induction over buffers and over repeated writes |
| C254 | `Exp/JavaIo`: array streams with the copies they make | calculation; `_false`: parts of arrays, single bytes |
| C255 | `Exp/JavaSel`: keys, ready sets, the table by hash code, the loop over the words of `Select` (C82) | induction over the words; `_false`: the connect event, equal hash codes, interest before the connection |
| C256 | `Exp/JavaSel`: a channel and its dialer as a transition system | invariant; `_false`: concrete runs |
| C257 | `Exp/Spring`: single byte reads as Java sees them, the JDK's array reads and Spring's buffers | induction over buffers; `_false` for the byte 255 and for an end that comes with the last byte |
| C258 | `Exp/Spring`: headers (with the header map of C242), status, first buffer | induction over headers; `_false`: further buffers, cookies, flushes |
| C259 | `Exp/PyReq`: what crosses the C interface in both directions | calculation and induction over headers; `_false`: headers, texts, NUL, headers that are not UTF-8 |
| C260 | `Kafka/Runes`: Go's UTF-8 decoder, `ReadRune`/`UnreadRune` over the windows of C22 | decoder proved against Lean's UTF-8 encoding; induction over windows and over the text; `_false`: a part that ends inside a character |
| C261 | The three update handlers as functions on the tables of counters of Balance.lean | closed form of every table after an update, by induction over clusters, endpoints and routes; `_false` theorems run selections before and after an update |
| C262 | The regular expression as a list of candidates in the order of a backtracking matcher; `FindAll`, `ParseDN`; `pkix.Name.String` as environment | first candidate of rendered names by induction over attributes; soundness of every candidate; round trip of subjects; `_false` for escapes, slashes, several values, serial numbers |
| C263 | Contexts of the shared Java handler and of mobile transports under all sequences of operations; the timing of `ListenAndServe` | induction over the operations; `_false` for closing, failed creation, the deferred cancel, late errors |
| C264 | The address pattern as candidates, `runProxies`, `proxyclient.Run` with and without times | uniqueness of the split at colons, induction over addresses and connections; `_false` for silent mistakes, large ports, unresolvable addresses, delays |
| C265 | Net/Ip: net.ParseIP, IP.String, JoinHostPort/SplitHostPort, TCPAddr.String and the dialer's reading of Go 1.20, with GetAddress and ListeningOn on top | parser = grammar (maximal munch, both directions); writer produces the grammar; split inverts join |
| C266 | Net/Ip: ParseCIDR, IPNet.Contains, matchPrefixRanges | bytes under a mask = division of the address as a number; induction over the ranges |
| C267 | Net/Ip: GetAddress, the address filter, the counter keys | from C265; counterexample for every host name (`C267_name_false`) |
| C268 | Exp/TcpMeta: the filter as a state machine, both ends and the bytes under way | phases of the exchange as invariant; runs as counterexamples |
| C269 | Exp/TcpMeta: protobuf bytes, structs, nodes, pairs, environment | decoding undoes encoding, for any permutation of map entries; maps by their lookups |
| C270 | Exp/TcpMeta | invariant over all sequences of reads and writes; counterexample for every client |
| C271 | `Pool/Timed` (the timed model of C152: one step per call, a clock, the checker's ticker) | invariant: open ⇔ no close in the trace; a closed pool has no idle connection, only refusals after its only close, and the ticker's next tick at most 1 s after it |
| C272–C274 | `Wasm/HostAbi`: the imports handler, one constructor per method, the context's properties as a parameter, the wall clock as nanoseconds | case analysis over the calls; the clock is exact iff both readings are in the same second (`omega`), goes backwards otherwise; exact list of the calls that panic |
| C275 | `RunMetricsServer` with `ServeHTTP`, the loop of the HTTP server and the goroutines of both listeners | invariants; every run without outside steps is bounded, at rest all clients are served; counterexamples for the end |
| C276 | the same, with a mesh that refuses the port | invariant; whenever refused, rest only by a panic |
| C277 | `Ads/ClientProps.lean`: `GetUnifiedFilterMetadata` over any type of JSON values, maps as lists in any order | induction over the three loops, then a description of the result by membership |
| C278 | `Ads/ClientProps.lean`: `newClientProperties` (sockets and endpoint choice from `Ads/Route`, `Ads/Balance`) and the two dialers | case analysis; exact conditions for a protected connection (partial), and the entries that remove protection or crash (false) |
| C279 | `Ads/ClientProps.lean`: the load assignment a cluster refers to, in front of `newClientProperties` | lookup in a store with distinct names; clusters of another discovery type fail for all inputs (false) |
| C280 | `Ads/Picks.lean`: registering, reading and refreshing as critical sections over any load balancer; the code's round robin as an instance | invariant (the stored result is the last pick), induction over sequences of connections; runs with refreshes or overlapping connections (false) |
| C281 | `Ads/Picks.lean` | invariant on the keys, exact number of computations of a refresh; growth for every number of destinations (false) |
| C282 | `Sec/CertNames.lean` over the verifier (`Sec/Cert.lean`) and the properties (`Wasm/Middleware.lean`) | case analysis of the verification; several URIs (false) |
| C283 | `Kafka/LoadSpec.lean` | induction on the tree: what is loaded is the last message of each name; same names (false); names of the assets by evaluation |
| C284 | `Sec/CertNames.lean` | the parts and names are recovered by splitting; commas and spaces (false) |
| C285 | `Kafka/GenAll.lean`: the run over all messages in any order, files of a message as given by the model of the generator | exact characterisation of success, invariance under permutations, uniqueness of sorting with distinct keys; equal keys and stale files (false) |
| C286 | `Exp/JavaAddr.lean`: the address functions over the text of the connection's address, and the socket's methods | split of the joined text gives it back; states of the socket; an unconnected socket (false) |
| C287 | `Exp/JavaAddr.lean`: the `%s:%d` texts and Go's split of host and port | hosts without colons; IPv6 literals fail (false) |
| C288 | `Sec/CitadelMtls.lean`: client certificate of a handshake, reconnecting, histories of signings, handshakes and changes | invariant over all histories (shown certificates valid, one connection); characterisation of what is given; stuck after one failed rebuild, crash without TLS, endless replacing (false) |
| C289 | `Bifrost/Flags.lean`: viper's store of flags bound by command after command, `Get` with arguments and environment | equivalence with the meant value for options no later command declares; shared options (false) |
| C290 | `Bifrost/Flags.lean`: the options the client of the tunnel is made with | equality with the given ones for a direct client; with the mesh's client (false) |
| C291 | `Exp/Echo.lean`: the handler of a connection, byte by byte, writes that succeed or fail | induction over pieces and lines; an unterminated last line (false) |
| C292 | `Bifrost/ServerCmd.lean`: the start of the command, with the sessions of `Tunnel/Control.lean` | cases of the start, invariant over session histories; outside a cluster nothing is asked (false) |


## Trusted base
* **Lean 4.33.0's kernel** accepts every theorem; nothing else is needed to believe the proofs. No theorem uses compiled
  evaluation: `decide +kernel` evaluates inside the kernel.
* **Axioms**: at most `propext`, `Classical.choice`, `Quot.sound` (Lean's standard ones). AXIOMS.md lists, per property theorem,
  exactly which it depends on (generated from `#print axioms` by tools/axioms.py). The project adds no axiom.
* **No Mathlib** module is imported; only Lean core.
* **Specifications**: the definitions used in theorem statements. Those for messages are in Kafka/WireSpec.lean and Kafka/RoundSpec.lean
  (no reader, writer or size function of the model occurs in them); for concurrent components the specification is a predicate on the
  trace of calls and returns (ghost history), stated in the Props file; for decision logic it is at the top of the Props file.
* **Fidelity of the model** to /repo is by reading; every definition cites file and lines. Nothing was executed.
* **Extraction scripts**: `tools/extract_messages.py` and `tools/extract_headers.py` parse the 328 generated Go structs (field kinds, version
  ranges, tags, nullability, defaults) and the header-version/new-message switches into `Kafka/Gen/*.lean`. The scripts are trusted for C10, C19
  and the shipped-message theorems; the generic theorems (C08, C09, C57, …) do not depend on them.

## What is modelled
MODELLED.md lists, for each source file, the modules that model parts of it (generated from the citations; `tools/modtab.py`). By area:

| Area | Sources | Lean |
|---|---|---|
| Kafka protocol: primitives, fields, records, batches, messages, envelope, readers, writers, pools; the code generator and its specifications | components/kafka-protocol-go | Kafka/*, Kafka/Gen/* (tables extracted from the generated code) |
| tunnel: server, client, sessions, control streams, ports, authentication, back channel | pkg/network/tunnel | Tunnel/* |
| connection pool | pkg/network/pool | Pool/* |
| proxy-wasm host: connections, HTTP, metrics, streams, properties, pairs, plugins, VMs, middleware | pkg/proxywasm | Wasm/* |
| xDS client: cache, protocols, filter chains, load balancing, routes, properties, name table, observables | pkg/ads | Ads/* |
| certificates, matchers, verification, names, CA clients, TLS configuration, CA configuration | pkg/tls, pkg/ca, pkg/util, pkg/istio | Sec/* |
| listeners, dialers, connections, proxies, addresses, connection state, transports | pkg/network, pkg/istio/{tcp,http,grpc}, pkg/istio/istio.go | Net/* |
| heimdall: webhook, controllers, tokens, answers; the environment of a workload | components/heimdall, pkg/environment, pkg/k8s | Heimdall/* |
| bifrost: commands, options, controllers of ports and endpoints | components/bifrost | Bifrost/* |
| Java, mobile and Spring bindings, the TCP metadata filter, the echo server | experimental/*, components/echo-server | Exp/* |

### Abstractions (all conservative unless said otherwise)
* Go errors are reduced to the distinctions the code tests; `Err.panic` is a run-time panic.
* Floating point (load balancing, weighted clusters) is modelled by exact rationals; where rounding decides, the theorem bounds the range in which
  the result is exact (C32: products up to 2^51) or the loads are hypotheses on rounded values (C31).
* CRC-32C, gzip/snappy/lz4/zstd, regexp, TLS handshakes, X.509 chain building, DNS, JSON encoding, random sources and clocks are parameters or
  event inputs; every theorem holds for all their behaviours except where a hypothesis is written.
* Concurrency: a critical section, an atomic, a sync.Map operation or a channel operation is one step; any number of goroutines. The memory model
  below these primitives, and data races on unsynchronised fields, are not modelled. Fairness is only assumed where a theorem says so.
* Timers fire at any moment (an over-approximation of real timeouts). Allocation failure and memory limits are not modelled.

## What is not modelled
* Third-party code: it appears as parameters, event inputs, or a stated part of its behaviour (said at the definitions): the Go runtime and standard library, gRPC, TLS and X.509, Kubernetes clients
  and controller-runtime, viper and cobra, envoy's and istio's filters, wasm runtimes, compression codecs, muxado, Java and Swift class libraries.
* Source files no definition cites, listed at the end of MODELLED.md: `main` functions of the two heimdall commands and of the examples, embedded assets and charts, interface-only files, build-tag files,
  the Java and Swift user interfaces of the examples, the Spring configuration classes, generated protobuf code, the accessors of node_info, the wasm test filters.
* Within modelled files: logging, error texts and their details (except where a property is about them), metrics exporters (except where a property names them), `String()` methods without a property,
  trivial getters and setters, real time (timers fire at any moment), memory limits, and the memory model below locks, atomics and channels.
* Scheduling fairness is assumed only where a theorem's statement says so.

## Findings: properties false of the code
Each has a `_false` theorem with a concrete witness unless marked (read, not proved). The claims hold outside these cases as the `_partial` theorems say.

Kafka protocol
* C02 Uint64Size/Int64Size are one too large for values in [2^49, 2^56), so record length prefixes are wrong there (C13).
* C05 the string "null" cannot be distinguished from null; C06 arrays longer than the length field wrap silently.
* C07 a zero-length tagged value at the end of the input is rejected; a missing tagged-field count is read as 0 (read, not proved).
* C08 sizes are wrong for nested structures not supported at the version (none shipped), bytes of exactly 2^31-1.
* C09 null structures are written as nothing; C11 fields are declared nullable at version 0 although the protocol says otherwise.
* C12 a non-ignorable field removed in a later version is dropped silently; C14 truncated record values/headers are accepted.
* C16 lz4/zstd batches can be written but not read; C17 the CRC is never verified; C18 a leftover under 17 bytes is not consumed.
* C20 Serialize ignores the header's version; C21 the ApiVersions fallback condition is wrong for versions 1–3; C25 text after '+' ignored.
* C23 WriteAt writes short without error, Seek forward exposes stale bytes, positions past the end panic; C24 a double release shares a buffer.
* Negative record or header counts in received bytes panic (`make` with negative length), see C59.

Tunnel: C36 the last port is never handed out; C37 same-name leak, request racing Close leaks, overlapping Close frees another session's port;
C38 an authenticator returning (false, nil) is accepted, two concurrent control streams; C39 errors are reported to the client as success, an accepted
stream may never be delivered.

Connection pool: C40 double Close shares a connection, closed connection handed out, drain error leaks, concurrent Gets deadlock; C41 Len -1, cleanup
never started or removing an open pool, AddPool after Close. (read, not proved: HasPool/AddPool/GetPool race in dialer.go.)

Proxy-wasm: C42 bytes lost with a net error, EOF while bytes are cached, Read blocking with cached bytes, Close dropping paused writes; C43 ids change,
removed metrics cannot be redefined, kind mismatch, differing label keys panic; C44 pause at request headers passes, response pauses ignored, Close error
leaves filters unreleased, unknown filter names select nothing; C45 non-string values dropped.

xDS, bindings, wiring and the rest, in the order of finding
* C27 a rejected SotW cluster/listener update wipes the configuration, unsubscribed deletion, name-table delta wipe
* C28 SotW NACK nonce always empty, unsupported types stop the receiver, stale nonce after reconnect
* C29 empty references keep the subscription, second route ignored
* C64 a provided type of which the mesh has no resource blocks every lookup for ever (empty responses do not count as received)
* C52 random and (with equal weights, the default) least-request ignore priorities, least request ignores endpoint weights of a single locality, the same locality in two priorities loses its load and round robin then crashes
* C35 a result can be delivered after cancellation
* JSON of messages (C146): strings are not escaped (a quote makes the text invalid or adds members), RecordHeader.MarshalJSON is never valid JSON because b.Bytes() is kept across b.Reset(), NaN and infinities are printed as such, the field Type of LeaderAndIsr appears as _type. Equality (C147): null and empty strings/bytes/arrays are Equal but differ on the wire, record attributes are not compared, messages with NaN are not Equal to themselves, SetValue("null") makes a string null. Config map of a tunnel server (C148): listen and release events of a port are handled by two goroutines, so a release handled after the next listen event of the same port leaves a listened port out of the config map, and a release handled before its own listen event leaves a closed port listed for ever
* the release event also carries the request's id as its name. Middlewares (C149): GetMiddlewares returns the live map and the loops run without the lock, so adding or removing a middleware during a request is a concurrent map access (the runtime ends the program), and a middleware removed and added again during a loop may be called twice. Compressed batches (C150, C15, C57): RecordBatch.write closes the records writer and defers a second Close
* the snappy writer writes a compressed stream at every Close, so after the length and CRC are computed the 16 byte xerial header of an empty stream is appended if it fits the buffer (Section: unreadable if another batch follows, otherwise the next field of the message is read from these bytes
* they may also take the room of the length field, so that Serialize fails). The buffer has the size of the uncompressed batch, so records that grow when compressed (a few small records with gzip) cannot be written. An empty batch with the gzip attribute is written without a stream and cannot be read. gzip values (C151): gzip.Reader.Read passes a read of 16 KiB or more straight on and returns what one call of the decompressor gives, at most 32 KiB
* BatchRecord.Read and RecordHeader.Read take the resulting `n != length` for an error but wrap the nil error, so a value of more than 48 KiB in a gzip batch is always replaced by an empty record without an error and the rest of its bytes is parsed as the next record. pool clocks (C152): the idle check may close a pool that was just used or whose connections are in use, a pool with slow initial connections is closed a second after creation, and initial connections have no idle timer
* a failed NewChannelPool leaks connections if closing one of them fails (C40). Life of filter code (C230): NewFilterContext does not release the instance when ProxyOnContextCreate fails, so the instance's user count never returns to zero
* an instance whose start callbacks fail is never stopped
* reducing the number of instances stops instances that open filters go on using. Tunnel client (C231-C233): a port response that arrives after the disconnect marks its listener as initialised, so the next connection never asks for it
* closing a listener leaves it registered, so a later connection request or a second Close panics (send on or close of a closed channel)
* GetTCPListener racing with a reconnect writes to a nil control stream and panics
* a listener whose GetTCPListener returned an error stays registered
* the stream is leaked when the addresses in the request do not resolve. Keepalive (C234-C235): a timeout of up to a second cuts off even clients that answer at once
* a timeout of 0 disables the check
* closing a stream just when its timer fired re-arms the timer for good, so pings go on after Close
* a ponged-out client loses only its control stream, the session and its ports stay. messages on a tunnel stream have a goroutine each and need not be handled in order, and a message without type or data is taken for the one before it (C237)
* the tunnel server drops what arrives together with the message that opens a stream (C239)
* a filter is shown only the first value of a header, HTTP headers with an empty first value and headers stored under non-canonical names are invisible to it (the latter cannot be deleted either), and the visitor's answer is ignored (C243)
* a plugin keeps the context of an instance whose code fails to start or stop for ever, and a stream that was given an instance just before it is dropped makes a second context that stays (C245)
* in permissive mode, in which every mesh server starts, a single client that resets its connection before three bytes ends the HTTP server and a silent one blocks it (C246)
* `ServeTLS` and `ServeWithTLSConfig` of `network.Server` answer plain text requests (C247)
* The names of heimdall's serving certificate are read once at start
* when a mutating and a validating webhook configuration have the configured name only one is read, and a webhook that calls a URL makes heimdall panic (C248)
* a labelled workload group that is deleted is retried for ever (C249)
* in a clone of a property store list elements are not found by index and appends to lists are lost (C250)
* when the server ends the stream while the receiver handles a response, the sender's error cancels the refresher, the receiver waits for it for ever and the client never reconnects, nor ends when cancelled
* the same with a full request channel, and a response of an unknown type makes the client deaf for good (C251)
* a server that ends the stream with status Canceled makes the client give up for good (C252)
* Java streams: reading into a part of an array loses the bytes, reading one byte always returns 0, writing a part of an array sends the whole length with zeros (C254)
* a connect event reports everything a key asks for as ready, keys with equal hash codes get each other's events, asking to read before connecting is a null pointer (C255)
* connecting a channel whose `socket()` was not called is a null pointer, a second `finishConnect` loses the connection, a second interest change dials again and leaks, a failed dial is never reported (C256).
* Spring programs never get the last byte of a body with a length, and the byte 255 is taken for the end of the body (C257)
* of a response only the first buffer is sent, cookies never, flushed bodies not at all (C258)
* the Python adapter never sends request headers, fails for text bodies such as forms, cuts bodies at NUL and fails for answers with headers that are not UTF-8 (C259)
* a chunk that ends inside a character reports its end with bytes unread (C260).
* an endpoint shared with a cluster of another policy loses its count at every update of the clusters, a cluster that is also the only target of another route is reset at every update of routes and then gets all requests, and changed weights do not apply before old counts are made up for (C261)
* ParseDN loses attributes after an escaped comma or a slash, merges several values, does not know SERIALNUMBER (C262)
* closing one Java transport, or failing to make one, takes the mesh from all, mobile transports never have it, errors of a Java server after its first second are lost (C263)
* the tunnel client passes over mistyped addresses, replaces ports that are too large, ends with one unresolvable address, and lets a slow service delay other connections (C264)
* an endpoint given by a host name instead of an address gets the address nil: a connection to it goes to the given port of the local machine, and all host names with the same port share one set of counters (C267)
* TCP metadata exchange: if the first read gets only 1 to 3 bytes of the peer's metadata the program gets all of them as data, with 4 to 7 the filter panics (C268)
* if the server speaks first its metadata land in the middle of the data the client's program reads (C268)
* a container name with a comma arrives as two (C269)
* an accepted connection believes whatever id and node any client sends, and tells it its own metadata, without looking at the negotiated protocol (C270)
* GetCurrentTimeNanoseconds answers the nanoseconds within the current second: the clock of every filter jumps back once a second and no interval of a second or more can be measured (C272)
* the calls for request and response trailers, for the value of a metric, to remove a metric, to resume a request, for HTTP and gRPC calls and all others that are not defined panic instead of answering 'unimplemented' (C273)
* the metrics server is never stopped (`Shutdown` is called on a server that was not started) and without filters accepts connections it never answers (C275); if the mesh has no port for the metrics, the program panics, and its metrics address is closed before (C276); data that begin with the magic number and are no metadata panic an accepted connection whatever protocol was negotiated (C268)
* **One unreadable metadata entry removes mTLS; another crashes the client (C278).** `newClientProperties` fails if a typed metadata entry of the cluster, of the route or of the picked endpoint has a type not linked into the program (or a value JSON cannot express), and the dialers ignore the error (`prop, _ :=`), so the connection goes to the given address without TLS. If the endpoint's `envoy.transport_socket_match` is not an object, api_tcp_client.go:397 wraps the nil `err` (`errors.WrapIff(nil, …)` is nil), returns `(nil, nil)`, and the dialer calls a method of the nil `*clientProperties` inside the non-nil interface.
* **Clusters not discovered by EDS lose their configuration (C279).** `GetClusterLoadAssignmentReference` gives the empty name for STATIC, STRICT_DNS, LOGICAL_DNS and ORIGINAL_DST clusters and the embedded `load_assignment` is never read, so `newClientProperties` fails ("couldn't find ClusterLoadAssignment \"\""), and the dialers connect to the given address in plaintext even if the cluster demands TLS (for example TLS origination for a DNS service entry).
* **Updates of the mesh and simultaneous connections spoil round robin (C280).** A refresh recomputes the client properties of every destination ever asked for, and each computation takes and counts a pick of the load balancer that nobody uses: with two endpoints and an update after each connection, all connections go to the same endpoint. Two connections that register before either reads its result both get the second pick.
* **Destinations are never forgotten (C281).** `cancel` leaves the (empty) entry in `observerChansByInput` and the result in `resultsByInput`, so every refresh recomputes all destinations ever asked for, and both maps grow with each new one.
* **Filters can see an identity nobody verified (C282).** The verifier accepts a certificate if any of its URIs is accepted, filters get the first one.
* **A message specification can hide another (C283).** Two files with messages of the same name: the later one wins without an error (not the case for the present assets).
* **The text of a certificate is ambiguous (C284).** Names are joined by commas and parts by spaces without quoting: one URI `a,b` and two URIs `a` and `b` print the same.
* **Generated files are never removed (C285).** The code of a message that disappears from the specifications stays in the directory and is compiled on. With two requests of the same API key the generated factories depend on the iteration order of a map (not the case for the present assets).
* **A Java socket without a connection throws instead of answering null (C286)**, and asking for the address of a non-TCP text that has no colon is a panic of the Go side, which takes the whole JVM with it.
* **IPv6 addresses cannot be connected to or listened on from Java (C287):** host and port are joined as `%s:%d`, without brackets, which Go's split rejects (`too many colons in address`).
* **The Citadel client and its certificate (C288).** If a rebuild of the connection fails once, the closed connection stays and every later signing fails (`failed to close connection`). With `ProvCert` and no TLS options signing is a nil dereference. While the certificate has ended, or the server asks for none, every signing closes the connection (also under concurrent calls) and makes another.
* **The tunnel server ignores `--server-address` and `--with-nasp` (C289).** Both commands bind their flags to the one global viper, and the client is made last: the server reads the client's flags of these names, so without `SERVER_ADDRESS` it listens on 127.0.0.1:8001, not on 0.0.0.0:8001 as its help says, and never uses the mesh unless `WITH_NASP` is set (the chart sets `SERVER_ADDRESS`).
* **With `--with-nasp` the client drops `--auth-token`, `--label` and `--k8s-service-name` (C290)**: the mesh integration's own client is used by default, with its token and labels.
* **The echo server drops a last line that has no newline (C291)**, also when the client has closed its side and waits for the answer.
* **Outside a cluster (without `POD_NAMESPACE`) the tunnel server asks nothing of its clients (C292)**: there is no option for a token.
* **The token of the CA is also sent to the tunnel server (C290)** when the mesh integration's client is used, over a connection that is only protected if the mesh's policy for that server says so; so C141 is about requests for certificates only. The same client writes the service name into the workload's own labels.
* handlers (C137-C139): GetDiscoveryClient called while `Run` starts gives servers a client of their own that never connects, a push given up on may arrive after the metrics were removed and a failed removal is not retried, a configuration enabled without TLS leaves a nil CA client that panics when used (in `New` with a push gateway), a negative push interval crashes, RunMetricsServer shuts down a server it never started
* gRPC dialing (C140): the certificate of the server is never verified (InsecureSkipVerify without verifier), TLS is used even where the mesh says plaintext, filters see the state of the last connection made
* CA client (C141): every request leaves its connection open and a chain of one certificate is refused
* gzip (C142): bytes before damage are lost because Read returns 0 after copying
* Python binding (C143-C144): the id of a transport is a hash of address and token without separator and without the push settings, concurrent opens make two transports and the first close removes the one still in use, the mesh context of every transport is cancelled when it is handed out (`defer cancel()`), bodies end at the first zero byte
* Java log (C145): one line more than the 1000 that fit makes the reader skip all older lines, and asking before the logger is set up crashes
* servers (C133-C134): a server started before `Run` has connected never learns a policy and stays permissive without verification for good, a policy that comes before the unified listener exists is dropped, mode, client authentication and verifier are written one by one so clients between are judged by mixtures, and silent clients accepted in permissive mode are served plain after the switch to strict
* under TLS without required certificates a client without one makes `certs[1:]` panic, and so does a policy without verifier. CA configuration (C135-C136): root certificates may be those of another revision or empty, a gateway without address makes `ips[0]` panic, a token file that cannot be examined makes the nil file info panic, and the name sent to Heimdall uses the parent's process id so instances with one parent share it
* host functions (C122-C132): what a filter sets under a path of several parts is stored where it never looks, names with dots cannot be read, a negative list index panics (C123)
* if the timer fires while an instance is being stopped, `Close` hangs for ever holding the locks of instance and plugin, a second `SetTickPeriodMilliseconds` leaks the first ticker, a period of zero panics (C125)
* concurrent first calls create two VMs, and the runtime is not part of the key, so another runtime is handed out (C127)
* a user acquiring a VM while it is closed is never closed (C128)
* an HTTP error page is cached as the code of the filter (C129)
* plugins with the same root id share context and configuration, contexts are handed out half-built, dotted names are mixed up (C132)
* middlewares (C117-C121): a client that sends X-Forwarded-Client-Cert itself is what the application reads first, the DNS name is never forwarded and the URI stands in place of the subject, plain requests are forwarded as https
* the request size is always 0 (inverted error check), referer, user agent and id are always empty (method values printed instead of called), the upstream of an incoming request is the client, the destination of an outgoing one is this side, the TLS version is empty, response trailers show the headers, an unknown response length wraps to the biggest number
* a missing canonical-name label gives an empty service name
* upstream peer metadata shorter than four bytes or with wild offsets crash the program
* HTTP and gRPC wrappers (C111-C116): the last WriteHeader of a handler counts instead of the first and headers set after the body began are sent, nothing is delivered before the handler returns (no streaming), the application sees a `:method` header, every failure of a stream or filter is answered with an empty 200, a filter status such as 42 aborts the connection
* the transport drops the context of every request (cancellation and deadlines have no effect), never closes the body of a request that passed the filters, leaves the response open on which a filter failed and ignores the answer of a filter
* gRPC filters see no address (inverted error check
* nil and a crash for an invalid one) and no outcome of failed calls
* statistics tags (C109): an empty response code swallows the label after it, a value containing the separator is cut, the response code of a cluster statistic is never recognised (`\.d{3}` for `\.\d{3}`) and the mongo prefix takes the wrong group and removes its first occurrence anywhere
* relays, discovery and bifrost (C101-C107): a connection without CloseWrite (every tunnel stream) is closed fully as soon as the other peer ends its direction, so an answer still to come is lost, and connections with CloseWrite are never closed by the proxy
* Addrs of a multi listener iterates the map twice and can pair a network with the address of another listener, and gives one bogus address when there is no listener
* a failed first subscription to listener properties is never retried and the properties stay as they were once the context of the first caller ends, callbacks of later callers are ignored
* an unnamed tunnel port is published under the first numeric service port
* a failed read of a service or a rejected update deletes its endpoints
* heimdall (C91-C100): a service account of any namespace gets a group's configuration if its token has the group's audience (any scheme word is accepted, the reviewed audiences are not looked at), a token secret that is no JWT is never repaired, one without expiry crashes the controller, a changed service account keeps the old token, the deploymentconfig label is removed from the pod (shared map), a second mutation duplicates volumes, the SPIFFE id uses the DNS domain instead of the trust domain and Override skips trust domain, secret TTL and Enabled, a webhook configuration update that fails after a renewal is never retried, a failed renewal dereferences nil, the certifier reverts edits of the webhook configuration
* Java binding (C83-C89): data still buffered when the end of the stream is seen is discarded (AsyncRead returns -1), an end of stream with an empty buffer is never reported by Select, two selectors reading one connection reorder its bytes, buffers accepted before StartAsyncWrite are not sent, AsyncWrite racing with Close or the end of the stream sends on a closed channel (crash), Close drops accepted data, a write failing after a part is repeated from the beginning, other write errors are retried for ever without pause, WakeUp blocks on a full queue, closing the selector makes the senders crash, a failed dial is never reported, a shared dialer mixes up connections, a second dial for a key leaves a connection nobody is told about
* C78 overlapping patterns: masking one pattern destroys or leaves parts of another, so the result depends on map iteration order
* C81 the PII filter fails when a portion ends one to three bytes into a message after a complete one and then lets everything pass unmasked, a rejected message takes the complete ones before it along, responses nobody waits for vanish, a Produce request without acknowledgement makes the next answer mismatch and get lost, negative sizes crash, the tail of a stream is dropped; record keys and headers and responses are never filtered
* C77 fields without nullable versions accept null at version 0, and fields inside a nullable array or structure inherit its nullable versions (CreatePartitions broker ids, DescribeUserScramCredentials user names …)
* C75 (outside the theorem: rejected by the generator) defaults of uuid and records fields and uint16 defaults above 32767 are not supported, a common structure cannot contain a common structure, and a bytes or array field defaults to null instead of empty
* C71 a wrapped TLS client crashes when no certificate suits or its callback declines, a wrapped server crashes likewise, callback/certificate precedence differs from crypto/tls
* C72 dials with the same context (or after GotConn) share one connection state, a failing after-dial hook leaks the connection, a failing before-close hook leaves it open, concurrent dials overwrite each other's options
* C73 asking for the TLS state during the handshake deadlocks the handshake for ever
* C69 the requested lifetime says nothing about a cached certificate and the CA endpoint's host is never used as its expected name (inverted error test)
* C70 only the last URI SAN is kept, concurrent issuances share a serial number, options come after the root certificate
* C66 `Delete` of a plugin locks the manager for ever, two concurrent misses create two plugins, a failed creation leaves a VM user, an open instance count gives a plugin without instances
* C68 overlapping shrinks use a nil instance, overlapping growths create too many, a return after `Close` releases twice and wraps the counter, returning moves the rotation back onto a busy instance, the rotation misses instances when its counter wraps
* C41 overlapping add/remove leaves a cleanup goroutine running for ever without pools
* C30 no healthy endpoint crashes, choice count above the number of endpoints crashes
* C31 three thirds stick and crash
* C32 missing statistics get all traffic, weights wrap
* C33 every containing range is kept
* C34 '*' virtual host never used
* C35 lost update, blocked observer, refresher deadlock, nil crash
* C53 last TLS chain decides
* C54 empty success
* C55 last chain decides
* C56 metadata superset, missing default socket crash
* C60 the connections of a TCP pool share one close wrapper (count never returns to zero), a removed and re-added endpoint wraps to 4294967295, increments by dialled name but decrements by remote address.

Security and listeners: C46 case-insensitive regex lowercases the pattern, documented forms not parsed; C47 an uncompilable SAN restriction is dropped (any
certificate accepted), empty chain panics; C48 set through scalars, escapes, lists, maps, bad indices; C50 short clients yield a closed connection, a silent
client blocks Accept; C61 a TCP pool keeps the TLS settings and context of its first caller (plaintext after TLS was required; C62 other callers fail
when that context ends), discovery errors fall back to plain text; C63 concurrent HTTP requests overwrite each other's server name, verifier and dial
functions, idle connections outlive changed settings; C51 overlapping AddListener/Close register twice, leak, panic on closed channels, lose a buffered connection.

## Testing the theorems
`tools/mut.py` applies realistic bugs to the model in a scratch copy, rebuilds, and logs which theorems fail (seeded/LOG.jsonl). A surviving edit
led to a tightened or new theorem; the log entry names it.
