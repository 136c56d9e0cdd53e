p("C53", "Listener properties reflect the filter chains of the destination",
  "The mesh properties reported for a listener address (mTLS mode, whether a client certificate is required, the metadata) are those determined by the filter chains that apply to that address and port, whatever the order in which the control plane sent the listeners.",
  "every set of listeners, address and port",
  "The result is a fold over every listener and every chain; only a proof covers all combinations and orders.",
  ["pkg/ads/api_listener_properties.go"])
p("C54", "Host names resolve through the mesh name table",
  "An IP address resolves to itself; a name resolves to the addresses of the first name known to the mesh among the name itself and the name qualified by each DNS search domain in order; it is reported not found exactly when none of them is known.",
  "every name table, search list and host",
  "All tables and search lists.",
  ["pkg/ads/nametable.go ResolveHost"])
p("C55", "The TCP target cluster is the one the mesh configured for the destination",
  "The cluster chosen for an outbound TCP connection is a cluster (or weighted cluster) of the TCP proxy in the filter chain that applies to the resolved address and port, and no cluster is chosen when no chain applies.",
  "every listener set, name table, destination and weight table",
  "Depends on all listeners and chains at once.",
  ["pkg/ads/api_tcp_client.go"])
p("C56", "Transport security of a cluster follows its socket matches",
  "The transport socket used towards an endpoint is the first socket match of the cluster whose criteria are all met by the endpoint metadata, else the default socket, and TLS is used exactly when that socket is the TLS one.",
  "every match list, default socket and endpoint metadata",
  "All metadata and match combinations.",
  ["pkg/ads/internal/cluster/cluster.go GetMatchingTransportSockets UsesTls IsPermissive"])
p("C57", "Written bytes follow the Kafka wire format",
  "Whenever writing a message, record batch or record succeeds, the bytes are exactly those the Kafka protocol prescribes for the value at that version: big-endian integers, zig-zag and unsigned varints, compact lengths exactly in flexible versions, fields in declaration order and only those of the version, tagged fields counted and by ascending tag with default-valued ones left out, batches with the length and checksum of what follows.",
  "every message type, version and value, every record batch and record",
  "Round-trip tests cannot see a mistake made symmetrically by reader and writer; conformance must hold for every value and version.",
  ["components/kafka-protocol-go/pkg/protocol/messages", "components/kafka-protocol-go/pkg/protocol/types", "components/kafka-protocol-go/internal/protocol/types/fields"])
p("C58", "Write accepts exactly the values the version can carry",
  "Writing a message, header or record batch at an advertised version succeeds exactly when the version can carry the value: null only where the field is nullable at that version, every length within its wire limit, no non-ignorable field newer than the version set to a non-default value, distinct tags, no tagged fields in non-flexible versions, batches with magic 2, a known codec, a compressor that succeeds and a length within range. Otherwise an error is returned and no bytes.",
  "every shipped message type, version and value, every record batch",
  "Rejecting a valid value or accepting an invalid one can hide in any field of any version; tests sample a few.",
  ["components/kafka-protocol-go/pkg/protocol/messages", "components/kafka-protocol-go/internal/protocol/types/fields", "components/kafka-protocol-go/pkg/protocol/types/recordbatch.go"])
p("C59", "Parsing arbitrary bytes is contained",
  "Whatever bytes arrive, parsing them as a request, response, message or record batch returns a value or an error and never crashes the process, and a successful read consumes a beginning of the input and leaves the rest untouched.",
  "every byte string, message type and version",
  "Parsers face arbitrary network input; fuzzing samples it, a crash may need one particular length or count.",
  ["components/kafka-protocol-go/pkg/request/request.go", "components/kafka-protocol-go/pkg/response/response.go", "components/kafka-protocol-go/pkg/protocol/types/fields/recordbatch.go", "components/kafka-protocol-go/pkg/protocol/types/fields/batchrecord.go"])
p("C60", "Active request counts are accurate",
  "At every moment the active request count of every known endpoint, which load balancing compares, is the number of open connections to it plus the number of requests in flight to it; closing a connection again changes nothing.",
  "every history of endpoint updates, dials, closes, requests and their interleaving",
  "Counts drift only over long histories with closes, redials and endpoint changes; tests look at one connection.",
  ["pkg/ads/internal/endpoint/stats.go", "pkg/ads/clusterloadassignments.go", "pkg/istio/discovery/connection_wrappers.go", "pkg/network/connection.go", "pkg/istio/tcp/dialer.go", "pkg/istio/http/transport.go"])
p("C61", "Outgoing TCP connections are secured as the mesh wants",
  "Every connection that DialContext returns goes to the endpoint the mesh had for the host when the call was made, and uses TLS with the server name and peer verification the mesh required for that host at that time.",
  "every interleaving of dials, reuse, pool removal, cancellation and configuration changes",
  "Needs configuration changes and pool races between calls; the settings used are invisible to a test that only moves bytes.",
  ["pkg/istio/tcp/dialer.go", "pkg/network/pool/syncmap_registry.go", "pkg/network/dialer.go"])
p("C62", "A dial ends only with its own context",
  "A call of DialContext fails because of a cancelled context only if it is the context passed to that call.",
  "every interleaving of dials and cancellations",
  "The failure shows only when another caller's context ends first.",
  ["pkg/istio/tcp/dialer.go"])
p("C63", "Outgoing HTTP requests are secured as the mesh wants",
  "Every HTTP request is sent on a connection to the endpoint chosen for its host, with the server name and peer verification the mesh requires for that host; a request that must be encrypted is never sent in plain text.",
  "every interleaving of requests, dials, connection reuse and configuration changes",
  "Depends on how concurrent requests interleave on shared transport and TLS configuration.",
  ["pkg/istio/http/transport.go", "pkg/network/http.go", "pkg/network/dialer.go", "pkg/network/tls.go"])
p("C64", "Lookups are answered once the mesh configuration is there",
  "After any history of connections, reconnections and responses, lookups are answered exactly if, since the last connection, the client has received and accepted the configuration of every type that the management server provides.",
  "every history of connects, responses (valid, invalid, empty) of all types, every set of provided services",
  "Depends on the whole history across reconnects and on which types happen to be empty; tests use one complete configuration.",
  ["pkg/ads/client.go", "pkg/ads/common.go", "pkg/ads/api_http_client.go", "pkg/ads/api_tcp_client.go", "pkg/ads/api_listener_properties.go"])
p("C52", "Load is distributed by priority, health and weight",
  "A lower priority gets traffic only when the priorities above it lack healthy endpoints, unhealthy endpoints get none, and within a priority and a locality a larger weight (and, for least request, fewer active requests) never gets a smaller share.",
  "every load assignment, policy, counter state and random source",
  "Shares come from floating-point arithmetic over arbitrary weights and health; tests fix a handful of assignments.",
  ["pkg/ads/internal/endpoint/endpoint.go", "pkg/ads/internal/loadbalancer/lb_wlr.go", "pkg/ads/internal/loadbalancer/lb_wrr.go", "pkg/ads/internal/loadbalancer/lb_random.go"])

p("C65", "Wasm plugin instances are handed out, counted and stopped correctly by correct callers",
  "If callers return only instances they hold and calls that change the number of instances (resizing, closing) do not overlap: asking for an instance succeeds whenever one accepts and rotates over them; an instance handed out is running; none is returned more often than it was handed out and closing returns all; resizing ends with exactly the desired number running, closing with none; none is stopped twice.",
  "every sequence of requests, returns, resizes and closes, every answer of the instances, every creation failure",
  "Counters, rotation and list positions depend on the whole history of calls.",
  ["pkg/proxywasm/plugin.go"])
p("C66", "The plugin manager returns one plugin per configuration and deletes it on request",
  "All callers that ask for the same named configuration get the same plugin, concurrent callers included; a deleted plugin is closed and the call returns; a creation that fails leaves nothing behind; a configuration that leaves the instance count open gets instances.",
  "every interleaving of get, get-or-create, add and delete calls, every failure point of a creation",
  "Depends on interleavings of calls between two critical sections and on where a creation fails.",
  ["pkg/proxywasm/plugin_manager.go", "pkg/proxywasm/vm.go"])
p("C67", "Different plugin configurations never share a plugin",
  "Calls with different configurations never get the same plugin, a configuration without a name gets a new plugin every time, each plugin is created with the number of instances its configuration says, and the VM counts exactly the plugins that acquired it (fewer than 2^32 plugins).",
  "every interleaving of manager calls and every failure point",
  "A statement about all pairs of calls in all schedules.",
  ["pkg/proxywasm/plugin_manager.go", "pkg/proxywasm/vm.go"])
p("C68", "Wasm plugin instances survive overlapping resizes, late returns and counter overflow",
  "Also when resizes and closes overlap, instances are returned after a close, or counters overflow: no nil instance is used, the number of instances is the desired one, instances are returned once, an accepting instance is found, and an idle instance is preferred to a busy one.",
  "every schedule of the plugin's calls",
  "The failures need particular interleavings or 2^32 calls.",
  ["pkg/proxywasm/plugin.go"])

p("C69", "Mesh certificates are reused while valid and never after",
  "A certificate obtained from the mesh CA is returned for the host it was requested for, to every caller while it is valid, and not once it has expired; a new one is requested only when there is no valid one for that host.",
  "every history of calls, hosts, clock readings and answers or failures of the CA",
  "Depends on the history of calls and clock readings; tests issue one certificate.",
  ["pkg/ca/istio/istio_ca.go"])
p("C70", "Self-signed certificates carry what was asked for",
  "A certificate made by the self-signed CA contains every requested SAN in the list of its kind, its serial number is unique for the CA also when certificates are made concurrently, and the client's options apply to its root certificate.",
  "every list of SANs, every interleaving of issuances, every list of options",
  "Needs all SAN mixes and interleavings between two atomic operations.",
  ["pkg/ca/selfsigned/selfsigned.go", "pkg/tls/verify/util.go"])
p("C71", "Wrapping a TLS configuration keeps the certificate choice",
  "Using a TLS configuration through the library (client or server) presents, for every peer, the same certificate or fails the handshake in the same cases as the Go TLS stack would with that configuration, and never crashes.",
  "every configuration (certificates, callbacks that return a certificate, nothing or an error), every hello or certificate request",
  "The choice depends on arbitrary callbacks and on what the peer supports; tests use one certificate.",
  ["pkg/network/tls.go"])
p("C72", "A tracked connection has its own state and is never lost",
  "Every connection made by the dialer has a connection state of its own that shows its own addresses, uses the options of its own dial, and is either handed to the caller or closed.",
  "every number of concurrent and repeated dials, contexts, hook failures and schedules",
  "Aliasing appears only for shared contexts, spare slice capacity and failing hooks, in particular orders.",
  ["pkg/network/dialer.go", "pkg/network/connection.go", "pkg/network/connection_state.go", "pkg/network/http.go"])
p("C73", "Asking for the TLS state never blocks the handshake",
  "While a TLS handshake runs, any number of callers may ask a connection for its TLS state; the handshake and every caller finish.",
  "every number of callers, every interleaving with the handshake",
  "A deadlock needs one particular order of two locks; tests ask after the handshake.",
  ["pkg/network/connection.go", "pkg/network/connection_state.go"])
p("C74", "Dial and close hooks run in order around the network operation",
  "A connection is returned by the dialer only after the hook before dialing, the network dial and the hook after dialing have succeeded in this order; Close reports success exactly if the hook before, closing the network connection and the hook after it succeeded, in this order.",
  "every number of concurrent dials, every outcome of hooks and network, every schedule",
  "Combines all failure outcomes with all interleavings of concurrent dials.",
  ["pkg/network/dialer.go", "pkg/network/connection.go"])
p("C75", "The code generator implements the message specification",
  "For every Kafka message specification (JSON) the generator accepts, the generated codec sends, at every version, exactly the fields the specification lists for that version, in its order, each with the specified type, default, tag and length format, with a tagged field section exactly where the specification makes the version flexible; the supported versions are those of the specification; and the specification determines that layout uniquely.",
  "every message specification in the usual notation, any nesting depth, every version",
  "The generator runs over whatever specification it is given; tests check its output on the bundled ones at sample versions.",
  ["components/kafka-protocol-go/cmd/gen/main.go", "components/kafka-protocol-go/cmd/gen/context.go", "components/kafka-protocol-go/internal/protocol"])
p("C76", "Every shipped message codec is the codec of its bundled specification",
  "Each request, response and header codec the package ships has the API key, kind, supported versions, field names and, at every version, the layout of its bundled JSON specification; each bundled request and response specification has such a codec; API keys are unique and shared by a request and its response.",
  "all shipped messages and headers, all bundled specifications, every version",
  "136 messages times all versions and fields; a stale generated file compiles and passes round-trip tests.",
  ["components/kafka-protocol-go/pkg/protocol/messages", "components/kafka-protocol-go/assets/protocol_spec", "components/kafka-protocol-go/cmd/gen/main.go"])
p("C77", "Null is accepted exactly where the specification allows it",
  "For every specification and version the generated codec allows null for a field exactly if the field's nullable versions include the version.",
  "every message specification in the usual notation, every field at any depth, every version",
  "Needs a null in every field at every version; tests only send well-formed messages.",
  ["components/kafka-protocol-go/cmd/gen/context.go", "components/kafka-protocol-go/cmd/gen/main.go", "components/kafka-protocol-go/pkg/protocol/messages"])
p("C78", "PII detection masks what it finds and nothing else",
  "DetectPII reports PII exactly if one of its patterns matches the text; with masking, the text keeps its length, every byte is kept or becomes an asterisk, exactly the matches (of assignments only the value) become asterisks, and the result does not depend on the order in which the patterns are tried.",
  "every byte string, every set of patterns whose matches satisfy the contract of regexp, every iteration order of the pattern map",
  "The iteration order of a Go map is random; patterns can overlap in ways a sample of texts does not show.",
  ["experimental/kafka-message-pii-filter/pii/pii.go"])
p("C79", "The Kafka PII filter passes on every message exactly once, in order, masked where needed",
  "As long as no message was rejected and the stream does not end inside a message: whatever portions the byte stream of a side arrives in, the filter passes on, for each complete message in order, the message itself, or, for a Produce request with PII in a record value, the request that differs from it only in the masked values, again framed with its size; nothing of an incomplete message is passed on; the result for requests does not depend on how the stream is cut. After a failure or without a known direction all bytes pass as they come; a new connection starts afresh.",
  "every byte stream, every cutting into portions, every interleaving of both sides, every DetectPII result",
  "The number of cuttings of a stream is exponential; cut points inside size fields and after several messages matter.",
  ["experimental/kafka-message-pii-filter/main.go"])
p("C80", "The Kafka PII filter matches responses with requests in order",
  "As long as no message was rejected, the n-th response is parsed with the API key, version and correlation id of the n-th request (a response without a waiting request is recognised as such), for any number of requests in flight.",
  "every interleaving of requests and responses of any length",
  "The queue compacts, grows and resets at states that only long histories reach.",
  ["experimental/kafka-message-pii-filter/main.go"])
p("C81", "The Kafka PII filter does not fail on valid traffic and loses nothing",
  "On a stream of valid Kafka messages, in any portions, the filter never disables itself, never crashes and drops nothing; a message it cannot parse is passed on unchanged.",
  "every stream of messages, every cutting into portions, every interleaving of both sides",
  "Needs every cut point and every mix of acknowledged and unacknowledged requests.",
  ["experimental/kafka-message-pii-filter/main.go"])
J = ["experimental/java/main.go"]
p("C82", "Select reports each ready key once, with all its ready operations",
  "A selected key keeps its operation and id; Select reports every key id with an event in the queue exactly once, with exactly the operations that were queued for it, and nothing else; wake-ups are not reported; a readable or writable channel is queued if there is room; the bytes returned decode to these keys whatever the iteration order of the map.",
  "every key id and operation (32 bit), every queue content, every iteration order",
  "Queue contents and map orders are unbounded; merging of operations depends on coincidences in time.",
  J)
p("C83", "Asynchronous reads deliver the bytes of the connection in order",
  "A connection read through one key delivers to AsyncRead a beginning of the bytes the peer sent, in order, none twice, in every interleaving of reader goroutines, requests to read, scans, errors and Close; at most one reader goroutine reads.",
  "every interleaving, any number of requests to read, every buffer size and portion",
  "Restarted readers race with the old one; orders of this kind show under rare schedules only.",
  J)
p("C84", "Asynchronous reads deliver everything and report the end of the stream",
  "Everything the peer sent before closing is delivered by AsyncRead, Select reports a key with data or with the end of the stream to its caller, and the end of the stream is reported after the data.",
  "every interleaving of the peer, the reader goroutine, Select and AsyncRead",
  "Whether the last bytes or the end of the stream get lost depends on the order of two goroutines.",
  J)
p("C85", "Asynchronous writes send accepted bytes in order",
  "With one key, and if writes that fail are either total failures or final, the bytes that go out are a beginning of the bytes AsyncWrite accepted, in the order it accepted them; all of them have gone out once the channel is empty and the writer idle; a writer with data can always proceed.",
  "every interleaving of AsyncWrite, writer goroutines, requests to write, Close and errors; every split of a buffer into partial writes",
  "Partial writes and restarts at every point cannot be enumerated by tests.",
  J)
p("C86", "Accepted data reaches the peer, and writing does not crash",
  "Everything AsyncWrite accepted before Close is sent; AsyncWrite never crashes the program; it accepts a buffer as a whole or not at all.",
  "every interleaving of AsyncWrite, Close, the end of the stream and writer goroutines",
  "The crash needs Close between the check and the send of AsyncWrite.",
  J)
p("C87", "Accepted connections are handed out once, in order, and announced",
  "AsyncAccept hands out the connections in the order they arrived, each once; a connection that waits is announced by Select, so a caller that answers every report gets all connections that arrived while the listener is open; one goroutine at most accepts.",
  "every interleaving of arrivals, StartAsyncAccept, the accepting goroutine, Select, AsyncAccept, other events in the queue and Close",
  "A lost announcement shows only when the queue is full or events merge at a certain moment.",
  J)
p("C88", "Dialed connections are handed out to the key that asked for them",
  "Every connection a dialer establishes is handed out by AsyncDial once; a report of a key is answered with the connection dialed for this key; a failed dial is reported.",
  "every interleaving of any number of dials, failures, Select and AsyncDial",
  "Needs dials that complete in another order than they were started.",
  J)
p("C89", "Waking up or closing a selector neither blocks nor crashes",
  "WakeUp makes a blocked or the next Select return and does not block; goroutines of channels that are still registered when the selector is closed do not crash.",
  "every state of the queue",
  "Needs a full queue, or a close at the moment of a send.",
  J)

HA = ["components/heimdall/pkg/server/jwt.go:JWTTokenAuthenticator,GenerateAudience,ParseAudience", "components/heimdall/pkg/server/server.go:configHandler"]
p("C90", "Heimdall answers only holders of a token confirmed for a workload group",
  "Heimdall hands out a configuration only if the authorization header carries a token one of whose audiences is the audience generated for a stored workload group and which the cluster has confirmed for that audience, and the configuration is the one of that group; a token issued for a group gets it; different groups have different audiences; every other header is refused.",
  "every header, token, set of audiences, set of groups and answer of the cluster",
  "The space of headers and audiences (with colons at every place) is unbounded.",
  HA)
p("C91", "A client gets configuration only of groups of its own namespace",
  "The service account of the token belongs to the namespace of the workload group whose configuration is returned, and the CA configuration returned belongs to that service account.",
  "every token the cluster confirms",
  "Needs a token requested with a chosen audience in another namespace.",
  HA)
HT = ["components/heimdall/pkg/controllers/workloadgroup.go:Reconcile"]
p("C92", "A labelled workload group always has a valid token",
  "While the controller runs and reconciles in time, the token secret of a labelled group holds a token for the audience of this group that stays valid for at least five minutes; after a reconciliation at least ten minutes; a secret that was deleted or lost its token is restored; a group without label has no secret.",
  "every history of label changes, deletions, reconciliations and passing time",
  "Depends on the timing of reconciliations over unbounded histories.",
  HT)
p("C93", "A damaged or outdated token secret is repaired",
  "Whatever the secret contains, the next reconciliation leaves a valid token of the group's current service account, and the controller does not crash.",
  "every content of the secret and history of service accounts",
  "Contents are unbounded.",
  HT)
HP = ["components/heimdall/pkg/webhooks/pod_mutator.go:Handle", "components/heimdall/pkg/k8sutil/meta.go:GetDeployMetaFromPod"]
p("C94", "The mutation of a pod adds what NASP needs and keeps the rest",
  "The mutated pod keeps its name, owners, volumes, containers with their variables, ports, mounts and everything else in order; every container gets the NASP variables after its own, the metrics port and mounts whose volumes exist; of the annotations exactly four are set.",
  "every pod",
  "Pods are unbounded structures.",
  HP)
p("C95", "The mutation keeps labels and can be repeated",
  "Labels a pod has stay (except revision and network, which are set), the missing mesh labels are added, and mutating a mutated pod again yields a valid pod.",
  "every pod",
  "Needs every combination of owner and labels.",
  HP)
p("C96", "A pod is attributed to its workload",
  "A pod of a ReplicaSet named after a deployment and the pod template hash belongs to that Deployment; one of a Job named after a cron job and eight to ten digits to that CronJob; one of another controller to the controller; one without controller or generated name to itself.",
  "every name, hash, digits and owner list",
  "Names, with dashes and digits anywhere, are unbounded.",
  HP)
HE = ["pkg/environment/istio.go:GetIstioEnvironment,GetNodeID,GetSpiffeID,Override", "components/heimdall/pkg/webhooks/pod_mutator.go:setEnvs"]
p("C97", "A mutated pod reads back its configuration",
  "In every container of a mutated pod with labels and names valid in Kubernetes, whatever variables the container had, the library reads the mesh configuration, the identity of the running pod, its container names, its addresses and exactly its labels.",
  "every pod, order of labels and previous variables",
  "Labels, containers and map iteration orders are unbounded.",
  HE)
p("C98", "Node id and identity name the workload",
  "The node id can be split into type, first address, pod and domain, so different pods have different node ids; the identity names trust domain, namespace and service account; an environment received from heimdall replaces the own one.",
  "every environment",
  "Texts are unbounded.",
  HE + ["pkg/istio/istio.go:IstioCAConfigGetterHeimdall"])
HC = ["components/heimdall/pkg/cert/renewer.go:checkCertificate", "components/heimdall/pkg/cert/certificate.go:Verify,Write", "components/heimdall/pkg/cert/webhook_certifier.go:Start,updateCertificate"]
p("C99", "The webhook certificate directory recovers from every crash",
  "Whatever renewals were interrupted at whatever point before, and whatever files were lost, damaged or restored, a check that runs to its end leaves a server certificate, key and CA that belong together, cover all DNS names and are valid now and for six more months; a good directory is recognised and left alone; a mixture is never accepted.",
  "every crash point of every renewal in every file order, every history of damage, every time (that does not go back)",
  "Crash points and file orders multiply over unbounded histories.",
  HC)
p("C100", "The cluster trusts the CA of the webhook server",
  "Whenever no change is waiting to be handled, the CA bundle of the webhook configuration is the CA of the certificate directory; failed updates are tried again; other changes of the configuration are kept; a failed renewal does not end the process.",
  "every history of renewals, failed updates, edits and ticks",
  "Needs a failed update exactly at a renewal.",
  HC)
PX = ["pkg/network/proxy/proxy.go:Start,proxy,close", "pkg/network/proxy/proxy.go:New"]
p("C101", "A proxy relays both directions completely and in order",
  "Between two connections that can close one direction and do not break, each peer gets exactly what the other sent, in order; the end of one direction is passed on without cutting the other; Start returns only when both directions have ended; and every byte sent is eventually relayed.",
  "every interleaving of the two relaying directions, every chunking and buffer size",
  "Interleavings and chunk sizes are unbounded.",
  PX)
p("C102", "A proxy works with connections of any type and leaves none open",
  "Relaying loses nothing whatever the types of the connections (the streams of a tunnel have no half-close), and when Start returns both connections are closed.",
  "every pair of connection types and every history of data, ends and failures",
  "Needs a peer that ends its request before the answer arrives.",
  PX + ["pkg/tunnel/server/session.go:handleStream"])
p("C103", "The state of a connection is found through its wrappers",
  "Whatever the wrapping of a connection, the state found is that of the outermost layer having one, with the TLS information of the first TLS layer inside it or else the nearest outside it; without such a layer there is none.",
  "every stack of wrappers",
  "Stacks are unbounded.",
  ["pkg/network/connection_state_tracker.go:ConnectionStateFromNetConn"])
p("C104", "A listener of many listeners names their addresses",
  "The addresses of a multi listener are exactly the network and address pairs of its open listeners.",
  "every set of listeners and every map iteration order",
  "Map iteration order is not under the control of a test.",
  ["pkg/network/listener/multi_listener_address.go:Addrs"])
p("C105", "Listener properties follow the mesh",
  "Every call for the properties of a listener gets the latest response for it, as soon as there is one, and its callbacks are run for every update.",
  "every interleaving of calls, cancellations, failed subscriptions and updates",
  "Needs cancellations and failures at each point between concurrent calls.",
  ["pkg/istio/discovery/xds.go:GetListenerProperties"])
BF = ["components/bifrost/pkg/controllers/endpoints.go:getSubset,Reconcile,collectPortsBySessionAndService", "components/bifrost/pkg/controllers/configmap.go"]
p("C106", "A tunnelled port is published under the service port that targets it",
  "The endpoints of a service contain a tunnelled port exactly if a port of the service targets it (by name or number), under the name of that service port and with the address of the tunnel server.",
  "every list of tunnelled ports and service ports",
  "Lists are unbounded.",
  BF)
p("C107", "The managed endpoints are those of the services in use",
  "After each reconciliation exactly the services with a tunnelled port have managed endpoints, with one subset per session.",
  "every set of sessions and services and every failure of the API server",
  "Needs failures of each single call.",
  BF)

ST = ["pkg/proxywasm/envoy_tags.go:ParseEnvoyStatTag", "pkg/proxywasm/envoy_tags.go:statTags", "pkg/proxywasm/metrics.go:DefineMetric"]
p("C108", "An Istio metric name is taken apart into exactly its labels and its base name",
  "The name of a metric made of known labels (each once, in any order, with values free of '=', ';' and newline, a non-empty response code) and a plain base name is parsed into exactly that base name and exactly those labels with their values, so that two different label sets never become the same series.",
  "every set and order of known labels, every value and every base name within the stated alphabet",
  "The table of over forty regular expressions runs one after another over the text left by the previous one: any label or value may be matched by a wrong expression.",
  ST)
p("C109", "Every statistic name is parsed into its tags",
  "For every statistic name (Istio metric with arbitrary label values, or Envoy style dotted name) the tags are those meant by the name and the base name is the name without them.",
  "every statistic name",
  "Unbounded text; values that contain the separators or are empty.",
  ST)

HH = ["pkg/proxywasm/http/handler.go:NewHandler,ServeHTTP", "pkg/proxywasm/http/handler.go:customResponseWriter,writeResponse", "pkg/proxywasm/stream.go:HandleHTTPRequest"]
HT = ["pkg/proxywasm/http/transport.go:NewHTTPTransport,RoundTrip", "pkg/proxywasm/stream.go:HandleHTTPRequest,HandleHTTPResponse"]
HG = ["pkg/proxywasm/grpc/dialer.go:RequestInterceptor", "pkg/proxywasm/grpc/wrappers.go:WrapGRPCRequest"]
p("C110", "A wrapped HTTP handler answers as it would by itself",
  "For every handler that uses its writer in the documented order (headers, status, body, then only trailers), the client gets exactly the status, headers, body and trailers the handler would send without the wrapper if filters and middlewares leave the response alone, exactly what they make of it if not, and exactly the response of a filter that answered instead.",
  "every handler (any sequence of writer operations in order), request, filter and middleware",
  "A handler is an arbitrary program over the writer; a test tries a few.",
  HH)
p("C111", "Wrapping an HTTP handler is invisible to every handler",
  "Whatever a handler does with its writer and its request, the client and the handler see the same as without the wrapper.",
  "every handler, also one that answers twice, sets headers late or streams",
  "Arbitrary programs, observed while they run.",
  HH)
p("C112", "A request reaches the application exactly if the filters let it, and every stream is closed",
  "The application is called exactly if the stream could be created, all filters passed the request without error and none answered it, with the request as they left it; the phases run in order, each at most once; a created stream is closed exactly once and last, also when a step fails or the application panics.",
  "every combination of failing steps, filters and applications",
  "All combinations of failures at every step.",
  HH)
p("C113", "A request that could not be filtered is not answered with success",
  "If the stream cannot be created or a filter fails, the client gets an error.",
  "every failure of a filter",
  "Needs failures at each single step.",
  HH)
p("C114", "A round trip sends the filtered request once and returns the filtered response",
  "At most one request is sent, exactly if no filter failed and as the filters left it; the caller gets the response as the filters left it, or an error exactly if a step failed; a created stream is closed exactly once and last.",
  "every request, filter, middleware and transport",
  "All combinations of failures at every step.",
  HT)
p("C115", "A round trip honours the contract of http.RoundTripper",
  "The request is sent under the context of the caller, its body is always closed, no response is left open, and a filter can answer in place of the upstream.",
  "every request and filter",
  "Contracts about resources and cancellation at every step.",
  HT)
p("C116", "gRPC calls pass the filters like HTTP requests",
  "A call is made exactly if no filter failed, with the metadata they left; active requests are counted up and down once; the filters see the address of the call and its outcome.",
  "every call, target, filter and outcome",
  "All combinations of outcomes.",
  HG)
MW = ["pkg/proxywasm/middleware/envoy_middleware.go:envoyHTTPHandlerMiddleware", "pkg/proxywasm/header.go"]
MI = ["pkg/istio/istio_middleware.go:istioHTTPRequestMiddleware", "pkg/proxywasm/http/middleware.go"]
MF = ["pkg/istio/fb/FlatNode.go", "pkg/istio/fb/KeyVal.go", "pkg/istio/istio_middleware.go:AfterResponse"]
p("C117", "The application learns the identity of its client",
  "For every request over a connection with a client certificate, the X-Forwarded-Client-Cert header the application reads names this client (hash, subject, URI, DNS) and the workload itself, and a client cannot choose what it says; the protocol forwarded is the one used.",
  "every request, header sent by the client and certificate",
  "Security: an arbitrary adversary chooses the header.",
  MW)
p("C118", "Filters see the attributes of requests, responses and connections",
  "Every attribute of a request, response or connection a filter can ask for has the value of that request, response or connection.",
  "every request, response, connection and direction",
  "All combinations of present and absent fields.",
  MW)
p("C119", "The order of the shipped middlewares does not matter",
  "Whichever of the two middlewares sees a request or response first, filters see the same attributes afterwards and the application the same request; the service an incoming request is meant for is named after the labels of the workload.",
  "every request, response, direction and attributes set before",
  "All pairs of states.",
  MI)
p("C120", "The metadata of the peer are read as they were encoded",
  "For every buffer that holds the node of the peer in any layout the FlatBuffers format allows, the service of the peer gets the name its labels give and its namespace.",
  "every layout of every node",
  "The format allows unboundedly many layouts of one value; an encoder produces one.",
  MF)
p("C121", "Malformed metadata of the peer do no harm",
  "Whatever bytes a peer sends as its metadata, reading them ends with a result taken from these bytes, or none, and never crashes the program.",
  "every byte string",
  "An adversary chooses the bytes.",
  MF)
HP=["pkg/proxywasm/host.go:GetProperty,SetProperty","pkg/proxywasm/properties.go"]
p("C122", "Filters read the attributes the proxy stored for them",
  "A filter that asks for a path of ordinary names gets what was last stored for this stream, connection or plugin under that path, and otherwise what the nearest holder above stores.",
  "every path, every store and every chain of holders",
  "All trees of attributes and all paths.",
  HP)
p("C123", "Filters read back what they set",
  "A property a filter sets is what it reads afterwards, and setting it changes nothing else.",
  "every path, value and store",
  "All trees of attributes and all paths.",
  HP)
TK=["pkg/proxywasm/host.go:SetTickPeriodMilliseconds,Done","pkg/proxywasm/common_properties.go","pkg/proxywasm/utils.go:StopWasmContext"]
p("C124", "Ticks and calls exclude each other",
  "At no time do two calls run in one instance of a filter, be they timer ticks or calls for streams, and a tick that has begun can end.",
  "every schedule of timers, calls, and changes of the period",
  "Depends on the schedule of the timer and of the calls.",
  TK)
p("C125", "Ticks end when the instance is stopped",
  "After an instance has been stopped no tick runs in it, and stopping it ends, whenever the timer fires and whatever period the filter has asked for.",
  "every schedule of timers, calls, and changes of the period",
  "Depends on the moment the timer fires.",
  TK)
VM=["pkg/proxywasm/vm_store.go","pkg/proxywasm/vm.go","pkg/proxywasm/api/vm.go"]
p("C126", "Virtual machines are shared by id, code and configuration",
  "Two calls with an id, one after the other, get the same VM exactly if id, code and configuration are the same, and a new VM has the runtime asked for.",
  "every sequence of calls",
  "All histories of calls.",
  VM)
p("C127", "There is one virtual machine per configuration",
  "Calls for a VM, also at the same time, get one VM per configuration, and a configuration that cannot be satisfied gets an error.",
  "every interleaving of calls",
  "Depends on the schedule.",
  VM)
p("C128", "Closing a virtual machine closes its users",
  "When a VM is closed all its users are closed, once, and none is added afterwards.",
  "every interleaving of acquiring, releasing and closing",
  "Depends on the schedule.",
  VM)
p("C129", "The code of a filter is fetched once",
  "The source of the code of a filter is fetched until this succeeds, and every call returns the code at the source.",
  "every sequence of calls and answers",
  "All histories of failures.",
  ["pkg/proxywasm/data_store.go"])
CT=["pkg/proxywasm/context.go","pkg/proxywasm/plugin_manager.go:Add","pkg/proxywasm/plugin.go","pkg/proxywasm/host.go:SetEffectiveContextID"]
p("C130", "The numbers of filter contexts are distinct",
  "Any two numbers one context gives out, for filters or for contexts below it, are different if fewer than 2^32 lie between them, and differ from its own.",
  "every history",
  "Counters wrap only after 2^32 steps.",
  CT)
p("C131", "There is one context per name",
  "Calls for contexts, one after the other, give the same context exactly if the full names are the same; a new one gets a number from its parent and sees its properties.",
  "every history of calls",
  "All histories.",
  CT)
p("C132", "Plugins do not interfere",
  "Every instance of a plugin is started with the configuration of the plugin, and its filters can switch to their own contexts and to no others.",
  "every history of plugins added and filters started",
  "All combinations of names and all histories.",
  CT)
SV=["pkg/istio/istio.go:ServeHTTP,updateUnifiedListener,GetTCPListener","pkg/tls/verify/util.go:SetCertVerifierToTLSConfig","pkg/network/listener/unified_tls_listener.go"]
p("C133", "A server follows the policy of the mesh",
  "Once a server has taken over the last policy the mesh sent it, and until another comes, every client that connects is served in the clear only if the policy allows it, and over TLS only with certificates the verifier of the policy confirms; and each client the policy allows is served.",
  "every history of policies, connections and handshakes, every policy and every client",
  "Depends on the order of policies, writes and handshakes, and on every combination of mode, authentication and verifier.",
  SV)
p("C134", "A server never serves a client the policy does not allow",
  "At every moment a client is served only as some policy the mesh has sent allows, from the start of the server on, and no client can crash the server.",
  "every history",
  "Depends on which of connection, policy and client comes first.",
  SV)
CC=["pkg/ca/istio/config.go","pkg/k8s/service/endpoint.go"]
p("C135", "The configuration for the CA is that of the revision asked for",
  "The address, the server name, the root certificates and the mesh configuration found in the cluster are those of objects of the revision asked for, and a cluster that lacks them gives an error.",
  "every cluster",
  "All sets of services, config maps and gateways.",
  CC)
p("C136", "Where the configuration comes from",
  "Heimdall is asked exactly if its address is given, otherwise the files in the pod are used exactly if they exist; requests to Heimdall carry the token as a bearer token and a name no other instance uses.",
  "every environment, every token and every two instances",
  "All environments.",
  CC+["pkg/istio/istio.go:IstioCAConfigGetterAuto"])
HD=["pkg/istio/istio.go:NewIstioIntegrationHandler,Run,GetDiscoveryClient,RunMetricsPusher,RunMetricsServer","pkg/istio/istio_passthrough_handler.go"]
p("C137", "One discovery client per handler",
  "Every part of a handler uses the same connection to the mesh: whoever asks for the discovery client, at whatever time, gets the one the handler runs.",
  "every history of calls and starts, from any goroutine",
  "Depends on the interleaving of calls with the start of the handler.",
  HD)
p("C138", "Metrics are removed from the gateway at the end",
  "Metrics pushed to a gateway are removed from it, exactly once, when the handler ends, and nothing pushed stays there.",
  "every history of pushes, failures and the end of the context",
  "Depends on the moment of the end relative to pushes on their way.",
  HD)
p("C139", "A handler does what its configuration asks",
  "Disabled means passing connections through unchanged; with TLS every connection uses the certificates of the mesh; metrics are served and pushed at the port and interval given; no configuration that is accepted crashes the program.",
  "every configuration and every call",
  "All combinations of settings and of the calls made with them.",
  HD)
GD=["pkg/proxywasm/grpc/dialer.go:Dial,RequestInterceptor","pkg/istio/istio.go:GetGRPCDialOptions"]
p("C140", "gRPC connections are made as the mesh says",
  "A gRPC connection goes to the endpoint the mesh gives for the host, encrypted exactly if the mesh says so, and only to a server whose certificate the verifier of the mesh confirms; filters see the state of the connection that carries the call.",
  "every host, every answer of the mesh, every server and every history of dials and calls",
  "All combinations of settings and servers, and all histories.",
  GD)
p("C141", "Certificates are asked for at the CA only",
  "The token is sent only to a server that proves the name asked for with a root certificate configured; a chain the CA signs is used, and connections are closed when they are no longer needed.",
  "every configuration, server and answer, every number of requests",
  "All configurations and answers.",
  ["pkg/ca/istio/istio_ca_client.go","pkg/ca/istio/istio_ca.go:GetCertificate"])
p("C142", "Compressed record batches are read completely",
  "Reading a compressed batch in pieces of any sizes gives the decompressed bytes in order, each once, and then the end or the error of the stream.",
  "every stream, every way it arrives and every sequence of reads and single bytes",
  "All sizes of buffers and reads.",
  ["components/kafka-protocol-go/pkg/compression/gzip/gzip.go","components/kafka-protocol-go/pkg/compression/snappy/snappy.go"])
PY=["experimental/python/nasp/nasp.go"]
p("C143", "A transport lives as long as someone holds it",
  "In the Python binding a transport can be used exactly as long as someone who opened it has not closed it, and it has the settings it was opened with.",
  "every history of opening, failing and closing, from any thread",
  "All histories and interleavings.",
  PY)
p("C144", "Responses reach Python unchanged",
  "Status, headers and body of a response reach Python as they were received, and releasing a response releases all memory made for it exactly once.",
  "every response",
  "All bodies and headers.",
  PY)
p("C145", "Java gets every log line once",
  "The batches of log lines given to Java contain every line logged exactly once and in order, as JSON arrays with at most as many lines as asked for.",
  "every history of logging and of asking for batches",
  "All histories.",
  ["experimental/java/log.go:NextLogBatchJSON"])

p("C146", "The JSON text of a Kafka message is JSON and says what the message contains",
  "For every request or response and every value of it, MarshalJSON returns a valid JSON text; parsing it gives an object whose members are the fields of the message in order, under their protocol names with a small first letter, with their values: numbers, booleans, strings, base64 of binary data, null for nulls, nested objects and arrays; and then the unknown tagged fields. (Part: true if strings need no escaping, floats are numbers, no record has headers and no field is called Type.)",
  "all messages (schemas of any shape and depth), all values, and the shipped message definitions",
  "the text is concatenated by hand; validity must hold for all strings, nestings and record contents",
  ["components/kafka-protocol-go/assets/templates/struct_processor.tmpl:MarshalJSON", "components/kafka-protocol-go/pkg/protocol/types/fields/util.go:MarshalPrimitiveTypeJSON", "components/kafka-protocol-go/pkg/protocol/types/fields/string.go:MarshalJSON", "components/kafka-protocol-go/pkg/protocol/types/fields/recordheader.go:MarshalJSON", "components/kafka-protocol-go/pkg/protocol/types/fields/batchrecord.go:MarshalJSON", "components/kafka-protocol-go/pkg/protocol/types/fields/recordbatch.go:MarshalJSON", "components/kafka-protocol-go/pkg/protocol/types/fields/taggedfields.go:MarshalJSON"])
p("C147", "Equal on Kafka messages compares their contents",
  "Equal is an equivalence on messages, and two messages are Equal exactly if all their fields (and unknown tagged fields) are the same, so that Equal messages are serialized alike. (Part: null counts as empty, record attributes are ignored, NaN is not Equal to itself; without those, Equal messages are identical and give the same bytes.)",
  "all pairs and triples of values of all messages",
  "two values of arbitrary nested messages are compared; the claim ranges over all of them",
  ["components/kafka-protocol-go/assets/templates/struct_processor.tmpl:Equal", "components/kafka-protocol-go/pkg/protocol/types/fields/util.go:PrimitiveTypeSliceEqual", "components/kafka-protocol-go/pkg/protocol/types/fields/util.go:NullableStringSliceEqual", "components/kafka-protocol-go/pkg/protocol/types/fields/string.go:Equal", "components/kafka-protocol-go/pkg/protocol/types/fields/batchrecord.go:Equal", "components/kafka-protocol-go/pkg/protocol/types/fields/recordbatch.go:Equal"])
p("C148", "The config map of a tunnel server lists the ports listened on",
  "When nothing is on its way, the config map written by the tunnel server's controller lists exactly the ports the server listens on for its clients, each with the name of its session. (Part: true if no event of a port is taken while another one of the same port is still being handled; the listen and release events of one port are handled by different goroutines, so a listened port can be left out for ever and a closed one can stay listed.)",
  "every history of listening, failing and closing, and every interleaving of event handlers and reconciles",
  "all interleavings of the handlers of two event topics and the reconciler",
  ["pkg/network/tunnel/server/port.go:Listen", "components/bifrost/pkg/commands/server.go", "components/bifrost/pkg/controllers/configmap.go:Reconcile", "components/bifrost/pkg/controllers/configmap.go:TriggerReconcile"])
p("C149", "Every HTTP middleware is called once per request and phase",
  "While a request is handled, every middleware registered is called exactly once before the request and once after it. (Part: true if no middleware is added or removed meanwhile; otherwise the program may crash, or a middleware be called twice.)",
  "every set of middlewares, every number of requests and every interleaving with additions and removals",
  "all interleavings of requests with changes to the set of middlewares",
  ["pkg/proxywasm/http/middleware.go:AddMiddleware", "pkg/proxywasm/http/middleware.go:RemoveMiddleware", "pkg/proxywasm/http/middleware.go:GetMiddlewares", "pkg/proxywasm/http/middleware.go:BeforeRequest", "pkg/proxywasm/http/middleware.go:AfterRequest"])
p("C150", "Compressed record batches round-trip",
  "A list of record batches, each uncompressed or compressed with one of the supported codecs, that is written into a buffer with enough room is written in the Kafka format, batch after batch, and reading the section returns the same batches and leaves nothing. (Part: true for uncompressed batches and for non-empty gzip batches of small records. Behind every snappy batch 16 bytes are left, which make a section of several batches unreadable, shift the next field behind the last one and may take the room of the length; records that grow when compressed do not fit the buffer; empty gzip batches cannot be read; lz4 and zstd batches cannot be read, see C16.)",
  "every list of batches, every codec, every size of the buffer",
  "all lists of batches with all codecs and all room left in the buffer",
  ["components/kafka-protocol-go/pkg/protocol/types/fields/recordbatch.go:Write", "components/kafka-protocol-go/pkg/protocol/types/fields/recordbatches.go:Write", "components/kafka-protocol-go/pkg/protocol/types/fields/recordbatches.go:Read", "components/kafka-protocol-go/pkg/protocol/types/fields/records.go:Write", "components/kafka-protocol-go/pkg/compression/snappy/snappy.go:Close", "components/kafka-protocol-go/pkg/protocol/types/bytes/slicewriter.go:Write"])
p("C151", "Records of gzip-compressed batches are read as written",
  "Reading the records of a batch compressed with gzip returns the records that were written, in order, however the decompressor splits its output into pieces. (Part: true if every key, value, header key and header value is shorter than 16 KiB. A value of more than 48 KiB is never read completely: the record is returned without key, value and headers, without an error, and the rest of its bytes is taken for the next record.)",
  "every list of records, every splitting of the decompressed stream into pieces",
  "all records of all sizes and all splittings of the stream",
  ["components/kafka-protocol-go/pkg/protocol/types/fields/batchrecord.go:Read", "components/kafka-protocol-go/pkg/protocol/types/fields/recordheader.go:Read", "components/kafka-protocol-go/pkg/compression/gzip/gzip.go:Read", "components/kafka-protocol-go/pkg/compression/gzip/gzip.go:ReadByte", "components/kafka-protocol-go/pkg/serialization/reader.go:Read"])
p("C152", "Idle pools and idle pooled connections expire on time, used ones do not",
  "A connection pool that is not used is closed within its idle timeout plus a second, and a pool that is used is not closed for idleness; a connection that was given back and not asked for is closed exactly the connection idle timeout later, and one that was asked for is not. (Part: expiry is proved without restriction. A pool may be closed for idleness right after a Get that came between check and close, while a connection of it is in use for long, or a second after it was created if its initial connections took long to make; the initial connections have no idle timer.)",
  "every history of Get, Put, Close and failed connections, every timing, all timeouts and capacities",
  "all timings of uses relative to the ticker and the timers",
  ["pkg/network/pool/channel.go:NewChannelPool", "pkg/network/pool/channel.go:handleIdleTimeout", "pkg/network/pool/channel.go:Get", "pkg/network/pool/channel.go:Put", "pkg/network/pool/conn.go:Release", "pkg/network/pool/conn.go:setIdleTimer", "pkg/network/pool/conn.go:Acquire"])

p("C229", "Filter code is called in the order the ABI prescribes",
  "For every filter the wasm code sees: the creation of its context, then callbacks of its stream, then at most once its end (done, log, delete, up to the first failure), and then nothing. Every instance is booted, given its root context, started and configured with the size of the plugin's configuration, up to the first failure; it is used for filters only after all of this succeeded, and exactly until its root context is ended and it is stopped.",
  "every interleaving of starting, stopping and acquiring instances, creating filters, callbacks and closing, and every failure of a call",
  "all interleavings of streams with changes to the number of instances and all failures of calls into the code",
  ["pkg/proxywasm/plugin.go:GetInstance", "pkg/proxywasm/plugin.go:stopInstance", "pkg/proxywasm/plugin.go:EnsureInstances", "pkg/proxywasm/filter.go:NewFilterContext", "pkg/proxywasm/utils.go:StopWasmContext", "pkg/proxywasm/filter.go:Close"])
p("C230", "Nothing is called in a stopped instance and no instance is leaked",
  "After an instance of a wasm plugin has been stopped nothing is called in it, an instance that is not used is stopped, and an instance is held only for filters being made or in use. (Part: true if instances are dropped only while no filter uses them and every filter context can be created. Otherwise open filters are called in the stopped instance, an instance that refuses its configuration is never stopped, and an instance acquired for a filter whose context cannot be created is never given back.)",
  "every interleaving of starting, stopping and acquiring instances, creating filters, callbacks and closing, and every failure of a call",
  "all interleavings of streams with changes to the number of instances and all failures of calls into the code",
  ["pkg/proxywasm/plugin.go:EnsureInstances", "pkg/proxywasm/plugin.go:stopInstance", "pkg/proxywasm/plugin.go:GetInstance", "pkg/proxywasm/plugin.go:ReleaseInstance", "pkg/proxywasm/filter.go:NewFilterContext"])

p("C231", "Tunnel client: accepted connections are the requested ones, once",
  "Every connection that Accept of a tunnel client's listener returns belongs to a connection request the server sent for that listener's port, carries the stream opened for that request's identifier, and no request yields two accepted connections.",
  "every history of opening, closing and accepting on listeners, of (re)connects, of requests and responses of the server in any order, and every interleaving of the message handlers",
  "all interleavings of message handlers (one goroutine each) with listeners and reconnects",
  ["pkg/network/tunnel/client/stream.go:requestConnection", "pkg/network/tunnel/client/port.go:Accept", "pkg/network/tunnel/client/client.go:GetTCPListener"])
p("C232", "Tunnel client: listeners without a port are asked for when connected",
  "When the control stream of a tunnel client is connected, a port is requested for every registered listener that has none yet, and a listener's address is only ever one the server named in a response for that listener.",
  "every history of registering listeners, connects, disconnects and responses",
  "all histories of reconnects and responses",
  ["pkg/network/tunnel/client/client.go:onControlStreamConnected", "pkg/network/tunnel/client/client.go:requestPort", "pkg/network/tunnel/client/client.go:onDisconnected", "pkg/network/tunnel/client/stream.go:requestPortResponse"])
p("C233", "Tunnel client: reconnects and closed listeners are harmless",
  "After a reconnect every open listener gets a port on the new connection; closing a listener, also while requests for it are under way, never panics; and every stream opened for a request is accepted or closed.",
  "every interleaving of reconnects, late responses, closed listeners and connection requests",
  "all interleavings of the client's goroutines with messages of an old connection",
  ["pkg/network/tunnel/client/client.go:onDisconnected", "pkg/network/tunnel/client/port.go:Close", "pkg/network/tunnel/client/stream.go:requestConnection", "pkg/network/tunnel/client/stream.go:requestPortResponse"])
p("C234", "Tunnel server: silent clients are dropped, pings come every second",
  "With a positive keepalive timeout T the control stream of a client is open at most T plus one second after its last pong; the keepalive closes a stream only if no pong came for longer than T; and while the stream is open a ping is sent at the start and then once per second.",
  "every timeout, every sequence of times at which pongs arrive and every moment of closing the stream",
  "all arrival times of pongs, without bound on the duration",
  ["pkg/network/tunnel/server/stream.go:keepalive", "pkg/network/tunnel/server/stream.go:pong", "pkg/network/tunnel/server/stream.go:Close"])
p("C235", "Tunnel server: answering clients are kept, closed streams are quiet",
  "A client that answers its pings is never cut off by the keepalive, a closed control stream sends no more pings, and a client that never answers is cut off for every timeout.",
  "every timeout, every delay of the answers and every moment of closing the stream",
  "all delays of pongs and all interleavings of the timer with Close",
  ["pkg/network/tunnel/server/stream.go:keepalive", "pkg/network/tunnel/server/stream.go:pong", "pkg/network/tunnel/server/stream.go:Close", "pkg/network/tunnel/server/server.go:ServerWithKeepaliveTimeout"])

p("C236", "Tunnel messages are handled in full, each once",
  "However the bytes of the messages on a tunnel stream are cut into pieces, every message is decoded in full and in order, goes to the handler registered last for its type (or is refused if there is none), is handed over exactly once, and a stream that ends within a message is reported as an error after the messages before it.",
  "every sequence of messages, every way the bytes are split among reads and every schedule of the handler goroutines",
  "all ways of splitting the byte stream and all schedules of goroutines",
  ["pkg/network/tunnel/common/messagehandler.go:Handle", "pkg/network/tunnel/common/messagehandler_registry.go:HandleMessage", "pkg/network/tunnel/common/messagehandler_registry.go:AddMessageHandler", "pkg/network/tunnel/api/message.go:CreateMessage", "pkg/network/tunnel/api/message.go:SendMessage"])
p("C237", "Tunnel messages are handled in order and on their own",
  "Messages on a tunnel stream are handled in the order in which they were sent, and what a handler gets depends on its own message only.",
  "every sequence of messages and every schedule of the handler goroutines",
  "all schedules of goroutines and all messages with missing fields",
  ["pkg/network/tunnel/common/messagehandler.go:Handle"])
p("C238", "Tunnel client: no byte after the answer is lost",
  "When the client opens a stream, every byte the server sends after its answer reaches the reader of the connection, in order and once, however the bytes are split; the same holds for messages on the control stream.",
  "every answer, payload and way the bytes are split among reads",
  "all ways of splitting the byte stream",
  ["pkg/network/tunnel/client/session.go:OpenTCPStream", "pkg/network/tunnel/client/session.go:createControlStream"])
p("C239", "Tunnel server: no byte after the opening message is lost",
  "When the server accepts a stream, every byte the peer sends after the opening message reaches the reader of the connection, in order and once, however the bytes are split.",
  "every opening message, payload and way the bytes are split among reads",
  "all ways of splitting the byte stream",
  ["pkg/network/tunnel/server/session.go:handleStream"])
p("C240", "PII patterns: what is found matches and nothing that matches is overlooked",
  "Every range a pattern reports is a nonempty piece of the text that matches it, every nonempty piece that matches overlaps with a reported range, and so a pattern reports something exactly if some nonempty piece of the text matches it.",
  "every text, every regular expression of the kinds used",
  "infinitely many texts; completeness of the search needs induction",
  ["experimental/kafka-message-pii-filter/pii/pii.go:detect"])
p("C241", "PII patterns: the kinds of data that are detected",
  "DetectPII reports personal data exactly if one of the twenty patterns matches; each is characterised by the texts it detects, for example a dotted quad of four numbers 0-255 without leading zeros that is not a part of a longer word.",
  "every text and every order of the patterns",
  "infinitely many texts",
  ["experimental/kafka-message-pii-filter/pii/pii.go:DetectPII", "experimental/kafka-message-pii-filter/pii/pii.go:patterns"])

p("C242", "Header changes made by filters are exact",
  "Setting a header from a filter gives it this one value, adding appends a value to those it has, deleting removes it; all other headers keep their values and order. Names do not depend on case, what is set under any spelling is what is read under any spelling, and a filter's own response has the headers of the response so far followed by the filter's own.",
  "all header maps of HTTP and gRPC messages, names, values and sequences of calls",
  "the name space, the values and the sequences of operations are unbounded, and case folding concerns every pair of names",
  ["pkg/proxywasm/header.go:Get", "pkg/proxywasm/header.go:Set", "pkg/proxywasm/header.go:Add", "pkg/proxywasm/header.go:Del", "pkg/proxywasm/http/wrappers.go:httpHeaderMap", "pkg/proxywasm/grpc/wrappers.go:grpcHeaderMap", "pkg/proxywasm/host.go:SendHttpResp"])
p("C243", "Filters see every header",
  "A filter that goes through the headers of a message is shown every header of it, with all values, and can stop going through them.",
  "all header maps of HTTP and gRPC messages and all visitors",
  "the maps are unbounded; a test has the headers its author thought of, each with one value",
  ["pkg/proxywasm/header.go:Range", "pkg/proxywasm/http/wrappers.go:Keys", "pkg/proxywasm/grpc/wrappers.go:Keys"])

p("C244",
  "A plugin instance has one context as long as the plugin has it",
  "Everybody who asks a plugin for the context of one of its instances while the plugin has the instance is given the same context, namely the one made when the instance was started; contexts of different instances are different, so what one instance sets is not seen in another.",
  "all interleavings of starting and dropping instances, streams being opened, and failures",
  "the check and the store in the map of contexts are separate steps; a test sees a few interleavings",
  ["pkg/proxywasm/plugin.go:GetWasmInstanceContext", "pkg/proxywasm/plugin.go:startInstance", "pkg/proxywasm/filter.go:NewFilterContext"])

p("C245",
  "Nothing is kept for plugin instances that are gone",
  "When no instance is being stopped, a plugin keeps contexts for the instances it has and for no others.",
  "all interleavings of starting and dropping instances, streams being opened, and failures",
  "leaks need a failure or an unlucky interleaving and show only after many of them",
  ["pkg/proxywasm/plugin.go:stopInstance", "pkg/proxywasm/plugin.go:startInstance", "pkg/proxywasm/plugin.go:EnsureInstances"])

p("C246",
  "No client stops or delays an HTTP server",
  "Whatever a client of an HTTP server sends or does not send, all other clients are handled: each is handed on with all its bytes, in the order in which they came, and the server waits for the next one.",
  "all sequences of clients, their byte streams and endings, and changes of the TLS mode in between",
  "the clients are hostile and the sequences unbounded",
  ["pkg/network/http.go:ServeWithTLSConfig", "pkg/network/listener/unified_tls_listener.go:Accept"])

p("C247",
  "An HTTP server started with TLS speaks TLS only",
  "A server started with ServeTLS or ServeWithTLSConfig talks to every client through TLS, one started with Serve in plain text, and one whose certificate cannot be loaded to nobody.",
  "all ways to start a server, clients and changes of the TLS mode",
  "a test has one TLS client; the claim is about every client",
  ["pkg/network/http.go:ServeTLS", "pkg/network/http.go:ServeWithTLSConfig", "pkg/network/http.go:Serve"])

p("C248",
  "The webhooks are reachable with the certificate",
  "The serving certificate of heimdall names every service that a webhook of the mutating webhook configuration of the configured name calls, in every form the API server may use, and when a configuration of the other kind has that name its services are named too; no webhook configuration stops heimdall.",
  "every content of the cluster's webhook configurations",
  "Depends on what the cluster contains: configurations of both kinds, webhooks that call a URL, several webhooks of one service.",
  ["components/heimdall/pkg/cert/webhook_certifier.go:dnsNames", "components/heimdall/pkg/cert/webhook_certifier.go:loadWebhookConfiguration", "components/heimdall/pkg/cert/webhook_certifier.go:Start"])

p("C249",
  "A workload group has a token exactly as long as it is labelled",
  "After every history of creations, relabellings and deletions of a workload group, once its events are handled there is a token for it exactly if it carries the label; events that do not matter are not handled.",
  "every history of events on a workload group and every label selector",
  "Quantifies over histories and label selectors; tests run a handful.",
  ["components/heimdall/pkg/predicates/labelselector.go:NewPredicateFuncs", "components/heimdall/pkg/predicates/labelselector.go:LabelSelectorPredicate", "components/heimdall/pkg/controllers/workloadgroup.go:Reconcile", "components/heimdall/pkg/controllers/workloadgroup.go:SetupWithManager"])

p("C250",
  "A clone of a property store answers like the store",
  "For every property store and every key, the clone of the store answers like the store, and goes on doing so after the same updates.",
  "every store, key and update",
  "Quantifies over nested stores of any depth and over all later updates.",
  ["pkg/dotn/dotn.go:Convert", "pkg/dotn/dotn_concurrent.go:Clone"])

p("C251",
  "The client notices a broken stream and connects again",
  "Whatever happened before and in whatever order the goroutines of the client run, once the stream to the management server has ended the client opens a new one.",
  "every history of the stream, every response and every schedule of the three goroutines",
  "Depends on the order in which three goroutines, two channels and a context are served; a test sees one order.",
  ["pkg/ads/api.go:Connect", "pkg/ads/client.go:connectToStream", "pkg/ads/client.go:handleStream", "pkg/ads/client.go:handleStreamReceive", "pkg/ads/client.go:handleStreamSend", "pkg/ads/client.go:apiResultsRefresher"])

p("C252",
  "The client gives up only when it is cancelled",
  "The client stops connecting to the management server only when the context of the application is cancelled, and opens no stream after that.",
  "every history of streams, endings and schedules",
  "Depends on which of the errors of three goroutines is the first, in every order.",
  ["pkg/ads/api.go:Connect", "pkg/ads/client.go:handleStream"])

p("C253",
  "Java channels read and write what the connection carries",
  "A read into a buffer puts exactly the bytes the connection gave at the position of the buffer, moves the position behind them and leaves the rest alone, and returns -1 exactly at the end; gathering writes hand the bytes of the buffers to the connection in order, however little it takes at a time, none lost and none twice.",
  "every buffer, every list of buffers, every amount the connection gives or accepts",
  "Depends on the positions and limits of buffers and on partial writes of arbitrary sizes.",
  ["experimental/java/examples/nio-java/src/main/java/com/ciscoopen/app/NaspSocketChannel.java:read", "experimental/java/examples/nio-java/src/main/java/com/ciscoopen/app/NaspSocketChannel.java:write"])

p("C254",
  "Java streams read and write what the connection carries",
  "Reading from the input stream of a socket returns the bytes of the connection, into whichever part of an array the program asks for, byte by byte or many at once; writing to the output stream sends exactly the bytes given.",
  "every content of the connection, every array and every part of it",
  "The parts of an array and the contents are unbounded; the shipped programs only use whole arrays.",
  ["experimental/java/examples/nio-java/src/main/java/com/ciscoopen/app/NaspSocketInputStream.java:read", "experimental/java/examples/nio-java/src/main/java/com/ciscoopen/app/NaspSocketOutputStream.java:write"])

p("C255",
  "The selector tells every key what is ready for it",
  "For every queue of events, after a select every registered key is told exactly those operations it asked for and for which there is an event with its number, and is selected if there is one; what a key asks for is started.",
  "every queue of events, every set of registered keys and interest sets, every order in which the words arrive",
  "Ranges over histories of events, interest sets and hash codes.",
  ["experimental/java/examples/nio-java/src/main/java/com/ciscoopen/app/NaspSelectorProvider.java:doSelect", "experimental/java/examples/nio-java/src/main/java/com/ciscoopen/app/NaspSelectorProvider.java:setEventOps", "experimental/java/examples/nio-java/src/main/java/com/ciscoopen/app/NaspSocketChannel.java:translateReadyOps", "experimental/java/examples/nio-java/src/main/java/com/ciscoopen/app/NaspServerSocketChannel.java:translateReadyOps"])

p("C256",
  "A Java channel is connected as asked",
  "A channel that a program connects and waits for with a selector gets one connection, to the address given; finishConnect returns true exactly when the channel is connected, fails when the connection could not be made, and closing the channel closes the connection.",
  "every order of connect, interest changes, finishConnect and close, and every outcome of dialing",
  "Depends on the order of the program's calls and on when and how the dial ends.",
  ["experimental/java/examples/nio-java/src/main/java/com/ciscoopen/app/NaspSocketChannel.java:connect", "experimental/java/examples/nio-java/src/main/java/com/ciscoopen/app/NaspSocketChannel.java:finishConnect", "experimental/java/main.go:StartAsyncDial", "experimental/java/main.go:AsyncDial"])

p("C257",
  "Spring programs get the whole body of a request",
  "The body a Spring program reads is the body the client sent, every byte of it and in order, for every content and every way the end of the body is signalled; a body that could not be received completely is reported as failed.",
  "every body, every way it ends (with its last byte, separately, or with a failure)",
  "The loss depends on byte values, on positions relative to buffers and on how Go signals the end.",
  ["experimental/spring/spring-boot-nasp/src/main/java/com/cisco/nasp/spring/NaspServerHttpRequest.java:getBody", "experimental/java/main.go:Body"])

p("C258",
  "Responses of Spring programs are sent as made",
  "The client gets the status, every header with all its values in order, the cookies and the whole body of the response a Spring program makes.",
  "every response: status, headers, cookies, and body in any number of buffers",
  "Ranges over header maps and over the ways a body is cut into buffers.",
  ["experimental/spring/spring-boot-nasp/src/main/java/com/cisco/nasp/spring/NaspServerHttpResponse.java:writeWithInternal", "experimental/spring/spring-boot-nasp/src/main/java/com/cisco/nasp/spring/NaspServerHttpResponse.java:applyHeaders", "experimental/spring/spring-boot-nasp/src/main/java/com/cisco/nasp/spring/NaspServerHttpResponse.java:applyCookies", "experimental/java/main.go:WriteHeader"])

p("C259",
  "Python requests are sent as made and answered as answered",
  "A request made with the adapter for `requests` reaches the server with the method, address, headers and body it was made with, exactly once; the program gets the status, headers and body of the answer, and can tell a failure from an answer.",
  "every request and every answer",
  "Ranges over contents of requests and answers, including bytes with special meaning in C.",
  ["experimental/python/nasp/nasp.py:send", "experimental/python/nasp/nasp.py:send_http_request", "experimental/python/nasp/nasp.py:http_headers", "experimental/python/nasp/nasp.go:SendHTTPRequest"])

p("C260",
  "Characters read from a part of the data are those of the part",
  "Reading characters from a (nested) chunk reader gives what reading them from its bytes alone would give, whatever surrounds the part, until its end; taking back the character read last goes back to where it began and never before the part.",
  "every data, every nest of parts, every position and every text",
  "Depends on where parts begin and end relative to multi-byte characters and on what stands behind them.",
  ["components/kafka-protocol-go/pkg/protocol/types/bytes/chunkreader.go:ReadRune", "components/kafka-protocol-go/pkg/protocol/types/bytes/chunkreader.go:UnreadRune"])

p("C261",
  "The counters of the load balancers follow the configuration",
  "After an update there are counters for exactly the clusters and endpoints that are configured: those that stay keep their counts and their active requests, new ones and those whose cluster does not count start from zero, and after an update the traffic follows the new configuration, however it was before.",
  "every history of selections, every set of load assignments, clusters and routes",
  "Ranges over all histories of selections and updates; the skew shows only after many selections.",
  ["pkg/ads/clusterloadassignments.go:onEndpointsUpdated", "pkg/ads/cluster.go:onClustersUpdated", "pkg/ads/route_config.go:onRouteConfigurationsUpdated", "pkg/ads/internal/cluster/stats.go", "pkg/ads/internal/endpoint/stats.go"])

p("C262",
  "Distinguished names are taken apart into their attributes",
  "Parsing the text of a distinguished name gives its attributes: every value of every attribute, in order, however it is separated and spaced, and nothing that is not in the text. Parsing the text Go makes of the subject of a certificate gives that subject.",
  "every text; every list of attributes, separators and spacings; every certificate subject",
  "Ranges over all texts and attribute lists; the regular expression backtracks differently for each.",
  ["pkg/tls/verify/util.go:ParseDN"])

p("C263",
  "Transports and servers of Java and mobile programs live as long as they are used",
  "An HTTP transport of a Java or mobile program has its connection to the mesh from its creation until it is closed, whatever happens to other transports; waiting for its end returns when it is closed; and the function that runs a server returns when the server ends, with its error.",
  "every sequence of creations, failed creations and closings; every time at which a server ends",
  "Ranges over all histories of transports in a process and over times.",
  ["experimental/java/main.go:NewHTTPTransport", "experimental/java/main.go:ListenAndServe", "experimental/mobile/main.go:NewHTTPTransport"])

p("C264",
  "The tunnel client exposes the addresses it is given",
  "For every address given to the tunnel client a listener is opened on the port asked for and its connections go to the address; a wrong address is reported and does not harm the others; every connection is given to its service or closed, and none waits for another.",
  "every list of addresses, every behaviour of resolver and server, every sequence of connections",
  "Ranges over all texts of addresses and all interleavings of slow services with new connections.",
  ["components/bifrost/pkg/commands/client.go:runProxies", "components/bifrost/pkg/commands/client.go:proxyclient.Run"])

p("C265",
  "Addresses mean the same as text",
  "An IP address as the mesh writes it is read exactly as the standard says (dotted decimal numbers from 0 to 255 without leading zeros, or IPv6 groups with at most one `::` that stands for at least one group, possibly ending in a dotted address), anything else is no address; writing an address and reading it back gives the same address; a dialer given the text of an address and port connects to that address and port; two addresses have the same text only if they are the same address and port; a listener is found under an address exactly if the mesh configured that address and port for it, in whatever notation.",
  "all texts, all 16-byte addresses, all ports",
  "Texts and addresses are unbounded or 2^128 many; a unit test tries a handful of notations.",
  ["/repo/pkg/ads/internal/endpoint/endpoint.go GetAddress", "/repo/pkg/ads/internal/listener/listener.go listeningOnFilter.Filter", "/repo/pkg/istio/tcp/dialer.go DialContext"])

p("C266",
  "Address ranges contain exactly the addresses with the prefix",
  "A filter chain's address range with an IPv4 prefix of length n contains exactly the IPv4 addresses whose first n bits are those of the prefix; with an IPv6 prefix it contains exactly the addresses whose first n bits agree, and an IPv4 address only if the prefix fixes at least the 96 bits that say so; a length over 32 or 128 or a malformed prefix is an error, but only for addresses that lie in none of the earlier ranges; ranges without a prefix match nothing; an unknown address lies in no range.",
  "all lists of ranges, all prefixes in every notation, all lengths, all addresses",
  "2^128 addresses times all prefixes and lengths; errors depend on the order of ranges.",
  ["/repo/pkg/ads/api_listener_properties.go matchPrefixRanges"])

p("C267",
  "Endpoints are reached where the mesh says",
  "A connection to an endpoint of a service goes to the address and port the mesh gives for it, and endpoints share load-balancing counters or are taken for each other by filters exactly if they have the same address and port.",
  "all endpoint texts and ports",
  "Any text may arrive as an endpoint's address; tests use IPv4 literals only.",
  ["/repo/pkg/ads/internal/endpoint/endpoint.go GetAddress", "/repo/pkg/ads/internal/endpoint/endpoint.go endpointWithSocketAddressFilter.Filter", "/repo/pkg/ads/clusterloadassignments.go onClusterLoadAssignmentsUpdated", "/repo/pkg/ads/internal/loadbalancer/lb_wrr.go"])

p("C268",
  "The exchange of metadata on a TCP connection is invisible",
  "Between two programs whose connection exchanges metadata, each program gets exactly the bytes the other wrote, in order, and from its first read on each end knows the other's id and node; no filter panics. (Proved where the client speaks first and the first read of each end gets the metadata whole; disproved otherwise.) A connection that has not agreed on the exchange passes everything unchanged.",
  "all metadata, all data, all schedules of writes and reads of any sizes on both ends",
  "Depends on how TCP cuts the bytes and on who speaks first; tests deliver whole messages in one order.",
  ["/repo/experimental/wasm-tcp-metadata/src/lib.rs on_downstream_data, on_upstream_data", "/repo/pkg/proxywasm/tcp/conn.go Read, Write"])

p("C269",
  "What a workload says about itself arrives",
  "The environment of a workload (names, mesh, cluster, labels, platform metadata, containers, addresses) is what its filter puts into its metadata and what the filter at the other end takes out of them, whatever the order in which maps are written; maps arrive sorted by key, with the last value given for a key; lists of containers and addresses arrive unchanged if no part contains a comma and the last part is not empty.",
  "all environments and nodes whose encoding is shorter than 2^32 bytes, all orders of map entries",
  "Any texts, maps of any size in any order; a test compares a few examples.",
  ["/repo/experimental/wasm-tcp-metadata/src/lib.rs extract_local_node_flat_buffer, extract_struct_from_node_flat_buffer, extract_node_flat_buffer_from_struct, deserialize_map", "/repo/pkg/environment/istio.go GetNodePropertiesFromEnvironment", "/repo/pkg/proxywasm/properties.go Stringify"])

p("C270",
  "Metadata are exchanged only with peers that agreed",
  "A connection sends metadata of its workload only to a peer with which the exchange was negotiated, and takes the peer's identity only from such a peer. (Proved: an outgoing connection that has not agreed sends only what the program writes, whatever arrives; an accepted one sends nothing else before it has received metadata. Disproved: an accepted connection answers and believes any client, whatever protocol was negotiated.)",
  "all negotiated protocols, all data that arrive, all sequences of reads and writes",
  "A safety property over arbitrary peers.",
  ["/repo/experimental/wasm-tcp-metadata/src/lib.rs on_downstream_data, on_upstream_data"])

p("C271",
  "A closed connection pool comes to rest",
  "After a connection pool was closed - by its user or because it was idle - it hands out no connection, keeps none, none of its timers closes anything and it is not closed a second time: every later Get fails and every connection given back is refused. Its background checker ends at most one second after the close, and calling Close again changes nothing.",
  "every history of Get, Put, Close, failed connections and idle checks, every timing, all timeouts, capacities and numbers of initial connections",
  "whether the checker's goroutine ends depends on what runs between the close and its next second, and a test cannot try every history that leads to the close",
  ["pkg/network/pool/channel.go (Close, Get, Put, handleIdleTimeout)", "pkg/network/pool/conn.go (Close, acquire, release)"])

p("C272",
  "A filter's clock shows the time that passes",
  "The difference of two readings of the clock a filter is given is the time that has passed between them; in particular the clock does not go backwards.",
  "all pairs of points in time, every context",
  "a test takes two readings close together, mostly within the same second of the wall clock, and never sees the wrap",
  ["pkg/proxywasm/default.go (DefaultHostFunctions.GetCurrentTimeNanoseconds)", "pkg/proxywasm/host.go (NewHostFunctions)"])

p("C273",
  "Every call a filter makes is answered",
  "A filter may make any call of the proxy-wasm ABI at any time: what its context has it gets, what the context does not have is answered with nothing or 'not found', and what the host does not support with 'unimplemented'; no call makes the host panic.",
  "every call of the ABI with every argument, every context (whatever it has or has not)",
  "there are 45 calls and every one can meet a context that lacks any of the things it needs",
  ["pkg/proxywasm/host.go (HostFunctions)", "pkg/proxywasm/default.go (DefaultHostFunctions)"])

p("C274",
  "A filter's important messages are always logged",
  "Logging never fails; what a filter logs at the level info or above is always shown, debug and trace messages only at verbosity 1 and 2, and a more severe message is never hidden when a less severe one is shown.",
  "every level, also numbers that are no level",
  "a test logs at a level or two",
  ["pkg/proxywasm/host.go (HostFunctions.Log)"])

p("C275",
  "The metrics can be read as long as the program runs",
  "With a metrics address and no push gateway, every client that connects to the metrics address, or to the port the metrics have at the tunnel, is given to the HTTP server once; when the context given to Run ends the address is released. (Part: every client is served, also after the end of the context, if the filters can be created and the mesh grants the port if it is asked for one. The address is never released: Shutdown is called on a server that was never started. Without filters nobody is served, and connections wait for ever.)",
  "every interleaving of the goroutines of the metrics server with clients, the mesh and the end of the context",
  "the goroutines of two listeners, the HTTP server and the context interleave freely; tests see one order",
  ["pkg/istio/istio.go:RunMetricsServer", "pkg/istio/istio.go:ServeHTTP", "pkg/network/listener/multi_listener.go:startListener", "pkg/network/listener/multi_listener.go:Accept"])

p("C276",
  "A mesh without a port for the metrics does not stop the program",
  "If the mesh has no port for the metrics, the program goes on and its metrics can still be read at the metrics address. (Part: true if metrics are not offered through the tunnel or the port is granted. False otherwise, in every run: the listener of the tunnel returns an error for ever, which ends the HTTP server and closes the metrics address, and its goroutine then panics with a send on a closed channel.)",
  "every interleaving of the goroutines of the metrics server with the answer of the mesh",
  "needs a mesh that refuses a port and the interleaving of four goroutines",
  ["pkg/istio/istio.go:RunMetricsServer", "pkg/network/listener/multi_listener.go:Close", "pkg/network/tunnel/client/port.go:Accept", "pkg/network/tunnel/client/stream.go:requestPortResponse"])

p("C277",
  "Metadata of a destination are reported as configured",
  "The metadata reported for a cluster, a route or an endpoint are, for every key, its typed value, or its untyped one if there is no typed one, each key once and whatever order the maps are read in; they are reported exactly when each of these values can be read and written as JSON.",
  "every metadata record and order of iteration",
  "the result depends on all combinations of typed and untyped entries and on the iteration order of Go maps",
  ["pkg/ads/internal/util/util.go:GetUnifiedFilterMetadata"])

p("C278",
  "Metadata never decide whether a connection is protected",
  "A connection to a destination whose first applicable transport socket is the TLS one is made to the chosen endpoint with TLS, whatever metadata its cluster, route and endpoints carry, and no metadata crash the program.",
  "every destination: metadata, endpoints, socket matches, default socket, picked endpoint",
  "the failing cases are single metadata entries among all possible configurations",
  ["pkg/ads/api_tcp_client.go:newClientProperties", "pkg/ads/internal/endpoint/endpoint.go:GetFilterMetadata", "pkg/istio/tcp/dialer.go:DialContext", "pkg/istio/http/transport.go:RoundTrip"])

p("C279",
  "Every cluster with endpoints is reached through its configuration",
  "A destination whose cluster has endpoints — subscribed to, listed in the cluster, or found by DNS — is reached at one of them and with the transport security of the cluster.",
  "every cluster, store of load assignments, policy and metadata",
  "the case distinction is over all kinds of clusters a control plane can send",
  ["pkg/ads/internal/endpoint/endpoint.go:GetClusterLoadAssignmentReference", "pkg/ads/clusterloadassignments.go:getClusterLoadAssignmentForCluster", "pkg/ads/api_tcp_client.go:newClientProperties"])

p("C280",
  "Every connection gets a pick of its own",
  "The endpoints connections are made to are the successive picks of the load balancer, one pick for one connection, so that what holds of the shares of its picks holds of the connections.",
  "every load balancer, set of destinations and interleaving of connections and updates from the control plane",
  "it concerns all interleavings of connections with each other and with updates, and the long run of the balancer",
  ["pkg/ads/api_result.go:registerForUpdates", "pkg/ads/api_result.go:Refresh", "pkg/ads/api_tcp_client.go:GetTCPClientPropertiesByHost", "pkg/ads/internal/loadbalancer/lb_wrr.go:NextEndpoint"])

p("C281",
  "Asking for a destination leaves nothing behind",
  "After the connections to a destination have got their endpoints, nothing is computed for it any more and no memory is held.",
  "every history of connections and updates",
  "it concerns the growth over unbounded histories",
  ["pkg/ads/api_result.go:registerForUpdates", "pkg/ads/api_result.go:cancel", "pkg/ads/api_result.go:Refresh"])

p("C282",
  "The identity filters see was verified",
  "The peer identity that filters get in the properties of a stream is one that the verification of the peer's certificate accepted.",
  "every certificate, configuration of the names to accept and chain",
  "it concerns all certificates and configurations of accepted names",
  ["pkg/network/cert.go:GetFirstURI", "pkg/proxywasm/middleware/envoy_middleware.go:SetEnvoyConnectionInfo", "pkg/tls/verify/verify.go:verifyTypedSANs"])

p("C283",
  "Every message specification is loaded",
  "Loading the message specifications gives the messages of all files in the directory and those below, or an error if one cannot be read.",
  "every tree of directories and files",
  "it concerns every tree of directories, of any depth",
  ["components/kafka-protocol-go/internal/protocol/protocol.go:LoadProtocolSpec"])

p("C284",
  "The text of a certificate tells its names",
  "Certificates with different subjects or names have different texts in the log.",
  "every pair of certificates",
  "it concerns all pairs of certificates",
  ["pkg/network/cert.go:String", "pkg/util/util.go:PrintConnectionState"])

p("C285",
  "Generating the code is reproducible",
  "Running the code generator twice on the same specifications gives the same files; all messages get their code, and no file of one message replaces that of another.",
  "every set of message specifications, every order in which maps are walked, every way of sorting",
  "it concerns every order of iteration of a map",
  ["components/kafka-protocol-go/cmd/gen/main.go:generate", "components/kafka-protocol-go/cmd/gen/main.go:generateMessageFactoryCode", "components/kafka-protocol-go/cmd/gen/main.go:generateStructProcessorCode"])

p("C286",
  "Java sockets tell their addresses",
  "A connected socket of the Java examples reports the host and port of its peer and of its own end exactly as the connection has them; asking never fails on a TCP connection, and a socket without a connection reports no address.",
  "every connection state, every host without a percent-encoded scope, every port",
  "it ranges over all addresses and connection states",
  ["experimental/java/main.go:GetAddress", "experimental/java/main.go:GetRemoteAddress", "experimental/java"])

p("C287",
  "Java programs connect to and listen on the addresses they give",
  "The text of an address and port given by a Java program is split by the dialler or listener into exactly that host and port, whatever kind of address it is.",
  "every host text and every port",
  "it ranges over all hosts and ports",
  ["experimental/java/main.go:Bind", "experimental/java/main.go:NewTCPDialer", "experimental/java"])

p("C288",
  "The certificate of the Citadel client",
  "A client of the certificate authority shows its own certificate exactly when the certificate is readable, has not ended, and its key fits; a certificate that arrives later is taken up by the next signing; at most one connection is open at any time, and signing always goes on.",
  "every history of signings, handshakes, closings and changes of the certificate and key, every time",
  "it concerns every history and every moment of a handshake",
  ["pkg/ca/istio/istio_ca_client.go:getTLSDialOption", "pkg/ca/istio/istio_ca_client.go:isCertExpired", "pkg/ca/istio/istio_ca_client.go:reconnectIfNeeded"])

p("C289",
  "The options of the tunnel commands",
  "Every option of the tunnel server and client commands has the value given last on the command line, else that of the environment variable of its name, else the default its help shows.",
  "every command line, every environment, every option of either command",
  "it ranges over all command lines and environments, and over the order in which commands are set up",
  ["components/bifrost/cmd/bifrost/main.go:init", "components/bifrost/pkg/commands/server.go:NewServerCommand", "components/bifrost/pkg/commands/client.go:NewClientCommand"])

p("C290",
  "What the tunnel client says of itself",
  "The tunnel client sends the token and labels it was started with, and the service name given as the label of the service name.",
  "every combination of options, token, labels and service name",
  "it ranges over all combinations of options",
  ["components/bifrost/pkg/commands/client.go:NewClientCommand", "pkg/istio/istio.go:Run"])

p("C291",
  "The echo server answers every line",
  "Every line a client sends to the TCP echo server is answered, in order, with the prefix, a blank and the line unchanged, however the bytes are cut into pieces, and nothing else is sent.",
  "every sequence of bytes, every way it is cut into pieces, every prefix, every pattern of failing writes",
  "it ranges over all inputs and all ways they are cut",
  ["components/echo-server/main.go:tcpServer"])

p("C292",
  "A tunnel server in a cluster serves only confirmed clients",
  "If the tunnel server command starts in a cluster, a stream becomes a control stream only if the cluster's review confirmed the token presented on it; the command starts exactly if everything it needs succeeds.",
  "every outcome of the parts of the start, every history of sessions, every answer of the token review",
  "it ranges over all outcomes of the start and all histories of sessions",
  ["components/bifrost/pkg/commands/server.go:NewServerCommand", "pkg/network/tunnel/server/session.go:openControlStream"])

exec(open("/verif/tools/props_split.py").read())
