{"id": "C01", "title": "Kafka varints round-trip", "statement": "Writing any uint32, int32 or int64 with the varint writers and reading the produced bytes with the matching reader returns the same value and consumes exactly the written bytes, leaving whatever follows untouched.", "quantifier": "every value of the type, every byte string that follows", "why_tests_cant": "2^64 values times arbitrary continuations; tests sample a handful of boundary values.", "anchors": ["components/kafka-protocol-go/pkg/protocol/types/varint/varint.go: WriteUint32, ReadUint32, WriteInt32, ReadInt32, WriteInt64, ReadInt64"]}
{"id": "C02", "title": "32-bit varint size functions equal the bytes written", "statement": "Uint32Size and Int32Size return exactly the number of bytes the matching writer emits.", "quantifier": "every value of the type", "why_tests_cant": "The error sits in one of ten power-of-128 bands of a 64-bit domain; sampled tests miss a band (they did: see the finding for [2^49, 2^56)).", "anchors": ["components/kafka-protocol-go/pkg/protocol/types/varint/varint.go: Uint32Size, Int32Size, Uint64Size, Int64Size"]}
{"id": "C03", "title": "Varint readers are safe on arbitrary input", "statement": "On any byte string the varint readers either return a value that fits the type after consuming a non-empty prefix of at most ten bytes, or report an error; a 32-bit read never yields a value outside 32 bits, and truncating an encoding anywhere makes the read fail.", "quantifier": "every byte string, every truncation point", "why_tests_cant": "Adversarial inputs are unbounded; fuzzing samples them.", "anchors": ["components/kafka-protocol-go/pkg/protocol/types/varint/varint.go: ReadUint32, ReadInt32, ReadInt64"]}
{"id": "C04", "title": "Fixed-width primitives round-trip and have constant size", "statement": "bool, int8, int16, uint16, int32, int64, float64 (by bit pattern) and UUID fields are written big-endian in 1/1/2/2/4/8/8/16 bytes, are read back unchanged leaving the rest of the input untouched, and reading them from fewer bytes fails; at versions that do not support the field nothing is written or consumed.", "quantifier": "every value, every version, every following byte string", "why_tests_cant": "Whole value domains and all truncation points.", "anchors": ["components/kafka-protocol-go/pkg/protocol/types/int.go", "components/kafka-protocol-go/pkg/protocol/types/bool.go", "components/kafka-protocol-go/pkg/protocol/types/float.go", "components/kafka-protocol-go/pkg/protocol/types/fields/uuid.go"]}
{"id": "C05", "title": "String fields round-trip", "statement": "A (nullable) string other than the text \"null\" is accepted by the string writer exactly if it is null and the field is nullable at the version, or not longer than 32767 bytes; an accepted one is read back as the same string (null stays null, empty stays empty), in both the compact and the classic encoding, and its size is the number of bytes written.", "quantifier": "every string, every version context, every following byte string", "why_tests_cant": "All strings and all contexts; the one string that breaks it (the four bytes \"null\") is invisible to sampling.", "anchors": ["components/kafka-protocol-go/pkg/protocol/types/fields/string.go: String.Read, String.Write, NullableString.SetValue"]}
{"id": "C06", "title": "Bytes fields round-trip with nil distinct from empty", "statement": "A byte slice accepted by the writer is read back identical, including the nil/empty distinction, in both encodings.", "quantifier": "every slice length and content, every version context", "why_tests_cant": "Unbounded lengths and element types.", "anchors": ["components/kafka-protocol-go/pkg/protocol/types/fields/bytes.go", "components/kafka-protocol-go/pkg/protocol/types/fields/array.go", "components/kafka-protocol-go/pkg/protocol/types/fields/arrayofstruct.go"]}
{"id": "C07", "title": "Tagged fields are written in canonical order", "statement": "Writing a set of raw tagged fields succeeds exactly when no tag occurs twice, and emits a count followed by the fields (tag, length, value) in strictly ascending tag order.", "quantifier": "every list of tagged fields in any order", "why_tests_cant": "All permutations and payloads; an empty last payload at end of input breaks it.", "anchors": ["components/kafka-protocol-go/pkg/protocol/types/fields/taggedfields.go: ReadRawTaggedFields, WriteRawTaggedFields"]}
{"id": "C08", "title": "SizeInBytes of a message equals the bytes Write emits", "statement": "For every message structure whose nested structures are supported wherever they are used (all shipped messages), whenever Write succeeds SizeInBytes succeeds too and returns exactly the number of bytes Write appended, if no byte slice is exactly 2^31-1 bytes long and the records of its batches have the exact sizes of C13.", "quantifier": "every such message schema, every such value, every version", "why_tests_cant": "All schemas (130+ generated messages), nested to any depth, all values.", "anchors": ["components/kafka-protocol-go/assets/templates/struct_processor.tmpl", "components/kafka-protocol-go/pkg/protocol/messages/**"]}
{"id": "C09", "title": "Every Kafka message round-trips", "statement": "For every message structure with distinct tags and every version, reading the bytes written for a message yields, for the fields the version carries, the values written, for the others their defaults, and leaves the following bytes unread; a message that only uses what the version carries is read back identical. (Messages as the API builds them: no null structures, strings as in C05, arrays as in C164, tagged fields as in C165.)", "quantifier": "every message schema with distinct tags, every such value, every version, every following byte string", "why_tests_cant": "All schemas, all values; tests check one sample per message.", "anchors": ["components/kafka-protocol-go/assets/templates/struct_processor.tmpl: Read, Write, SetDefault", "components/kafka-protocol-go/pkg/protocol/messages/**"]}
{"id": "C10", "title": "The generated message table satisfies the codec's assumptions", "statement": "Every request, response and header structure shipped with the library has distinct tags per structure, tagged versions only where the structure is flexible, and version ranges such that the round-trip guarantee applies to each (api key, version) pair the library advertises.", "quantifier": "every generated message, every supported version", "why_tests_cant": "The claim is about the interplay of ~140k generated lines; a unit test covers single messages.", "anchors": ["components/kafka-protocol-go/pkg/protocol/messages/**", "components/kafka-protocol-go/cmd/gen/context.go", "components/kafka-protocol-go/pkg/protocol/messages/requests.go"]}
{"id": "C11", "title": "Null is only accepted where the protocol allows it", "statement": "Null for a string, bytes or array field is rejected both on write and on read at every version outside the field's declared nullable versions, in whole messages at any depth as well (which versions are declared nullable: C77).", "quantifier": "every field context, every version, every input", "why_tests_cant": "All contexts times versions.", "anchors": ["components/kafka-protocol-go/pkg/protocol/types/fields/context.go: IsNullableVersion", "components/kafka-protocol-go/cmd/gen/context.go: contextFromFieldSpec"]}
{"id": "C12", "title": "Version gating never loses data silently", "statement": "A message holding a non-default value in a non-ignorable field introduced after version 0 that the requested version does not support, at any depth, is rejected by Write and SizeInBytes; unsupported fields contribute no bytes.", "quantifier": "every schema, value and version", "why_tests_cant": "All combinations of fields and versions.", "anchors": ["components/kafka-protocol-go/assets/templates/struct_processor.tmpl: validateNonIgnorableFields"]}
{"id": "C13", "title": "Batch records and headers round-trip", "statement": "A record (attributes, timestamp delta, offset delta, key, value, headers) whose parts fit their length fields is written to a batch and read back identical, including null versus empty keys and values (a null header key is read as an empty one), leaving what follows.", "quantifier": "every record, every following byte string", "why_tests_cant": "All keys, values, headers and deltas; the length prefix is wrong only in one band of timestamp deltas.", "anchors": ["components/kafka-protocol-go/pkg/protocol/types/fields/batchrecord.go", "components/kafka-protocol-go/pkg/protocol/types/fields/recordheader.go"]}
{"id": "C14", "title": "Truncated records never yield part of their data", "statement": "Reading a record from a proper prefix of its encoding fails, or consumes the input and returns a record without key, value and headers; it never returns some of the data of the record.", "quantifier": "every record, every truncation point", "why_tests_cant": "All truncation points of all records.", "anchors": ["components/kafka-protocol-go/pkg/protocol/types/fields/batchrecord.go: Read", "components/kafka-protocol-go/pkg/protocol/types/fields/recordheader.go: Read"]}
{"id": "C15", "title": "Record batch layout", "statement": "A written v2 record batch has the fixed 61-byte header with every field at its protocol offset, the length field counts exactly the bytes after it, and the CRC field is the CRC-32C of exactly the bytes from the attributes to the end; nothing follows it unless it is compressed with snappy.", "quantifier": "every batch", "why_tests_cant": "All batches; a test compares one dump.", "anchors": ["components/kafka-protocol-go/pkg/protocol/types/fields/recordbatch.go: Write"]}
{"id": "C16", "title": "Record batches round-trip", "statement": "Reading an uncompressed batch written by the library returns an equal batch and leaves following bytes unread.", "quantifier": "every batch, every following byte string", "why_tests_cant": "All batches.", "anchors": ["components/kafka-protocol-go/pkg/protocol/types/fields/recordbatch.go: Read, Write"]}
{"id": "C17", "title": "Corrupted batches are detected", "statement": "A batch whose CRC field does not match its content is rejected on read.", "quantifier": "every batch and every corruption", "why_tests_cant": "All corruptions.", "anchors": ["components/kafka-protocol-go/pkg/protocol/types/fields/recordbatch.go: Read"]}
{"id": "C18", "title": "A sequence of batches is read completely", "statement": "Reading a records section that holds n batches returns exactly these n batches and consumes the section.", "quantifier": "every number of batches", "why_tests_cant": "Unbounded sequences and truncations.", "anchors": ["components/kafka-protocol-go/pkg/protocol/types/fields/recordbatches.go: Read, nextBatchSize", "components/kafka-protocol-go/pkg/protocol/types/fields/records.go"]}
{"id": "C19", "title": "Header versions agree with message flexibility", "statement": "For every api key and supported version, the request header version is 2 exactly when the request is flexible and 1 otherwise (0 for ControlledShutdown v0), and the response header version is 1 exactly when the response is flexible, except ApiVersions which is 0.", "quantifier": "every api key and version", "why_tests_cant": "Cross-product of two hand/generated tables; tests check single entries.", "anchors": ["components/kafka-protocol-go/pkg/request/header.go", "components/kafka-protocol-go/pkg/response/header.go", "components/kafka-protocol-go/pkg/protocol/messages/**"]}
{"id": "C20", "title": "Requests and responses round-trip through the envelope", "statement": "Parsing a request serialized at the version its header states returns the same header and body; parsing a serialized response against its request's api key, version and correlation id returns the same response (fields the version does not carry as in C09).", "quantifier": "every message, version, correlation id and client id", "why_tests_cant": "All messages.", "anchors": ["components/kafka-protocol-go/pkg/request/request.go", "components/kafka-protocol-go/pkg/response/response.go"]}
{"id": "C21", "title": "ApiVersions responses from older brokers are understood", "statement": "A version-0 ApiVersions response answering a newer ApiVersions request (the UNSUPPORTED_VERSION case) is parsed as version 0.", "quantifier": "every request version, every version-0 response", "why_tests_cant": "Needs reasoning about the parse path for all versions.", "anchors": ["components/kafka-protocol-go/pkg/response/response.go: Parse"]}
{"id": "C22", "title": "A chunk reader never leaves its chunk", "statement": "Any sequence of Read, ReadByte, UnreadByte, ReadAt and Seek calls on a (nested) chunk reader only returns bytes of its window of the underlying data, in order, and Len is the number of bytes left in the window.", "quantifier": "every nesting depth, window and call sequence", "why_tests_cant": "Unbounded call histories.", "anchors": ["components/kafka-protocol-go/pkg/protocol/types/bytes/chunkreader.go"]}
{"id": "C23", "title": "A slice writer never exceeds its capacity and keeps earlier bytes", "statement": "Any sequence of Write, WriteAt, InsertAt and Seek keeps the content within the capacity. Inside the content: Write appends exactly if there is room, InsertAt shifts and keeps all other bytes, WriteAt overwrites as much of the content as there is and keeps its length, Seek truncates, Slice returns the bytes between its bounds. A failing call changes nothing.", "quantifier": "every capacity and call sequence", "why_tests_cant": "Unbounded call histories.", "anchors": ["components/kafka-protocol-go/pkg/protocol/types/bytes/slicewriter.go"]}
{"id": "C24", "title": "Pooled buffers are large enough and never shared", "statement": "GetByteSlice(len, cap) returns a slice of that length with at least that capacity, and between Get and Release no other Get returns the same buffer.", "quantifier": "every request size, every interleaving of gets and releases", "why_tests_cant": "All sizes and histories.", "anchors": ["components/kafka-protocol-go/pkg/pools/pool.go"]}
{"id": "C25", "title": "Version range strings are parsed as written", "statement": "\"a-b\", \"a+\" and \"a\" parse to [a,b], [a,32767] and [a,a].", "quantifier": "every string of one of the forms", "why_tests_cant": "All strings.", "anchors": ["components/kafka-protocol-go/internal/protocol/versions.go: VersionRange"]}
{"id": "C26", "title": "The xDS cache only holds subscribed resources", "statement": "After any sequence of subscription changes and management-server updates, every cached resource was received from the server, is held under the name the server gave it, and was subscribed for when it was stored.", "quantifier": "every history of subscribe/unsubscribe/update operations", "why_tests_cant": "Unbounded histories.", "anchors": ["pkg/ads/common.go: resourceCache"]}
{"id": "C27", "title": "A rejected incremental xDS update leaves the configuration unchanged", "statement": "When an incremental discovery response with clusters, endpoints, listeners or routes is rejected (NACK), the resources visible to the application stay exactly as before.", "quantifier": "every cache state and every response", "why_tests_cant": "All states and malformed responses; only some orders of duplicates lose data.", "anchors": ["pkg/ads/common.go: AddResources, SetResources", "pkg/ads/client.go: handleResponse"]}
{"id": "C28", "title": "ACK/NACK protocol", "statement": "Every response of a supported type is answered by exactly one request for the same type, which is an error exactly if the update was rejected; an ACK carries the response's nonce and version, a NACK in the incremental protocol the response's nonce, a NACK in the state-of-the-world protocol the last accepted version; an invalid response is NACKed and changes nothing of its type.", "quantifier": "every history of responses", "why_tests_cant": "Unbounded histories.", "anchors": ["pkg/ads/client.go: ack, nack, handleStreamReceive"]}
{"id": "C29", "title": "EDS and RDS requests track the accepted clusters and listeners", "statement": "After a cluster (listener) response a request for load assignments (route configurations) follows exactly if what is referenced differs from what is subscribed for; it asks for exactly what is referenced and unsubscribes exactly the rest; after a reconnection everything is asked for again.", "quantifier": "every accepted cluster/listener set and prior subscription", "why_tests_cant": "All histories.", "anchors": ["pkg/ads/cluster.go: onClustersUpdated", "pkg/ads/listener.go: onListenersUpdated"]}
{"id": "C30", "title": "Load balancers only hand out healthy known endpoints", "statement": "Whatever the policy, an address handed out is that of a healthy endpoint of the load assignment; a random pick from a non-empty list is one of it and can be any of it; the least-request pick is one of its sample with the fewest active requests, any sample is possible, and with a choice count between 1 and the number of endpoints there always is a pick; the end of a request undoes its start.", "quantifier": "every endpoint list, load state and random source", "why_tests_cant": "All random outcomes.", "anchors": ["pkg/ads/internal/loadbalancer/*.go"]}
{"id": "C31", "title": "Weighted round robin picks the endpoint furthest below its share", "statement": "The weighted round-robin pick is the endpoint furthest below its share, and over any number of picks no endpoint exceeds its share by one pick.", "quantifier": "every weight vector and every number of picks", "why_tests_cant": "Unbounded pick sequences.", "anchors": ["pkg/ads/internal/loadbalancer/lb_wrr.go", "pkg/ads/internal/cluster/cluster.go: SelectCluster"]}
{"id": "C32", "title": "Weighted cluster selection picks a listed cluster of positive weight", "statement": "Whatever cluster is selected for a route with weighted clusters is one of its clusters with positive weight, for all counters and weights.", "quantifier": "every weight vector and selection history", "why_tests_cant": "Unbounded histories.", "anchors": ["pkg/ads/internal/cluster/cluster.go: SelectCluster"]}
{"id": "C33", "title": "Filter chain selection follows the documented precedence", "statement": "A lookup selects exactly the filter chains, in configuration order, that match the destination: a chain for the exact port is preferred over one without port, and a chain one of whose prefix ranges contains the address over one without ranges; none is selected if none matches, and a lookup fails only because of a malformed range in a chain for the port.", "quantifier": "every list of filter chains and destination", "why_tests_cant": "All lists.", "anchors": ["pkg/ads/api_listener_properties.go: findFilterChain, matchPrefixRanges"]}
{"id": "C34", "title": "HTTP target cluster lookup respects domain precedence", "statement": "The route used for an outbound HTTP request is the only route for \"/\" of the only usable virtual host (one with such a route) for the most specific form of the address that has one; it is not found exactly if no form has one, and anything ambiguous is an error, never an arbitrary choice; a target cluster is only reported if the host resolves, one outbound listener stands for the address and its route configuration is known; IPv6 addresses are looked up in brackets.", "quantifier": "every route configuration and address", "why_tests_cant": "All configurations.", "anchors": ["pkg/ads/api_http_client.go", "pkg/ads/internal/virtualhost/*.go"]}
{"id": "C35", "title": "Published results are never reordered", "statement": "An observer of client/listener properties gets results of its own input in the order in which they were computed, never an older one after a newer one; an unread result is replaced by a newer one without help of the reader; its channel is closed at most once, exactly when the observer has ended, and not used afterwards; a refresh computes the result of every input once; nothing is sent on a closed channel.", "quantifier": "every interleaving of publish, observe and cancel", "why_tests_cant": "All schedules.", "anchors": ["pkg/ads/api_result.go: apiResultObservable"]}
{"id": "C36", "title": "Tunnel ports are exclusive and within range", "statement": "The port provider never hands out a port that is currently held, only hands out ports of its configured range, and hands out any port that is not held, in particular one that was just released, when it is asked for.", "quantifier": "every range and every interleaving of get/getFree/release", "why_tests_cant": "Unbounded histories.", "anchors": ["pkg/network/tunnel/server/port_provider.go"]}
{"id": "C37", "title": "Closing a tunnel session releases all its ports", "statement": "After a client session is closed every port that was assigned to it is free again, and no other session's port is freed.", "quantifier": "every history of port requests in any number of sessions", "why_tests_cant": "Unbounded histories.", "anchors": ["pkg/network/tunnel/server/session.go: requestPort, Close"]}
{"id": "C38", "title": "Only clients the cluster authenticates get a control stream", "statement": "With the Kubernetes authenticator, which accepts exactly the tokens the cluster's review confirms, a control stream is established only if the token presented on it was confirmed; the metadata of a service account are its namespace and name.", "quantifier": "every history of any number of concurrent streams and every answer of the token review", "why_tests_cant": "All authenticators and histories.", "anchors": ["pkg/network/tunnel/server/session.go: openControlStream", "pkg/network/tunnel/auth/k8stoken.go"]}
{"id": "C39", "title": "A tunnelled connection reaches exactly the requester", "statement": "A stream that reaches a requester was opened by the client with that requester's id; a requester gets at most one stream and a stream reaches at most one requester; at most one stream per id is accepted, and a stream with an id that is not pending is answered with an error.", "quantifier": "every interleaving of requests, stream openings and timeouts", "why_tests_cant": "All schedules.", "anchors": ["pkg/network/tunnel/server/session.go: RequestConn, openTCPStream", "pkg/network/tunnel/client/session.go: OpenTCPStream"]}
{"id": "C40", "title": "The connection pool is bounded and can be closed", "statement": "At most the configured maximum of connections is idle; after Close a Get never returns a connection; Close fails only if closing a connection failed; a pool is created exactly if its initial capacity is at most its maximum and its initial connections could be made, and then holds exactly these.", "quantifier": "every history of get/put/discard/close", "why_tests_cant": "Unbounded histories.", "anchors": ["pkg/network/pool/channel.go", "pkg/network/pool/conn.go"]}
{"id": "C41", "title": "The pool registry count is exact", "statement": "Len always equals the number of registered pools, closing the registry closes and removes every pool, and closed pools are cleaned up exactly while pools are registered.", "quantifier": "every history of add/remove/cleanup/close", "why_tests_cant": "Unbounded histories.", "anchors": ["pkg/network/pool/syncmap_registry.go"]}
{"id": "C42", "title": "Filtered connections are transparent byte streams", "statement": "If failing reads of the network connection return no bytes and its writes do not fail: the bytes returned by successive reads, followed by what is still buffered, are exactly the bytes received from the peer, in order, for any chunking, buffer sizes and answers of the filters, and no read returns more than was asked for; a read with bytes at hand and filters that continue returns some; the bytes handed to the peer followed by those held back by pausing filters are exactly those written, and when the filters continue nothing is held back; a closed connection reads nothing.", "quantifier": "every chunking of the stream and every sequence of buffer sizes and pause decisions", "why_tests_cant": "Unbounded interleavings.", "anchors": ["pkg/proxywasm/tcp/conn.go: Read, Write, Close"]}
{"id": "C43", "title": "Metric ids identify metrics", "statement": "In every history of fewer than 2^31 calls: metric ids handed to filters are unique and never reused for another name or other labels; a sample recorded through an id belongs to a metric defined under that id, and recording through an id that was not removed never reaches another name or other labels; a removed id stays invalid; a failed definition changes nothing.", "quantifier": "every history of define/remove/record calls", "why_tests_cant": "Unbounded histories.", "anchors": ["pkg/proxywasm/metrics.go"]}
{"id": "C44", "title": "Filter chains run in order", "statement": "A stream uses exactly the named filters (all if none is named) in configuration order. Data callbacks run them in order, once each, up to the first pause or error, and data passes only if none paused. If a request (without a pause at its headers) or a response is handled successfully, every filter was called in order for the headers and then for every chunk of the whole body, and the body handed on is the original one; a pause at the request headers stops the filters; no error of a filter is swallowed. Filters are called locked, one at a time, and no lock is left behind.", "quantifier": "every filter list and filter behaviour", "why_tests_cant": "All filter behaviours.", "anchors": ["pkg/proxywasm/stream.go"]}
{"id": "C45", "title": "Maps handed to filters are decodable", "statement": "The pair serialization of a string map used for filter properties is decoded by the proxy-wasm pair format into exactly the same map.", "quantifier": "every map", "why_tests_cant": "All maps.", "anchors": ["pkg/proxywasm/utils.go: serializeMapToPairs"]}
{"id": "C46", "title": "String matchers mean what they say", "statement": "exact, prefix, suffix and contains matchers, also those received from the control plane, accept exactly the values that are equal to/start with/end with/contain the pattern, modulo case when case is ignored; a regular expression matcher accepts what the expression (in lower case, against the value in lower case, when case is ignored) matches; a matcher is refused only if its expression does not compile; one that ignores case does not distinguish values that differ only in case.", "quantifier": "every pattern and value", "why_tests_cant": "All strings.", "anchors": ["pkg/util/string_matcher.go"]}
{"id": "C47", "title": "Certificate verification is a conjunction", "statement": "A peer certificate is accepted exactly if its chain verifies up to a configured root (or one of the system if these are trusted) and, for each configured non-empty list, the certificate hash, the public-key hash and at least one name match; every certificate of an accepted chain could be parsed; hashes listed by the mesh restrict, and a certificate with a name that a matcher of the mesh accepts is not rejected for its names.", "quantifier": "every certificate, chain result and configuration", "why_tests_cant": "All configurations.", "anchors": ["pkg/tls/verify/verify.go"]}
{"id": "C48", "title": "Dotted-path property store obeys get/set laws", "statement": "After Set(path, v) a Get of the same path returns v and a Get of an unrelated path is unchanged.", "quantifier": "every store, path and value", "why_tests_cant": "All stores; breaks at paths through non-map values.", "anchors": ["pkg/dotn/dotn.go"]}
{"id": "C49", "title": "Workload labels resolve in the documented order", "statement": "Canonical name and revision of a workload are taken from the first present label in the documented precedence, otherwise the given default.", "quantifier": "every label map", "why_tests_cant": "All maps.", "anchors": ["pkg/k8s/labels/labels.go"]}
{"id": "C50", "title": "Permissive listener classifies without losing bytes", "statement": "In permissive mode a connection that sends at least three bytes is treated as TLS exactly when they are a TLS handshake record header of version 1.0-1.3; in strict mode (and any unknown mode) always, in disabled mode never; the handler reads the stream from its first byte, without a gap, to its end.", "quantifier": "every byte stream and mode", "why_tests_cant": "All streams.", "anchors": ["pkg/network/listener/unified_tls_listener.go"]}
{"id": "C51", "title": "The multi-listener returns every connection once, in order", "statement": "Every connection Accept returns was accepted by a listener that had been added, none is returned twice, those of one listener in order; a connection on its way is not lost; a duplicate is reported only if the id is registered; nothing arrives from a closed listener; a connection on an open listener reaches a waiting Accept.", "quantifier": "every interleaving of add/remove/accept/close", "why_tests_cant": "All schedules.", "anchors": ["pkg/network/listener/multi_listener.go"]}
{"id": "C53", "title": "Listener properties reflect the filter chains of the destination", "statement": "The properties reported for a listener address come from the only inbound listener that matches it: TLS is used exactly if one of the filter chains that apply takes TLS, it is permissive exactly if another one takes plaintext, the validation rules are those of a TLS chain in use; the order in which the control plane sent the listeners does not matter.", "quantifier": "every set of listeners, address and port", "why_tests_cant": "The result is a fold over every listener and every chain; only a proof covers all combinations and orders.", "anchors": ["pkg/ads/api_listener_properties.go"]}
{"id": "C54", "title": "Host names resolve through the mesh name table", "statement": "An IP address resolves to itself; a name resolves to the addresses of the first name known to the mesh among the name itself and the name qualified by each DNS search domain in order; it is reported not found exactly when none of them is known.", "quantifier": "every name table, search list and host", "why_tests_cant": "All tables and search lists.", "anchors": ["pkg/ads/nametable.go ResolveHost"]}
{"id": "C55", "title": "The TCP target cluster is the one the mesh configured for the destination", "statement": "The cluster chosen for an outbound TCP connection is a cluster (or weighted cluster) of the TCP proxy in the filter chain that applies to the resolved address and port, and no cluster is chosen when no chain applies.", "quantifier": "every listener set, name table, destination and weight table", "why_tests_cant": "Depends on all listeners and chains at once.", "anchors": ["pkg/ads/api_tcp_client.go"]}
{"id": "C56", "title": "Transport security of a cluster follows its socket matches", "statement": "The transport socket used towards an endpoint is the first socket match of the cluster whose criteria are all met by the endpoint metadata, else the default socket, and TLS is used exactly when that socket is the TLS one.", "quantifier": "every match list, default socket and endpoint metadata", "why_tests_cant": "All metadata and match combinations.", "anchors": ["pkg/ads/internal/cluster/cluster.go GetMatchingTransportSockets UsesTls IsPermissive"]}
{"id": "C57", "title": "Written bytes follow the Kafka wire format", "statement": "Whenever writing a message, record batch or record succeeds, the bytes are exactly those the Kafka protocol prescribes for the value at that version: big-endian integers, zig-zag and unsigned varints, compact lengths exactly in flexible versions, fields in declaration order and only those of the version, tagged fields counted and by ascending tag with default-valued ones left out, batches with the length and checksum of what follows. (Records whose parts fit their length fields and whose timestamp delta is outside the band of C163; batches not compressed with snappy.)", "quantifier": "every message type, version and value, every record batch and record as described", "why_tests_cant": "Round-trip tests cannot see a mistake made symmetrically by reader and writer; conformance must hold for every value and version.", "anchors": ["components/kafka-protocol-go/pkg/protocol/messages", "components/kafka-protocol-go/pkg/protocol/types", "components/kafka-protocol-go/internal/protocol/types/fields"]}
{"id": "C58", "title": "Write accepts exactly the values the version can carry", "statement": "Writing a message, header or record batch at an advertised version succeeds exactly when the version can carry the value: null only where the field is nullable at that version, every length within its wire limit, no non-ignorable field newer than the version set to a non-default value, distinct tags, no tagged fields in non-flexible versions, batches with magic 2, a known codec, a compressor that succeeds and a length within range. Otherwise an error is returned and no bytes. (Records as in C57; byte strings not exactly 2^31-1 long, UUIDs of 16 bytes, batches not compressed with snappy, see C188 and C192; for fields removed in later versions see C179.)", "quantifier": "every shipped message type, version and value, every record batch", "why_tests_cant": "Rejecting a valid value or accepting an invalid one can hide in any field of any version; tests sample a few.", "anchors": ["components/kafka-protocol-go/pkg/protocol/messages", "components/kafka-protocol-go/internal/protocol/types/fields", "components/kafka-protocol-go/pkg/protocol/types/recordbatch.go"]}
{"id": "C59", "title": "Parsing consumes a beginning of the input", "statement": "Whatever bytes arrive, a successful read of a message or a record batch consumes a beginning of the input and leaves the rest untouched.", "quantifier": "every byte string, message type and version", "why_tests_cant": "Parsers face arbitrary network input; fuzzing samples it, a crash may need one particular length or count.", "anchors": ["components/kafka-protocol-go/pkg/request/request.go", "components/kafka-protocol-go/pkg/response/response.go", "components/kafka-protocol-go/pkg/protocol/types/fields/recordbatch.go", "components/kafka-protocol-go/pkg/protocol/types/fields/batchrecord.go"]}
{"id": "C60", "title": "Active request counts are accurate", "statement": "At every moment the active request count of every known endpoint, which load balancing compares, is the number of open connections to it plus the number of requests in flight to it; closing a connection again changes nothing.", "quantifier": "every history of endpoint updates, dials, closes, requests and their interleaving", "why_tests_cant": "Counts drift only over long histories with closes, redials and endpoint changes; tests look at one connection.", "anchors": ["pkg/ads/internal/endpoint/stats.go", "pkg/ads/clusterloadassignments.go", "pkg/istio/discovery/connection_wrappers.go", "pkg/network/connection.go", "pkg/istio/tcp/dialer.go", "pkg/istio/http/transport.go"]}
{"id": "C61", "title": "Outgoing TCP connections go where the mesh wants", "statement": "As long as discovery answers, every connection that DialContext returns goes to the endpoint the mesh had for the host when the call was made, and was made with the TLS settings the mesh wanted for some call to the same address.", "quantifier": "every interleaving of dials, reuse, pool removal, cancellation and configuration changes", "why_tests_cant": "Needs configuration changes and pool races between calls; the settings used are invisible to a test that only moves bytes.", "anchors": ["pkg/istio/tcp/dialer.go", "pkg/network/pool/syncmap_registry.go", "pkg/network/dialer.go"]}
{"id": "C62", "title": "A dial ends only with its own context", "statement": "A call of DialContext fails because of a cancelled context only if it is the context passed to that call.", "quantifier": "every interleaving of dials and cancellations", "why_tests_cant": "The failure shows only when another caller's context ends first.", "anchors": ["pkg/istio/tcp/dialer.go"]}
{"id": "C63", "title": "Outgoing HTTP requests are secured as the mesh wants", "statement": "Every HTTP request is sent on a connection to the endpoint chosen for its host, with the server name and peer verification the mesh requires for that host; a request that must be encrypted is never sent in plain text.", "quantifier": "every interleaving of requests, dials, connection reuse and configuration changes", "why_tests_cant": "Depends on how concurrent requests interleave on shared transport and TLS configuration.", "anchors": ["pkg/istio/http/transport.go", "pkg/network/http.go", "pkg/network/dialer.go", "pkg/network/tls.go"]}
{"id": "C64", "title": "Lookups are answered after the mesh configuration has arrived", "statement": "After any history of connections, reconnections and responses, lookups are answered exactly if, since the last connection, the client has received and accepted a non-empty response of every type that the management server provides.", "quantifier": "every history of connects, responses (valid, invalid, empty) of all types, every set of provided services", "why_tests_cant": "Depends on the whole history across reconnects and on which types happen to be empty; tests use one complete configuration.", "anchors": ["pkg/ads/client.go", "pkg/ads/common.go", "pkg/ads/api_http_client.go", "pkg/ads/api_tcp_client.go", "pkg/ads/api_listener_properties.go"]}
{"id": "C52", "title": "Load is distributed by health and weight", "statement": "Unhealthy endpoints get no load; among localities of one priority with different names and enough healthy endpoints a larger weight never gets a smaller load; among the healthy endpoints of a locality a larger weight with no more active requests never gets a smaller load.", "quantifier": "every load assignment, policy and counter state", "why_tests_cant": "Shares come from floating-point arithmetic over arbitrary weights and health; tests fix a handful of assignments.", "anchors": ["pkg/ads/internal/endpoint/endpoint.go", "pkg/ads/internal/loadbalancer/lb_wlr.go", "pkg/ads/internal/loadbalancer/lb_wrr.go", "pkg/ads/internal/loadbalancer/lb_random.go"]}
{"id": "C65", "title": "Wasm plugin instances are handed out, counted and stopped correctly by correct callers", "statement": "If callers return only instances they hold and calls that change the number of instances (resizing, closing) do not overlap: asking for an instance succeeds whenever one accepts and rotates over them; an instance handed out is running; none is returned more often than it was handed out and closing returns all; resizing ends with exactly the desired number running, closing with none; none is stopped twice.", "quantifier": "every sequence of requests, returns, resizes and closes, every answer of the instances, every creation failure", "why_tests_cant": "Counters, rotation and list positions depend on the whole history of calls.", "anchors": ["pkg/proxywasm/plugin.go"]}
{"id": "C66", "title": "The plugin manager returns one plugin per configuration and deletes it on request", "statement": "All callers that ask for the same named configuration get the same plugin, concurrent callers included; a deleted plugin is closed and the call returns; a creation that fails leaves nothing behind; a configuration that leaves the instance count open gets instances.", "quantifier": "every interleaving of get, get-or-create, add and delete calls, every failure point of a creation", "why_tests_cant": "Depends on interleavings of calls between two critical sections and on where a creation fails.", "anchors": ["pkg/proxywasm/plugin_manager.go", "pkg/proxywasm/vm.go"]}
{"id": "C67", "title": "Different plugin configurations never share a plugin", "statement": "Calls with different configurations never get the same plugin, a configuration without a name gets a new plugin every time, each plugin is created with the number of instances its configuration says, and the VM counts exactly the plugins that acquired it (fewer than 2^32 plugins).", "quantifier": "every interleaving of manager calls and every failure point", "why_tests_cant": "A statement about all pairs of calls in all schedules.", "anchors": ["pkg/proxywasm/plugin_manager.go", "pkg/proxywasm/vm.go"]}
{"id": "C68", "title": "Wasm plugin instances survive overlapping resizes, late returns and counter overflow", "statement": "Also when resizes and closes overlap, instances are returned after a close, or counters overflow: no nil instance is used, the number of instances is the desired one, instances are returned once, an accepting instance is found, and an idle instance is preferred to a busy one.", "quantifier": "every schedule of the plugin's calls", "why_tests_cant": "The failures need particular interleavings or 2^32 calls.", "anchors": ["pkg/proxywasm/plugin.go"]}
{"id": "C69", "title": "Mesh certificates are reused while valid and never after", "statement": "A certificate obtained from the mesh CA is returned for the host it was requested for, to every caller while it is valid, and not once it has expired; a new one is requested only when there is no valid one for that host.", "quantifier": "every history of calls, hosts, clock readings and answers or failures of the CA", "why_tests_cant": "Depends on the history of calls and clock readings; tests issue one certificate.", "anchors": ["pkg/ca/istio/istio_ca.go"]}
{"id": "C70", "title": "Self-signed certificates carry what was asked for", "statement": "A certificate made by the self-signed CA contains every requested SAN in the list of its kind, its serial number is unique for the CA also when certificates are made concurrently, and the client's options apply to its root certificate.", "quantifier": "every list of SANs, every interleaving of issuances, every list of options", "why_tests_cant": "Needs all SAN mixes and interleavings between two atomic operations.", "anchors": ["pkg/ca/selfsigned/selfsigned.go", "pkg/tls/verify/util.go"]}
{"id": "C71", "title": "Wrapping a TLS configuration keeps the certificate choice", "statement": "Using a TLS configuration through the library (client or server) presents, for every peer, the same certificate or fails the handshake in the same cases as the Go TLS stack would with that configuration, and never crashes.", "quantifier": "every configuration (certificates, callbacks that return a certificate, nothing or an error), every hello or certificate request", "why_tests_cant": "The choice depends on arbitrary callbacks and on what the peer supports; tests use one certificate.", "anchors": ["pkg/network/tls.go"]}
{"id": "C72", "title": "A tracked connection has its own state and is never lost", "statement": "Every connection made by the dialer has a connection state of its own that shows its own addresses, uses the options of its own dial, and is either handed to the caller or closed.", "quantifier": "every number of concurrent and repeated dials, contexts, hook failures and schedules", "why_tests_cant": "Aliasing appears only for shared contexts, spare slice capacity and failing hooks, in particular orders.", "anchors": ["pkg/network/dialer.go", "pkg/network/connection.go", "pkg/network/connection_state.go", "pkg/network/http.go"]}
{"id": "C73", "title": "Asking for the TLS state never blocks the handshake", "statement": "While a TLS handshake runs, any number of callers may ask a connection for its TLS state; the handshake and every caller finish.", "quantifier": "every number of callers, every interleaving with the handshake", "why_tests_cant": "A deadlock needs one particular order of two locks; tests ask after the handshake.", "anchors": ["pkg/network/connection.go", "pkg/network/connection_state.go"]}
{"id": "C74", "title": "Dial and close hooks run in order around the network operation", "statement": "A connection is returned by the dialer only after the hook before dialing, the network dial and the hook after dialing have succeeded in this order; Close reports success exactly if the hook before, closing the network connection and the hook after it succeeded, in this order.", "quantifier": "every number of concurrent dials, every outcome of hooks and network, every schedule", "why_tests_cant": "Combines all failure outcomes with all interleavings of concurrent dials.", "anchors": ["pkg/network/dialer.go", "pkg/network/connection.go"]}
{"id": "C75", "title": "The code generator implements the message specification", "statement": "For every Kafka message specification (JSON) the generator accepts, the generated codec sends, at every version, exactly the fields the specification lists for that version, in its order, each with the specified type, default, tag and length format, with a tagged field section exactly where the specification makes the version flexible; the supported versions are those of the specification; and the specification determines that layout uniquely.", "quantifier": "every message specification in the usual notation, any nesting depth, every version", "why_tests_cant": "The generator runs over whatever specification it is given; tests check its output on the bundled ones at sample versions.", "anchors": ["components/kafka-protocol-go/cmd/gen/main.go", "components/kafka-protocol-go/cmd/gen/context.go", "components/kafka-protocol-go/internal/protocol"]}
{"id": "C76", "title": "Every shipped message codec is the codec of its bundled specification", "statement": "Each request, response and header codec the package ships has the API key, kind, supported versions, field names and, at every version, the layout of its bundled JSON specification; each bundled request and response specification has such a codec; API keys are unique and shared by a request and its response.", "quantifier": "all shipped messages and headers, all bundled specifications, every version", "why_tests_cant": "136 messages times all versions and fields; a stale generated file compiles and passes round-trip tests.", "anchors": ["components/kafka-protocol-go/pkg/protocol/messages", "components/kafka-protocol-go/assets/protocol_spec", "components/kafka-protocol-go/cmd/gen/main.go"]}
{"id": "C77", "title": "Null is accepted exactly where the specification allows it", "statement": "For every specification and version the generated codec allows null for a field exactly if the field's nullable versions include the version.", "quantifier": "every message specification in the usual notation, every field at any depth, every version", "why_tests_cant": "Needs a null in every field at every version; tests only send well-formed messages.", "anchors": ["components/kafka-protocol-go/cmd/gen/context.go", "components/kafka-protocol-go/cmd/gen/main.go", "components/kafka-protocol-go/pkg/protocol/messages"]}
{"id": "C78", "title": "PII detection answers correctly and only masks", "statement": "DetectPII reports PII exactly if one of its patterns matches the text; without PII or without masking the text is unchanged; with masking, it keeps its length, every byte is kept or becomes an asterisk, and all matches of some matching pattern are hidden.", "quantifier": "every byte string, every set of patterns whose matches satisfy the contract of regexp, every iteration order of the pattern map", "why_tests_cant": "The iteration order of a Go map is random; patterns can overlap in ways a sample of texts does not show.", "anchors": ["experimental/kafka-message-pii-filter/pii/pii.go"]}
{"id": "C79", "title": "The Kafka PII filter passes on every message exactly once, in order, masked where needed", "statement": "As long as no message was rejected and the stream does not end inside a message: whatever portions the byte stream of a side arrives in, the filter passes on, for each complete message in order, the message itself, or, for a Produce request with PII in a record value, the request that differs from it only in the masked values, again framed with its size; nothing of an incomplete message is passed on; the result for requests does not depend on how the stream is cut. After a failure or without a known direction all bytes pass as they come; a new connection starts afresh.", "quantifier": "every byte stream, every cutting into portions, every interleaving of both sides, every DetectPII result", "why_tests_cant": "The number of cuttings of a stream is exponential; cut points inside size fields and after several messages matter.", "anchors": ["experimental/kafka-message-pii-filter/main.go"]}
{"id": "C80", "title": "The Kafka PII filter matches responses with requests in order", "statement": "As long as no message was rejected, the n-th response is parsed with the API key, version and correlation id of the n-th request (a response without a waiting request is recognised as such), for any number of requests in flight.", "quantifier": "every interleaving of requests and responses of any length", "why_tests_cant": "The queue compacts, grows and resets at states that only long histories reach.", "anchors": ["experimental/kafka-message-pii-filter/main.go"]}
{"id": "C81", "title": "The Kafka PII filter does not fail on valid traffic and loses nothing", "statement": "On a stream of valid Kafka messages, in any portions, the filter never disables itself, never crashes and drops nothing; a message it cannot parse is passed on unchanged.", "quantifier": "every stream of messages, every cutting into portions, every interleaving of both sides", "why_tests_cant": "Needs every cut point and every mix of acknowledged and unacknowledged requests.", "anchors": ["experimental/kafka-message-pii-filter/main.go"]}
{"id": "C82", "title": "Select reports each ready key once, with all its ready operations", "statement": "A selected key keeps its operation and id; Select reports every key id with an event in the queue exactly once, with exactly the operations that were queued for it, and nothing else; wake-ups are not reported; a readable or writable channel is queued if there is room; the bytes returned decode to these keys whatever the iteration order of the map.", "quantifier": "every key id and operation (32 bit), every queue content, every iteration order", "why_tests_cant": "Queue contents and map orders are unbounded; merging of operations depends on coincidences in time.", "anchors": ["experimental/java/main.go"]}
{"id": "C83", "title": "Asynchronous reads deliver the bytes of the connection in order", "statement": "A connection read through one key delivers to AsyncRead a beginning of the bytes the peer sent, in order, none twice, in every interleaving of reader goroutines, requests to read, scans, errors and Close; at most one reader goroutine reads.", "quantifier": "every interleaving, any number of requests to read, every buffer size and portion", "why_tests_cant": "Restarted readers race with the old one; orders of this kind show under rare schedules only.", "anchors": ["experimental/java/main.go"]}
{"id": "C84", "title": "Asynchronous reads deliver everything and report the end of the stream", "statement": "Everything the peer sent before closing is delivered by AsyncRead, Select reports a key with data or with the end of the stream to its caller, and the end of the stream is reported after the data.", "quantifier": "every interleaving of the peer, the reader goroutine, Select and AsyncRead", "why_tests_cant": "Whether the last bytes or the end of the stream get lost depends on the order of two goroutines.", "anchors": ["experimental/java/main.go"]}
{"id": "C85", "title": "Asynchronous writes send accepted bytes in order", "statement": "With one key, and if writes that fail are either total failures or final, the bytes that go out are a beginning of the bytes AsyncWrite accepted, in the order it accepted them; all of them have gone out once the channel is empty and the writer idle; a writer with data can always proceed.", "quantifier": "every interleaving of AsyncWrite, writer goroutines, requests to write, Close and errors; every split of a buffer into partial writes", "why_tests_cant": "Partial writes and restarts at every point cannot be enumerated by tests.", "anchors": ["experimental/java/main.go"]}
{"id": "C86", "title": "Accepted data reaches the peer, and writing does not crash", "statement": "Everything AsyncWrite accepted before Close is sent; AsyncWrite never crashes the program; it accepts a buffer as a whole or not at all.", "quantifier": "every interleaving of AsyncWrite, Close, the end of the stream and writer goroutines", "why_tests_cant": "The crash needs Close between the check and the send of AsyncWrite.", "anchors": ["experimental/java/main.go"]}
{"id": "C87", "title": "Accepted connections are handed out once, in order, and announced", "statement": "AsyncAccept hands out the connections in the order they arrived, each once; a connection that waits is announced by Select, so a caller that answers every report gets all connections that arrived while the listener is open; one goroutine at most accepts.", "quantifier": "every interleaving of arrivals, StartAsyncAccept, the accepting goroutine, Select, AsyncAccept, other events in the queue and Close", "why_tests_cant": "A lost announcement shows only when the queue is full or events merge at a certain moment.", "anchors": ["experimental/java/main.go"]}
{"id": "C88", "title": "Dialed connections are handed out once", "statement": "Every connection a dialer establishes is handed out by AsyncDial exactly once and in the order in which they were established, or still waits for AsyncDial.", "quantifier": "every interleaving of any number of dials, failures, Select and AsyncDial", "why_tests_cant": "Needs dials that complete in another order than they were started.", "anchors": ["experimental/java/main.go"]}
{"id": "C89", "title": "Waking up or closing a selector neither blocks nor crashes", "statement": "WakeUp makes a blocked or the next Select return and does not block; goroutines of channels that are still registered when the selector is closed do not crash.", "quantifier": "every state of the queue", "why_tests_cant": "Needs a full queue, or a close at the moment of a send.", "anchors": ["experimental/java/main.go"]}
{"id": "C90", "title": "Heimdall answers only holders of a token confirmed for a workload group", "statement": "Heimdall hands out a configuration only if the authorization header carries a token one of whose audiences is the audience generated for a stored workload group and which the cluster has confirmed for that audience, and the configuration is the one of that group; a token issued for a group gets it; different groups have different audiences; every other header is refused.", "quantifier": "every header, token, set of audiences, set of groups and answer of the cluster", "why_tests_cant": "The space of headers and audiences (with colons at every place) is unbounded.", "anchors": ["components/heimdall/pkg/server/jwt.go:JWTTokenAuthenticator,GenerateAudience,ParseAudience", "components/heimdall/pkg/server/server.go:configHandler"]}
{"id": "C91", "title": "A client gets the CA configuration of its own service account", "statement": "The CA configuration returned by heimdall belongs to the service account the cluster confirmed for the token, and to no other.", "quantifier": "every token the cluster confirms", "why_tests_cant": "Needs a token requested with a chosen audience in another namespace.", "anchors": ["components/heimdall/pkg/server/jwt.go:JWTTokenAuthenticator,GenerateAudience,ParseAudience", "components/heimdall/pkg/server/server.go:configHandler"]}
{"id": "C92", "title": "A labelled workload group always has a valid token", "statement": "While the controller runs and reconciles in time, the token secret of a labelled group holds a token for the audience of this group that stays valid for at least five minutes; after a reconciliation at least ten minutes; a secret that was deleted or lost its token is restored; a group without label has no secret.", "quantifier": "every history of label changes, deletions, reconciliations and passing time", "why_tests_cant": "Depends on the timing of reconciliations over unbounded histories.", "anchors": ["components/heimdall/pkg/controllers/workloadgroup.go:Reconcile"]}
{"id": "C93", "title": "A damaged or outdated token secret is repaired", "statement": "Whatever the secret contains, the next reconciliation leaves a valid token of the group's current service account, and the controller does not crash.", "quantifier": "every content of the secret and history of service accounts", "why_tests_cant": "Contents are unbounded.", "anchors": ["components/heimdall/pkg/controllers/workloadgroup.go:Reconcile"]}
{"id": "C94", "title": "The mutation of a pod adds what NASP needs and keeps the rest", "statement": "The mutated pod keeps its name, owners, volumes, containers with their variables, ports, mounts and everything else in order; every container gets the NASP variables after its own, the metrics port and mounts whose volumes exist; of the annotations exactly four are set.", "quantifier": "every pod", "why_tests_cant": "Pods are unbounded structures.", "anchors": ["components/heimdall/pkg/webhooks/pod_mutator.go:Handle", "components/heimdall/pkg/k8sutil/meta.go:GetDeployMetaFromPod"]}
{"id": "C95", "title": "The mutation keeps labels", "statement": "A pod (not of an OpenShift DeploymentConfig) keeps its labels, except revision and network, which are those of the configuration; the missing mesh labels are added: canonical name from name label, app label or workload, canonical revision from the version labels or latest.", "quantifier": "every pod", "why_tests_cant": "Needs every combination of owner and labels.", "anchors": ["components/heimdall/pkg/webhooks/pod_mutator.go:Handle", "components/heimdall/pkg/k8sutil/meta.go:GetDeployMetaFromPod"]}
{"id": "C96", "title": "A pod is attributed to its workload", "statement": "A pod of a ReplicaSet named after a deployment and the pod template hash belongs to that Deployment; one of a Job named after a cron job and eight to ten digits to that CronJob; one of another controller to the controller; one without controller or generated name to itself.", "quantifier": "every name, hash, digits and owner list", "why_tests_cant": "Names, with dashes and digits anywhere, are unbounded.", "anchors": ["components/heimdall/pkg/webhooks/pod_mutator.go:Handle", "components/heimdall/pkg/k8sutil/meta.go:GetDeployMetaFromPod"]}
{"id": "C97", "title": "A mutated pod reads back its configuration", "statement": "In every container of a mutated pod with labels and names valid in Kubernetes, whatever variables the container had, the library reads the mesh configuration, the identity of the running pod, its container names, its addresses and exactly its labels.", "quantifier": "every pod, order of labels and previous variables", "why_tests_cant": "Labels, containers and map iteration orders are unbounded.", "anchors": ["pkg/environment/istio.go:GetIstioEnvironment,GetNodeID,GetSpiffeID,Override", "components/heimdall/pkg/webhooks/pod_mutator.go:setEnvs"]}
{"id": "C98", "title": "The node id names the workload", "statement": "The node id of an environment with an address (and names without tilde) can be split into type, first address, pod with namespace, and domain; pods whose name, namespace (without dots), type or address differ have different node ids.", "quantifier": "every environment", "why_tests_cant": "Texts are unbounded.", "anchors": ["pkg/environment/istio.go:GetIstioEnvironment,GetNodeID,GetSpiffeID,Override", "components/heimdall/pkg/webhooks/pod_mutator.go:setEnvs", "pkg/istio/istio.go:IstioCAConfigGetterHeimdall"]}
{"id": "C99", "title": "The webhook certificate directory recovers from every crash", "statement": "Whatever renewals were interrupted at whatever point before, and whatever files were lost, damaged or restored, a check that runs to its end leaves a server certificate, key and CA that belong together, cover all DNS names and are valid now and for six more months; a good directory is recognised and left alone; a mixture is never accepted.", "quantifier": "every crash point of every renewal in every file order, every history of damage, every time (that does not go back)", "why_tests_cant": "Crash points and file orders multiply over unbounded histories.", "anchors": ["components/heimdall/pkg/cert/renewer.go:checkCertificate", "components/heimdall/pkg/cert/certificate.go:Verify,Write", "components/heimdall/pkg/cert/webhook_certifier.go:Start,updateCertificate"]}
{"id": "C100", "title": "The cluster trusts the CA of the webhook server", "statement": "Whenever no change is waiting to be handled, the CA bundle of the webhook configuration is the CA of the certificate directory; failed updates are tried again; other changes of the configuration are kept; a failed renewal does not end the process.", "quantifier": "every history of renewals, failed updates, edits and ticks", "why_tests_cant": "Needs a failed update exactly at a renewal.", "anchors": ["components/heimdall/pkg/cert/renewer.go:checkCertificate", "components/heimdall/pkg/cert/certificate.go:Verify,Write", "components/heimdall/pkg/cert/webhook_certifier.go:Start,updateCertificate"]}
{"id": "C101", "title": "A proxy relays both directions completely and in order", "statement": "Between two connections that can close one direction and do not break, each peer gets exactly what the other sent, in order; the end of one direction is passed on without cutting the other; Start returns only when both directions have ended; and every byte sent is eventually relayed.", "quantifier": "every interleaving of the two relaying directions, every chunking and buffer size", "why_tests_cant": "Interleavings and chunk sizes are unbounded.", "anchors": ["pkg/network/proxy/proxy.go:Start,proxy,close", "pkg/network/proxy/proxy.go:New"]}
{"id": "C102", "title": "A proxy ends both directions", "statement": "For connections of any types and any history of data, ends and failures: when Start returns, both peers were told the end of the stream, and connections that cannot be closed in one direction were closed.", "quantifier": "every pair of connection types and every history of data, ends and failures", "why_tests_cant": "Needs a peer that ends its request before the answer arrives.", "anchors": ["pkg/network/proxy/proxy.go:Start,proxy,close", "pkg/network/proxy/proxy.go:New", "pkg/tunnel/server/session.go:handleStream"]}
{"id": "C103", "title": "The state of a connection is found through its wrappers", "statement": "Whatever the wrapping of a connection, the state found is that of the outermost layer having one, with the TLS information of the first TLS layer inside it or else the nearest outside it; without such a layer there is none.", "quantifier": "every stack of wrappers", "why_tests_cant": "Stacks are unbounded.", "anchors": ["pkg/network/connection_state_tracker.go:ConnectionStateFromNetConn"]}
{"id": "C104", "title": "A listener of many listeners names their addresses", "statement": "The addresses of a multi listener are exactly the network and address pairs of its open listeners.", "quantifier": "every set of listeners and every map iteration order", "why_tests_cant": "Map iteration order is not under the control of a test.", "anchors": ["pkg/network/listener/multi_listener_address.go:Addrs"]}
{"id": "C105", "title": "Listener properties are the latest received", "statement": "A result of a call for the properties of a listener is the response received last when the call looked, never an older or invented one; the callbacks of the first call are run once for every successful response, in order, and no others.", "quantifier": "every interleaving of calls, cancellations, failed subscriptions and updates", "why_tests_cant": "Needs cancellations and failures at each point between concurrent calls.", "anchors": ["pkg/istio/discovery/xds.go:GetListenerProperties"]}
{"id": "C106", "title": "A tunnelled port is published under the service port that targets it", "statement": "For workloads that name their ports: the endpoints of a service contain a tunnelled port exactly if a port of the service targets it (by name or number), under the name of the first such service port and with the addresses of the tunnel servers where these ports are.", "quantifier": "every list of named tunnelled ports and of service ports", "why_tests_cant": "Lists are unbounded.", "anchors": ["components/bifrost/pkg/controllers/endpoints.go:getSubset,Reconcile,collectPortsBySessionAndService", "components/bifrost/pkg/controllers/configmap.go"]}
{"id": "C107", "title": "Only services in use have managed endpoints", "statement": "Every tunnelled port of every session that names a service is collected under that service (and no other: the key of a service names it); after each reconciliation, whatever fails, only services in use have managed endpoints, computed from their ports.", "quantifier": "every set of sessions and services and every failure of the API server", "why_tests_cant": "Needs failures of each single call.", "anchors": ["components/bifrost/pkg/controllers/endpoints.go:getSubset,Reconcile,collectPortsBySessionAndService", "components/bifrost/pkg/controllers/configmap.go"]}
{"id": "C108", "title": "An Istio metric name is taken apart into exactly its labels and its base name", "statement": "The name of a metric made of known labels (each once, in any order, with values free of '=', ';' and newline, a non-empty response code) and a plain base name is parsed into exactly that base name and exactly those labels with their values, so that two different label sets never become the same series.", "quantifier": "every set and order of known labels, every value and every base name within the stated alphabet", "why_tests_cant": "The table of over forty regular expressions runs one after another over the text left by the previous one: any label or value may be matched by a wrong expression.", "anchors": ["pkg/proxywasm/envoy_tags.go:ParseEnvoyStatTag", "pkg/proxywasm/envoy_tags.go:statTags", "pkg/proxywasm/metrics.go:DefineMetric"]}
{"id": "C109", "title": "Every statistic name is parsed into its tags", "statement": "For every statistic name (Istio metric with arbitrary label values, or Envoy style dotted name) the tags are those meant by the name and the base name is the name without them.", "quantifier": "every statistic name", "why_tests_cant": "Unbounded text; values that contain the separators or are empty.", "anchors": ["pkg/proxywasm/envoy_tags.go:ParseEnvoyStatTag", "pkg/proxywasm/envoy_tags.go:statTags", "pkg/proxywasm/metrics.go:DefineMetric"]}
{"id": "C110", "title": "A wrapped HTTP handler answers as it would by itself", "statement": "For every handler that uses its writer in the documented order (headers, status, body, then only trailers), the client gets exactly the status, headers, body and trailers the handler would send without the wrapper if filters and middlewares leave the response alone, exactly what they make of it if not, and exactly the response of a filter that answered instead.", "quantifier": "every handler (any sequence of writer operations in order), request, filter and middleware", "why_tests_cant": "A handler is an arbitrary program over the writer; a test tries a few.", "anchors": ["pkg/proxywasm/http/handler.go:NewHandler,ServeHTTP", "pkg/proxywasm/http/handler.go:customResponseWriter,writeResponse", "pkg/proxywasm/stream.go:HandleHTTPRequest"]}
{"id": "C111", "title": "Wrapping an HTTP handler is invisible to every handler", "statement": "Whatever a handler does with its writer and its request, the client and the handler see the same as without the wrapper.", "quantifier": "every handler, also one that answers twice, sets headers late or streams", "why_tests_cant": "Arbitrary programs, observed while they run.", "anchors": ["pkg/proxywasm/http/handler.go:NewHandler,ServeHTTP", "pkg/proxywasm/http/handler.go:customResponseWriter,writeResponse", "pkg/proxywasm/stream.go:HandleHTTPRequest"]}
{"id": "C112", "title": "A request reaches the application exactly if the filters let it, and every stream is closed", "statement": "The application is called exactly if the stream could be created, all filters passed the request without error and none answered it, with the request as they left it; the phases run in order, each at most once; a created stream is closed exactly once and last, also when a step fails or the application panics.", "quantifier": "every combination of failing steps, filters and applications", "why_tests_cant": "All combinations of failures at every step.", "anchors": ["pkg/proxywasm/http/handler.go:NewHandler,ServeHTTP", "pkg/proxywasm/http/handler.go:customResponseWriter,writeResponse", "pkg/proxywasm/stream.go:HandleHTTPRequest"]}
{"id": "C113", "title": "A request that could not be filtered is not answered with success", "statement": "If the stream cannot be created or a filter fails, the client gets an error.", "quantifier": "every failure of a filter", "why_tests_cant": "Needs failures at each single step.", "anchors": ["pkg/proxywasm/http/handler.go:NewHandler,ServeHTTP", "pkg/proxywasm/http/handler.go:customResponseWriter,writeResponse", "pkg/proxywasm/stream.go:HandleHTTPRequest"]}
{"id": "C114", "title": "A round trip sends the filtered request once and returns the filtered response", "statement": "At most one request is sent, exactly if no filter failed and as the filters left it; the caller gets the response as the filters left it, or an error exactly if a step failed; a created stream is closed exactly once and last.", "quantifier": "every request, filter, middleware and transport", "why_tests_cant": "All combinations of failures at every step.", "anchors": ["pkg/proxywasm/http/transport.go:NewHTTPTransport,RoundTrip", "pkg/proxywasm/stream.go:HandleHTTPRequest,HandleHTTPResponse"]}
{"id": "C115", "title": "A round trip honours the contract of http.RoundTripper", "statement": "The request is sent under the context of the caller, its body is always closed, no response is left open, and a filter can answer in place of the upstream.", "quantifier": "every request and filter", "why_tests_cant": "Contracts about resources and cancellation at every step.", "anchors": ["pkg/proxywasm/http/transport.go:NewHTTPTransport,RoundTrip", "pkg/proxywasm/stream.go:HandleHTTPRequest,HandleHTTPResponse"]}
{"id": "C116", "title": "gRPC calls are filtered and counted", "statement": "A gRPC call is made exactly if a filter stream could be created and no filter failed, with the metadata the filters left; active requests are counted up and down once, and a stream that was created is closed, whatever happens.", "quantifier": "every call, target, filter and outcome", "why_tests_cant": "All combinations of outcomes.", "anchors": ["pkg/proxywasm/grpc/dialer.go:RequestInterceptor", "pkg/proxywasm/grpc/wrappers.go:WrapGRPCRequest"]}
{"id": "C117", "title": "The application is told the identity of its client", "statement": "To a request over a connection with a client certificate exactly one X-Forwarded-Client-Cert element is added, after those the request came with, which names the fingerprint and URI of the client's certificate and the workload itself; outgoing requests are sent with the headers the application gave them.", "quantifier": "every request, header sent by the client and certificate", "why_tests_cant": "Security: an arbitrary adversary chooses the header.", "anchors": ["pkg/proxywasm/middleware/envoy_middleware.go:envoyHTTPHandlerMiddleware", "pkg/proxywasm/header.go"]}
{"id": "C118", "title": "Filters see requests, responses and connections", "statement": "Filters see path, host, scheme, method, protocol, query, headers, trailers and time of a request, status, headers and duration of a response, addresses and certificates of a connection under the names of its direction; several values of a header are joined by commas, numbers are seen as 64-bit two's complement.", "quantifier": "every request, response, connection and direction", "why_tests_cant": "All combinations of present and absent fields.", "anchors": ["pkg/proxywasm/middleware/envoy_middleware.go:envoyHTTPHandlerMiddleware", "pkg/proxywasm/header.go"]}
{"id": "C119", "title": "The order of the shipped middlewares does not matter", "statement": "Whichever of the two middlewares sees a request or response first, filters see the same attributes afterwards and the application the same request; the service an incoming request is meant for is named after the labels of the workload.", "quantifier": "every request, response, direction and attributes set before", "why_tests_cant": "All pairs of states.", "anchors": ["pkg/istio/istio_middleware.go:istioHTTPRequestMiddleware", "pkg/proxywasm/http/middleware.go"]}
{"id": "C120", "title": "The metadata of the peer are read as they were encoded", "statement": "For every buffer that holds the node of the peer in any layout the FlatBuffers format allows, the service of the peer gets the name its labels give and its namespace.", "quantifier": "every layout of every node", "why_tests_cant": "The format allows unboundedly many layouts of one value; an encoder produces one.", "anchors": ["pkg/istio/fb/FlatNode.go", "pkg/istio/fb/KeyVal.go", "pkg/istio/istio_middleware.go:AfterResponse"]}
{"id": "C121", "title": "Metadata of the peer are only taken from what it sent", "statement": "Whatever bytes a peer sends as its metadata, name and namespace read from them are empty or parts of these bytes.", "quantifier": "every byte string", "why_tests_cant": "An adversary chooses the bytes.", "anchors": ["pkg/istio/fb/FlatNode.go", "pkg/istio/fb/KeyVal.go", "pkg/istio/istio_middleware.go:AfterResponse"]}
{"id": "C122", "title": "Filters read the attributes the proxy stored for them", "statement": "A filter that asks for a path of ordinary names gets what was last stored for this stream, connection or plugin under that path, and otherwise what the nearest holder above stores.", "quantifier": "every path, every store and every chain of holders", "why_tests_cant": "All trees of attributes and all paths.", "anchors": ["pkg/proxywasm/host.go:GetProperty,SetProperty", "pkg/proxywasm/properties.go"]}
{"id": "C123", "title": "Filters read back simple properties they set", "statement": "A property a filter sets under a name of one part is what it reads afterwards, and setting it changes no other property.", "quantifier": "every name of one part, value and store", "why_tests_cant": "All trees of attributes and all paths.", "anchors": ["pkg/proxywasm/host.go:GetProperty,SetProperty", "pkg/proxywasm/properties.go"]}
{"id": "C124", "title": "Ticks and calls exclude each other", "statement": "At no time do two calls run in one instance of a filter, be they timer ticks or calls for streams, and a tick that has begun can end.", "quantifier": "every schedule of timers, calls, and changes of the period", "why_tests_cant": "Depends on the schedule of the timer and of the calls.", "anchors": ["pkg/proxywasm/host.go:SetTickPeriodMilliseconds,Done", "pkg/proxywasm/common_properties.go", "pkg/proxywasm/utils.go:StopWasmContext"]}
{"id": "C125", "title": "Ticks end when the instance is stopped", "statement": "When stopping an instance has returned, having found a ticker, this ticker never ticks again.", "quantifier": "every schedule of timers, calls, and changes of the period", "why_tests_cant": "Depends on the moment the timer fires.", "anchors": ["pkg/proxywasm/host.go:SetTickPeriodMilliseconds,Done", "pkg/proxywasm/common_properties.go", "pkg/proxywasm/utils.go:StopWasmContext"]}
{"id": "C126", "title": "Virtual machines are shared by id, code and configuration", "statement": "Two calls with an id, one after the other, get the same VM exactly if id, code and configuration are the same, and a new VM has the runtime asked for.", "quantifier": "every sequence of calls", "why_tests_cant": "All histories of calls.", "anchors": ["pkg/proxywasm/vm_store.go", "pkg/proxywasm/vm.go", "pkg/proxywasm/api/vm.go"]}
{"id": "C127", "title": "There is one virtual machine per configuration", "statement": "Calls for a VM, also at the same time, get one VM per configuration, and a configuration that cannot be satisfied gets an error.", "quantifier": "every interleaving of calls", "why_tests_cant": "Depends on the schedule.", "anchors": ["pkg/proxywasm/vm_store.go", "pkg/proxywasm/vm.go", "pkg/proxywasm/api/vm.go"]}
{"id": "C128", "title": "Closing a virtual machine closes its users", "statement": "For every interleaving of acquiring and releasing, the first Close closes exactly the users that hold the virtual machine, each once.", "quantifier": "every interleaving of acquiring, releasing and closing", "why_tests_cant": "Depends on the schedule.", "anchors": ["pkg/proxywasm/vm_store.go", "pkg/proxywasm/vm.go", "pkg/proxywasm/api/vm.go"]}
{"id": "C129", "title": "The code of a filter is fetched once", "statement": "A URL is asked for the code of a filter until a response has been read to its end, and all later calls return exactly this response without asking; given bytes and files are returned as they are.", "quantifier": "every sequence of calls and answers", "why_tests_cant": "All histories of failures.", "anchors": ["pkg/proxywasm/data_store.go"]}
{"id": "C130", "title": "The numbers of filter contexts are distinct", "statement": "Any two numbers one context gives out, for filters or for contexts below it, are different if fewer than 2^32 lie between them, and differ from its own.", "quantifier": "every history", "why_tests_cant": "Counters wrap only after 2^32 steps.", "anchors": ["pkg/proxywasm/context.go", "pkg/proxywasm/plugin_manager.go:Add", "pkg/proxywasm/plugin.go", "pkg/proxywasm/host.go:SetEffectiveContextID"]}
{"id": "C131", "title": "There is one context per name", "statement": "Calls for contexts, one after the other, give the same context exactly if the full names are the same; a new one gets a number from its parent and sees its properties.", "quantifier": "every history of calls", "why_tests_cant": "All histories.", "anchors": ["pkg/proxywasm/context.go", "pkg/proxywasm/plugin_manager.go:Add", "pkg/proxywasm/plugin.go", "pkg/proxywasm/host.go:SetEffectiveContextID"]}
{"id": "C132", "title": "Plugins do not interfere", "statement": "If no two plugins have the same root id, every instance of a plugin is started with the configuration of the plugin, and its filters can switch exactly to the root context of the plugin and to their own contexts.", "quantifier": "every history of plugins with different root ids added and filters started", "why_tests_cant": "All combinations of names and all histories.", "anchors": ["pkg/proxywasm/context.go", "pkg/proxywasm/plugin_manager.go:Add", "pkg/proxywasm/plugin.go", "pkg/proxywasm/host.go:SetEffectiveContextID"]}
{"id": "C133", "title": "A server follows the policy of the mesh", "statement": "Once a server has taken over the last policy the mesh sent it, and until another comes, every client that connects is served in the clear only if the policy allows it, and over TLS only with certificates the verifier of the policy confirms; and each client the policy allows is served.", "quantifier": "every history of policies, connections and handshakes, every policy and every client", "why_tests_cant": "Depends on the order of policies, writes and handshakes, and on every combination of mode, authentication and verifier.", "anchors": ["pkg/istio/istio.go:ServeHTTP,updateUnifiedListener,GetTCPListener", "pkg/tls/verify/util.go:SetCertVerifierToTLSConfig", "pkg/network/listener/unified_tls_listener.go"]}
{"id": "C134", "title": "A server never serves a client the policy does not allow", "statement": "At every moment a client is served only as some policy the mesh has sent allows, from the start of the server on, and no client can crash the server.", "quantifier": "every history", "why_tests_cant": "Depends on which of connection, policy and client comes first.", "anchors": ["pkg/istio/istio.go:ServeHTTP,updateUnifiedListener,GetTCPListener", "pkg/tls/verify/util.go:SetCertVerifierToTLSConfig", "pkg/network/listener/unified_tls_listener.go"]}
{"id": "C135", "title": "The configuration for the CA is that of the revision asked for", "statement": "The address, the server name, the mesh id, trust domain and token of a configuration found in the cluster are those of objects of the revision asked for, with the cluster id given; the addresses of a service never make the program crash, and overriding annotations win.", "quantifier": "every cluster", "why_tests_cant": "All sets of services, config maps and gateways.", "anchors": ["pkg/ca/istio/config.go", "pkg/k8s/service/endpoint.go"]}
{"id": "C136", "title": "Where the configuration comes from", "statement": "Heimdall is asked exactly if its address is given, otherwise the files in the pod are used exactly if the token file exists (if the file system can answer); requests to Heimdall carry the token as a bearer token, and the names of two instances differ exactly if their hosts or parent processes do.", "quantifier": "every environment, every token and every two instances", "why_tests_cant": "All environments.", "anchors": ["pkg/ca/istio/config.go", "pkg/k8s/service/endpoint.go", "pkg/istio/istio.go:IstioCAConfigGetterAuto"]}
{"id": "C137", "title": "One discovery client per handler", "statement": "Every part of a handler uses the same connection to the mesh: whoever asks for the discovery client, at whatever time, gets the one the handler runs.", "quantifier": "every history of calls and starts, from any goroutine", "why_tests_cant": "Depends on the interleaving of calls with the start of the handler.", "anchors": ["pkg/istio/istio.go:NewIstioIntegrationHandler,Run,GetDiscoveryClient,RunMetricsPusher,RunMetricsServer", "pkg/istio/istio_passthrough_handler.go"]}
{"id": "C138", "title": "The removal of metrics is the last request to the gateway", "statement": "The removal of the metrics from the gateway is requested at most once, after the context has ended, and nothing is sent afterwards.", "quantifier": "every history of pushes, failures and the end of the context", "why_tests_cant": "Depends on the moment of the end relative to pushes on their way.", "anchors": ["pkg/istio/istio.go:NewIstioIntegrationHandler,Run,GetDiscoveryClient,RunMetricsPusher,RunMetricsServer", "pkg/istio/istio_passthrough_handler.go"]}
{"id": "C139", "title": "A handler does what its configuration asks", "statement": "Disabled means passing connections through unchanged; with TLS no call on a handler crashes, and calls fail only if the network or the filters do, or a virtual listener is asked for before the tunnel exists; a handler with TLS is created exactly if environment and CA configuration can be read and, with a push gateway, its address is given and the filters can be created; push intervals that are not negative work; the port announced for metrics is that of the address.", "quantifier": "every configuration and every call", "why_tests_cant": "All combinations of settings and of the calls made with them.", "anchors": ["pkg/istio/istio.go:NewIstioIntegrationHandler,Run,GetDiscoveryClient,RunMetricsPusher,RunMetricsServer", "pkg/istio/istio_passthrough_handler.go"]}
{"id": "C140", "title": "gRPC connections go where the mesh says and are encrypted", "statement": "A gRPC connection goes to the endpoint the mesh gives for the host, with its server name, or to the host itself if the mesh does not know it; without an endpoint none is made; every one uses TLS.", "quantifier": "every host, every answer of the mesh, every server and every history of dials and calls", "why_tests_cant": "All combinations of settings and servers, and all histories.", "anchors": ["pkg/proxywasm/grpc/dialer.go:Dial,RequestInterceptor", "pkg/istio/istio.go:GetGRPCDialOptions"]}
{"id": "C141", "title": "Certificates are asked for at the CA only", "statement": "However often certificates are asked for, and whoever answers at the address of the CA, the request for a certificate, with the configured token, is only sent to a server that proves the name asked for with a root certificate configured.", "quantifier": "every configuration, server and answer, every number of requests", "why_tests_cant": "All configurations and answers.", "anchors": ["pkg/ca/istio/istio_ca_client.go", "pkg/ca/istio/istio_ca.go:GetCertificate"]}
{"id": "C142", "title": "Compressed record batches are read completely", "statement": "Reading an intact compressed batch in pieces of any sizes gives the decompressed bytes in order, each once, and then the end; no read returns more than was asked for; with snappy what is read is what was written, however it was split, and each closing of a writer adds one block with what was written since the last.", "quantifier": "every intact stream, every way it arrives and every sequence of reads and single bytes", "why_tests_cant": "All sizes of buffers and reads.", "anchors": ["components/kafka-protocol-go/pkg/compression/gzip/gzip.go", "components/kafka-protocol-go/pkg/compression/snappy/snappy.go"]}
{"id": "C143", "title": "A transport lives as long as someone holds it (one thread)", "statement": "In the Python binding, used from one thread: an id is known exactly while someone who opened it has not closed it, its transport was made for arguments with this hash and counts its holders; opening returns the id of its arguments.", "quantifier": "every history of opening, failing and closing, one after the other", "why_tests_cant": "All histories and interleavings.", "anchors": ["experimental/python/nasp/nasp.go"]}
{"id": "C144", "title": "Responses reach Python unchanged", "statement": "Status, version, headers in their order and a body without zero bytes reach Python as they were received; several values of a header (without commas) can be read back; releasing a response releases all memory made for it exactly once.", "quantifier": "every response", "why_tests_cant": "All bodies and headers.", "anchors": ["experimental/python/nasp/nasp.go"]}
{"id": "C145", "title": "Java gets every log line once", "statement": "As long as at most 1000 lines wait, the batches of log lines given to Java contain every (not empty) line logged exactly once and in order, as JSON arrays with at most as many lines as asked for.", "quantifier": "every history of logging and of asking for batches", "why_tests_cant": "All histories.", "anchors": ["experimental/java/log.go:NextLogBatchJSON"]}
{"id": "C146", "title": "The JSON text of a Kafka message is JSON and says what the message contains", "statement": "For every request or response and every value of it, MarshalJSON returns a valid JSON text; parsing it gives an object whose members are the fields of the message in order, under their protocol names with a small first letter, with their values: numbers, booleans, strings, base64 of binary data, null for nulls, nested objects and arrays; and then the unknown tagged fields. (Part: true if strings need no escaping, floats are numbers, no record has headers and no field is called Type.)", "quantifier": "all messages (schemas of any shape and depth), all values, and the shipped message definitions", "why_tests_cant": "the text is concatenated by hand; validity must hold for all strings, nestings and record contents", "anchors": ["components/kafka-protocol-go/assets/templates/struct_processor.tmpl:MarshalJSON", "components/kafka-protocol-go/pkg/protocol/types/fields/util.go:MarshalPrimitiveTypeJSON", "components/kafka-protocol-go/pkg/protocol/types/fields/string.go:MarshalJSON", "components/kafka-protocol-go/pkg/protocol/types/fields/recordheader.go:MarshalJSON", "components/kafka-protocol-go/pkg/protocol/types/fields/batchrecord.go:MarshalJSON", "components/kafka-protocol-go/pkg/protocol/types/fields/recordbatch.go:MarshalJSON", "components/kafka-protocol-go/pkg/protocol/types/fields/taggedfields.go:MarshalJSON"]}
{"id": "C147", "title": "Equal on Kafka messages compares their contents (null counts as empty)", "statement": "On messages without NaN, Equal is an equivalence that holds exactly if the messages have the same fields with the same values, where null counts as empty, the attributes of records are left out and the two zeros are the same; Equal messages without nulls, negative zeros and record attributes are identical and give the same bytes at every version.", "quantifier": "all pairs and triples of messages without NaN of all schemas", "why_tests_cant": "two values of arbitrary nested messages are compared; the claim ranges over all of them", "anchors": ["components/kafka-protocol-go/assets/templates/struct_processor.tmpl:Equal", "components/kafka-protocol-go/pkg/protocol/types/fields/util.go:PrimitiveTypeSliceEqual", "components/kafka-protocol-go/pkg/protocol/types/fields/util.go:NullableStringSliceEqual", "components/kafka-protocol-go/pkg/protocol/types/fields/string.go:Equal", "components/kafka-protocol-go/pkg/protocol/types/fields/batchrecord.go:Equal", "components/kafka-protocol-go/pkg/protocol/types/fields/recordbatch.go:Equal"]}
{"id": "C148", "title": "The config map of a tunnel server lists the recorded ports", "statement": "When nothing is on its way, the config map written by the tunnel server's controller lists exactly the ports recorded, whatever it said before: every session once, with its ports in order, and no others.", "quantifier": "every history of listening, failing and closing, and every interleaving of event handlers and reconciles", "why_tests_cant": "all interleavings of the handlers of two event topics and the reconciler", "anchors": ["pkg/network/tunnel/server/port.go:Listen", "components/bifrost/pkg/commands/server.go", "components/bifrost/pkg/controllers/configmap.go:Reconcile", "components/bifrost/pkg/controllers/configmap.go:TriggerReconcile"]}
{"id": "C149", "title": "Every HTTP middleware is called once per request and phase", "statement": "While a request is handled, every middleware registered is called exactly once before the request and once after it. (Part: true if no middleware is added or removed meanwhile; otherwise the program may crash, or a middleware be called twice.)", "quantifier": "every set of middlewares, every number of requests and every interleaving with additions and removals", "why_tests_cant": "all interleavings of requests with changes to the set of middlewares", "anchors": ["pkg/proxywasm/http/middleware.go:AddMiddleware", "pkg/proxywasm/http/middleware.go:RemoveMiddleware", "pkg/proxywasm/http/middleware.go:GetMiddlewares", "pkg/proxywasm/http/middleware.go:BeforeRequest", "pkg/proxywasm/http/middleware.go:AfterRequest"]}
{"id": "C150", "title": "Compressed record batches round-trip", "statement": "A list of record batches, each uncompressed or compressed with one of the supported codecs, that is written into a buffer with enough room is written in the Kafka format, batch after batch, and reading the section returns the same batches and leaves nothing. (Part: true for uncompressed batches and for non-empty gzip batches of small records. Behind every snappy batch 16 bytes are left, which make a section of several batches unreadable, shift the next field behind the last one and may take the room of the length; records that grow when compressed do not fit the buffer; empty gzip batches cannot be read; lz4 and zstd batches cannot be read, see C16.)", "quantifier": "every list of batches, every codec, every size of the buffer", "why_tests_cant": "all lists of batches with all codecs and all room left in the buffer", "anchors": ["components/kafka-protocol-go/pkg/protocol/types/fields/recordbatch.go:Write", "components/kafka-protocol-go/pkg/protocol/types/fields/recordbatches.go:Write", "components/kafka-protocol-go/pkg/protocol/types/fields/recordbatches.go:Read", "components/kafka-protocol-go/pkg/protocol/types/fields/records.go:Write", "components/kafka-protocol-go/pkg/compression/snappy/snappy.go:Close", "components/kafka-protocol-go/pkg/protocol/types/bytes/slicewriter.go:Write"]}
{"id": "C151", "title": "Small records of gzip-compressed batches are read as written", "statement": "Reading the records of a batch compressed with gzip returns the records that were written, in order, however the decompressor splits its output into pieces, if every key, value, header key and header value is shorter than 16 KiB; records not compressed or compressed with snappy are read whatever their size.", "quantifier": "every such list of records, every splitting of the decompressed stream into pieces", "why_tests_cant": "all records of all sizes and all splittings of the stream", "anchors": ["components/kafka-protocol-go/pkg/protocol/types/fields/batchrecord.go:Read", "components/kafka-protocol-go/pkg/protocol/types/fields/recordheader.go:Read", "components/kafka-protocol-go/pkg/compression/gzip/gzip.go:Read", "components/kafka-protocol-go/pkg/compression/gzip/gzip.go:ReadByte", "components/kafka-protocol-go/pkg/serialization/reader.go:Read"]}
{"id": "C152", "title": "Idle pools and idle pooled connections expire on time", "statement": "A connection pool that is not used is closed within its idle timeout plus a second; a connection that was given back and not asked for is closed the connection idle timeout later, not earlier, and one that was asked for again is not closed by its timer.", "quantifier": "every history of Get, Put, Close and failed connections, every timing, all timeouts and capacities", "why_tests_cant": "all timings of uses relative to the ticker and the timers", "anchors": ["pkg/network/pool/channel.go:NewChannelPool", "pkg/network/pool/channel.go:handleIdleTimeout", "pkg/network/pool/channel.go:Get", "pkg/network/pool/channel.go:Put", "pkg/network/pool/conn.go:Release", "pkg/network/pool/conn.go:setIdleTimer", "pkg/network/pool/conn.go:Acquire"]}
{"id": "C229", "title": "Filter code is called in the order the ABI prescribes", "statement": "For every filter the wasm code sees: the creation of its context, then callbacks of its stream, then at most once its end (done, log, delete, up to the first failure), and then nothing. Every instance is booted, given its root context, started and configured with the size of the plugin's configuration, up to the first failure; it is used for filters only after all of this succeeded, and exactly until its root context is ended and it is stopped.", "quantifier": "every interleaving of starting, stopping and acquiring instances, creating filters, callbacks and closing, and every failure of a call", "why_tests_cant": "all interleavings of streams with changes to the number of instances and all failures of calls into the code", "anchors": ["pkg/proxywasm/plugin.go:GetInstance", "pkg/proxywasm/plugin.go:stopInstance", "pkg/proxywasm/plugin.go:EnsureInstances", "pkg/proxywasm/filter.go:NewFilterContext", "pkg/proxywasm/utils.go:StopWasmContext", "pkg/proxywasm/filter.go:Close"]}
{"id": "C230", "title": "Nothing is called in a stopped instance and no instance is leaked", "statement": "After an instance of a wasm plugin has been stopped nothing is called in it, an instance that is not used is stopped, and an instance is held only for filters being made or in use. (Part: true if instances are dropped only while no filter uses them and every filter context can be created. Otherwise open filters are called in the stopped instance, an instance that refuses its configuration is never stopped, and an instance acquired for a filter whose context cannot be created is never given back.)", "quantifier": "every interleaving of starting, stopping and acquiring instances, creating filters, callbacks and closing, and every failure of a call", "why_tests_cant": "all interleavings of streams with changes to the number of instances and all failures of calls into the code", "anchors": ["pkg/proxywasm/plugin.go:EnsureInstances", "pkg/proxywasm/plugin.go:stopInstance", "pkg/proxywasm/plugin.go:GetInstance", "pkg/proxywasm/plugin.go:ReleaseInstance", "pkg/proxywasm/filter.go:NewFilterContext"]}
{"id": "C231", "title": "Tunnel client: accepted connections are the requested ones, once", "statement": "Every connection that Accept of a tunnel client's listener returns belongs to a connection request the server sent for that listener's port, carries the stream opened for that request's identifier, and no request yields two accepted connections.", "quantifier": "every history of opening, closing and accepting on listeners, of (re)connects, of requests and responses of the server in any order, and every interleaving of the message handlers", "why_tests_cant": "all interleavings of message handlers (one goroutine each) with listeners and reconnects", "anchors": ["pkg/network/tunnel/client/stream.go:requestConnection", "pkg/network/tunnel/client/port.go:Accept", "pkg/network/tunnel/client/client.go:GetTCPListener"]}
{"id": "C232", "title": "Tunnel client: listeners without a port are asked for when connected", "statement": "When the control stream of a tunnel client is connected, a port is requested for every registered listener that has none yet, and a listener's address is only ever one the server named in a response for that listener.", "quantifier": "every history of registering listeners, connects, disconnects and responses", "why_tests_cant": "all histories of reconnects and responses", "anchors": ["pkg/network/tunnel/client/client.go:onControlStreamConnected", "pkg/network/tunnel/client/client.go:requestPort", "pkg/network/tunnel/client/client.go:onDisconnected", "pkg/network/tunnel/client/stream.go:requestPortResponse"]}
{"id": "C233", "title": "Tunnel client: reconnects and closed listeners are harmless", "statement": "After a reconnect every open listener gets a port on the new connection; closing a listener, also while requests for it are under way, never panics; and every stream opened for a request is accepted or closed.", "quantifier": "every interleaving of reconnects, late responses, closed listeners and connection requests", "why_tests_cant": "all interleavings of the client's goroutines with messages of an old connection", "anchors": ["pkg/network/tunnel/client/client.go:onDisconnected", "pkg/network/tunnel/client/port.go:Close", "pkg/network/tunnel/client/stream.go:requestConnection", "pkg/network/tunnel/client/stream.go:requestPortResponse"]}
{"id": "C234", "title": "Tunnel server: silent clients are dropped, pings come every second", "statement": "With a positive keepalive timeout T the control stream of a client is open at most T plus one second after its last pong; the keepalive closes a stream only if no pong came for longer than T; and while the stream is open a ping is sent at the start and then once per second.", "quantifier": "every timeout, every sequence of times at which pongs arrive and every moment of closing the stream", "why_tests_cant": "all arrival times of pongs, without bound on the duration", "anchors": ["pkg/network/tunnel/server/stream.go:keepalive", "pkg/network/tunnel/server/stream.go:pong", "pkg/network/tunnel/server/stream.go:Close"]}
{"id": "C235", "title": "Tunnel server: answering clients are kept, closed streams are quiet", "statement": "A client that answers its pings is never cut off by the keepalive, a closed control stream sends no more pings, and a client that never answers is cut off for every timeout.", "quantifier": "every timeout, every delay of the answers and every moment of closing the stream", "why_tests_cant": "all delays of pongs and all interleavings of the timer with Close", "anchors": ["pkg/network/tunnel/server/stream.go:keepalive", "pkg/network/tunnel/server/stream.go:pong", "pkg/network/tunnel/server/stream.go:Close", "pkg/network/tunnel/server/server.go:ServerWithKeepaliveTimeout"]}
{"id": "C236", "title": "Tunnel messages are handled in full, each once", "statement": "However the bytes of the messages on a tunnel stream are cut into pieces, every message is decoded in full and in order, goes to the handler registered last for its type (or is refused if there is none), is handed over exactly once, and a stream that ends within a message is reported as an error after the messages before it.", "quantifier": "every sequence of messages, every way the bytes are split among reads and every schedule of the handler goroutines", "why_tests_cant": "all ways of splitting the byte stream and all schedules of goroutines", "anchors": ["pkg/network/tunnel/common/messagehandler.go:Handle", "pkg/network/tunnel/common/messagehandler_registry.go:HandleMessage", "pkg/network/tunnel/common/messagehandler_registry.go:AddMessageHandler", "pkg/network/tunnel/api/message.go:CreateMessage", "pkg/network/tunnel/api/message.go:SendMessage"]}
{"id": "C237", "title": "Tunnel messages are handled in order and on their own", "statement": "Messages on a tunnel stream are handled in the order in which they were sent, and what a handler gets depends on its own message only.", "quantifier": "every sequence of messages and every schedule of the handler goroutines", "why_tests_cant": "all schedules of goroutines and all messages with missing fields", "anchors": ["pkg/network/tunnel/common/messagehandler.go:Handle"]}
{"id": "C238", "title": "Tunnel client: no byte after the answer is lost", "statement": "When the client opens a stream, every byte the server sends after its answer reaches the reader of the connection, in order and once, however the bytes are split; the same holds for messages on the control stream.", "quantifier": "every answer, payload and way the bytes are split among reads", "why_tests_cant": "all ways of splitting the byte stream", "anchors": ["pkg/network/tunnel/client/session.go:OpenTCPStream", "pkg/network/tunnel/client/session.go:createControlStream"]}
{"id": "C239", "title": "Tunnel server: no byte after the opening message is lost", "statement": "When the server accepts a stream, every byte the peer sends after the opening message reaches the reader of the connection, in order and once, however the bytes are split.", "quantifier": "every opening message, payload and way the bytes are split among reads", "why_tests_cant": "all ways of splitting the byte stream", "anchors": ["pkg/network/tunnel/server/session.go:handleStream"]}
{"id": "C240", "title": "PII patterns: what is found matches and nothing that matches is overlooked", "statement": "Every range a pattern reports is a nonempty piece of the text that matches it, every nonempty piece that matches overlaps with a reported range, and so a pattern reports something exactly if some nonempty piece of the text matches it.", "quantifier": "every text, every regular expression of the kinds used", "why_tests_cant": "infinitely many texts; completeness of the search needs induction", "anchors": ["experimental/kafka-message-pii-filter/pii/pii.go:detect"]}
{"id": "C241", "title": "PII patterns: the kinds of data that are detected", "statement": "DetectPII reports personal data exactly if one of the twenty patterns matches; each is characterised by the texts it detects, for example a dotted quad of four numbers 0-255 without leading zeros that is not a part of a longer word.", "quantifier": "every text and every order of the patterns", "why_tests_cant": "infinitely many texts", "anchors": ["experimental/kafka-message-pii-filter/pii/pii.go:DetectPII", "experimental/kafka-message-pii-filter/pii/pii.go:patterns"]}
{"id": "C242", "title": "Header changes made by filters are exact", "statement": "Setting a header from a filter gives it this one value, adding appends a value to those it has, deleting removes it; all other headers keep their values and order. Names do not depend on case, what is set under any spelling is what is read under any spelling, and a filter's own response has the headers of the response so far followed by the filter's own.", "quantifier": "all header maps of HTTP and gRPC messages, names, values and sequences of calls", "why_tests_cant": "the name space, the values and the sequences of operations are unbounded, and case folding concerns every pair of names", "anchors": ["pkg/proxywasm/header.go:Get", "pkg/proxywasm/header.go:Set", "pkg/proxywasm/header.go:Add", "pkg/proxywasm/header.go:Del", "pkg/proxywasm/http/wrappers.go:httpHeaderMap", "pkg/proxywasm/grpc/wrappers.go:grpcHeaderMap", "pkg/proxywasm/host.go:SendHttpResp"]}
{"id": "C243", "title": "Filters see every header", "statement": "A filter that goes through the headers of a message is shown every header of it, with all values, and can stop going through them.", "quantifier": "all header maps of HTTP and gRPC messages and all visitors", "why_tests_cant": "the maps are unbounded; a test has the headers its author thought of, each with one value", "anchors": ["pkg/proxywasm/header.go:Range", "pkg/proxywasm/http/wrappers.go:Keys", "pkg/proxywasm/grpc/wrappers.go:Keys"]}
{"id": "C244", "title": "A plugin instance has one context as long as the plugin has it", "statement": "Everybody who asks a plugin for the context of one of its instances while the plugin has the instance is given the same context, namely the one made when the instance was started; contexts of different instances are different, so what one instance sets is not seen in another.", "quantifier": "all interleavings of starting and dropping instances, streams being opened, and failures", "why_tests_cant": "the check and the store in the map of contexts are separate steps; a test sees a few interleavings", "anchors": ["pkg/proxywasm/plugin.go:GetWasmInstanceContext", "pkg/proxywasm/plugin.go:startInstance", "pkg/proxywasm/filter.go:NewFilterContext"]}
{"id": "C245", "title": "Nothing is kept for plugin instances that are gone", "statement": "When no instance is being stopped, a plugin keeps contexts for the instances it has and for no others.", "quantifier": "all interleavings of starting and dropping instances, streams being opened, and failures", "why_tests_cant": "leaks need a failure or an unlucky interleaving and show only after many of them", "anchors": ["pkg/proxywasm/plugin.go:stopInstance", "pkg/proxywasm/plugin.go:startInstance", "pkg/proxywasm/plugin.go:EnsureInstances"]}
{"id": "C246", "title": "No client stops or delays an HTTP server", "statement": "Whatever a client of an HTTP server sends or does not send, all other clients are handled: each is handed on with all its bytes, in the order in which they came, and the server waits for the next one.", "quantifier": "all sequences of clients, their byte streams and endings, and changes of the TLS mode in between", "why_tests_cant": "the clients are hostile and the sequences unbounded", "anchors": ["pkg/network/http.go:ServeWithTLSConfig", "pkg/network/listener/unified_tls_listener.go:Accept"]}
{"id": "C247", "title": "An HTTP server started with TLS speaks TLS only", "statement": "A server started with ServeTLS or ServeWithTLSConfig talks to every client through TLS, one started with Serve in plain text, and one whose certificate cannot be loaded to nobody.", "quantifier": "all ways to start a server, clients and changes of the TLS mode", "why_tests_cant": "a test has one TLS client; the claim is about every client", "anchors": ["pkg/network/http.go:ServeTLS", "pkg/network/http.go:ServeWithTLSConfig", "pkg/network/http.go:Serve"]}
{"id": "C248", "title": "The webhooks are reachable with the certificate", "statement": "The serving certificate of heimdall names every service that a webhook of the mutating webhook configuration of the configured name calls, in every form the API server may use, and when a configuration of the other kind has that name its services are named too; no webhook configuration stops heimdall.", "quantifier": "every content of the cluster's webhook configurations", "why_tests_cant": "Depends on what the cluster contains: configurations of both kinds, webhooks that call a URL, several webhooks of one service.", "anchors": ["components/heimdall/pkg/cert/webhook_certifier.go:dnsNames", "components/heimdall/pkg/cert/webhook_certifier.go:loadWebhookConfiguration", "components/heimdall/pkg/cert/webhook_certifier.go:Start"]}
{"id": "C249", "title": "A workload group has a token exactly as long as it is labelled", "statement": "After every history of creations, relabellings and deletions of a workload group, once its events are handled there is a token for it exactly if it carries the label; events that do not matter are not handled.", "quantifier": "every history of events on a workload group and every label selector", "why_tests_cant": "Quantifies over histories and label selectors; tests run a handful.", "anchors": ["components/heimdall/pkg/predicates/labelselector.go:NewPredicateFuncs", "components/heimdall/pkg/predicates/labelselector.go:LabelSelectorPredicate", "components/heimdall/pkg/controllers/workloadgroup.go:Reconcile", "components/heimdall/pkg/controllers/workloadgroup.go:SetupWithManager"]}
{"id": "C250", "title": "A clone of a property store answers like the store", "statement": "For every property store and every key, the clone of the store answers like the store, and goes on doing so after the same updates.", "quantifier": "every store, key and update", "why_tests_cant": "Quantifies over nested stores of any depth and over all later updates.", "anchors": ["pkg/dotn/dotn.go:Convert", "pkg/dotn/dotn_concurrent.go:Clone"]}
{"id": "C251", "title": "The client notices a broken stream and connects again", "statement": "Whatever happened before and in whatever order the goroutines of the client run, once the stream to the management server has ended the client opens a new one.", "quantifier": "every history of the stream, every response and every schedule of the three goroutines", "why_tests_cant": "Depends on the order in which three goroutines, two channels and a context are served; a test sees one order.", "anchors": ["pkg/ads/api.go:Connect", "pkg/ads/client.go:connectToStream", "pkg/ads/client.go:handleStream", "pkg/ads/client.go:handleStreamReceive", "pkg/ads/client.go:handleStreamSend", "pkg/ads/client.go:apiResultsRefresher"]}
{"id": "C252", "title": "The client gives up only when it is cancelled", "statement": "The client stops connecting to the management server only when the context of the application is cancelled, and opens no stream after that.", "quantifier": "every history of streams, endings and schedules", "why_tests_cant": "Depends on which of the errors of three goroutines is the first, in every order.", "anchors": ["pkg/ads/api.go:Connect", "pkg/ads/client.go:handleStream"]}
{"id": "C253", "title": "Java channels read and write what the connection carries", "statement": "A read into a buffer puts exactly the bytes the connection gave at the position of the buffer, moves the position behind them and leaves the rest alone, and returns -1 exactly at the end; gathering writes hand the bytes of the buffers to the connection in order, however little it takes at a time, none lost and none twice.", "quantifier": "every buffer, every list of buffers, every amount the connection gives or accepts", "why_tests_cant": "Depends on the positions and limits of buffers and on partial writes of arbitrary sizes.", "anchors": ["experimental/java/examples/nio-java/src/main/java/com/ciscoopen/app/NaspSocketChannel.java:read", "experimental/java/examples/nio-java/src/main/java/com/ciscoopen/app/NaspSocketChannel.java:write"]}
{"id": "C254", "title": "Java streams read and write what the connection carries", "statement": "Reading from the input stream of a socket returns the bytes of the connection, into whichever part of an array the program asks for, byte by byte or many at once; writing to the output stream sends exactly the bytes given.", "quantifier": "every content of the connection, every array and every part of it", "why_tests_cant": "The parts of an array and the contents are unbounded; the shipped programs only use whole arrays.", "anchors": ["experimental/java/examples/nio-java/src/main/java/com/ciscoopen/app/NaspSocketInputStream.java:read", "experimental/java/examples/nio-java/src/main/java/com/ciscoopen/app/NaspSocketOutputStream.java:write"]}
{"id": "C255", "title": "The selector tells every key what is ready for it", "statement": "For every queue of events, after a select every registered key is told exactly those operations it asked for and for which there is an event with its number, and is selected if there is one; what a key asks for is started.", "quantifier": "every queue of events, every set of registered keys and interest sets, every order in which the words arrive", "why_tests_cant": "Ranges over histories of events, interest sets and hash codes.", "anchors": ["experimental/java/examples/nio-java/src/main/java/com/ciscoopen/app/NaspSelectorProvider.java:doSelect", "experimental/java/examples/nio-java/src/main/java/com/ciscoopen/app/NaspSelectorProvider.java:setEventOps", "experimental/java/examples/nio-java/src/main/java/com/ciscoopen/app/NaspSocketChannel.java:translateReadyOps", "experimental/java/examples/nio-java/src/main/java/com/ciscoopen/app/NaspServerSocketChannel.java:translateReadyOps"]}
{"id": "C256", "title": "A Java channel is connected as asked", "statement": "A channel that a program connects and waits for with a selector gets one connection, to the address given; finishConnect returns true exactly when the channel is connected, fails when the connection could not be made, and closing the channel closes the connection.", "quantifier": "every order of connect, interest changes, finishConnect and close, and every outcome of dialing", "why_tests_cant": "Depends on the order of the program's calls and on when and how the dial ends.", "anchors": ["experimental/java/examples/nio-java/src/main/java/com/ciscoopen/app/NaspSocketChannel.java:connect", "experimental/java/examples/nio-java/src/main/java/com/ciscoopen/app/NaspSocketChannel.java:finishConnect", "experimental/java/main.go:StartAsyncDial", "experimental/java/main.go:AsyncDial"]}
{"id": "C257", "title": "Spring programs get the whole body of a request", "statement": "The body a Spring program reads is the body the client sent, every byte of it and in order, for every content and every way the end of the body is signalled; a body that could not be received completely is reported as failed.", "quantifier": "every body, every way it ends (with its last byte, separately, or with a failure)", "why_tests_cant": "The loss depends on byte values, on positions relative to buffers and on how Go signals the end.", "anchors": ["experimental/spring/spring-boot-nasp/src/main/java/com/cisco/nasp/spring/NaspServerHttpRequest.java:getBody", "experimental/java/main.go:Body"]}
{"id": "C258", "title": "Responses of Spring programs are sent as made", "statement": "The client gets the status, every header with all its values in order, the cookies and the whole body of the response a Spring program makes.", "quantifier": "every response: status, headers, cookies, and body in any number of buffers", "why_tests_cant": "Ranges over header maps and over the ways a body is cut into buffers.", "anchors": ["experimental/spring/spring-boot-nasp/src/main/java/com/cisco/nasp/spring/NaspServerHttpResponse.java:writeWithInternal", "experimental/spring/spring-boot-nasp/src/main/java/com/cisco/nasp/spring/NaspServerHttpResponse.java:applyHeaders", "experimental/spring/spring-boot-nasp/src/main/java/com/cisco/nasp/spring/NaspServerHttpResponse.java:applyCookies", "experimental/java/main.go:WriteHeader"]}
{"id": "C259", "title": "Python requests are sent as made and answered as answered", "statement": "A request made with the adapter for `requests` reaches the server with the method, address, headers and body it was made with, exactly once; the program gets the status, headers and body of the answer, and can tell a failure from an answer.", "quantifier": "every request and every answer", "why_tests_cant": "Ranges over contents of requests and answers, including bytes with special meaning in C.", "anchors": ["experimental/python/nasp/nasp.py:send", "experimental/python/nasp/nasp.py:send_http_request", "experimental/python/nasp/nasp.py:http_headers", "experimental/python/nasp/nasp.go:SendHTTPRequest"]}
{"id": "C260", "title": "Characters read from a part of the data are those of the part", "statement": "Reading characters from a (nested) chunk reader gives what reading them from its bytes alone would give, whatever surrounds the part, until its end; taking back the character read last goes back to where it began and never before the part.", "quantifier": "every data, every nest of parts, every position and every text", "why_tests_cant": "Depends on where parts begin and end relative to multi-byte characters and on what stands behind them.", "anchors": ["components/kafka-protocol-go/pkg/protocol/types/bytes/chunkreader.go:ReadRune", "components/kafka-protocol-go/pkg/protocol/types/bytes/chunkreader.go:UnreadRune"]}
{"id": "C261", "title": "The counters of the load balancers follow the configuration", "statement": "After an update there are counters for exactly the clusters and endpoints that are configured: those that stay keep their counts and their active requests, new ones and those whose cluster does not count start from zero, and after an update the traffic follows the new configuration, however it was before.", "quantifier": "every history of selections, every set of load assignments, clusters and routes", "why_tests_cant": "Ranges over all histories of selections and updates; the skew shows only after many selections.", "anchors": ["pkg/ads/clusterloadassignments.go:onEndpointsUpdated", "pkg/ads/cluster.go:onClustersUpdated", "pkg/ads/route_config.go:onRouteConfigurationsUpdated", "pkg/ads/internal/cluster/stats.go", "pkg/ads/internal/endpoint/stats.go"]}
{"id": "C262", "title": "Distinguished names are taken apart into their attributes", "statement": "Parsing the text of a distinguished name gives its attributes: every value of every attribute, in order, however it is separated and spaced, and nothing that is not in the text. Parsing the text Go makes of the subject of a certificate gives that subject.", "quantifier": "every text; every list of attributes, separators and spacings; every certificate subject", "why_tests_cant": "Ranges over all texts and attribute lists; the regular expression backtracks differently for each.", "anchors": ["pkg/tls/verify/util.go:ParseDN"]}
{"id": "C263", "title": "Transports and servers of Java and mobile programs live as long as they are used", "statement": "An HTTP transport of a Java or mobile program has its connection to the mesh from its creation until it is closed, whatever happens to other transports; waiting for its end returns when it is closed; and the function that runs a server returns when the server ends, with its error.", "quantifier": "every sequence of creations, failed creations and closings; every time at which a server ends", "why_tests_cant": "Ranges over all histories of transports in a process and over times.", "anchors": ["experimental/java/main.go:NewHTTPTransport", "experimental/java/main.go:ListenAndServe", "experimental/mobile/main.go:NewHTTPTransport"]}
{"id": "C264", "title": "The tunnel client exposes the addresses it is given", "statement": "For every address given to the tunnel client a listener is opened on the port asked for and its connections go to the address; a wrong address is reported and does not harm the others; every connection is given to its service or closed, and none waits for another.", "quantifier": "every list of addresses, every behaviour of resolver and server, every sequence of connections", "why_tests_cant": "Ranges over all texts of addresses and all interleavings of slow services with new connections.", "anchors": ["components/bifrost/pkg/commands/client.go:runProxies", "components/bifrost/pkg/commands/client.go:proxyclient.Run"]}
{"id": "C265", "title": "Addresses mean the same as text", "statement": "An IP address as the mesh writes it is read exactly as the standard says (dotted decimal numbers from 0 to 255 without leading zeros, or IPv6 groups with at most one `::` that stands for at least one group, possibly ending in a dotted address), anything else is no address; writing an address and reading it back gives the same address; a dialer given the text of an address and port connects to that address and port; two addresses have the same text only if they are the same address and port; a listener is found under an address exactly if the mesh configured that address and port for it, in whatever notation.", "quantifier": "all texts, all 16-byte addresses, all ports", "why_tests_cant": "Texts and addresses are unbounded or 2^128 many; a unit test tries a handful of notations.", "anchors": ["/repo/pkg/ads/internal/endpoint/endpoint.go GetAddress", "/repo/pkg/ads/internal/listener/listener.go listeningOnFilter.Filter", "/repo/pkg/istio/tcp/dialer.go DialContext"]}
{"id": "C266", "title": "Address ranges contain exactly the addresses with the prefix", "statement": "A filter chain's address range with an IPv4 prefix of length n contains exactly the IPv4 addresses whose first n bits are those of the prefix; with an IPv6 prefix it contains exactly the addresses whose first n bits agree, and an IPv4 address only if the prefix fixes at least the 96 bits that say so; a length over 32 or 128 or a malformed prefix is an error, but only for addresses that lie in none of the earlier ranges; ranges without a prefix match nothing; an unknown address lies in no range.", "quantifier": "all lists of ranges, all prefixes in every notation, all lengths, all addresses", "why_tests_cant": "2^128 addresses times all prefixes and lengths; errors depend on the order of ranges.", "anchors": ["/repo/pkg/ads/api_listener_properties.go matchPrefixRanges"]}
{"id": "C267", "title": "Endpoints are reached where the mesh says", "statement": "A connection to an endpoint of a service goes to the address and port the mesh gives for it, and endpoints share load-balancing counters or are taken for each other by filters exactly if they have the same address and port.", "quantifier": "all endpoint texts and ports", "why_tests_cant": "Any text may arrive as an endpoint's address; tests use IPv4 literals only.", "anchors": ["/repo/pkg/ads/internal/endpoint/endpoint.go GetAddress", "/repo/pkg/ads/internal/endpoint/endpoint.go endpointWithSocketAddressFilter.Filter", "/repo/pkg/ads/clusterloadassignments.go onClusterLoadAssignmentsUpdated", "/repo/pkg/ads/internal/loadbalancer/lb_wrr.go"]}
{"id": "C268", "title": "The exchange of metadata on a TCP connection is invisible", "statement": "Between two programs whose connection exchanges metadata, each program gets exactly the bytes the other wrote, in order, and from its first read on each end knows the other's id and node; no filter panics. (Proved where the client speaks first and the first read of each end gets the metadata whole; disproved otherwise.) A connection that has not agreed on the exchange passes everything unchanged.", "quantifier": "all metadata, all data, all schedules of writes and reads of any sizes on both ends", "why_tests_cant": "Depends on how TCP cuts the bytes and on who speaks first; tests deliver whole messages in one order.", "anchors": ["/repo/experimental/wasm-tcp-metadata/src/lib.rs on_downstream_data, on_upstream_data", "/repo/pkg/proxywasm/tcp/conn.go Read, Write"]}
{"id": "C269", "title": "What a workload says about itself arrives", "statement": "The environment of a workload (names, mesh, cluster, labels, platform metadata, containers, addresses) is what its filter puts into its metadata and what the filter at the other end takes out of them, whatever the order in which maps are written; maps arrive sorted by key, with the last value given for a key; lists of containers and addresses arrive unchanged if no part contains a comma and the last part is not empty.", "quantifier": "all environments and nodes whose encoding is shorter than 2^32 bytes, all orders of map entries", "why_tests_cant": "Any texts, maps of any size in any order; a test compares a few examples.", "anchors": ["/repo/experimental/wasm-tcp-metadata/src/lib.rs extract_local_node_flat_buffer, extract_struct_from_node_flat_buffer, extract_node_flat_buffer_from_struct, deserialize_map", "/repo/pkg/environment/istio.go GetNodePropertiesFromEnvironment", "/repo/pkg/proxywasm/properties.go Stringify"]}
{"id": "C270", "title": "Metadata are exchanged only with peers that agreed", "statement": "A connection sends metadata of its workload only to a peer with which the exchange was negotiated, and takes the peer's identity only from such a peer. (Proved: an outgoing connection that has not agreed sends only what the program writes, whatever arrives; an accepted one sends nothing else before it has received metadata. Disproved: an accepted connection answers and believes any client, whatever protocol was negotiated.)", "quantifier": "all negotiated protocols, all data that arrive, all sequences of reads and writes", "why_tests_cant": "A safety property over arbitrary peers.", "anchors": ["/repo/experimental/wasm-tcp-metadata/src/lib.rs on_downstream_data, on_upstream_data"]}
{"id": "C271", "title": "A closed connection pool comes to rest", "statement": "After a connection pool was closed - by its user or because it was idle - it hands out no connection, keeps none, none of its timers closes anything and it is not closed a second time: every later Get fails and every connection given back is refused. Its background checker ends at most one second after the close, and calling Close again changes nothing.", "quantifier": "every history of Get, Put, Close, failed connections and idle checks, every timing, all timeouts, capacities and numbers of initial connections", "why_tests_cant": "whether the checker's goroutine ends depends on what runs between the close and its next second, and a test cannot try every history that leads to the close", "anchors": ["pkg/network/pool/channel.go (Close, Get, Put, handleIdleTimeout)", "pkg/network/pool/conn.go (Close, acquire, release)"]}
{"id": "C272", "title": "A filter's clock shows the time that passes", "statement": "The difference of two readings of the clock a filter is given is the time that has passed between them; in particular the clock does not go backwards.", "quantifier": "all pairs of points in time, every context", "why_tests_cant": "a test takes two readings close together, mostly within the same second of the wall clock, and never sees the wrap", "anchors": ["pkg/proxywasm/default.go (DefaultHostFunctions.GetCurrentTimeNanoseconds)", "pkg/proxywasm/host.go (NewHostFunctions)"]}
{"id": "C273", "title": "Every call a filter makes is answered", "statement": "A filter may make any call of the proxy-wasm ABI at any time: what its context has it gets, what the context does not have is answered with nothing or 'not found', and what the host does not support with 'unimplemented'; no call makes the host panic.", "quantifier": "every call of the ABI with every argument, every context (whatever it has or has not)", "why_tests_cant": "there are 45 calls and every one can meet a context that lacks any of the things it needs", "anchors": ["pkg/proxywasm/host.go (HostFunctions)", "pkg/proxywasm/default.go (DefaultHostFunctions)"]}
{"id": "C274", "title": "A filter's important messages are always logged", "statement": "Logging never fails; what a filter logs at the level info or above is always shown, debug and trace messages only at verbosity 1 and 2, and a more severe message is never hidden when a less severe one is shown.", "quantifier": "every level, also numbers that are no level", "why_tests_cant": "a test logs at a level or two", "anchors": ["pkg/proxywasm/host.go (HostFunctions.Log)"]}
{"id": "C275", "title": "The metrics can be read as long as the program runs", "statement": "With a metrics address and no push gateway, every client that connects to the metrics address, or to the port the metrics have at the tunnel, is given to the HTTP server once; when the context given to Run ends the address is released. (Part: every client is served, also after the end of the context, if the filters can be created and the mesh grants the port if it is asked for one. The address is never released: Shutdown is called on a server that was never started. Without filters nobody is served, and connections wait for ever.)", "quantifier": "every interleaving of the goroutines of the metrics server with clients, the mesh and the end of the context", "why_tests_cant": "the goroutines of two listeners, the HTTP server and the context interleave freely; tests see one order", "anchors": ["pkg/istio/istio.go:RunMetricsServer", "pkg/istio/istio.go:ServeHTTP", "pkg/network/listener/multi_listener.go:startListener", "pkg/network/listener/multi_listener.go:Accept"]}
{"id": "C276", "title": "A mesh without a port for the metrics does not stop the program", "statement": "If the mesh has no port for the metrics, the program goes on and its metrics can still be read at the metrics address. (Part: true if metrics are not offered through the tunnel or the port is granted. False otherwise, in every run: the listener of the tunnel returns an error for ever, which ends the HTTP server and closes the metrics address, and its goroutine then panics with a send on a closed channel.)", "quantifier": "every interleaving of the goroutines of the metrics server with the answer of the mesh", "why_tests_cant": "needs a mesh that refuses a port and the interleaving of four goroutines", "anchors": ["pkg/istio/istio.go:RunMetricsServer", "pkg/network/listener/multi_listener.go:Close", "pkg/network/tunnel/client/port.go:Accept", "pkg/network/tunnel/client/stream.go:requestPortResponse"]}
{"id": "C277", "title": "Metadata of a destination are reported as configured", "statement": "The metadata reported for a cluster, a route or an endpoint are, for every key, its typed value, or its untyped one if there is no typed one, each key once and whatever order the maps are read in; they are reported exactly when each of these values can be read and written as JSON.", "quantifier": "every metadata record and order of iteration", "why_tests_cant": "the result depends on all combinations of typed and untyped entries and on the iteration order of Go maps", "anchors": ["pkg/ads/internal/util/util.go:GetUnifiedFilterMetadata"]}
{"id": "C278", "title": "Metadata never decide whether a connection is protected", "statement": "A connection to a destination whose first applicable transport socket is the TLS one is made to the chosen endpoint with TLS, whatever metadata its cluster, route and endpoints carry, and no metadata crash the program.", "quantifier": "every destination: metadata, endpoints, socket matches, default socket, picked endpoint", "why_tests_cant": "the failing cases are single metadata entries among all possible configurations", "anchors": ["pkg/ads/api_tcp_client.go:newClientProperties", "pkg/ads/internal/endpoint/endpoint.go:GetFilterMetadata", "pkg/istio/tcp/dialer.go:DialContext", "pkg/istio/http/transport.go:RoundTrip"]}
{"id": "C279", "title": "Every cluster with endpoints is reached through its configuration", "statement": "A destination whose cluster has endpoints \u2014 subscribed to, listed in the cluster, or found by DNS \u2014 is reached at one of them and with the transport security of the cluster.", "quantifier": "every cluster, store of load assignments, policy and metadata", "why_tests_cant": "the case distinction is over all kinds of clusters a control plane can send", "anchors": ["pkg/ads/internal/endpoint/endpoint.go:GetClusterLoadAssignmentReference", "pkg/ads/clusterloadassignments.go:getClusterLoadAssignmentForCluster", "pkg/ads/api_tcp_client.go:newClientProperties"]}
{"id": "C280", "title": "Every connection gets a pick of its own", "statement": "The endpoints connections are made to are the successive picks of the load balancer, one pick for one connection, so that what holds of the shares of its picks holds of the connections.", "quantifier": "every load balancer, set of destinations and interleaving of connections and updates from the control plane", "why_tests_cant": "it concerns all interleavings of connections with each other and with updates, and the long run of the balancer", "anchors": ["pkg/ads/api_result.go:registerForUpdates", "pkg/ads/api_result.go:Refresh", "pkg/ads/api_tcp_client.go:GetTCPClientPropertiesByHost", "pkg/ads/internal/loadbalancer/lb_wrr.go:NextEndpoint"]}
{"id": "C281", "title": "Asking for a destination leaves nothing behind", "statement": "After the connections to a destination have got their endpoints, nothing is computed for it any more and no memory is held.", "quantifier": "every history of connections and updates", "why_tests_cant": "it concerns the growth over unbounded histories", "anchors": ["pkg/ads/api_result.go:registerForUpdates", "pkg/ads/api_result.go:cancel", "pkg/ads/api_result.go:Refresh"]}
{"id": "C282", "title": "The identity filters see was verified", "statement": "The peer identity that filters get in the properties of a stream is one that the verification of the peer's certificate accepted.", "quantifier": "every certificate, configuration of the names to accept and chain", "why_tests_cant": "it concerns all certificates and configurations of accepted names", "anchors": ["pkg/network/cert.go:GetFirstURI", "pkg/proxywasm/middleware/envoy_middleware.go:SetEnvoyConnectionInfo", "pkg/tls/verify/verify.go:verifyTypedSANs"]}
{"id": "C283", "title": "Every message specification is loaded", "statement": "Loading the message specifications gives the messages of all files in the directory and those below, or an error if one cannot be read.", "quantifier": "every tree of directories and files", "why_tests_cant": "it concerns every tree of directories, of any depth", "anchors": ["components/kafka-protocol-go/internal/protocol/protocol.go:LoadProtocolSpec"]}
{"id": "C284", "title": "The text of a certificate tells its names", "statement": "Certificates with different subjects or names have different texts in the log.", "quantifier": "every pair of certificates", "why_tests_cant": "it concerns all pairs of certificates", "anchors": ["pkg/network/cert.go:String", "pkg/util/util.go:PrintConnectionState"]}
{"id": "C285", "title": "Generating the code is reproducible", "statement": "Running the code generator twice on the same specifications gives the same files; all messages get their code, and no file of one message replaces that of another.", "quantifier": "every set of message specifications, every order in which maps are walked, every way of sorting", "why_tests_cant": "it concerns every order of iteration of a map", "anchors": ["components/kafka-protocol-go/cmd/gen/main.go:generate", "components/kafka-protocol-go/cmd/gen/main.go:generateMessageFactoryCode", "components/kafka-protocol-go/cmd/gen/main.go:generateStructProcessorCode"]}
{"id": "C286", "title": "Java sockets tell their addresses", "statement": "A connected socket of the Java examples reports the host and port of its peer and of its own end exactly as the connection has them; asking never fails on a TCP connection, and a socket without a connection reports no address.", "quantifier": "every connection state, every host without a percent-encoded scope, every port", "why_tests_cant": "it ranges over all addresses and connection states", "anchors": ["experimental/java/main.go:GetAddress", "experimental/java/main.go:GetRemoteAddress", "experimental/java"]}
{"id": "C287", "title": "Java programs connect to and listen on the addresses they give", "statement": "The text of an address and port given by a Java program is split by the dialler or listener into exactly that host and port, whatever kind of address it is.", "quantifier": "every host text and every port", "why_tests_cant": "it ranges over all hosts and ports", "anchors": ["experimental/java/main.go:Bind", "experimental/java/main.go:NewTCPDialer", "experimental/java"]}
{"id": "C288", "title": "The certificate of the Citadel client", "statement": "A client of the certificate authority shows its own certificate exactly when the certificate is readable, has not ended, and its key fits; a certificate that arrives later is taken up by the next signing; at most one connection is open at any time, and signing always goes on.", "quantifier": "every history of signings, handshakes, closings and changes of the certificate and key, every time", "why_tests_cant": "it concerns every history and every moment of a handshake", "anchors": ["pkg/ca/istio/istio_ca_client.go:getTLSDialOption", "pkg/ca/istio/istio_ca_client.go:isCertExpired", "pkg/ca/istio/istio_ca_client.go:reconnectIfNeeded"]}
{"id": "C289", "title": "The options of the tunnel commands", "statement": "Every option of the tunnel server and client commands has the value given last on the command line, else that of the environment variable of its name, else the default its help shows.", "quantifier": "every command line, every environment, every option of either command", "why_tests_cant": "it ranges over all command lines and environments, and over the order in which commands are set up", "anchors": ["components/bifrost/cmd/bifrost/main.go:init", "components/bifrost/pkg/commands/server.go:NewServerCommand", "components/bifrost/pkg/commands/client.go:NewClientCommand"]}
{"id": "C290", "title": "What the tunnel client says of itself", "statement": "The tunnel client sends the token and labels it was started with, and the service name given as the label of the service name.", "quantifier": "every combination of options, token, labels and service name", "why_tests_cant": "it ranges over all combinations of options", "anchors": ["components/bifrost/pkg/commands/client.go:NewClientCommand", "pkg/istio/istio.go:Run"]}
{"id": "C291", "title": "The echo server answers every line", "statement": "Every line a client sends to the TCP echo server is answered, in order, with the prefix, a blank and the line unchanged, however the bytes are cut into pieces, and nothing else is sent.", "quantifier": "every sequence of bytes, every way it is cut into pieces, every prefix, every pattern of failing writes", "why_tests_cant": "it ranges over all inputs and all ways they are cut", "anchors": ["components/echo-server/main.go:tcpServer"]}
{"id": "C292", "title": "A tunnel server in a cluster serves only confirmed clients", "statement": "If the tunnel server command starts in a cluster, a stream becomes a control stream only if the cluster's review confirmed the token presented on it; the command starts exactly if everything it needs succeeds.", "quantifier": "every outcome of the parts of the start, every history of sessions, every answer of the token review", "why_tests_cant": "it ranges over all outcomes of the start and all histories of sessions", "anchors": ["components/bifrost/pkg/commands/server.go:NewServerCommand", "pkg/network/tunnel/server/session.go:openControlStream"]}
{"id": "C153", "title": "The filter chain with the longest prefix is selected", "statement": "Of the filter chains for the port whose ranges contain the destination address, those with the longest prefix are selected. (Part: true if all ranges containing the address are equally long; otherwise the chains of the wider ranges are selected, too.)", "quantifier": "every list of filter chains and destination", "why_tests_cant": "All lists.", "anchors": ["pkg/ads/api_listener_properties.go: findFilterChain, matchPrefixRanges"]}
{"id": "C154", "title": "Matchers written as text mean what they say", "statement": "The text of a matcher is KIND:flag:pattern and is read as that matcher; what a matcher prints is read back as the same matcher; malformed text is refused without a crash; a regular expression that ignores case accepts what the expression accepts up to case. (Part: reading and printing are characterised exactly. What is printed cannot be read back, a subject name matcher without a colon crashes, and putting an expression in lower case changes its meaning.)", "quantifier": "every pattern and value", "why_tests_cant": "All strings.", "anchors": ["pkg/util/string_matcher.go"]}
{"id": "C155", "title": "A required client certificate is reported as required", "statement": "A listener is reported as requiring client certificates if one of the filter chains that apply requires one, in whatever order they are listed. (Part: true if the TLS chains agree; otherwise the last TLS chain decides.)", "quantifier": "every set of listeners, address and port", "why_tests_cant": "The result is a fold over every listener and every chain; only a proof covers all combinations and orders.", "anchors": ["pkg/ads/api_listener_properties.go"]}
{"id": "C156", "title": "A resolved host name has an address", "statement": "A successful name lookup gives at least one address, and a name without a usable address does not hide the qualified names of the search list. (Part: true if every name the mesh knows has a well-formed address.)", "quantifier": "every name table, search list and host", "why_tests_cant": "All tables and search lists.", "anchors": ["pkg/ads/nametable.go ResolveHost"]}
{"id": "C157", "title": "Tunnel ports are only exhausted when all are held", "statement": "Asked for any free port, the provider reports exhaustion only when every port of the range is held. (Part: true except for the last port of the range, which is never handed out this way.)", "quantifier": "every range and every interleaving of get/getFree/release", "why_tests_cant": "Unbounded histories.", "anchors": ["pkg/network/tunnel/server/port_provider.go"]}
{"id": "C158", "title": "Accepted tunnel streams are delivered and rejected ones reported", "statement": "Every stream the server accepted is delivered to its requester, and the client of a rejected stream gets an error. (Part: delivery is possible while the requester waits, and control streams do report errors. A requester that times out at the wrong moment leaves the accepted stream undelivered for ever, and a client of a rejected stream sees success.)", "quantifier": "every interleaving of requests, stream openings and timeouts", "why_tests_cant": "All schedules.", "anchors": ["pkg/network/tunnel/server/session.go: RequestConn, openTCPStream", "pkg/network/tunnel/client/session.go: OpenTCPStream"]}
{"id": "C159", "title": "Load balancing always answers", "statement": "A connection attempt to a cluster is answered with an address if it has a healthy endpoint, and with an error otherwise. (Part: true for the random policy, and for least request with equal weights and a choice count up to the number of healthy endpoints. A greater choice count crashes, and so does every policy if no endpoint is healthy.)", "quantifier": "every endpoint list, load state and random source", "why_tests_cant": "All random outcomes.", "anchors": ["pkg/ads/internal/loadbalancer/*.go"]}
{"id": "C160", "title": "A pool in use is not closed for idleness", "statement": "A connection pool is closed for idleness only if it was not used for its idle timeout, and the initial connections of a pool expire like others. (Part: a pool used within the timeout is not closed unless the use comes between check and close; it may be closed while a connection of it is in use for long, or a second after it was created if its initial connections took long to make; the initial connections have no idle timer.)", "quantifier": "every history of Get, Put, Close and failed connections, every timing, all timeouts and capacities", "why_tests_cant": "all timings of uses relative to the ticker and the timers", "anchors": ["pkg/network/pool/channel.go:NewChannelPool", "pkg/network/pool/channel.go:handleIdleTimeout", "pkg/network/pool/channel.go:Get", "pkg/network/pool/channel.go:Put", "pkg/network/pool/conn.go:Release", "pkg/network/pool/conn.go:setIdleTimer", "pkg/network/pool/conn.go:Acquire"]}
{"id": "C161", "title": "The length prefix of a record is its length", "statement": "A record is written as the number of the bytes that follow, and those bytes; SizeInBytes is the number of bytes written. (Part: true unless the timestamp delta is in the band in which the size function is wrong, see C163; there the prefix is one too large.)", "quantifier": "every record, every following byte string", "why_tests_cant": "All keys, values, headers and deltas; the length prefix is wrong only in one band of timestamp deltas.", "anchors": ["components/kafka-protocol-go/pkg/protocol/types/fields/batchrecord.go", "components/kafka-protocol-go/pkg/protocol/types/fields/recordheader.go"]}
{"id": "C162", "title": "Malformed version ranges are refused", "statement": "A string that is none of \"a-b\", \"a+\" and \"a\" is refused as a version range. (Part: true for strings without '+'; whatever follows a '+' is ignored.)", "quantifier": "every string", "why_tests_cant": "All strings.", "anchors": ["components/kafka-protocol-go/internal/protocol/versions.go: VersionRange"]}
{"id": "C163", "title": "64-bit varint size functions equal the bytes written", "statement": "Uint64Size and Int64Size return exactly the number of bytes the matching writer emits. (Part: true except on the band [2^49, 2^56) of the zig-zag value, where they return one byte too many.)", "quantifier": "every value of the type", "why_tests_cant": "The error sits in one of ten power-of-128 bands of a 64-bit domain; sampled tests miss a band (they did: see the finding for [2^49, 2^56)).", "anchors": ["components/kafka-protocol-go/pkg/protocol/types/varint/varint.go: Uint32Size, Int32Size, Uint64Size, Int64Size"]}
{"id": "C164", "title": "Array fields round-trip with nil distinct from empty", "statement": "An array (of primitives or of structures) accepted by the writer is read back identical, including the nil/empty distinction, in both encodings. (Part: true for arrays whose length fits the length field; longer ones are accepted and read back as something else.)", "quantifier": "every array length and content, every element codec that round-trips, every version context", "why_tests_cant": "Unbounded lengths and element types.", "anchors": ["components/kafka-protocol-go/pkg/protocol/types/fields/bytes.go", "components/kafka-protocol-go/pkg/protocol/types/fields/array.go", "components/kafka-protocol-go/pkg/protocol/types/fields/arrayofstruct.go"]}
{"id": "C165", "title": "Tagged-field sections are read back", "statement": "Reading a written tagged-field section yields exactly the fields written and leaves what follows. (Part: true unless a field with an empty value ends the input, which is not read back.)", "quantifier": "every list of tagged fields in any order, every following byte string", "why_tests_cant": "All permutations and payloads; an empty last payload at end of input breaks it.", "anchors": ["components/kafka-protocol-go/pkg/protocol/types/fields/taggedfields.go: ReadRawTaggedFields, WriteRawTaggedFields"]}
{"id": "C166", "title": "Answers carry the nonce of the response", "statement": "Every response is answered with its own nonce, and the first requests on a new stream carry no nonce of an old one. (Part: true for supported types in the incremental protocol. In the state-of-the-world protocol a NACK carries no nonce, and the first requests after a reconnection carry old ones; a response of an unsupported type ends the stream without an answer.)", "quantifier": "every history of responses", "why_tests_cant": "Unbounded histories.", "anchors": ["pkg/ads/client.go: ack, nack, handleStreamReceive"]}
{"id": "C167", "title": "Published results are never lost", "statement": "An observer of client/listener properties always eventually gets the latest published value, nothing after cancellation, and no call blocks or crashes. (Part: no update is lost if registering does not replace the stored result under other observers, and nothing blocks if readers do not race with the replacement of an unread result and refreshes do not overtake pending notifications. Otherwise an observer can be left with an outdated result, all observers can be blocked for ever, a nil result crashes the process, and a result can arrive after cancellation.)", "quantifier": "every interleaving of publish, observe and cancel", "why_tests_cant": "All schedules.", "anchors": ["pkg/ads/api_result.go: apiResultObservable"]}
{"id": "C168", "title": "A partial last batch is dropped", "statement": "Reading a records section that holds n complete batches followed by an incomplete one returns exactly the n complete batches and consumes the section. (Part: true if the incomplete batch has at least 17 bytes; a shorter one is left in the input.)", "quantifier": "every number of batches, every truncation of a trailing batch", "why_tests_cant": "Unbounded sequences and truncations.", "anchors": ["components/kafka-protocol-go/pkg/protocol/types/fields/recordbatches.go: Read, nextBatchSize", "components/kafka-protocol-go/pkg/protocol/types/fields/records.go"]}
{"id": "C169", "title": "A pause stops what it should stop", "statement": "A pause stops the chain and what it filters in every callback, closing a stream releases every filter, and naming an unknown filter is an error. (Part: the new-connection callback runs all filters in order up to the first error, and a stream that is closed without an error has released all filters, each once. A pause at the request headers lets the request pass, pauses at response headers or new connections are ignored, an error at Close leaves filters unreleased, unknown names select nothing.)", "quantifier": "every filter list and filter behaviour", "why_tests_cant": "All filter behaviours.", "anchors": ["pkg/proxywasm/stream.go"]}
{"id": "C170", "title": "The multi-listener registers ids once and can be closed", "statement": "A listener id is registered at most once, after Close no listener remains and every connection was returned, and nothing panics. (Part: true if calls do not overlap, listeners have no id of their own and Close is called after all listeners were removed. Overlapping AddListener calls register an id twice; a listener with an id survives Close; Close with a connection on its way panics or loses it.)", "quantifier": "every interleaving of add/remove/accept/close", "why_tests_cant": "All schedules.", "anchors": ["pkg/network/listener/multi_listener.go"]}
{"id": "C171", "title": "PII masking hides exactly what the patterns match", "statement": "With masking exactly the matches of the patterns (of assignments only the value) become asterisks, and the result does not depend on the order in which the patterns are tried. (Part: true if masking one pattern does not change the matches of another; otherwise PII stays readable, depending on the order.)", "quantifier": "every byte string, every set of patterns whose matches satisfy the contract of regexp, every iteration order of the pattern map", "why_tests_cant": "The iteration order of a Go map is random; patterns can overlap in ways a sample of texts does not show.", "anchors": ["experimental/kafka-message-pii-filter/pii/pii.go"]}
{"id": "C172", "title": "Lower priorities are used only for failover", "statement": "A lower priority gets traffic only when the priorities above it lack healthy endpoints, and weights matter under every policy. (Part: true for policies that use the computed loads, and localities with different names. Random and equal-weight least request ignore priorities, least request ignores the weights of a single locality, and a locality in two priorities crashes round robin.)", "quantifier": "every load assignment, policy and counter state", "why_tests_cant": "Shares come from floating-point arithmetic over arbitrary weights and health; tests fix a handful of assignments.", "anchors": ["pkg/ads/internal/endpoint/endpoint.go", "pkg/ads/internal/loadbalancer/lb_wlr.go", "pkg/ads/internal/loadbalancer/lb_wrr.go", "pkg/ads/internal/loadbalancer/lb_random.go"]}
{"id": "C173", "title": "Weighted round robin is proportionally fair", "statement": "Over any number of picks an endpoint's selections stay close to its weight share, and every pick succeeds. (Part: true if the loads are whole percentages that add up to 100. Three equal endpoints get 33 percent each and after 99 picks every attempt crashes, and 200 equal endpoints crash at the first pick.)", "quantifier": "every weight vector and every number of picks", "why_tests_cant": "Unbounded pick sequences.", "anchors": ["pkg/ads/internal/loadbalancer/lb_wrr.go", "pkg/ads/internal/cluster/cluster.go: SelectCluster"]}
{"id": "C174", "title": "Every accepted connection is handled", "statement": "In permissive mode every connection, however short, reaches the handler with its bytes, and no client delays another one. (Part: a connection that ends before three bytes is closed, one that fails is refused. The bytes of a short one are lost, and a silent client blocks the listener for all others.)", "quantifier": "every byte stream and mode", "why_tests_cant": "All streams.", "anchors": ["pkg/network/listener/unified_tls_listener.go"]}
{"id": "C175", "title": "A slice writer writes all or fails", "statement": "WriteAt and InsertAt write all bytes or return an error, and no call exposes bytes that were not written. (Part: WriteAt inside the content writes all. Near its end it writes fewer without an error, after it InsertAt and WriteAt panic, and Seek exposes old bytes.)", "quantifier": "every capacity and call sequence", "why_tests_cant": "Unbounded call histories.", "anchors": ["components/kafka-protocol-go/pkg/protocol/types/bytes/slicewriter.go"]}
{"id": "C176", "title": "Lookups are answered in every mesh", "statement": "Once the client has received and accepted the configuration of every type that the management server provides, lookups are answered. (Part: true if every type has a resource; if the mesh has none of a type, lookups are never answered.)", "quantifier": "every history of connects, responses (valid, invalid, empty) of all types, every set of provided services", "why_tests_cant": "Depends on the whole history across reconnects and on which types happen to be empty; tests use one complete configuration.", "anchors": ["pkg/ads/client.go", "pkg/ads/common.go", "pkg/ads/api_http_client.go", "pkg/ads/api_tcp_client.go", "pkg/ads/api_listener_properties.go"]}
{"id": "C177", "title": "Parsing arbitrary bytes does not crash", "statement": "Whatever bytes arrive, parsing them as a request, response, message or record batch returns a value or an error and never crashes the process. (Part: true for all messages but the Produce request and the Fetch and FetchSnapshot responses, in which a negative record or header count crashes the process.)", "quantifier": "every byte string, message type and version", "why_tests_cant": "Parsers face arbitrary network input; fuzzing samples it, a crash may need one particular length or count.", "anchors": ["components/kafka-protocol-go/pkg/request/request.go", "components/kafka-protocol-go/pkg/response/response.go", "components/kafka-protocol-go/pkg/protocol/types/fields/recordbatch.go", "components/kafka-protocol-go/pkg/protocol/types/fields/batchrecord.go"]}
{"id": "C178", "title": "Restrictions sent by the mesh are never dropped", "statement": "If the mesh lists names or a CA, only certificates with a matching name, of that CA, are accepted, and every other peer is rejected without a crash. (Part: true for names if one of the listed matchers can be compiled. If none can, any certificate of a trusted root is accepted; an unreadable CA is treated as none; an empty chain crashes.)", "quantifier": "every certificate, chain result and configuration", "why_tests_cant": "All configurations.", "anchors": ["pkg/tls/verify/verify.go"]}
{"id": "C179", "title": "Removed fields are not lost silently", "statement": "A message holding a non-default value in a non-ignorable field that was removed before the requested version is rejected by Write. (False: such fields are dropped silently.)", "quantifier": "every schema, value and version", "why_tests_cant": "All combinations of fields and versions.", "anchors": ["components/kafka-protocol-go/assets/templates/struct_processor.tmpl: validateNonIgnorableFields"]}
{"id": "C180", "title": "The virtual host of the most specific domain is used", "statement": "The virtual host used for an outbound HTTP request is the one that lists the most specific form of the address, and the catch-all virtual host if none does. (Part: true if every virtual host has a route for \"/\"; one without is passed over in favour of a less specific one, and the catch-all virtual host is never used.)", "quantifier": "every route configuration and address", "why_tests_cant": "All configurations.", "anchors": ["pkg/ads/api_http_client.go", "pkg/ads/internal/virtualhost/*.go"]}
{"id": "C181", "title": "EDS and RDS subscriptions and statistics are exact", "statement": "After clusters (listeners) are accepted, the set of subscribed load assignments (route configurations) is exactly the set referenced by them, and statistics are kept for exactly the clusters present. (Part: subscriptions are exact if something is referenced, for the first route configuration of a listener; statistics are exact when the subscription changed.)", "quantifier": "every accepted cluster/listener set and prior subscription", "why_tests_cant": "All histories.", "anchors": ["pkg/ads/cluster.go: onClustersUpdated", "pkg/ads/listener.go: onListenersUpdated"]}
{"id": "C182", "title": "The connection pool never shares or leaks connections", "statement": "Between Get and Put a pooled connection is owned by one caller; closed or failed connections are never handed out; after Close (or a failed creation) every connection that is not in use is closed; every Get returns. (Part: true if callers close a connection once and, for usability, if idle timers and Release do not come in the middle of another call; otherwise connections are shared, expire in use, leak, or two Gets deadlock the pool.)", "quantifier": "every history of get/put/discard/close", "why_tests_cant": "Unbounded histories.", "anchors": ["pkg/network/pool/channel.go", "pkg/network/pool/conn.go"]}
{"id": "C183", "title": "Weighted cluster selection follows the weights", "statement": "A route with weighted clusters always yields a cluster, and repeated selection follows the weights. (Part: true if all clusters are known, the weights add up to a positive 32-bit number, and up to 2^51 divided by that number selections. An unknown cluster gets all the traffic, and weights that add up to 2^32 are ignored.)", "quantifier": "every weight vector and selection history", "why_tests_cant": "Unbounded histories.", "anchors": ["pkg/ads/internal/cluster/cluster.go: SelectCluster"]}
{"id": "C184", "title": "Only the response to the request is accepted", "statement": "Whatever the bytes, a response is only returned if it carries the correlation id of the request and is of the type of the request's api key, and a request is only returned with data of the type of its api key.", "quantifier": "every byte string, api key, version and correlation id", "why_tests_cant": "All messages.", "anchors": ["components/kafka-protocol-go/pkg/request/request.go", "components/kafka-protocol-go/pkg/response/response.go"]}
{"id": "C185", "title": "Numbers are written as Kafka prescribes", "statement": "Fixed-size integers are written big-endian in two's complement, unsigned varints in groups of seven bits, least significant first, and signed ones zig-zag encoded.", "quantifier": "every number", "why_tests_cant": "Round-trip tests cannot see a mistake made symmetrically by reader and writer; conformance must hold for every value and version.", "anchors": ["components/kafka-protocol-go/pkg/protocol/messages", "components/kafka-protocol-go/pkg/protocol/types", "components/kafka-protocol-go/internal/protocol/types/fields"]}
{"id": "C186", "title": "Adding to the pool registry never replaces a pool", "statement": "Adding never replaces a registered pool; a closed pool is never added and an open one is registered under its id; the count reported by Len is off by at most the number of calls under way.", "quantifier": "every history of add/remove/cleanup/close", "why_tests_cant": "Unbounded histories.", "anchors": ["pkg/network/pool/syncmap_registry.go"]}
{"id": "C187", "title": "The text \"null\" is an ordinary string", "statement": "The string consisting of the four characters null is written and read back as that string, and not as a null string. (False of the code.)", "quantifier": "every string, every version context, every following byte string", "why_tests_cant": "All strings and all contexts; the one string that breaks it (the four bytes \"null\") is invisible to sampling.", "anchors": ["components/kafka-protocol-go/pkg/protocol/types/fields/string.go: String.Read, String.Write, NullableString.SetValue"]}
{"id": "C188", "title": "SizeInBytes is exact for every schema and every value", "statement": "SizeInBytes equals the number of bytes written also for nested structures that the version does not support, and for byte slices of every length Write accepts. (False of the code.)", "quantifier": "every such message schema, every such value, every version", "why_tests_cant": "All schemas (130+ generated messages), nested to any depth, all values.", "anchors": ["components/kafka-protocol-go/assets/templates/struct_processor.tmpl", "components/kafka-protocol-go/pkg/protocol/messages/**"]}
{"id": "C189", "title": "Null messages and structures round-trip", "statement": "A null structure is read back as null. (False of the code: it is written as nothing, and reading fails.)", "quantifier": "every message schema with distinct tags, every such value, every version, every following byte string", "why_tests_cant": "All schemas, all values; tests check one sample per message.", "anchors": ["components/kafka-protocol-go/assets/templates/struct_processor.tmpl: Read, Write, SetDefault", "components/kafka-protocol-go/pkg/protocol/messages/**"]}
{"id": "C190", "title": "Truncated records are rejected", "statement": "Reading a record or header from a proper prefix of its encoding fails. (Part: true for records without key and value bytes; a key or value cut short gives an empty record and no error.)", "quantifier": "every record, every truncation point", "why_tests_cant": "All truncation points of all records.", "anchors": ["components/kafka-protocol-go/pkg/protocol/types/fields/batchrecord.go: Read", "components/kafka-protocol-go/pkg/protocol/types/fields/recordheader.go: Read"]}
{"id": "C191", "title": "Nothing follows a batch compressed with snappy", "statement": "A record batch compressed with snappy is written like others, without bytes its length field does not count. (False of the code.)", "quantifier": "every batch", "why_tests_cant": "All batches; a test compares one dump.", "anchors": ["components/kafka-protocol-go/pkg/protocol/types/fields/recordbatch.go: Write"]}
{"id": "C192", "title": "All batches follow the Kafka wire format", "statement": "Also batches compressed with snappy, and records with any timestamp delta, are written as the Kafka protocol prescribes. (Part: a batch compressed with snappy is written in the format but may be followed by the compressed empty string; it is in practice. A timestamp delta in the band of C163 makes the length prefix one too large.)", "quantifier": "every message type, version and value, every record batch and record as described", "why_tests_cant": "Round-trip tests cannot see a mistake made symmetrically by reader and writer; conformance must hold for every value and version.", "anchors": ["components/kafka-protocol-go/pkg/protocol/messages", "components/kafka-protocol-go/pkg/protocol/types", "components/kafka-protocol-go/internal/protocol/types/fields"]}
{"id": "C193", "title": "A request is serialized at the version its header states", "statement": "Serializing a request at a version other than the one in its header fails. (False of the code: the header keeps the old version and the body is parsed as something else.)", "quantifier": "every message, version, correlation id and client id", "why_tests_cant": "All messages.", "anchors": ["components/kafka-protocol-go/pkg/request/request.go", "components/kafka-protocol-go/pkg/response/response.go"]}
{"id": "C194", "title": "Every authenticator is respected, and there is one control stream", "statement": "With any authenticator a control stream is established only if the authenticator accepted the presented token, and at most one control stream exists per session. (Part: true for authenticators that return an error when they do not accept, and if control messages are handled one after the other. One that answers no without an error lets the client in, and two streams opened at the same time both become the control stream.)", "quantifier": "every history of any number of concurrent streams and every answer of the token review", "why_tests_cant": "All authenticators and histories.", "anchors": ["pkg/network/tunnel/server/session.go: openControlStream", "pkg/network/tunnel/auth/k8stoken.go"]}
{"id": "C195", "title": "Filtered connections lose nothing at their end", "statement": "End of stream is reported only after all bytes, bytes that arrive with an error are delivered, a read does not wait for the network while bytes are at hand, and Close sends what filters held back. (Part: an end of stream that is reported without filling the caller's buffer was reported by the peer and nothing is left. Otherwise it may come before the last bytes; bytes returned together with an error, and those held back at Close, are lost; and a read can block although bytes are buffered.)", "quantifier": "every chunking of the stream and every sequence of buffer sizes and pause decisions", "why_tests_cant": "Unbounded interleavings.", "anchors": ["pkg/proxywasm/tcp/conn.go: Read, Write, Close"]}
{"id": "C196", "title": "Metrics can be defined again and keep their kind", "statement": "Recording through an id reaches the metric of the defined kind, defining the same metric again returns the same id, and a removed metric can be defined again. (Part: true if the filters use one kind and one set of label keys per name, and if between the definitions the name is not defined with other labels and none of its ids is removed. Five counterexamples otherwise, one of them a panic.)", "quantifier": "every history of define/remove/record calls", "why_tests_cant": "Unbounded histories.", "anchors": ["pkg/proxywasm/metrics.go"]}
{"id": "C197", "title": "Outgoing TCP connections are secured as the mesh wants", "statement": "Every connection that DialContext returns uses TLS with the server name and peer verification the mesh required for that host when the call was made. (Part: true while discovery answers and the settings for an address do not change. After a change connections are made with the old settings, possibly in plaintext, and when discovery fails the host is dialled without TLS.)", "quantifier": "every interleaving of dials, reuse, pool removal, cancellation and configuration changes", "why_tests_cant": "Needs configuration changes and pool races between calls; the settings used are invisible to a test that only moves bytes.", "anchors": ["pkg/istio/tcp/dialer.go", "pkg/network/pool/syncmap_registry.go", "pkg/network/dialer.go"]}
{"id": "C198", "title": "Dialed connections are handed out to the key that asked for them", "statement": "A report of a key is answered with the connection dialed for this key; a failed dial is reported. (Part: a dialer used for one key only hands out connections of that key; if every key is used for one dial, every report is answered and no connection is left. Otherwise connections are mixed up or left behind; failures are not reported.)", "quantifier": "every interleaving of any number of dials, failures, Select and AsyncDial", "why_tests_cant": "Needs dials that complete in another order than they were started.", "anchors": ["experimental/java/main.go"]}
{"id": "C199", "title": "A client gets configuration only of groups of its own namespace", "statement": "The service account of the token belongs to the namespace of the workload group whose configuration is returned. (False of the code: the namespaces are not compared.)", "quantifier": "every token the cluster confirms", "why_tests_cant": "Needs a token requested with a chosen audience in another namespace.", "anchors": ["components/heimdall/pkg/server/jwt.go:JWTTokenAuthenticator,GenerateAudience,ParseAudience", "components/heimdall/pkg/server/server.go:configHandler"]}
{"id": "C200", "title": "Identity and environment are those of the workload", "statement": "The identity names trust domain, namespace and service account; an environment received from heimdall replaces the own one; an environment without addresses does not crash. (Part: all fields but trust domain, secret lifetime and the enabled flag are replaced. The identity ignores the trust domain, and without an address there is a crash.)", "quantifier": "every environment", "why_tests_cant": "Texts are unbounded.", "anchors": ["pkg/environment/istio.go:GetIstioEnvironment,GetNodeID,GetSpiffeID,Override", "components/heimdall/pkg/webhooks/pod_mutator.go:setEnvs", "pkg/istio/istio.go:IstioCAConfigGetterHeimdall"]}
{"id": "C201", "title": "The mutation can be repeated and keeps the labels of all pods", "statement": "Mutating a mutated pod again yields a valid pod, and pods of DeploymentConfigs keep their labels, too. (Part: volume names stay unique if the pod has no volume with one of the two names; a second mutation adds them again, which the cluster rejects, and a label of DeploymentConfig pods is lost.)", "quantifier": "every pod", "why_tests_cant": "Needs every combination of owner and labels.", "anchors": ["components/heimdall/pkg/webhooks/pod_mutator.go:Handle", "components/heimdall/pkg/k8sutil/meta.go:GetDeployMetaFromPod"]}
{"id": "C202", "title": "A proxy works with connections of any type and leaves none open", "statement": "Relaying loses nothing whatever the types of the connections, and when Start returns both connections are closed. (False of the code: without half-close the answer to a finished request is lost, and connections with half-close stay open.)", "quantifier": "every pair of connection types and every history of data, ends and failures", "why_tests_cant": "Needs a peer that ends its request before the answer arrives.", "anchors": ["pkg/network/proxy/proxy.go:Start,proxy,close", "pkg/network/proxy/proxy.go:New", "pkg/tunnel/server/session.go:handleStream"]}
{"id": "C203", "title": "Listener properties follow the mesh", "statement": "Every call for the properties of a listener gets a response as soon as there is one, no older than the mesh's latest, and its callbacks are run for every update, also after failed subscriptions. (Part: served if the subscription did not fail or end. Otherwise it is never retried, stale responses are returned, and the callbacks of later calls are ignored.)", "quantifier": "every interleaving of calls, cancellations, failed subscriptions and updates", "why_tests_cant": "Needs cancellations and failures at each point between concurrent calls.", "anchors": ["pkg/istio/discovery/xds.go:GetListenerProperties"]}
{"id": "C204", "title": "A tunnelled port without a name is published under the service port that targets it", "statement": "Also a tunnelled port without a name is published only under a service port that targets it. (False of the code.)", "quantifier": "every list of named tunnelled ports and of service ports", "why_tests_cant": "Lists are unbounded.", "anchors": ["components/bifrost/pkg/controllers/endpoints.go:getSubset,Reconcile,collectPortsBySessionAndService", "components/bifrost/pkg/controllers/configmap.go"]}
{"id": "C205", "title": "Every service in use has managed endpoints", "statement": "After each reconciliation every service with a tunnelled port has managed endpoints, with one subset per session. (Part: true if reads and writes succeed and the cluster accepts the subsets; on a transient failure or a rejected subset the endpoints are deleted.)", "quantifier": "every set of sessions and services and every failure of the API server", "why_tests_cant": "Needs failures of each single call.", "anchors": ["components/bifrost/pkg/controllers/endpoints.go:getSubset,Reconcile,collectPortsBySessionAndService", "components/bifrost/pkg/controllers/configmap.go"]}
{"id": "C206", "title": "Filters see the address and the outcome of gRPC calls", "statement": "The filters see the address of a gRPC call and whether it failed. (False of the code.)", "quantifier": "every call, target, filter and outcome", "why_tests_cant": "All combinations of outcomes.", "anchors": ["pkg/proxywasm/grpc/dialer.go:RequestInterceptor", "pkg/proxywasm/grpc/wrappers.go:WrapGRPCRequest"]}
{"id": "C207", "title": "A client cannot choose the identity it is reported with", "statement": "The X-Forwarded-Client-Cert header names only the client of the connection, with subject and DNS names, and a client cannot choose what it says; the protocol forwarded is the one used. (False of the code.)", "quantifier": "every request, header sent by the client and certificate", "why_tests_cant": "Security: an arbitrary adversary chooses the header.", "anchors": ["pkg/proxywasm/middleware/envoy_middleware.go:envoyHTTPHandlerMiddleware", "pkg/proxywasm/header.go"]}
{"id": "C208", "title": "All attributes filters can ask for are correct", "statement": "Also sizes, user agent, upstream and destination addresses, the TLS version and response trailers have the values of the request, response or connection. (False of the code.)", "quantifier": "every request, response, connection and direction", "why_tests_cant": "All combinations of present and absent fields.", "anchors": ["pkg/proxywasm/middleware/envoy_middleware.go:envoyHTTPHandlerMiddleware", "pkg/proxywasm/header.go"]}
{"id": "C209", "title": "Filters read back nested properties they set", "statement": "A property a filter sets under a path of several parts is what it reads afterwards. (False of the code: it is not found, or hides others.)", "quantifier": "every name of one part, value and store", "why_tests_cant": "All trees of attributes and all paths.", "anchors": ["pkg/proxywasm/host.go:GetProperty,SetProperty", "pkg/proxywasm/properties.go"]}
{"id": "C210", "title": "Stopping an instance ends", "statement": "Stopping an instance returns, leaves no ticker running and no period crashes the program, whenever the timer fires and whatever the filter asks for. (Part: it returns if the ticker is between two ticks. It hangs if the timer fires meanwhile or if it is stopped from within a tick; a second ticker keeps running, a period of zero crashes.)", "quantifier": "every schedule of timers, calls, and changes of the period", "why_tests_cant": "Depends on the moment the timer fires.", "anchors": ["pkg/proxywasm/host.go:SetTickPeriodMilliseconds,Done", "pkg/proxywasm/common_properties.go", "pkg/proxywasm/utils.go:StopWasmContext"]}
{"id": "C211", "title": "A closed virtual machine gets no users", "statement": "After Close no user is added to the virtual machine, and none is closed twice. (Part: true if no acquisition is under way at Close; otherwise a user is added that is never closed.)", "quantifier": "every interleaving of acquiring, releasing and closing", "why_tests_cant": "Depends on the schedule.", "anchors": ["pkg/proxywasm/vm_store.go", "pkg/proxywasm/vm.go", "pkg/proxywasm/api/vm.go"]}
{"id": "C212", "title": "An error page is not taken for the code of a filter", "statement": "A response with an error status is not taken for the code of a filter. (False of the code.)", "quantifier": "every sequence of calls and answers", "why_tests_cant": "All histories of failures.", "anchors": ["pkg/proxywasm/data_store.go"]}
{"id": "C213", "title": "Plugins with the same root id do not interfere", "statement": "Plugins with the same root id, and plugins added at the same time, keep their configuration and contexts. (False of the code.)", "quantifier": "every history of plugins with different root ids added and filters started", "why_tests_cant": "All combinations of names and all histories.", "anchors": ["pkg/proxywasm/context.go", "pkg/proxywasm/plugin_manager.go:Add", "pkg/proxywasm/plugin.go", "pkg/proxywasm/host.go:SetEffectiveContextID"]}
{"id": "C214", "title": "The root certificates are those of the revision asked for", "statement": "The root certificates found in the cluster are those of the revision asked for, and a cluster that lacks them gives an error. (Part: true if there is a config map of the revision with root certificates; otherwise those of another revision are used, or the program crashes.)", "quantifier": "every cluster", "why_tests_cant": "All sets of services, config maps and gateways.", "anchors": ["pkg/ca/istio/config.go", "pkg/k8s/service/endpoint.go"]}
{"id": "C215", "title": "A failing file system does not change the source of the configuration", "statement": "If the file system cannot tell whether the token exists, the files in the pod are not used. (False of the code.)", "quantifier": "every environment, every token and every two instances", "why_tests_cant": "All environments.", "anchors": ["pkg/ca/istio/config.go", "pkg/k8s/service/endpoint.go", "pkg/istio/istio.go:IstioCAConfigGetterAuto"]}
{"id": "C216", "title": "No metrics are left at the gateway", "statement": "When the handler has ended none of its metrics stay at the gateway. (Part: true if requests are handled in the order in which they were sent and the removal succeeds; a push overtaken by the removal stays for ever.)", "quantifier": "every history of pushes, failures and the end of the context", "why_tests_cant": "Depends on the moment of the end relative to pushes on their way.", "anchors": ["pkg/istio/istio.go:NewIstioIntegrationHandler,Run,GetDiscoveryClient,RunMetricsPusher,RunMetricsServer", "pkg/istio/istio_passthrough_handler.go"]}
{"id": "C217", "title": "An enabled handler without TLS works", "statement": "No configuration that is accepted crashes the program, in particular enabled without TLS. (False of the code.)", "quantifier": "every configuration and every call", "why_tests_cant": "All combinations of settings and of the calls made with them.", "anchors": ["pkg/istio/istio.go:NewIstioIntegrationHandler,Run,GetDiscoveryClient,RunMetricsPusher,RunMetricsServer", "pkg/istio/istio_passthrough_handler.go"]}
{"id": "C218", "title": "gRPC connections are verified as the mesh says", "statement": "A gRPC connection is encrypted only if the mesh says so, and only made to a server whose certificate the verifier of the mesh confirms; filters see the state of the connection that carries the call. (Part: the state is right if calls use the newest connection. Otherwise it is that of another connection; servers are not verified with the mesh's verifier, plaintext servers cannot be reached.)", "quantifier": "every host, every answer of the mesh, every server and every history of dials and calls", "why_tests_cant": "All combinations of settings and servers, and all histories.", "anchors": ["pkg/proxywasm/grpc/dialer.go:Dial,RequestInterceptor", "pkg/istio/istio.go:GetGRPCDialOptions"]}
{"id": "C219", "title": "CA connections are used completely and closed", "statement": "A chain the CA signs is used, and connections to the CA are closed when they are no longer needed. (Part: a chain of two or more certificates for the key is used; connections stay open.)", "quantifier": "every configuration, server and answer, every number of requests", "why_tests_cant": "All configurations and answers.", "anchors": ["pkg/ca/istio/istio_ca_client.go", "pkg/ca/istio/istio_ca.go:GetCertificate"]}
{"id": "C220", "title": "Damaged compressed batches are reported", "statement": "The error of a damaged compressed stream is reported after the bytes before it. (False of the code.)", "quantifier": "every intact stream, every way it arrives and every sequence of reads and single bytes", "why_tests_cant": "All sizes of buffers and reads.", "anchors": ["components/kafka-protocol-go/pkg/compression/gzip/gzip.go", "components/kafka-protocol-go/pkg/compression/snappy/snappy.go"]}
{"id": "C221", "title": "Transports can be shared between threads", "statement": "A transport can be used from any threads exactly as long as someone holds it, with the settings it was opened with. (False of the code: url and token with the same hash share one, concurrent closing and opening lose one, cancelling leaves one.)", "quantifier": "every history of opening, failing and closing, one after the other", "why_tests_cant": "All histories and interleavings.", "anchors": ["experimental/python/nasp/nasp.go"]}
{"id": "C222", "title": "Binary responses reach Python unchanged", "statement": "A body with zero bytes reaches Python as it was received. (False of the code.)", "quantifier": "every response", "why_tests_cant": "All bodies and headers.", "anchors": ["experimental/python/nasp/nasp.go"]}
{"id": "C223", "title": "Java gets every log line", "statement": "However many lines wait and whenever logging is set up, every line reaches Java. (False of the code.)", "quantifier": "every history of logging and of asking for batches", "why_tests_cant": "All histories.", "anchors": ["experimental/java/log.go:NextLogBatchJSON"]}
{"id": "C224", "title": "Equal messages are the same", "statement": "Two messages are Equal exactly if all their fields are the same, so that Equal messages are serialized alike. (False of the code: null equals empty, record attributes are ignored, NaN is not Equal to itself.)", "quantifier": "all pairs and triples of messages without NaN of all schemas", "why_tests_cant": "two values of arbitrary nested messages are compared; the claim ranges over all of them", "anchors": ["components/kafka-protocol-go/assets/templates/struct_processor.tmpl:Equal", "components/kafka-protocol-go/pkg/protocol/types/fields/util.go:PrimitiveTypeSliceEqual", "components/kafka-protocol-go/pkg/protocol/types/fields/util.go:NullableStringSliceEqual", "components/kafka-protocol-go/pkg/protocol/types/fields/string.go:Equal", "components/kafka-protocol-go/pkg/protocol/types/fields/batchrecord.go:Equal", "components/kafka-protocol-go/pkg/protocol/types/fields/recordbatch.go:Equal"]}
{"id": "C225", "title": "The config map of a tunnel server lists the ports listened on", "statement": "When nothing is on its way, the config map lists exactly the ports the server listens on for its clients, each with the name of its session. (Part: true if no event of a port is taken while another one of the same port is still being handled; otherwise a listened port can be left out for ever and a closed one can stay listed.)", "quantifier": "every history of listening, failing and closing, and every interleaving of event handlers and reconciles", "why_tests_cant": "all interleavings of the handlers of two event topics and the reconciler", "anchors": ["pkg/network/tunnel/server/port.go:Listen", "components/bifrost/pkg/commands/server.go", "components/bifrost/pkg/controllers/configmap.go:Reconcile", "components/bifrost/pkg/controllers/configmap.go:TriggerReconcile"]}
{"id": "C226", "title": "Large records of gzip-compressed batches are read as written", "statement": "Also records with keys or values of 16 KiB and more are read from a gzip-compressed batch as they were written. (False of the code: a value of more than 48 KiB is never read completely; the record is returned without key, value and headers, without an error, and the rest of its bytes is taken for the next record.)", "quantifier": "every such list of records, every splitting of the decompressed stream into pieces", "why_tests_cant": "all records of all sizes and all splittings of the stream", "anchors": ["components/kafka-protocol-go/pkg/protocol/types/fields/batchrecord.go:Read", "components/kafka-protocol-go/pkg/protocol/types/fields/recordheader.go:Read", "components/kafka-protocol-go/pkg/compression/gzip/gzip.go:Read", "components/kafka-protocol-go/pkg/compression/gzip/gzip.go:ReadByte", "components/kafka-protocol-go/pkg/serialization/reader.go:Read"]}
{"id": "C227", "title": "Malformed metadata of the peer do no harm", "statement": "Whatever bytes a peer sends as its metadata, reading them never crashes the program. (False of the code.)", "quantifier": "every byte string", "why_tests_cant": "An adversary chooses the bytes.", "anchors": ["pkg/istio/fb/FlatNode.go", "pkg/istio/fb/KeyVal.go", "pkg/istio/istio_middleware.go:AfterResponse"]}
{"id": "C228", "title": "A rejected state-of-the-world xDS update leaves the configuration unchanged", "statement": "When a state-of-the-world discovery response, or one with a name table, is rejected, the resources visible to the application stay exactly as before. (Part: true for endpoints and routes all of whose resources are subscribed, and for state-of-the-world name tables; a rejected cluster update removes the whole configuration.)", "quantifier": "every cache state and every response", "why_tests_cant": "All states and malformed responses; only some orders of duplicates lose data.", "anchors": ["pkg/ads/common.go: AddResources, SetResources", "pkg/ads/client.go: handleResponse"]}
