#!/usr/bin/env python3
"""Writes /verif/properties.jsonl (one JSON object per line)."""
import json, os
K = "components/kafka-protocol-go/pkg/"
P = []
def p(id, title, statement, quantifier, why, anchors):
    P.append(dict(id=id, title=title, statement=statement, quantifier=quantifier,
                  why_tests_cant=why, anchors=anchors))

p("C01", "Kafka varints round-trip",
  "Writing any uint32, int32 or int64 with the varint writers and reading the produced bytes with the matching reader returns the same value and consumes exactly the written bytes, leaving whatever follows untouched.",
  "every value of the type, every byte string that follows",
  "2^64 values times arbitrary continuations; tests sample a handful of boundary values.",
  [K+"protocol/types/varint/varint.go: WriteUint32, ReadUint32, WriteInt32, ReadInt32, WriteInt64, ReadInt64"])
p("C02", "Varint size functions equal the bytes written",
  "Uint32Size, Int32Size, Uint64Size and Int64Size return exactly the number of bytes the matching writer emits.",
  "every value of the type",
  "The error sits in one of ten power-of-128 bands of a 64-bit domain; sampled tests miss a band (they did: see the finding for [2^49, 2^56)).",
  [K+"protocol/types/varint/varint.go: Uint32Size, Int32Size, Uint64Size, Int64Size"])
p("C03", "Varint readers are safe on arbitrary input",
  "On any byte string the varint readers either return a value that fits the type after consuming a non-empty prefix of at most ten bytes, or report an error; a 32-bit read never yields a value outside 32 bits, and truncating an encoding anywhere makes the read fail.",
  "every byte string, every truncation point",
  "Adversarial inputs are unbounded; fuzzing samples them.",
  [K+"protocol/types/varint/varint.go: ReadUint32, ReadInt32, ReadInt64"])
p("C04", "Fixed-width primitives round-trip and have constant size",
  "bool, int8, int16, uint16, int32, int64, float64 (by bit pattern) and UUID fields are written big-endian in 1/1/2/2/4/8/8/16 bytes, are read back unchanged leaving the rest of the input untouched, and reading them from fewer bytes fails; at versions that do not support the field nothing is written or consumed.",
  "every value, every version, every following byte string",
  "Whole value domains and all truncation points.",
  [K+"protocol/types/int.go", K+"protocol/types/bool.go", K+"protocol/types/float.go", K+"protocol/types/fields/uuid.go"])
p("C05", "String fields round-trip",
  "A (nullable) string accepted by the string writer is read back as the same string (null stays null, empty stays empty), in both the compact and the classic encoding.",
  "every string, every version context, every following byte string",
  "All strings and all contexts; the one string that breaks it (the four bytes \"null\") is invisible to sampling.",
  [K+"protocol/types/fields/string.go: String.Read, String.Write, NullableString.SetValue"])
p("C06", "Bytes and array fields round-trip with nil distinct from empty",
  "A byte slice or array (of primitives or of structures) accepted by the writer is read back identical, including the nil/empty distinction, in both encodings.",
  "every slice length and content, every element codec that round-trips, every version context",
  "Unbounded lengths and element types.",
  [K+"protocol/types/fields/bytes.go", K+"protocol/types/fields/array.go", K+"protocol/types/fields/arrayofstruct.go"])
p("C07", "Tagged-field sections round-trip in canonical order",
  "Writing a set of raw tagged fields succeeds exactly when no tag occurs twice, emits them in strictly ascending tag order, and reading the section back yields exactly those fields.",
  "every list of tagged fields in any order, every following byte string",
  "All permutations and payloads; an empty last payload at end of input breaks it.",
  [K+"protocol/types/fields/taggedfields.go: ReadRawTaggedFields, WriteRawTaggedFields"])
p("C08", "SizeInBytes of a message equals the bytes Write emits",
  "For every message structure the generator can emit, whenever Write succeeds SizeInBytes succeeds too and returns exactly the number of bytes Write appended.",
  "every message schema, every value, every version",
  "All schemas (130+ generated messages), nested to any depth, all values.",
  ["components/kafka-protocol-go/assets/templates/struct_processor.tmpl", K+"protocol/messages/**"])
p("C09", "Every Kafka message round-trips",
  "For every message structure the generator can emit and every version, reading the bytes written for a value yields an equal value and leaves the following bytes unread.",
  "every message schema with distinct tags, every canonical value, every version, every following byte string",
  "All schemas, all values; tests check one sample per message.",
  ["components/kafka-protocol-go/assets/templates/struct_processor.tmpl: Read, Write, SetDefault", K+"protocol/messages/**"])
p("C10", "The generated message table satisfies the codec's assumptions",
  "Every request, response and header structure shipped with the library has distinct tags per structure, tagged versions only where the structure is flexible, and version ranges such that the round-trip guarantee applies to each (api key, version) pair the library advertises.",
  "every generated message, every supported version",
  "The claim is about the interplay of ~140k generated lines; a unit test covers single messages.",
  [K+"protocol/messages/**", "components/kafka-protocol-go/cmd/gen/context.go", K+"protocol/messages/requests.go"])
p("C11", "Null is only accepted where the protocol allows it",
  "Null for a string, bytes or array field is rejected both on write and on read at every version at which the field is not nullable.",
  "every field context, every version, every input",
  "All contexts times versions.",
  [K+"protocol/types/fields/context.go: IsNullableVersion", "components/kafka-protocol-go/cmd/gen/context.go: contextFromFieldSpec"])
p("C12", "Version gating never loses data silently",
  "A message holding a non-default value in a non-ignorable field that the requested version does not support is rejected by Write and SizeInBytes; unsupported fields contribute no bytes.",
  "every schema, value and version",
  "All combinations of fields and versions.",
  ["components/kafka-protocol-go/assets/templates/struct_processor.tmpl: validateNonIgnorableFields"])
p("C13", "Batch records and headers round-trip",
  "A record (attributes, timestamp delta, offset delta, key, value, headers) written to a batch is read back identical, including null versus empty keys and values, and the length prefix equals the number of bytes that follow.",
  "every record, every following byte string",
  "All keys, values, headers and deltas; the length prefix is wrong only in one band of timestamp deltas.",
  [K+"protocol/types/fields/batchrecord.go", K+"protocol/types/fields/recordheader.go"])
p("C14", "Truncated records are rejected",
  "Reading a record or header from a proper prefix of its encoding fails instead of returning a record with missing parts.",
  "every record, every truncation point",
  "All truncation points of all records.",
  [K+"protocol/types/fields/batchrecord.go: Read", K+"protocol/types/fields/recordheader.go: Read"])
p("C15", "Record batch layout",
  "A written v2 record batch has the fixed 61-byte header with every field at its protocol offset, the length field counts exactly the bytes after it, and the CRC field is the CRC-32C of exactly the bytes from the attributes to the end.",
  "every batch",
  "All batches; a test compares one dump.",
  [K+"protocol/types/fields/recordbatch.go: Write"])
p("C16", "Record batches round-trip",
  "Reading an uncompressed batch written by the library returns an equal batch and leaves following bytes unread.",
  "every batch, every following byte string",
  "All batches.",
  [K+"protocol/types/fields/recordbatch.go: Read, Write"])
p("C17", "Corrupted batches are detected",
  "A batch whose CRC field does not match its content is rejected on read.",
  "every batch and every corruption",
  "All corruptions.",
  [K+"protocol/types/fields/recordbatch.go: Read"])
p("C18", "A sequence of batches is read completely and a partial last batch is dropped",
  "Reading a records section that holds n complete batches followed by an incomplete one returns exactly the n complete batches and consumes the section.",
  "every number of batches, every truncation of a trailing batch",
  "Unbounded sequences and truncations.",
  [K+"protocol/types/fields/recordbatches.go: Read, nextBatchSize", K+"protocol/types/fields/records.go"])
p("C19", "Header versions agree with message flexibility",
  "For every api key and supported version, the request header version is 2 exactly when the request is flexible and 1 otherwise (0 for ControlledShutdown v0), and the response header version is 1 exactly when the response is flexible, except ApiVersions which is 0.",
  "every api key and version",
  "Cross-product of two hand/generated tables; tests check single entries.",
  [K+"request/header.go", K+"response/header.go", K+"protocol/messages/**"])
p("C20", "Requests and responses round-trip through the envelope",
  "Parsing a serialized request with the library returns the same header and body; parsing a serialized response against its request's api key, version and correlation id returns the same response, and a response with another correlation id is rejected.",
  "every message, version, correlation id and client id",
  "All messages.",
  [K+"request/request.go", K+"response/response.go"])
p("C21", "ApiVersions responses from older brokers are understood",
  "A version-0 ApiVersions response answering a newer ApiVersions request (the UNSUPPORTED_VERSION case) is parsed as version 0.",
  "every request version, every version-0 response",
  "Needs reasoning about the parse path for all versions.",
  [K+"response/response.go: Parse"])
p("C22", "A chunk reader never leaves its chunk",
  "Any sequence of Read, ReadByte, UnreadByte, ReadAt and Seek calls on a (nested) chunk reader only returns bytes of its window of the underlying data, in order, and Len is the number of bytes left in the window.",
  "every nesting depth, window and call sequence",
  "Unbounded call histories.",
  [K+"protocol/types/bytes/chunkreader.go"])
p("C23", "A slice writer never exceeds its capacity and keeps earlier bytes",
  "Any sequence of Write, WriteAt, InsertAt and Seek keeps the content within the capacity; Write appends at the position, InsertAt shifts and keeps all other bytes, a failing call changes nothing observable.",
  "every capacity and call sequence",
  "Unbounded call histories.",
  [K+"protocol/types/bytes/slicewriter.go"])
p("C24", "Pooled buffers are large enough and never shared",
  "GetByteSlice(len, cap) returns a slice of that length with at least that capacity, and between Get and Release no other Get returns the same buffer.",
  "every request size, every interleaving of gets and releases",
  "All sizes and histories.",
  [K+"pools/pool.go"])
p("C25", "Version range strings are parsed as written",
  "\"a-b\", \"a+\" and \"a\" parse to [a,b], [a,32767] and [a,a] and anything else is an error.",
  "every string",
  "All strings.",
  ["components/kafka-protocol-go/internal/protocol/versions.go: VersionRange"])
p("C26", "The xDS cache only holds subscribed resources",
  "After any sequence of subscription changes and management-server updates, every cached resource was received from the server, is held under the name the server gave it, and was subscribed for when it was stored.",
  "every history of subscribe/unsubscribe/update operations",
  "Unbounded histories.",
  ["pkg/ads/common.go: resourceCache"])
p("C27", "A rejected xDS update leaves the configuration unchanged",
  "When a discovery response is rejected (NACK), the resources visible to the application stay exactly as before.",
  "every cache state and every response",
  "All states and malformed responses; only some orders of duplicates lose data.",
  ["pkg/ads/common.go: AddResources, SetResources", "pkg/ads/client.go: handleResponse"])
p("C28", "ACK/NACK protocol",
  "Every response is answered by exactly one request for the same type carrying the response's nonce; an ACK carries the new version and a NACK carries the last accepted version together with the error.",
  "every history of responses",
  "Unbounded histories.",
  ["pkg/ads/client.go: ack, nack, handleStreamReceive"])
p("C29", "EDS and RDS subscriptions track the accepted clusters and listeners",
  "After clusters (listeners) are accepted, the set of subscribed load assignments (route configurations) is exactly the set referenced by them, and stats are kept for exactly the clusters present.",
  "every accepted cluster/listener set and prior subscription",
  "All histories.",
  ["pkg/ads/cluster.go: onClustersUpdated", "pkg/ads/listener.go: onListenersUpdated"])
p("C30", "Load balancers only return healthy known endpoints",
  "Every load-balancer pick returns an endpoint of the given non-empty list; the least-request balancer returns one of its sampled endpoints with the fewest active requests.",
  "every endpoint list, load state and random source",
  "All random outcomes.",
  ["pkg/ads/internal/loadbalancer/*.go"])
p("C31", "Weighted round robin is proportionally fair",
  "The weighted round-robin pick is the endpoint furthest below its share, so over any number of picks an endpoint's selections stay close to its weight share.",
  "every weight vector and every number of picks",
  "Unbounded pick sequences.",
  ["pkg/ads/internal/loadbalancer/lb_wrr.go", "pkg/ads/internal/cluster/cluster.go: SelectCluster"])
p("C32", "Weighted cluster selection picks a listed cluster",
  "A route with weighted clusters always yields one of its clusters with positive weight, and repeated selection follows the weights.",
  "every weight vector and selection history",
  "Unbounded histories.",
  ["pkg/ads/internal/cluster/cluster.go: SelectCluster"])
p("C33", "Filter chain selection follows the documented precedence",
  "The filter chain selected for a destination matches its port and address: a chain matching the exact port is preferred over one without port, and a chain whose prefix ranges contain the address over one without ranges; no chain is returned if none matches.",
  "every list of filter chains and destination",
  "All lists.",
  ["pkg/ads/api_listener_properties.go: findFilterChain, matchPrefixRanges"])
p("C34", "HTTP target cluster lookup respects domain precedence",
  "The virtual host used for an outbound HTTP request is the unique one whose domains contain the most specific form of the address; ambiguous or missing matches are errors, never an arbitrary choice.",
  "every route configuration and address",
  "All configurations.",
  ["pkg/ads/api_http_client.go", "pkg/ads/internal/virtualhost/*.go"])
p("C35", "Published results are never lost or reordered",
  "An observer of client/listener properties always eventually gets the latest published value, never an older value after a newer one, and nothing after cancellation.",
  "every interleaving of publish, observe and cancel",
  "All schedules.",
  ["pkg/ads/api_result.go: apiResultObservable"])
p("C36", "Tunnel ports are exclusive and within range",
  "The port provider never hands out a port that is currently held, only hands out ports of its configured range, hands out a released port again, and reports exhaustion only when every port of the range is held.",
  "every range and every interleaving of get/getFree/release",
  "Unbounded histories.",
  ["pkg/network/tunnel/server/port_provider.go"])
p("C37", "Closing a tunnel session releases all its ports",
  "After a client session is closed every port that was assigned to it is free again, and no other session's port is freed.",
  "every history of port requests in any number of sessions",
  "Unbounded histories.",
  ["pkg/network/tunnel/server/session.go: requestPort, Close"])
p("C38", "Only authenticated clients get a control stream",
  "With an authenticator configured, a control stream is established only if the authenticator accepted the presented token, and at most one control stream exists per session.",
  "every authenticator answer and message sequence",
  "All authenticators and histories.",
  ["pkg/network/tunnel/server/session.go: openControlStream", "pkg/network/tunnel/auth/k8stoken.go"])
p("C39", "A tunnelled connection reaches exactly the requester",
  "Each stream opened by the client with a connection id is delivered to the one pending request with that id, at most once; unknown or reused ids are rejected and reported to the client as errors.",
  "every interleaving of requests, stream openings and timeouts",
  "All schedules.",
  ["pkg/network/tunnel/server/session.go: RequestConn, openTCPStream", "pkg/network/tunnel/client/session.go: OpenTCPStream"])
p("C40", "The connection pool never shares or leaks connections",
  "Between Get and Put a pooled connection is owned by one caller; at most the configured maximum of connections is idle; closed connections are never handed out; after Close every idle connection is closed and Get fails.",
  "every history of get/put/discard/close",
  "Unbounded histories.",
  ["pkg/network/pool/channel.go", "pkg/network/pool/conn.go"])
p("C41", "The pool registry count is exact",
  "Len always equals the number of registered pools, adding never replaces a registered pool, and closing the registry closes and removes every pool.",
  "every history of add/remove/cleanup/close",
  "Unbounded histories.",
  ["pkg/network/pool/syncmap_registry.go"])
p("C42", "Filtered connections are transparent byte streams",
  "With filters that let data pass, the bytes returned by successive reads (writes) on a filtered TCP connection are exactly the bytes received from (handed to) the peer, in order, without loss or duplication, for any buffer sizes; end of stream is reported only after all bytes.",
  "every chunking of the stream and every sequence of buffer sizes and pause decisions",
  "Unbounded interleavings.",
  ["pkg/proxywasm/tcp/conn.go: Read, Write, Close"])
p("C43", "Metric ids identify metrics",
  "Metric ids handed to filters are unique, never reused for another metric, recording through an id reaches the metric it was defined for, and defining the same metric again returns the same id.",
  "every history of define/remove/record calls",
  "Unbounded histories.",
  ["pkg/proxywasm/metrics.go"])
p("C44", "Filter chains run in order and a pause stops the chain",
  "Stream callbacks run the selected filters in configuration order, exactly once each, up to the first pause or error; data passes only if no filter paused.",
  "every filter list and filter behaviour",
  "All filter behaviours.",
  ["pkg/proxywasm/stream.go"])
p("C45", "Maps handed to filters are decodable",
  "The pair serialization of a string map used for filter properties is decoded by the proxy-wasm pair format into exactly the same map.",
  "every map",
  "All maps.",
  ["pkg/proxywasm/utils.go: serializeMapToPairs"])
p("C46", "String matchers mean what they say",
  "exact/prefix/suffix/contains matchers accept exactly the values that are equal to/start with/end with/contain the pattern, modulo ASCII case when case is ignored.",
  "every pattern and value",
  "All strings.",
  ["pkg/util/string_matcher.go"])
p("C47", "Certificate verification is a conjunction",
  "A peer certificate is accepted only if the chain verifies and, for each configured non-empty list, the certificate hash, the public-key hash and at least one SAN match; an empty list does not restrict.",
  "every certificate, chain result and configuration",
  "All configurations.",
  ["pkg/tls/verify/verify.go"])
p("C48", "Dotted-path property store obeys get/set laws",
  "After Set(path, v) a Get of the same path returns v and a Get of an unrelated path is unchanged.",
  "every store, path and value",
  "All stores; breaks at paths through non-map values.",
  ["pkg/dotn/dotn.go"])
p("C49", "Workload labels resolve in the documented order",
  "Canonical name and revision of a workload are taken from the first present label in the documented precedence, otherwise the given default.",
  "every label map",
  "All maps.",
  ["pkg/k8s/labels/labels.go"])
p("C50", "Permissive listener classifies without losing bytes",
  "In permissive mode a connection is treated as TLS exactly when its first three bytes are a TLS handshake record header of version 1.0-1.3; in strict mode always, in disabled mode never; the handler reads the stream from its first byte.",
  "every byte stream and mode",
  "All streams.",
  ["pkg/network/listener/unified_tls_listener.go"])
p("C51", "The multi-listener is the union of its listeners",
  "A listener id is registered at most once, every accepted connection comes from a registered listener and is returned once, and after Close no listener remains.",
  "every interleaving of add/remove/accept/close",
  "All schedules.",
  ["pkg/network/listener/multi_listener.go"])
extra = os.path.join(os.path.dirname(__file__), "props_extra.py")
if os.path.exists(extra):
    exec(open(extra).read())
with open(os.path.join(os.path.dirname(__file__), "..", "properties.jsonl"), "w") as f:
    for x in P:
        f.write(json.dumps(x) + "\n")
print(len(P))
