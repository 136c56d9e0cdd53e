# Properties that the code satisfies only in part were split: the old id keeps what holds without restriction, the new id
# (C153...) keeps the full claim of the rest. Executed by props_extra.py.
def upd(id, title=None, statement=None, quantifier=None):
    for d in P:
        if d["id"] == id:
            if title: d["title"] = title
            if statement: d["statement"] = statement
            if quantifier: d["quantifier"] = quantifier
def split(old, new, title, statement, quantifier=None, why=None, anchors=None):
    d = [d for d in P if d["id"] == old][0]
    p(new, title, statement, quantifier or d["quantifier"], why or d["why_tests_cant"], anchors or d["anchors"])

upd("C33", None, "A lookup selects exactly the filter chains, in configuration order, that match the destination: a chain for the exact port is preferred over one without port, and a chain one of whose prefix ranges contains the address over one without ranges; none is selected if none matches, and a lookup fails only because of a malformed range in a chain for the port.")
split("C33", "C153", "The filter chain with the longest prefix is selected", "Of the filter chains for the port whose ranges contain the destination address, those with the longest prefix are selected. (Part: true if all ranges containing the address are equally long; otherwise the chains of the wider ranges are selected, too.)")
upd("C46", None, "exact, prefix, suffix and contains matchers, also those received from the control plane, accept exactly the values that are equal to/start with/end with/contain the pattern, modulo case when case is ignored; a regular expression matcher accepts what the expression (in lower case, against the value in lower case, when case is ignored) matches; a matcher is refused only if its expression does not compile; one that ignores case does not distinguish values that differ only in case.")
split("C46", "C154", "Matchers written as text mean what they say", "The text of a matcher is KIND:flag:pattern and is read as that matcher; what a matcher prints is read back as the same matcher; malformed text is refused without a crash; a regular expression that ignores case accepts what the expression accepts up to case. (Part: reading and printing are characterised exactly. What is printed cannot be read back, a subject name matcher without a colon crashes, and putting an expression in lower case changes its meaning.)")
upd("C53", None, "The properties reported for a listener address come from the only inbound listener that matches it: TLS is used exactly if one of the filter chains that apply takes TLS, it is permissive exactly if another one takes plaintext, the validation rules are those of a TLS chain in use; the order in which the control plane sent the listeners does not matter.")
split("C53", "C155", "A required client certificate is reported as required", "A listener is reported as requiring client certificates if one of the filter chains that apply requires one, in whatever order they are listed. (Part: true if the TLS chains agree; otherwise the last TLS chain decides.)")
split("C54", "C156", "A resolved host name has an address", "A successful name lookup gives at least one address, and a name without a usable address does not hide the qualified names of the search list. (Part: true if every name the mesh knows has a well-formed address.)")
upd("C36", None, "The port provider never hands out a port that is currently held, only hands out ports of its configured range, and hands out any port that is not held, in particular one that was just released, when it is asked for.")
split("C36", "C157", "Tunnel ports are only exhausted when all are held", "Asked for any free port, the provider reports exhaustion only when every port of the range is held. (Part: true except for the last port of the range, which is never handed out this way.)")
upd("C39", None, "A stream that reaches a requester was opened by the client with that requester's id; a requester gets at most one stream and a stream reaches at most one requester; at most one stream per id is accepted, and a stream with an id that is not pending is answered with an error.")
split("C39", "C158", "Accepted tunnel streams are delivered and rejected ones reported", "Every stream the server accepted is delivered to its requester, and the client of a rejected stream gets an error. (Part: delivery is possible while the requester waits, and control streams do report errors. A requester that times out at the wrong moment leaves the accepted stream undelivered for ever, and a client of a rejected stream sees success.)")
upd("C30", "Load balancers only hand out healthy known endpoints", "Whatever the policy, an address handed out is that of a healthy endpoint of the load assignment; a random pick from a non-empty list is one of it and can be any of it; the least-request pick is one of its sample with the fewest active requests, any sample is possible, and with a choice count between 1 and the number of endpoints there always is a pick; the end of a request undoes its start.")
split("C30", "C159", "Load balancing always answers", "A connection attempt to a cluster is answered with an address if it has a healthy endpoint, and with an error otherwise. (Part: true for the random policy, and for least request with equal weights and a choice count up to the number of healthy endpoints. A greater choice count crashes, and so does every policy if no endpoint is healthy.)")
upd("C152", "Idle pools and idle pooled connections expire on time", "A connection pool that is not used is closed within its idle timeout plus a second; a connection that was given back and not asked for is closed the connection idle timeout later, not earlier, and one that was asked for again is not closed by its timer.")
split("C152", "C160", "A pool in use is not closed for idleness", "A connection pool is closed for idleness only if it was not used for its idle timeout, and the initial connections of a pool expire like others. (Part: a pool used within the timeout is not closed unless the use comes between check and close; it may be closed while a connection of it is in use for long, or a second after it was created if its initial connections took long to make; the initial connections have no idle timer.)")
upd("C13", None, "A record (attributes, timestamp delta, offset delta, key, value, headers) whose parts fit their length fields is written to a batch and read back identical, including null versus empty keys and values (a null header key is read as an empty one), leaving what follows.")
split("C13", "C161", "The length prefix of a record is its length", "A record is written as the number of the bytes that follow, and those bytes; SizeInBytes is the number of bytes written. (Part: true unless the timestamp delta is in the band in which the size function is wrong, see C163; there the prefix is one too large.)")
upd("C25", None, "\"a-b\", \"a+\" and \"a\" parse to [a,b], [a,32767] and [a,a].", "every string of one of the forms")
split("C25", "C162", "Malformed version ranges are refused", "A string that is none of \"a-b\", \"a+\" and \"a\" is refused as a version range. (Part: true for strings without '+'; whatever follows a '+' is ignored.)", "every string")
upd("C02", "32-bit varint size functions equal the bytes written", "Uint32Size and Int32Size return exactly the number of bytes the matching writer emits.")
split("C02", "C163", "64-bit varint size functions equal the bytes written", "Uint64Size and Int64Size return exactly the number of bytes the matching writer emits. (Part: true except on the band [2^49, 2^56) of the zig-zag value, where they return one byte too many.)")
upd("C06", "Bytes fields round-trip with nil distinct from empty", "A byte slice accepted by the writer is read back identical, including the nil/empty distinction, in both encodings.", "every slice length and content, every version context")
split("C06", "C164", "Array fields round-trip with nil distinct from empty", "An array (of primitives or of structures) accepted by the writer is read back identical, including the nil/empty distinction, in both encodings. (Part: true for arrays whose length fits the length field; longer ones are accepted and read back as something else.)", "every array length and content, every element codec that round-trips, every version context")
upd("C07", "Tagged fields are written in canonical order", "Writing a set of raw tagged fields succeeds exactly when no tag occurs twice, and emits a count followed by the fields (tag, length, value) in strictly ascending tag order.", "every list of tagged fields in any order")
split("C07", "C165", "Tagged-field sections are read back", "Reading a written tagged-field section yields exactly the fields written and leaves what follows. (Part: true unless a field with an empty value ends the input, which is not read back.)", "every list of tagged fields in any order, every following byte string")
upd("C28", None, "Every response of a supported type is answered by exactly one request for the same type, which is an error exactly if the update was rejected; an ACK carries the response's nonce and version, a NACK in the incremental protocol the response's nonce, a NACK in the state-of-the-world protocol the last accepted version; an invalid response is NACKed and changes nothing of its type.")
split("C28", "C166", "Answers carry the nonce of the response", "Every response is answered with its own nonce, and the first requests on a new stream carry no nonce of an old one. (Part: true for supported types in the incremental protocol. In the state-of-the-world protocol a NACK carries no nonce, and the first requests after a reconnection carry old ones; a response of an unsupported type ends the stream without an answer.)")
upd("C35", "Published results are never reordered", "An observer of client/listener properties gets results of its own input in the order in which they were computed, never an older one after a newer one; an unread result is replaced by a newer one without help of the reader; its channel is closed at most once, exactly when the observer has ended, and not used afterwards; a refresh computes the result of every input once; nothing is sent on a closed channel.")
split("C35", "C167", "Published results are never lost", "An observer of client/listener properties always eventually gets the latest published value, nothing after cancellation, and no call blocks or crashes. (Part: no update is lost if registering does not replace the stored result under other observers, and nothing blocks if readers do not race with the replacement of an unread result and refreshes do not overtake pending notifications. Otherwise an observer can be left with an outdated result, all observers can be blocked for ever, a nil result crashes the process, and a result can arrive after cancellation.)")
upd("C18", "A sequence of batches is read completely", "Reading a records section that holds n batches returns exactly these n batches and consumes the section.", "every number of batches")
split("C18", "C168", "A partial last batch is dropped", "Reading a records section that holds n complete batches followed by an incomplete one returns exactly the n complete batches and consumes the section. (Part: true if the incomplete batch has at least 17 bytes; a shorter one is left in the input.)", "every number of batches, every truncation of a trailing batch")
upd("C44", "Filter chains run in order", "A stream uses exactly the named filters (all if none is named) in configuration order. Data callbacks run them in order, once each, up to the first pause or error, and data passes only if none paused. If a request (without a pause at its headers) or a response is handled successfully, every filter was called in order for the headers and then for every chunk of the whole body, and the body handed on is the original one; a pause at the request headers stops the filters; no error of a filter is swallowed. Filters are called locked, one at a time, and no lock is left behind.")
split("C44", "C169", "A pause stops what it should stop", "A pause stops the chain and what it filters in every callback, closing a stream releases every filter, and naming an unknown filter is an error. (Part: the new-connection callback runs all filters in order up to the first error, and a stream that is closed without an error has released all filters, each once. A pause at the request headers lets the request pass, pauses at response headers or new connections are ignored, an error at Close leaves filters unreleased, unknown names select nothing.)")
upd("C51", "The multi-listener returns every connection once, in order", "Every connection Accept returns was accepted by a listener that had been added, none is returned twice, those of one listener in order; a connection on its way is not lost; a duplicate is reported only if the id is registered; nothing arrives from a closed listener; a connection on an open listener reaches a waiting Accept.")
split("C51", "C170", "The multi-listener registers ids once and can be closed", "A listener id is registered at most once, after Close no listener remains and every connection was returned, and nothing panics. (Part: true if calls do not overlap, listeners have no id of their own and Close is called after all listeners were removed. Overlapping AddListener calls register an id twice; a listener with an id survives Close; Close with a connection on its way panics or loses it.)")
upd("C78", "PII detection answers correctly and only masks", "DetectPII reports PII exactly if one of its patterns matches the text; without PII or without masking the text is unchanged; with masking, it keeps its length, every byte is kept or becomes an asterisk, and all matches of some matching pattern are hidden.")
split("C78", "C171", "PII masking hides exactly what the patterns match", "With masking exactly the matches of the patterns (of assignments only the value) become asterisks, and the result does not depend on the order in which the patterns are tried. (Part: true if masking one pattern does not change the matches of another; otherwise PII stays readable, depending on the order.)")
upd("C52", "Load is distributed by health and weight", "Unhealthy endpoints get no load; among localities of one priority with different names and enough healthy endpoints a larger weight never gets a smaller load; among the healthy endpoints of a locality a larger weight with no more active requests never gets a smaller load.", "every load assignment, policy and counter state")
split("C52", "C172", "Lower priorities are used only for failover", "A lower priority gets traffic only when the priorities above it lack healthy endpoints, and weights matter under every policy. (Part: true for policies that use the computed loads, and localities with different names. Random and equal-weight least request ignore priorities, least request ignores the weights of a single locality, and a locality in two priorities crashes round robin.)")
upd("C31", "Weighted round robin picks the endpoint furthest below its share", "The weighted round-robin pick is the endpoint furthest below its share, and over any number of picks no endpoint exceeds its share by one pick.")
split("C31", "C173", "Weighted round robin is proportionally fair", "Over any number of picks an endpoint's selections stay close to its weight share, and every pick succeeds. (Part: true if the loads are whole percentages that add up to 100. Three equal endpoints get 33 percent each and after 99 picks every attempt crashes, and 200 equal endpoints crash at the first pick.)")
upd("C50", None, "In permissive mode a connection that sends at least three bytes is treated as TLS exactly when they are a TLS handshake record header of version 1.0-1.3; in strict mode (and any unknown mode) always, in disabled mode never; the handler reads the stream from its first byte, without a gap, to its end.")
split("C50", "C174", "Every accepted connection is handled", "In permissive mode every connection, however short, reaches the handler with its bytes, and no client delays another one. (Part: a connection that ends before three bytes is closed, one that fails is refused. The bytes of a short one are lost, and a silent client blocks the listener for all others.)")
upd("C23", None, "Any sequence of Write, WriteAt, InsertAt and Seek keeps the content within the capacity. Inside the content: Write appends exactly if there is room, InsertAt shifts and keeps all other bytes, WriteAt overwrites as much of the content as there is and keeps its length, Seek truncates, Slice returns the bytes between its bounds. A failing call changes nothing.")
split("C23", "C175", "A slice writer writes all or fails", "WriteAt and InsertAt write all bytes or return an error, and no call exposes bytes that were not written. (Part: WriteAt inside the content writes all. Near its end it writes fewer without an error, after it InsertAt and WriteAt panic, and Seek exposes old bytes.)")
upd("C64", "Lookups are answered after the mesh configuration has arrived", "After any history of connections, reconnections and responses, lookups are answered exactly if, since the last connection, the client has received and accepted a non-empty response of every type that the management server provides.")
split("C64", "C176", "Lookups are answered in every mesh", "Once the client has received and accepted the configuration of every type that the management server provides, lookups are answered. (Part: true if every type has a resource; if the mesh has none of a type, lookups are never answered.)")
upd("C59", "Parsing consumes a beginning of the input", "Whatever bytes arrive, a successful read of a message or a record batch consumes a beginning of the input and leaves the rest untouched.")
split("C59", "C177", "Parsing arbitrary bytes does not crash", "Whatever bytes arrive, parsing them as a request, response, message or record batch returns a value or an error and never crashes the process. (Part: true for all messages but the Produce request and the Fetch and FetchSnapshot responses, in which a negative record or header count crashes the process.)")
upd("C47", None, "A peer certificate is accepted exactly if its chain verifies up to a configured root (or one of the system if these are trusted) and, for each configured non-empty list, the certificate hash, the public-key hash and at least one name match; every certificate of an accepted chain could be parsed; hashes listed by the mesh restrict, and a certificate with a name that a matcher of the mesh accepts is not rejected for its names.")
split("C47", "C178", "Restrictions sent by the mesh are never dropped", "If the mesh lists names or a CA, only certificates with a matching name, of that CA, are accepted, and every other peer is rejected without a crash. (Part: true for names if one of the listed matchers can be compiled. If none can, any certificate of a trusted root is accepted; an unreadable CA is treated as none; an empty chain crashes.)")
upd("C12", None, "A message holding a non-default value in a non-ignorable field introduced after version 0 that the requested version does not support, at any depth, is rejected by Write and SizeInBytes; unsupported fields contribute no bytes.")
split("C12", "C179", "Removed fields are not lost silently", "A message holding a non-default value in a non-ignorable field that was removed before the requested version is rejected by Write. (False: such fields are dropped silently.)")
upd("C34", None, "The route used for an outbound HTTP request is the only route for \"/\" of the only usable virtual host (one with such a route) for the most specific form of the address that has one; it is not found exactly if no form has one, and anything ambiguous is an error, never an arbitrary choice; a target cluster is only reported if the host resolves, one outbound listener stands for the address and its route configuration is known; IPv6 addresses are looked up in brackets.")
split("C34", "C180", "The virtual host of the most specific domain is used", "The virtual host used for an outbound HTTP request is the one that lists the most specific form of the address, and the catch-all virtual host if none does. (Part: true if every virtual host has a route for \"/\"; one without is passed over in favour of a less specific one, and the catch-all virtual host is never used.)")
upd("C29", "EDS and RDS requests track the accepted clusters and listeners", "After a cluster (listener) response a request for load assignments (route configurations) follows exactly if what is referenced differs from what is subscribed for; it asks for exactly what is referenced and unsubscribes exactly the rest; after a reconnection everything is asked for again.")
split("C29", "C181", "EDS and RDS subscriptions and statistics are exact", "After clusters (listeners) are accepted, the set of subscribed load assignments (route configurations) is exactly the set referenced by them, and statistics are kept for exactly the clusters present. (Part: subscriptions are exact if something is referenced, for the first route configuration of a listener; statistics are exact when the subscription changed.)")
upd("C40", "The connection pool is bounded and can be closed", "At most the configured maximum of connections is idle; after Close a Get never returns a connection; Close fails only if closing a connection failed; a pool is created exactly if its initial capacity is at most its maximum and its initial connections could be made, and then holds exactly these.")
split("C40", "C182", "The connection pool never shares or leaks connections", "Between Get and Put a pooled connection is owned by one caller; closed or failed connections are never handed out; after Close (or a failed creation) every connection that is not in use is closed; every Get returns. (Part: true if callers close a connection once and, for usability, if idle timers and Release do not come in the middle of another call; otherwise connections are shared, expire in use, leak, or two Gets deadlock the pool.)")
upd("C32", "Weighted cluster selection picks a listed cluster of positive weight", "Whatever cluster is selected for a route with weighted clusters is one of its clusters with positive weight, for all counters and weights.")
split("C32", "C183", "Weighted cluster selection follows the weights", "A route with weighted clusters always yields a cluster, and repeated selection follows the weights. (Part: true if all clusters are known, the weights add up to a positive 32-bit number, and up to 2^51 divided by that number selections. An unknown cluster gets all the traffic, and weights that add up to 2^32 are ignored.)")
split("C20", "C184", "Only the response to the request is accepted", "Whatever the bytes, a response is only returned if it carries the correlation id of the request and is of the type of the request's api key, and a request is only returned with data of the type of its api key.", "every byte string, api key, version and correlation id")
upd("C20", None, "Parsing a serialized request with the library returns the same header and body; parsing a serialized response against its request's api key, version and correlation id returns the same response.")
split("C57", "C185", "Numbers are written as Kafka prescribes", "Fixed-size integers are written big-endian in two's complement, unsigned varints in groups of seven bits, least significant first, and signed ones zig-zag encoded.", "every number")
split("C41", "C186", "Adding to the pool registry never replaces a pool", "Adding never replaces a registered pool; a closed pool is never added and an open one is registered under its id; the count reported by Len is off by at most the number of calls under way.")
upd("C41", None, "Len always equals the number of registered pools, closing the registry closes and removes every pool, and closed pools are cleaned up exactly while pools are registered.")

# second batch
upd('C05', None, 'A (nullable) string other than the text "null" is accepted by the string writer exactly if it is null and the field is nullable at the version, or not longer than 32767 bytes; an accepted one is read back as the same string (null stays null, empty stays empty), in both the compact and the classic encoding, and its size is the number of bytes written.', None)
split('C05', 'C187', 'The text "null" is an ordinary string', 'The string consisting of the four characters null is written and read back as that string, and not as a null string. (False of the code.)')
upd('C08', None, 'For every message structure whose nested structures are supported wherever they are used (all shipped messages), whenever Write succeeds SizeInBytes succeeds too and returns exactly the number of bytes Write appended, if no byte slice is exactly 2^31-1 bytes long and the records of its batches have the exact sizes of C13.', 'every such message schema, every such value, every version')
split('C08', 'C188', 'SizeInBytes is exact for every schema and every value', 'SizeInBytes equals the number of bytes written also for nested structures that the version does not support, and for byte slices of every length Write accepts. (False of the code.)')
upd('C09', None, 'For every message structure with distinct tags and every version, reading the bytes written for a message yields, for the fields the version carries, the values written, for the others their defaults, and leaves the following bytes unread; a message that only uses what the version carries is read back identical. (Messages as the API builds them: no null structures, strings as in C05, arrays as in C164, tagged fields as in C165.)', 'every message schema with distinct tags, every such value, every version, every following byte string')
split('C09', 'C189', 'Null messages and structures round-trip', 'A null structure is read back as null. (False of the code: it is written as nothing, and reading fails.)')
upd('C14', 'Truncated records never yield part of their data', 'Reading a record from a proper prefix of its encoding fails, or consumes the input and returns a record without key, value and headers; it never returns some of the data of the record.', None)
split('C14', 'C190', 'Truncated records are rejected', 'Reading a record or header from a proper prefix of its encoding fails. (Part: true for records without key and value bytes; a key or value cut short gives an empty record and no error.)')
upd('C15', None, 'A written v2 record batch has the fixed 61-byte header with every field at its protocol offset, the length field counts exactly the bytes after it, and the CRC field is the CRC-32C of exactly the bytes from the attributes to the end; nothing follows it unless it is compressed with snappy.', None)
split('C15', 'C191', 'Nothing follows a batch compressed with snappy', 'A record batch compressed with snappy is written like others, without bytes its length field does not count. (False of the code.)')
upd('C57', None, 'Whenever writing a message, record batch or record succeeds, the bytes are exactly those the Kafka protocol prescribes for the value at that version: big-endian integers, zig-zag and unsigned varints, compact lengths exactly in flexible versions, fields in declaration order and only those of the version, tagged fields counted and by ascending tag with default-valued ones left out, batches with the length and checksum of what follows. (Records whose parts fit their length fields and whose timestamp delta is outside the band of C163; batches not compressed with snappy.)', 'every message type, version and value, every record batch and record as described')
split('C57', 'C192', 'All batches follow the Kafka wire format', 'Also batches compressed with snappy, and records with any timestamp delta, are written as the Kafka protocol prescribes. (Part: a batch compressed with snappy is written in the format but may be followed by the compressed empty string; it is in practice. A timestamp delta in the band of C163 makes the length prefix one too large.)')
upd('C20', None, "Parsing a request serialized at the version its header states returns the same header and body; parsing a serialized response against its request's api key, version and correlation id returns the same response (fields the version does not carry as in C09).", None)
split('C20', 'C193', 'A request is serialized at the version its header states', 'Serializing a request at a version other than the one in its header fails. (False of the code: the header keeps the old version and the body is parsed as something else.)')
upd('C38', 'Only clients the cluster authenticates get a control stream', "With the Kubernetes authenticator, which accepts exactly the tokens the cluster's review confirms, a control stream is established only if the token presented on it was confirmed; the metadata of a service account are its namespace and name.", 'every history of any number of concurrent streams and every answer of the token review')
split('C38', 'C194', 'Every authenticator is respected, and there is one control stream', 'With any authenticator a control stream is established only if the authenticator accepted the presented token, and at most one control stream exists per session. (Part: true for authenticators that return an error when they do not accept, and if control messages are handled one after the other. One that answers no without an error lets the client in, and two streams opened at the same time both become the control stream.)')
upd('C42', None, 'If failing reads of the network connection return no bytes and its writes do not fail: the bytes returned by successive reads, followed by what is still buffered, are exactly the bytes received from the peer, in order, for any chunking, buffer sizes and answers of the filters, and no read returns more than was asked for; a read with bytes at hand and filters that continue returns some; the bytes handed to the peer followed by those held back by pausing filters are exactly those written, and when the filters continue nothing is held back; a closed connection reads nothing.', None)
split('C42', 'C195', 'Filtered connections lose nothing at their end', "End of stream is reported only after all bytes, bytes that arrive with an error are delivered, a read does not wait for the network while bytes are at hand, and Close sends what filters held back. (Part: an end of stream that is reported without filling the caller's buffer was reported by the peer and nothing is left. Otherwise it may come before the last bytes; bytes returned together with an error, and those held back at Close, are lost; and a read can block although bytes are buffered.)")
upd('C43', None, 'In every history of fewer than 2^31 calls: metric ids handed to filters are unique and never reused for another name or other labels; a sample recorded through an id belongs to a metric defined under that id, and recording through an id that was not removed never reaches another name or other labels; a removed id stays invalid; a failed definition changes nothing.', None)
split('C43', 'C196', 'Metrics can be defined again and keep their kind', 'Recording through an id reaches the metric of the defined kind, defining the same metric again returns the same id, and a removed metric can be defined again. (Part: true if the filters use one kind and one set of label keys per name, and if between the definitions the name is not defined with other labels and none of its ids is removed. Five counterexamples otherwise, one of them a panic.)')
upd('C61', 'Outgoing TCP connections go where the mesh wants', 'As long as discovery answers, every connection that DialContext returns goes to the endpoint the mesh had for the host when the call was made, and was made with the TLS settings the mesh wanted for some call to the same address.', None)
split('C61', 'C197', 'Outgoing TCP connections are secured as the mesh wants', 'Every connection that DialContext returns uses TLS with the server name and peer verification the mesh required for that host when the call was made. (Part: true while discovery answers and the settings for an address do not change. After a change connections are made with the old settings, possibly in plaintext, and when discovery fails the host is dialled without TLS.)')
upd('C88', 'Dialed connections are handed out once', 'Every connection a dialer establishes is handed out by AsyncDial exactly once and in the order in which they were established, or still waits for AsyncDial.', None)
split('C88', 'C198', 'Dialed connections are handed out to the key that asked for them', 'A report of a key is answered with the connection dialed for this key; a failed dial is reported. (Part: a dialer used for one key only hands out connections of that key; if every key is used for one dial, every report is answered and no connection is left. Otherwise connections are mixed up or left behind; failures are not reported.)')
upd('C91', 'A client gets the CA configuration of its own service account', 'The CA configuration returned by heimdall belongs to the service account the cluster confirmed for the token, and to no other.', None)
split('C91', 'C199', 'A client gets configuration only of groups of its own namespace', 'The service account of the token belongs to the namespace of the workload group whose configuration is returned. (False of the code: the namespaces are not compared.)')
upd('C98', 'The node id names the workload', 'The node id of an environment with an address (and names without tilde) can be split into type, first address, pod with namespace, and domain; pods whose name, namespace (without dots), type or address differ have different node ids.', None)
split('C98', 'C200', 'Identity and environment are those of the workload', 'The identity names trust domain, namespace and service account; an environment received from heimdall replaces the own one; an environment without addresses does not crash. (Part: all fields but trust domain, secret lifetime and the enabled flag are replaced. The identity ignores the trust domain, and without an address there is a crash.)')
upd('C95', 'The mutation keeps labels', 'A pod (not of an OpenShift DeploymentConfig) keeps its labels, except revision and network, which are those of the configuration; the missing mesh labels are added: canonical name from name label, app label or workload, canonical revision from the version labels or latest.', None)
split('C95', 'C201', 'The mutation can be repeated and keeps the labels of all pods', 'Mutating a mutated pod again yields a valid pod, and pods of DeploymentConfigs keep their labels, too. (Part: volume names stay unique if the pod has no volume with one of the two names; a second mutation adds them again, which the cluster rejects, and a label of DeploymentConfig pods is lost.)')
upd('C102', 'A proxy ends both directions', 'For connections of any types and any history of data, ends and failures: when Start returns, both peers were told the end of the stream, and connections that cannot be closed in one direction were closed.', None)
split('C102', 'C202', 'A proxy works with connections of any type and leaves none open', 'Relaying loses nothing whatever the types of the connections, and when Start returns both connections are closed. (False of the code: without half-close the answer to a finished request is lost, and connections with half-close stay open.)')
upd('C105', 'Listener properties are the latest received', 'A result of a call for the properties of a listener is the response received last when the call looked, never an older or invented one; the callbacks of the first call are run once for every successful response, in order, and no others.', None)
split('C105', 'C203', 'Listener properties follow the mesh', "Every call for the properties of a listener gets a response as soon as there is one, no older than the mesh's latest, and its callbacks are run for every update, also after failed subscriptions. (Part: served if the subscription did not fail or end. Otherwise it is never retried, stale responses are returned, and the callbacks of later calls are ignored.)")
upd('C106', None, 'For workloads that name their ports: the endpoints of a service contain a tunnelled port exactly if a port of the service targets it (by name or number), under the name of the first such service port and with the addresses of the tunnel servers where these ports are.', 'every list of named tunnelled ports and of service ports')
split('C106', 'C204', 'A tunnelled port without a name is published under the service port that targets it', 'Also a tunnelled port without a name is published only under a service port that targets it. (False of the code.)')
upd('C107', 'Only services in use have managed endpoints', 'Every tunnelled port of every session that names a service is collected under that service (and no other: the key of a service names it); after each reconciliation, whatever fails, only services in use have managed endpoints, computed from their ports.', None)
split('C107', 'C205', 'Every service in use has managed endpoints', 'After each reconciliation every service with a tunnelled port has managed endpoints, with one subset per session. (Part: true if reads and writes succeed and the cluster accepts the subsets; on a transient failure or a rejected subset the endpoints are deleted.)')
upd('C116', 'gRPC calls are filtered and counted', 'A gRPC call is made exactly if a filter stream could be created and no filter failed, with the metadata the filters left; active requests are counted up and down once, and a stream that was created is closed, whatever happens.', None)
split('C116', 'C206', 'Filters see the address and the outcome of gRPC calls', 'The filters see the address of a gRPC call and whether it failed. (False of the code.)')
upd('C117', 'The application is told the identity of its client', "To a request over a connection with a client certificate exactly one X-Forwarded-Client-Cert element is added, after those the request came with, which names the fingerprint and URI of the client's certificate and the workload itself; outgoing requests are sent with the headers the application gave them.", None)
split('C117', 'C207', 'A client cannot choose the identity it is reported with', 'The X-Forwarded-Client-Cert header names only the client of the connection, with subject and DNS names, and a client cannot choose what it says; the protocol forwarded is the one used. (False of the code.)')
upd('C118', 'Filters see requests, responses and connections', "Filters see path, host, scheme, method, protocol, query, headers, trailers and time of a request, status, headers and duration of a response, addresses and certificates of a connection under the names of its direction; several values of a header are joined by commas, numbers are seen as 64-bit two's complement.", None)
split('C118', 'C208', 'All attributes filters can ask for are correct', 'Also sizes, user agent, upstream and destination addresses, the TLS version and response trailers have the values of the request, response or connection. (False of the code.)')
upd('C123', 'Filters read back simple properties they set', 'A property a filter sets under a name of one part is what it reads afterwards, and setting it changes no other property.', 'every name of one part, value and store')
split('C123', 'C209', 'Filters read back nested properties they set', 'A property a filter sets under a path of several parts is what it reads afterwards. (False of the code: it is not found, or hides others.)')
upd('C125', 'Ticks end when the instance is stopped', 'When stopping an instance has returned, having found a ticker, this ticker never ticks again.', None)
split('C125', 'C210', 'Stopping an instance ends', 'Stopping an instance returns, leaves no ticker running and no period crashes the program, whenever the timer fires and whatever the filter asks for. (Part: it returns if the ticker is between two ticks. It hangs if the timer fires meanwhile or if it is stopped from within a tick; a second ticker keeps running, a period of zero crashes.)')
upd('C128', 'Closing a virtual machine closes its users', 'For every interleaving of acquiring and releasing, the first Close closes exactly the users that hold the virtual machine, each once.', None)
split('C128', 'C211', 'A closed virtual machine gets no users', 'After Close no user is added to the virtual machine, and none is closed twice. (Part: true if no acquisition is under way at Close; otherwise a user is added that is never closed.)')
upd('C129', None, 'A URL is asked for the code of a filter until a response has been read to its end, and all later calls return exactly this response without asking; given bytes and files are returned as they are.', None)
split('C129', 'C212', 'An error page is not taken for the code of a filter', 'A response with an error status is not taken for the code of a filter. (False of the code.)')
upd('C132', None, 'If no two plugins have the same root id, every instance of a plugin is started with the configuration of the plugin, and its filters can switch exactly to the root context of the plugin and to their own contexts.', 'every history of plugins with different root ids added and filters started')
split('C132', 'C213', 'Plugins with the same root id do not interfere', 'Plugins with the same root id, and plugins added at the same time, keep their configuration and contexts. (False of the code.)')
upd('C135', None, 'The address, the server name, the mesh id, trust domain and token of a configuration found in the cluster are those of objects of the revision asked for, with the cluster id given; the addresses of a service never make the program crash, and overriding annotations win.', None)
split('C135', 'C214', 'The root certificates are those of the revision asked for', 'The root certificates found in the cluster are those of the revision asked for, and a cluster that lacks them gives an error. (Part: true if there is a config map of the revision with root certificates; otherwise those of another revision are used, or the program crashes.)')
upd('C136', None, 'Heimdall is asked exactly if its address is given, otherwise the files in the pod are used exactly if the token file exists (if the file system can answer); requests to Heimdall carry the token as a bearer token, and the names of two instances differ exactly if their hosts or parent processes do.', None)
split('C136', 'C215', 'A failing file system does not change the source of the configuration', 'If the file system cannot tell whether the token exists, the files in the pod are not used. (False of the code.)')
upd('C138', 'The removal of metrics is the last request to the gateway', 'The removal of the metrics from the gateway is requested at most once, after the context has ended, and nothing is sent afterwards.', None)
split('C138', 'C216', 'No metrics are left at the gateway', 'When the handler has ended none of its metrics stay at the gateway. (Part: true if requests are handled in the order in which they were sent and the removal succeeds; a push overtaken by the removal stays for ever.)')
upd('C139', None, 'Disabled means passing connections through unchanged; with TLS no call on a handler crashes, and calls fail only if the network or the filters do, or a virtual listener is asked for before the tunnel exists; a handler with TLS is created exactly if environment and CA configuration can be read and, with a push gateway, its address is given and the filters can be created; push intervals that are not negative work; the port announced for metrics is that of the address.', None)
split('C139', 'C217', 'An enabled handler without TLS works', 'No configuration that is accepted crashes the program, in particular enabled without TLS. (False of the code.)')
upd('C140', 'gRPC connections go where the mesh says and are encrypted', 'A gRPC connection goes to the endpoint the mesh gives for the host, with its server name, or to the host itself if the mesh does not know it; without an endpoint none is made; every one uses TLS.', None)
split('C140', 'C218', 'gRPC connections are verified as the mesh says', "A gRPC connection is encrypted only if the mesh says so, and only made to a server whose certificate the verifier of the mesh confirms; filters see the state of the connection that carries the call. (Part: the state is right if calls use the newest connection. Otherwise it is that of another connection; servers are not verified with the mesh's verifier, plaintext servers cannot be reached.)")
upd('C141', None, 'However often certificates are asked for, and whoever answers at the address of the CA, the request for a certificate, with the configured token, is only sent to a server that proves the name asked for with a root certificate configured.', None)
split('C141', 'C219', 'CA connections are used completely and closed', 'A chain the CA signs is used, and connections to the CA are closed when they are no longer needed. (Part: a chain of two or more certificates for the key is used; connections stay open.)')
upd('C142', None, 'Reading an intact compressed batch in pieces of any sizes gives the decompressed bytes in order, each once, and then the end; no read returns more than was asked for; with snappy what is read is what was written, however it was split, and each closing of a writer adds one block with what was written since the last.', 'every intact stream, every way it arrives and every sequence of reads and single bytes')
split('C142', 'C220', 'Damaged compressed batches are reported', 'The error of a damaged compressed stream is reported after the bytes before it. (False of the code.)')
upd('C143', 'A transport lives as long as someone holds it (one thread)', 'In the Python binding, used from one thread: an id is known exactly while someone who opened it has not closed it, its transport was made for arguments with this hash and counts its holders; opening returns the id of its arguments.', 'every history of opening, failing and closing, one after the other')
split('C143', 'C221', 'Transports can be shared between threads', 'A transport can be used from any threads exactly as long as someone holds it, with the settings it was opened with. (False of the code: url and token with the same hash share one, concurrent closing and opening lose one, cancelling leaves one.)')
upd('C144', None, 'Status, version, headers in their order and a body without zero bytes reach Python as they were received; several values of a header (without commas) can be read back; releasing a response releases all memory made for it exactly once.', None)
split('C144', 'C222', 'Binary responses reach Python unchanged', 'A body with zero bytes reaches Python as it was received. (False of the code.)')
upd('C145', None, 'As long as at most 1000 lines wait, the batches of log lines given to Java contain every (not empty) line logged exactly once and in order, as JSON arrays with at most as many lines as asked for.', None)
split('C145', 'C223', 'Java gets every log line', 'However many lines wait and whenever logging is set up, every line reaches Java. (False of the code.)')
upd('C147', 'Equal on Kafka messages compares their contents (null counts as empty)', 'On messages without NaN, Equal is an equivalence that holds exactly if the messages have the same fields with the same values, where null counts as empty, the attributes of records are left out and the two zeros are the same; Equal messages without nulls, negative zeros and record attributes are identical and give the same bytes at every version.', 'all pairs and triples of messages without NaN of all schemas')
split('C147', 'C224', 'Equal messages are the same', 'Two messages are Equal exactly if all their fields are the same, so that Equal messages are serialized alike. (False of the code: null equals empty, record attributes are ignored, NaN is not Equal to itself.)')
upd('C148', 'The config map of a tunnel server lists the recorded ports', "When nothing is on its way, the config map written by the tunnel server's controller lists exactly the ports recorded, whatever it said before: every session once, with its ports in order, and no others.", None)
split('C148', 'C225', 'The config map of a tunnel server lists the ports listened on', 'When nothing is on its way, the config map lists exactly the ports the server listens on for its clients, each with the name of its session. (Part: true if no event of a port is taken while another one of the same port is still being handled; otherwise a listened port can be left out for ever and a closed one can stay listed.)')
upd('C151', 'Small records of gzip-compressed batches are read as written', 'Reading the records of a batch compressed with gzip returns the records that were written, in order, however the decompressor splits its output into pieces, if every key, value, header key and header value is shorter than 16 KiB; records not compressed or compressed with snappy are read whatever their size.', 'every such list of records, every splitting of the decompressed stream into pieces')
split('C151', 'C226', 'Large records of gzip-compressed batches are read as written', 'Also records with keys or values of 16 KiB and more are read from a gzip-compressed batch as they were written. (False of the code: a value of more than 48 KiB is never read completely; the record is returned without key, value and headers, without an error, and the rest of its bytes is taken for the next record.)')
upd('C121', 'Metadata of the peer are only taken from what it sent', 'Whatever bytes a peer sends as its metadata, name and namespace read from them are empty or parts of these bytes.', None)
split('C121', 'C227', 'Malformed metadata of the peer do no harm', 'Whatever bytes a peer sends as its metadata, reading them never crashes the program. (False of the code.)')
upd('C27', 'A rejected incremental xDS update leaves the configuration unchanged', 'When an incremental discovery response with clusters, endpoints, listeners or routes is rejected (NACK), the resources visible to the application stay exactly as before.', None)
split('C27', 'C228', 'A rejected state-of-the-world xDS update leaves the configuration unchanged', 'When a state-of-the-world discovery response, or one with a name table, is rejected, the resources visible to the application stay exactly as before. (Part: true for endpoints and routes all of whose resources are subscribed, and for state-of-the-world name tables; a rejected cluster update removes the whole configuration.)')
upd('C58', None, "Writing a message, header or record batch at an advertised version succeeds exactly when the version can carry the value: null only where the field is nullable at that version, every length within its wire limit, no non-ignorable field newer than the version set to a non-default value, distinct tags, no tagged fields in non-flexible versions, batches with magic 2, a known codec, a compressor that succeeds and a length within range. Otherwise an error is returned and no bytes. (Records as in C57; byte strings not exactly 2^31-1 long, UUIDs of 16 bytes, batches not compressed with snappy, see C188 and C192; for fields removed in later versions see C179.)")
upd('C11', None, "Null for a string, bytes or array field is rejected both on write and on read at every version outside the field's declared nullable versions, in whole messages at any depth as well (which versions are declared nullable: C77).")
