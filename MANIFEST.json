{
 "claims": [
  {
   "property": "C01",
   "status": "proved",
   "theorems": [
    "Verif.Props.C01_uvarint32_roundtrip",
    "Verif.Props.C01_varint32_roundtrip",
    "Verif.Props.C01_varint64_roundtrip"
   ],
   "note": "all uint32/int32/int64 values, arbitrary following bytes"
  },
  {
   "property": "C02",
   "status": "proved",
   "theorems": [
    "Verif.Props.C02_uint32Size",
    "Verif.Props.C02_int32Size"
   ],
   "note": "all 32-bit values; 64-bit sizes: see C163"
  },
  {
   "property": "C03",
   "status": "proved",
   "theorems": [
    "Verif.Props.C03_uvarint32_safe",
    "Verif.Props.C03_varint32_safe",
    "Verif.Props.C03_varint64_safe",
    "Verif.Props.C03_truncated_rejected"
   ],
   "note": "all byte strings"
  },
  {
   "property": "C04",
   "status": "proved",
   "theorems": [
    "Verif.Props.C04_fixed_roundtrip",
    "Verif.Props.C04_fixed_truncated",
    "Verif.Props.C04_unsupported"
   ],
   "note": "all fixed-width primitives, all contexts, versions, inputs"
  },
  {
   "property": "C05",
   "status": "proved",
   "theorems": [
    "Verif.Props.C05_string_roundtrip",
    "Verif.Props.C05_string_accepted",
    "Verif.Props.C05_string_size"
   ],
   "note": "every string but the text \"null\" (see C187), every version context and continuation"
  },
  {
   "property": "C06",
   "status": "proved",
   "theorems": [
    "Verif.Props.C06_bytes_roundtrip"
   ],
   "note": "every slice, version and continuation; arrays: see C164"
  },
  {
   "property": "C07",
   "status": "proved",
   "theorems": [
    "Verif.Props.C07_tags_accepted",
    "Verif.Props.C07_tags_ascending"
   ],
   "note": "acceptance (lists and values below 2^32) and order; read-back: see C165"
  },
  {
   "property": "C08",
   "status": "proved",
   "theorems": [
    "Verif.Props.C08_size_exact",
    "Verif.Props.C08_shipped_size_exact",
    "Verif.Props.C08_shipped_spec"
   ],
   "note": "all shipped messages and all schemas with supported nested structures; the rest: C188"
  },
  {
   "property": "C09",
   "status": "proved",
   "theorems": [
    "Verif.Props.C09_message_roundtrip",
    "Verif.Props.C09_message_roundtrip_exact",
    "Verif.Props.C09_spec",
    "Verif.Props.C09_shipped_spec"
   ],
   "note": "every well-formed schema and covered value; null structures: C189"
  },
  {
   "property": "C10",
   "status": "proved",
   "theorems": [
    "Verif.Props.C10_shipped_wf",
    "Verif.Props.C10_headers_wf",
    "Verif.Props.C10_shipped_roundtrip",
    "Verif.Props.C10_shipped_keys"
   ],
   "note": "table extracted from all 328 generated structs, checked by kernel evaluation and combined with C09"
  },
  {
   "property": "C11",
   "status": "proved",
   "theorems": [
    "Verif.Props.C11_null_not_written",
    "Verif.Props.C11_null_array_not_written",
    "Verif.Props.C11_null_not_read",
    "Verif.Props.C11_null_array_not_read",
    "Verif.Props.C11_null_message_rejected"
   ],
   "note": "every field context and version, write, size and read, whole messages; relative to the declared nullable versions (C77)"
  },
  {
   "property": "C12",
   "status": "proved",
   "theorems": [
    "Verif.Props.C12_lost_field_rejected",
    "Verif.Props.C12_uncarried_no_bytes"
   ],
   "note": "every schema, version and value; removed fields: see C179"
  },
  {
   "property": "C13",
   "status": "proved",
   "theorems": [
    "Verif.Props.C13_record_roundtrip",
    "Verif.Props.C13_record_roundtrip_exact",
    "Verif.Props.C13_header_roundtrip"
   ],
   "note": "records and headers within the encodable sizes, every continuation; length prefix: see C161"
  },
  {
   "property": "C14",
   "status": "proved",
   "theorems": [
    "Verif.Props.C14_truncated"
   ],
   "note": "every record and every truncation point; rejection: C190"
  },
  {
   "property": "C15",
   "status": "proved",
   "theorems": [
    "Verif.Props.C15_prefix",
    "Verif.Props.C15_layout"
   ],
   "note": "all batches, compression and CRC as parameters; bytes behind snappy batches: C191"
  },
  {
   "property": "C16",
   "status": "proved",
   "theorems": [
    "Verif.Props.C16_batch_roundtrip",
    "Verif.Props.C16_lz4_zstd_unreadable",
    "Verif.Props.C16_gzip_payload",
    "Verif.Props.C16_snappy_payload",
    "Verif.Props.C16_control",
    "Verif.Props.C16_control_unreadable"
   ],
   "note": "uncompressed batches with arbitrary following bytes; control batches read hold at most one record; gzip payload for small records, snappy payload, both parametric in the codec; lz4/zstd batches the writer produces cannot be read (C16_lz4_zstd_unreadable)"
  },
  {
   "property": "C17",
   "status": "partial",
   "theorems": [
    "Verif.Props.C17_crc_false"
   ],
   "note": "the property is false of the code: C17_crc_false exhibits an accepted batch with a wrong CRC for every CRC function"
  },
  {
   "property": "C18",
   "status": "proved",
   "theorems": [
    "Verif.Props.C18_sequence"
   ],
   "note": "every list of valid batches; incomplete last batch: see C168"
  },
  {
   "property": "C19",
   "status": "proved",
   "theorems": [
    "Verif.Props.C19_request_header",
    "Verif.Props.C19_response_header",
    "Verif.Props.C19_unknown_key",
    "Verif.Props.C19_new_message"
   ],
   "note": "every shipped request and response at every advertised version; unknown keys are rejected; tables extracted from the Go switches"
  },
  {
   "property": "C20",
   "status": "proved",
   "theorems": [
    "Verif.Props.C20_request_roundtrip",
    "Verif.Props.C20_request_roundtrip_exact",
    "Verif.Props.C20_request_serialize",
    "Verif.Props.C20_response_roundtrip",
    "Verif.Props.C20_response_roundtrip_exact"
   ],
   "note": "all shipped messages and versions (values as in C09)"
  },
  {
   "property": "C21",
   "status": "partial",
   "theorems": [
    "Verif.Props.C21_fallback_false",
    "Verif.Props.C21_fallback_version18",
    "Verif.Props.C21_version_zero_partial"
   ],
   "note": "false of the code for request versions 1-3 (C21_fallback_false); holds for version 0"
  },
  {
   "property": "C22",
   "status": "proved",
   "theorems": [
    "Verif.Props.C22_chunk_is_window",
    "Verif.Props.C22_later_calls",
    "Verif.Props.C22_parent_continues"
   ],
   "note": "every nesting depth, window and call sequence (Read, ReadByte, UnreadByte, ReadAt, Seek, WriteTo, Len) with non-negative sizes; ReadRune/UnreadRune not modelled"
  },
  {
   "property": "C23",
   "status": "proved",
   "theorems": [
    "Verif.Props.C23_write",
    "Verif.Props.C23_insertAt_nothing",
    "Verif.Props.C23_insertAt",
    "Verif.Props.C23_writeAt",
    "Verif.Props.C23_seek_back",
    "Verif.Props.C23_never_exceeds",
    "Verif.Props.C23_error_changes_nothing",
    "Verif.Props.C23_writes_concat",
    "Verif.Props.C23_slice"
   ],
   "note": "every call sequence; positions outside the content: see C175"
  },
  {
   "property": "C24",
   "status": "proved",
   "theorems": [
    "Verif.Props.C24_large_enough",
    "Verif.Props.C24_never_shared",
    "Verif.Props.C24_reusable",
    "Verif.Props.C24_double_release_false"
   ],
   "note": "every history of gets, releases of held buffers and garbage collections; sync.Pool.Get modelled as returning any pooled item or nil"
  },
  {
   "property": "C25",
   "status": "proved",
   "theorems": [
    "Verif.Props.C25_forms_parsed"
   ],
   "note": "the three forms parse as written; other strings: see C162"
  },
  {
   "property": "C26",
   "status": "proved",
   "theorems": [
    "Verif.Ads.C26_cache_only_subscribed"
   ],
   "note": "All histories of subscribe/response/reconnect events."
  },
  {
   "property": "C27",
   "status": "proved",
   "theorems": [
    "Verif.Ads.C27_delta"
   ],
   "note": "every cache state and incremental response but name tables; the rest: C228"
  },
  {
   "property": "C28",
   "status": "proved",
   "theorems": [
    "Verif.Ads.C28_answered_once",
    "Verif.Ads.C28_ack",
    "Verif.Ads.C28_nack_delta",
    "Verif.Ads.C28_nack_sotw_version",
    "Verif.Ads.C28_invalid"
   ],
   "note": "every history, both protocols; nonces of SotW NACKs, unsupported types, reconnects: see C166"
  },
  {
   "property": "C29",
   "status": "proved",
   "theorems": [
    "Verif.Ads.C29_requests",
    "Verif.Ads.C29_reconnect"
   ],
   "note": "every history, both protocols; subscription books and statistics: see C181"
  },
  {
   "property": "C30",
   "status": "proved",
   "theorems": [
    "Verif.Bal.C30_random",
    "Verif.Bal.C30_random_all",
    "Verif.Bal.C30_least",
    "Verif.Bal.C30_least_total",
    "Verif.Bal.C30_healthy",
    "Verif.Bal.C30_sample_all",
    "Verif.Bal.C30_active"
   ],
   "note": "for every policy, load assignment, counter state and random source; existence of an answer: see C159"
  },
  {
   "property": "C31",
   "status": "proved",
   "theorems": [
    "Verif.Bal.F.C31_order",
    "Verif.Bal.F.C31_special",
    "Verif.Bal.F.C31_finite",
    "Verif.Bal.C31_pick_least",
    "Verif.Bal.C31_never_over"
   ],
   "note": "every finite load table and number of picks below 2^32; closeness from below: see C173"
  },
  {
   "property": "C32",
   "status": "proved",
   "theorems": [
    "Verif.Bal.C32_listed",
    "Verif.Bal.C32_positive"
   ],
   "note": "all counters and weights; proportions: see C183"
  },
  {
   "property": "C33",
   "status": "proved",
   "theorems": [
    "Verif.Route.C33_select",
    "Verif.Route.C33_error"
   ],
   "note": "exact selection rule (C33_select) and error cases (C33_error) for all chain lists, ports and addresses; longest prefix: see C153"
  },
  {
   "property": "C34",
   "status": "proved",
   "theorems": [
    "Verif.Route.C34_select",
    "Verif.Route.C34_notFound",
    "Verif.Route.C34_target",
    "Verif.Route.C34_ipv6"
   ],
   "note": "every route configuration and candidate list; less specific and catch-all hosts: see C180"
  },
  {
   "property": "C35",
   "status": "proved",
   "theorems": [
    "Verif.Res.C35_replaces",
    "Verif.Res.C35_closed",
    "Verif.Res.C35_refresh",
    "Verif.Res.C35_order",
    "Verif.Res.C35_quiet",
    "Verif.Res.C35_genuine",
    "Verif.Res.C35_noPanic",
    "Verif.Res.C35_computed"
   ],
   "note": "every schedule of publishers, observers and cancellations; lost updates and progress: see C167"
  },
  {
   "property": "C36",
   "status": "proved",
   "theorems": [
    "Verif.Tunnel.C36_exclusive_in_range",
    "Verif.Tunnel.C36_released_available",
    "Verif.Tunnel.C36_release_then_get"
   ],
   "note": "exclusivity, range and reuse for all ranges of positive ports and all histories; exhaustion: see C157"
  },
  {
   "property": "C37",
   "status": "partial",
   "theorems": [
    "Verif.Tunnel.C37_no_foreign_release_partial",
    "Verif.Tunnel.C37_close_releases_partial",
    "Verif.Tunnel.C37_free_iff_unheld",
    "Verif.Tunnel.C37_same_name_false",
    "Verif.Tunnel.C37_late_request_false",
    "Verif.Tunnel.C37_overlapping_close_false"
   ],
   "note": "interleaving model with unbounded sessions and goroutines; proved for sessions with distinct port names whose requests do not race with Close and whose Close calls do not overlap; false otherwise (three _false theorems)"
  },
  {
   "property": "C38",
   "status": "proved",
   "theorems": [
    "Verif.Tunnel.C38_k8s_authenticator",
    "Verif.Tunnel.C38_k8s_metadata",
    "Verif.Tunnel.C38_k8s"
   ],
   "note": "every interleaving, the shipped Kubernetes authenticator; other authenticators and number of control streams: C194"
  },
  {
   "property": "C39",
   "status": "proved",
   "theorems": [
    "Verif.Tunnel.C39_exactly_requester",
    "Verif.Tunnel.C39_one_success_per_id",
    "Verif.Tunnel.C39_unknown_rejected"
   ],
   "note": "exact delivery, at-most-once and server-side rejection for all interleavings; delivery and reporting at the client: see C158"
  },
  {
   "property": "C40",
   "status": "proved",
   "theorems": [
    "Verif.Pool.C40_idle_bound",
    "Verif.Pool.C40_get_after_close",
    "Verif.Pool.C40_close_succeeds",
    "Verif.Pool.Create.C40_created",
    "Verif.Pool.Create.C40_created_full"
   ],
   "note": "every interleaving, also with misbehaving callers; exclusivity and leaks: see C182"
  },
  {
   "property": "C41",
   "status": "partial",
   "theorems": [
    "Verif.Pool.C41_len_partial",
    "Verif.Pool.C41_close_partial",
    "Verif.Pool.C41_cleanup_running_partial",
    "Verif.Pool.C41_cleanup_stopped_partial",
    "Verif.Pool.C41_close_stops_partial",
    "Verif.Pool.C41_cleanup_stopped_false",
    "Verif.Pool.C41_len_negative_false",
    "Verif.Pool.C41_len_false",
    "Verif.Pool.C41_cleanup_running_false",
    "Verif.Pool.C41_cleanup_removes_open_false",
    "Verif.Pool.C41_add_after_close_false"
   ],
   "note": "Len exact whenever no call is between map and counter update, Close closes and removes all (not overlapping other calls); with non-overlapping calls a cleanup goroutine runs exactly while pools are registered; counterexamples: Len -1, cleanup goroutine never started or never stopped, cleanup removes an open pool, AddPool after Close"
  },
  {
   "property": "C42",
   "status": "proved",
   "theorems": [
    "Verif.Wasm.C42_reads",
    "Verif.Wasm.C42_read_progress",
    "Verif.Wasm.C42_writes",
    "Verif.Wasm.C42_write_flushes",
    "Verif.Wasm.C42_closed_reads"
   ],
   "note": "every chunking, sequence of buffer sizes and filter answers; end of stream, errors, Close: C195"
  },
  {
   "property": "C43",
   "status": "proved",
   "theorems": [
    "Verif.Wasm.Metrics.C43_ids_unique",
    "Verif.Wasm.Metrics.C43_record_never_elsewhere",
    "Verif.Wasm.Metrics.C43_samples_are_defined",
    "Verif.Wasm.Metrics.C43_removed",
    "Verif.Wasm.Metrics.C43_failed_define"
   ],
   "note": "every history of fewer than 2^31 calls; repeated definitions and kinds: C196"
  },
  {
   "property": "C44",
   "status": "proved",
   "theorems": [
    "Verif.Wasm.Stream.C44_selection",
    "Verif.Wasm.Stream.C44_data_in_order",
    "Verif.Wasm.Stream.C44_request",
    "Verif.Wasm.Stream.C44_request_paused",
    "Verif.Wasm.Stream.C44_response",
    "Verif.Wasm.Stream.C44_errors_reported",
    "Verif.Wasm.Stream.C44_tcp_close",
    "Verif.Wasm.Stream.C44_locks_released"
   ],
   "note": "every filter list and behaviour, every body; pauses elsewhere, Close, unknown names: see C169"
  },
  {
   "property": "C45",
   "status": "proved",
   "theorems": [
    "Verif.Wasm.Pairs.C45_pairs_round_trip",
    "Verif.Wasm.Pairs.C45_deterministic",
    "Verif.Wasm.Pairs.C45_injective",
    "Verif.Wasm.Pairs.C45_numbers",
    "Verif.Wasm.Pairs.C45_scalars",
    "Verif.Wasm.Pairs.C45_any_map_false"
   ],
   "note": "round trip through an independent decoder, determinism, injectivity; sizes below 2^32 (limit of the format)"
  },
  {
   "property": "C46",
   "status": "proved",
   "theorems": [
    "Verif.Match.C46_match",
    "Verif.Match.C46_refused",
    "Verif.Match.C46_case",
    "Verif.Match.C46_proto"
   ],
   "note": "C46_match, C46_refused, C46_case, C46_proto for every pattern and subject; textual forms: see C154"
  },
  {
   "property": "C47",
   "status": "proved",
   "theorems": [
    "Verif.Cert.C47_accept",
    "Verif.Cert.C47_trusted",
    "Verif.Cert.C47_parsed",
    "Verif.Cert.C47_meshAccepts",
    "Verif.Cert.C47_mesh_hashes"
   ],
   "note": "every certificate chain and configuration; restrictions that cannot be compiled: see C178"
  },
  {
   "property": "C48",
   "status": "partial",
   "theorems": [
    "Verif.Dotn.C48_get_partial",
    "Verif.Dotn.C48_frame_partial",
    "Verif.Dotn.C48_list_partial",
    "Verif.Dotn.C48_merge_partial",
    "Verif.Dotn.C48_through_false",
    "Verif.Dotn.C48_escape_false",
    "Verif.Dotn.C48_list_false",
    "Verif.Dotn.C48_map_false",
    "Verif.Dotn.C48_index_false",
    "Verif.Dotn.C48_element_partial"
   ],
   "note": "set/get laws proved for paths of plain object keys; escapes, lists, maps and index paths fail (C48_*_false)"
  },
  {
   "property": "C49",
   "status": "proved",
   "theorems": [
    "Verif.Labels.C49_name",
    "Verif.Labels.C49_revision"
   ],
   "note": "label and revision lookup order for every label map"
  },
  {
   "property": "C50",
   "status": "proved",
   "theorems": [
    "Verif.Unified.C50_permissive",
    "Verif.Unified.C50_fixed",
    "Verif.Unified.C50_reads",
    "Verif.Unified.C50_progress",
    "Verif.Unified.C50_other"
   ],
   "note": "every stream, chunking and mode; short and silent clients: see C174"
  },
  {
   "property": "C51",
   "status": "proved",
   "theorems": [
    "Verif.Net.C51_once",
    "Verif.Net.C51_order",
    "Verif.Net.C51_conserved",
    "Verif.Net.C51_dup",
    "Verif.Net.C51_stops",
    "Verif.Net.C51_serves"
   ],
   "note": "every interleaving; ids and Close: see C170"
  },
  {
   "property": "C53",
   "status": "proved",
   "theorems": [
    "Verif.Route.C53_properties",
    "Verif.Route.C53_order"
   ],
   "note": "C53_properties, C53_order for all listener lists; client certificate requirement: see C155"
  },
  {
   "property": "C54",
   "status": "proved",
   "theorems": [
    "Verif.Route.C54_resolves",
    "Verif.Route.C54_notFound"
   ],
   "note": "C54_resolves and C54_notFound hold for all tables; empty answers: see C156"
  },
  {
   "property": "C55",
   "status": "partial",
   "theorems": [
    "Verif.Route.C55_target_partial",
    "Verif.Route.C55_single",
    "Verif.Route.C55_lastChain_false",
    "Verif.Route.C55_erased_false",
    "Verif.Route.C55_counted_false"
   ],
   "note": "C55_target_partial, C55_single; false in general: C55_lastChain_false, C55_erased_false, C55_counted_false."
  },
  {
   "property": "C56",
   "status": "partial",
   "theorems": [
    "Verif.Route.C56_sockets_partial",
    "Verif.Route.C56_tls",
    "Verif.Route.C56_superset_false",
    "Verif.Route.C56_crash_false"
   ],
   "note": "C56_sockets_partial, C56_tls; false: C56_superset_false (endpoint metadata must be a subset, not a superset), C56_crash_false (no default socket)."
  },
  {
   "property": "C57",
   "status": "proved",
   "theorems": [
    "Verif.Props.C57_record",
    "Verif.Props.C57_batch",
    "Verif.Props.C57_message",
    "Verif.Props.C57_shipped"
   ],
   "note": "every message of every generated schema, shipped messages at all advertised versions; snappy and the band of C163: see C192"
  },
  {
   "property": "C58",
   "status": "proved",
   "theorems": [
    "Verif.Props.C58_accepts",
    "Verif.Props.C58_write_spec",
    "Verif.Props.C58_shipped",
    "Verif.Props.C58_batch",
    "Verif.Props.C58_headers"
   ],
   "note": "every shipped message, version and value as described; headers, batches"
  },
  {
   "property": "C59",
   "status": "proved",
   "theorems": [
    "Verif.Props.C59_consumes",
    "Verif.Props.C59_batch_consumes"
   ],
   "note": "every message type, version and input; panics: see C177"
  },
  {
   "property": "C60",
   "status": "partial",
   "theorems": [
    "Verif.Props.C60_count_partial",
    "Verif.Props.C60_request_pairs",
    "Verif.Props.C60_shared_closer_false",
    "Verif.Props.C60_readded_false",
    "Verif.Props.C60_by_name_false"
   ],
   "note": "C60_count_partial holds with one close wrapper per connection, literal addresses and endpoints in use staying known; the _false theorems show each condition is needed (shared sync.Once closer, re-added endpoint, dial by name)."
  },
  {
   "property": "C61",
   "status": "proved",
   "theorems": [
    "Verif.Props.C61_address",
    "Verif.Props.C61_some_call"
   ],
   "note": "all interleavings of dials, reuse, pool removal, cancellation and configuration changes; TLS settings: C197"
  },
  {
   "property": "C62",
   "status": "partial",
   "theorems": [
    "Verif.Props.C62_own_context_partial",
    "Verif.Props.C62_some_context",
    "Verif.Props.C62_foreign_context_false"
   ],
   "note": "Holds when callers share one context; false in general (pool factory keeps the creator's context)"
  },
  {
   "property": "C63",
   "status": "partial",
   "theorems": [
    "Verif.Props.C63_encrypted_partial",
    "Verif.Props.C63_secured_partial",
    "Verif.Props.C63_concurrent_false",
    "Verif.Props.C63_functions_false",
    "Verif.Props.C63_stale_false",
    "Verif.Props.C63_discovery_error_false"
   ],
   "note": "Encryption holds whenever discovery answers; exact identity for serial requests with settled settings; false for concurrent requests, changed settings, discovery errors"
  },
  {
   "property": "C64",
   "status": "proved",
   "theorems": [
    "Verif.Ads.C64_initialized"
   ],
   "note": "every configuration and history; types without resources: see C176"
  },
  {
   "property": "C52",
   "status": "proved",
   "theorems": [
    "Verif.Bal.C52_unhealthy",
    "Verif.Bal.C52_locality_weight",
    "Verif.Bal.C52_endpoint_weight"
   ],
   "note": "every load assignment and counter state; distinct locality names and addresses for the comparisons; priorities: see C172"
  },
  {
   "property": "C65",
   "status": "proved",
   "theorems": [
    "Verif.Plugin.C65_get",
    "Verif.Plugin.C65_roundRobin",
    "Verif.Plugin.C65_accounting",
    "Verif.Plugin.C65_close",
    "Verif.Plugin.C65_running",
    "Verif.Plugin.C65_ensure",
    "Verif.Plugin.C65_closed"
   ],
   "note": "for callers that keep the contract in the statement; see C68 for the rest"
  },
  {
   "property": "C66",
   "status": "partial",
   "theorems": [
    "Verif.Plugin.C66_delete_false",
    "Verif.Plugin.C66_same_partial",
    "Verif.Plugin.C66_two_false",
    "Verif.Plugin.C66_leak_false",
    "Verif.Plugin.C66_noInstances_false"
   ],
   "note": "refuted for Delete, concurrent misses, failed creations and the default instance count; proved for creations that do not overlap"
  },
  {
   "property": "C67",
   "status": "proved",
   "theorems": [
    "Verif.Plugin.C67_own"
   ],
   "note": ""
  },
  {
   "property": "C68",
   "status": "partial",
   "theorems": [
    "Verif.Plugin.C68_nil_false",
    "Verif.Plugin.C68_overcreate_false",
    "Verif.Plugin.C68_late_release_false",
    "Verif.Plugin.C68_skew_false",
    "Verif.Plugin.C68_wrap_false"
   ],
   "note": "refuted by concrete runs; the part that holds is C65"
  },
  {
   "property": "C69",
   "status": "proved",
   "theorems": [
    "Verif.Ca.C69_certificates",
    "Verif.Ca.C69_reuse",
    "Verif.Ca.C69_expired",
    "Verif.Ca.C69_ttl_not_honoured",
    "Verif.Ca.C69_endpointSAN"
   ],
   "note": ""
  },
  {
   "property": "C70",
   "status": "partial",
   "theorems": [
    "Verif.Ca.C70_types",
    "Verif.Ca.C70_unparsable",
    "Verif.Ca.C70_sans_partial",
    "Verif.Ca.C70_uris_false",
    "Verif.Ca.C70_serial_partial",
    "Verif.Ca.C70_serial_false",
    "Verif.Ca.C70_options_false"
   ],
   "note": "SANs proved for at most one URI, serials for issuances one after the other; the rest is refuted"
  },
  {
   "property": "C71",
   "status": "partial",
   "theorems": [
    "Verif.TlsWrap.C71_server_partial",
    "Verif.TlsWrap.C71_client_partial",
    "Verif.TlsWrap.C71_client_error",
    "Verif.TlsWrap.C71_client_crash_false",
    "Verif.TlsWrap.C71_client_decline_false",
    "Verif.TlsWrap.C71_client_override_false",
    "Verif.TlsWrap.C71_server_crash_false",
    "Verif.TlsWrap.C71_server_callback_false"
   ],
   "note": "proved for configurations whose callbacks return a certificate and where the choice is unambiguous; refuted (crash, precedence) otherwise"
  },
  {
   "property": "C72",
   "status": "partial",
   "theorems": [
    "Verif.Dial.C72_own_partial",
    "Verif.Dial.C72_context",
    "Verif.Dial.C72_shared_state_false",
    "Verif.Dial.C72_gotConn_false",
    "Verif.Dial.C72_noleak_partial",
    "Verif.Dial.C72_leak_false",
    "Verif.Dial.C72_close_open_false",
    "Verif.Dial.C72_options_partial",
    "Verif.Dial.C72_options_false"
   ],
   "note": "own state with fresh contexts, no leak while after-hooks succeed, own options without spare capacity; each refuted otherwise"
  },
  {
   "property": "C73",
   "status": "partial",
   "theorems": [
    "Verif.ConnState.C73_progress_partial",
    "Verif.ConnState.C73_finite_partial",
    "Verif.ConnState.C73_deadlock_false"
   ],
   "note": "progress and termination if nobody asks during the handshake; deadlock otherwise"
  },
  {
   "property": "C74",
   "status": "proved",
   "theorems": [
    "Verif.Dial.C74_hooks",
    "Verif.Dial.C74_close"
   ],
   "note": "for every schedule and failure"
  },
  {
   "property": "C75",
   "status": "proved",
   "theorems": [
    "Verif.Props.C75_layout",
    "Verif.Props.C75_versions",
    "Verif.Props.C75_unique"
   ],
   "note": "For every specification in the usual notation the generator accepts; meaning of a specification in Kafka/LayoutSpec.lean"
  },
  {
   "property": "C76",
   "status": "proved",
   "theorems": [
    "Verif.Props.C76_requests_regenerated",
    "Verif.Props.C76_responses_regenerated",
    "Verif.Props.C76_headers_regenerated",
    "Verif.Props.C76_names",
    "Verif.Props.C76_usual",
    "Verif.Props.C76_shipped",
    "Verif.Props.C76_complete",
    "Verif.Props.C76_headers",
    "Verif.Props.C76_keys"
   ],
   "note": "Both tables extracted from the repository by tools/extract_*.py; regenerated codecs compared in the kernel, layouts for all versions by C75"
  },
  {
   "property": "C77",
   "status": "partial",
   "theorems": [
    "Verif.Props.C77_inherited",
    "Verif.Props.C77_as_specified_partial",
    "Verif.Props.C77_nullable_at_version_zero_false",
    "Verif.Props.C77_version_zero_false",
    "Verif.Props.C77_nested_false"
   ],
   "note": "What the generator does (C77_inherited) for all specifications; exact from version 1 on where no structure is nullable; refuted at version 0 (also for shipped messages, C77_nullable_at_version_zero_false) and inside nullable structures"
  },
  {
   "property": "C78",
   "status": "proved",
   "theorems": [
    "Verif.Props.C78_engine",
    "Verif.Props.C78_answer",
    "Verif.Props.C78_unchanged",
    "Verif.Props.C78_only_stars",
    "Verif.Props.C78_one_hidden"
   ],
   "note": "every text, every pattern set satisfying the contract of regexp (C78_engine for the shipped one), every order; exactness: see C171"
  },
  {
   "property": "C79",
   "status": "proved",
   "theorems": [
    "Verif.Props.C79_stream",
    "Verif.Props.C79_cut",
    "Verif.Props.C79_framed",
    "Verif.Props.C79_masked",
    "Verif.Props.C79_off",
    "Verif.Props.C79_fresh"
   ],
   "note": "for every stream, cutting, interleaving and DetectPII result, while no handler has failed and the stream does not end inside a message (both in the property)"
  },
  {
   "property": "C80",
   "status": "proved",
   "theorems": [
    "Verif.Props.C80_matched",
    "Verif.Props.C80_in_order"
   ],
   "note": ""
  },
  {
   "property": "C81",
   "status": "partial",
   "theorems": [
    "Verif.Props.C81_no_failure_partial",
    "Verif.Props.C81_cut_false",
    "Verif.Props.C81_lost_false",
    "Verif.Props.C81_response_dropped_false",
    "Verif.Props.C81_no_ack_false",
    "Verif.Props.C81_crash_false",
    "Verif.Props.C81_end_false"
   ],
   "note": "C81_no_failure_partial gives the condition under which the filter does not fail; the full statement is false of the code (C81_*_false)"
  },
  {
   "property": "C82",
   "status": "proved",
   "theorems": [
    "Verif.Props.C82_roundtrip",
    "Verif.Props.C82_select",
    "Verif.Props.C82_ready"
   ],
   "note": ""
  },
  {
   "property": "C83",
   "status": "proved",
   "theorems": [
    "Verif.Props.C83_in_order",
    "Verif.Props.C83_prefix",
    "Verif.Props.C83_one_reader",
    "Verif.Props.C83_two_keys_false"
   ],
   "note": "one key per connection, as the statement says; two keys refuted (C83_two_keys_false)"
  },
  {
   "property": "C84",
   "status": "partial",
   "theorems": [
    "Verif.Props.C84_available_partial",
    "Verif.Props.C84_reported_partial",
    "Verif.Props.C84_eof_discards_false",
    "Verif.Props.C84_data_lost_false",
    "Verif.Props.C84_eof_silent_false"
   ],
   "note": "availability and report before the end of the stream; three _false theorems show data lost and ends not reported"
  },
  {
   "property": "C85",
   "status": "proved",
   "theorems": [
    "Verif.Props.C85_in_order",
    "Verif.Props.C85_all_sent",
    "Verif.Props.C85_progress"
   ],
   "note": "precondition CleanFailure as in the statement"
  },
  {
   "property": "C86",
   "status": "partial",
   "theorems": [
    "Verif.Props.C86_never_sent_false",
    "Verif.Props.C86_crash_false",
    "Verif.Props.C86_close_loses_false",
    "Verif.Props.C86_repeated_false",
    "Verif.Props.C86_accept_partial"
   ],
   "note": "acceptance is all or nothing while open; crash, loss and repetition refuted"
  },
  {
   "property": "C87",
   "status": "proved",
   "theorems": [
    "Verif.Props.C87_in_order",
    "Verif.Props.C87_one_goroutine",
    "Verif.Props.C87_announced",
    "Verif.Props.C87_quiescent",
    "Verif.Props.C87_work"
   ],
   "note": ""
  },
  {
   "property": "C88",
   "status": "proved",
   "theorems": [
    "Verif.Props.C88_once"
   ],
   "note": "every interleaving of any number of dials and failures; keys and failures: C198"
  },
  {
   "property": "C89",
   "status": "partial",
   "theorems": [
    "Verif.Props.C89_wakeup_partial",
    "Verif.Props.C89_wakeup_false"
   ],
   "note": "with room in the queue; refuted for a full one"
  },
  {
   "property": "C90",
   "status": "proved",
   "theorems": [
    "Verif.Props.C90_roundtrip",
    "Verif.Props.C90_parse_exact",
    "Verif.Props.C90_only_confirmed",
    "Verif.Props.C90_issued",
    "Verif.Props.C90_refused"
   ],
   "note": "Model of the handler for all headers, tokens and cluster answers; JWT parsing and the token review are parameters."
  },
  {
   "property": "C91",
   "status": "proved",
   "theorems": [
    "Verif.Props.C91_own_ca"
   ],
   "note": "every token the cluster confirms; namespaces: C199"
  },
  {
   "property": "C92",
   "status": "proved",
   "theorems": [
    "Verif.Props.C92_valid",
    "Verif.Props.C92_reconciled",
    "Verif.Props.C92_restored",
    "Verif.Props.C92_refused"
   ],
   "note": "Under timely reconciliation (within the margin the controller requests)."
  },
  {
   "property": "C93",
   "status": "partial",
   "theorems": [
    "Verif.Props.C93_not_repaired_false",
    "Verif.Props.C93_old_account_false",
    "Verif.Props.C93_crash_false",
    "Verif.Props.C93_account_partial"
   ],
   "note": "False of the code in three ways (C93_*_false); proved if the account does not change and nobody tampers."
  },
  {
   "property": "C94",
   "status": "proved",
   "theorems": [
    "Verif.Props.C94_kept",
    "Verif.Props.C94_added",
    "Verif.Props.C94_annotations"
   ],
   "note": "For every pod."
  },
  {
   "property": "C95",
   "status": "proved",
   "theorems": [
    "Verif.Props.C95_labels",
    "Verif.Props.C95_values"
   ],
   "note": "every pod not of an OpenShift DeploymentConfig; repetition: C201"
  },
  {
   "property": "C96",
   "status": "proved",
   "theorems": [
    "Verif.Props.C96_deployment",
    "Verif.Props.C96_cronjob",
    "Verif.Props.C96_other",
    "Verif.Props.C96_bare"
   ],
   "note": "For every name."
  },
  {
   "property": "C97",
   "status": "proved",
   "theorems": [
    "Verif.Props.C97_environment"
   ],
   "note": "For pods with labels and names valid in Kubernetes and not of a DeploymentConfig (C95); go-envconfig's parsing rules assumed."
  },
  {
   "property": "C98",
   "status": "proved",
   "theorems": [
    "Verif.Props.C98_node",
    "Verif.Props.C98_distinct"
   ],
   "note": "every environment; identity and override: C200"
  },
  {
   "property": "C99",
   "status": "proved",
   "theorems": [
    "Verif.Props.C99_accepted",
    "Verif.Props.C99_recovers",
    "Verif.Props.C99_kept",
    "Verif.Props.C99_recognised",
    "Verif.Props.C99_ca_key"
   ],
   "note": "Torn writes, any order, any history; clock does not go back."
  },
  {
   "property": "C100",
   "status": "partial",
   "theorems": [
    "Verif.Props.C100_bundle_partial",
    "Verif.Props.C100_corrected_partial",
    "Verif.Props.C100_not_retried_false",
    "Verif.Props.C100_edit_lost_false",
    "Verif.Props.C100_crash_false"
   ],
   "note": "Proved if updates succeed; false otherwise (C100_*_false)."
  },
  {
   "property": "C101",
   "status": "proved",
   "theorems": [
    "Verif.Props.Relay.C101_order",
    "Verif.Props.Relay.C101_complete",
    "Verif.Props.Relay.C101_returned",
    "Verif.Props.Relay.C101_progress"
   ],
   "note": "Connections with CloseWrite that do not break; fairness of the scheduler as progress measure."
  },
  {
   "property": "C102",
   "status": "proved",
   "theorems": [
    "Verif.Props.Relay.C102_ended",
    "Verif.Props.Relay.C102_closed"
   ],
   "note": "every pair of connection types and every history; losses and open connections: C202"
  },
  {
   "property": "C103",
   "status": "proved",
   "theorems": [
    "Verif.Props.Track.C103_state",
    "Verif.Props.Track.C103_none",
    "Verif.Props.Track.C103_tls"
   ],
   "note": ""
  },
  {
   "property": "C104",
   "status": "partial",
   "theorems": [
    "Verif.Props.Track.C104_addrs_partial",
    "Verif.Props.Track.C104_one_network_partial",
    "Verif.Props.Track.C104_mixed_false",
    "Verif.Props.Track.C104_empty_false"
   ],
   "note": "Equal iteration orders or one network; false in general."
  },
  {
   "property": "C105",
   "status": "proved",
   "theorems": [
    "Verif.Props.LProps.C105_latest",
    "Verif.Props.LProps.C105_callbacks"
   ],
   "note": "every interleaving of calls, cancellations, failed subscriptions and updates; freshness: C203"
  },
  {
   "property": "C106",
   "status": "proved",
   "theorems": [
    "Verif.Props.Bifrost.C106_published"
   ],
   "note": "every list of named ports; unnamed: C204"
  },
  {
   "property": "C107",
   "status": "proved",
   "theorems": [
    "Verif.Props.Bifrost.C107_key",
    "Verif.Props.Bifrost.C107_only_used",
    "Verif.Props.Bifrost.C107_collected"
   ],
   "note": "every set of sessions and services and every failure of the API server; completeness: C205"
  },
  {
   "property": "C108",
   "status": "proved",
   "theorems": [
    "Verif.Props.StatTags.C108_labels",
    "Verif.Props.StatTags.C108_injective"
   ],
   "note": "all known labels in every order"
  },
  {
   "property": "C109",
   "status": "partial",
   "theorems": [
    "Verif.Props.StatTags.C109_empty_code_false",
    "Verif.Props.StatTags.C109_separator_false",
    "Verif.Props.StatTags.C109_cluster_code_false",
    "Verif.Props.StatTags.C109_mongo_false",
    "Verif.Props.StatTags.C109_cluster_partial",
    "Verif.Props.StatTags.C109_word",
    "Verif.Props.StatTags.C109_prefix",
    "Verif.Props.StatTags.C109_listener",
    "Verif.Props.StatTags.C109_class",
    "Verif.Props.StatTags.C109_authz"
   ],
   "note": "cluster host form, prefixes and listeners; the full claim is false"
  },
  {
   "property": "C110",
   "status": "proved",
   "theorems": [
    "Verif.Props.WasmHttp.C110_transparent",
    "Verif.Props.WasmHttp.C110_filtered",
    "Verif.Props.WasmHttp.C110_reply"
   ],
   "note": ""
  },
  {
   "property": "C111",
   "status": "partial",
   "theorems": [
    "Verif.Props.WasmHttp.C111_status_partial",
    "Verif.Props.WasmHttp.C111_status_false",
    "Verif.Props.WasmHttp.C111_header_false",
    "Verif.Props.WasmHttp.C111_stream_false",
    "Verif.Props.WasmHttp.C111_request_false"
   ],
   "note": "status and body for a wider class; the full claim is false (C111_*_false)"
  },
  {
   "property": "C112",
   "status": "proved",
   "theorems": [
    "Verif.Props.WasmHttp.C112_gate",
    "Verif.Props.WasmHttp.C112_phases",
    "Verif.Props.WasmHttp.C112_nothing"
   ],
   "note": ""
  },
  {
   "property": "C113",
   "status": "partial",
   "theorems": [
    "Verif.Props.WasmHttp.C113_empty_partial",
    "Verif.Props.WasmHttp.C113_failure_false",
    "Verif.Props.WasmHttp.C113_code_false"
   ],
   "note": "false of the code (C113_*_false)"
  },
  {
   "property": "C114",
   "status": "proved",
   "theorems": [
    "Verif.Props.WasmHttp.C114_sent",
    "Verif.Props.WasmHttp.C114_once",
    "Verif.Props.WasmHttp.C114_answer"
   ],
   "note": ""
  },
  {
   "property": "C115",
   "status": "partial",
   "theorems": [
    "Verif.Props.WasmHttp.C115_left_partial",
    "Verif.Props.WasmHttp.C115_context_false",
    "Verif.Props.WasmHttp.C115_body_false",
    "Verif.Props.WasmHttp.C115_leak_false",
    "Verif.Props.WasmHttp.C115_reply_false"
   ],
   "note": "false of the code (C115_*_false)"
  },
  {
   "property": "C116",
   "status": "proved",
   "theorems": [
    "Verif.Props.WasmHttp.C116_invoke",
    "Verif.Props.WasmHttp.C116_balanced"
   ],
   "note": "every call, target, filter and outcome; what filters see: C206"
  },
  {
   "property": "C117",
   "status": "proved",
   "theorems": [
    "Verif.Props.Middleware.C117_element",
    "Verif.Props.Middleware.C117_outgoing"
   ],
   "note": "every request and certificate; spoofing, other fields: C207"
  },
  {
   "property": "C118",
   "status": "proved",
   "theorems": [
    "Verif.Props.Middleware.C118_request",
    "Verif.Props.Middleware.C118_connection",
    "Verif.Props.Middleware.C118_names",
    "Verif.Props.Middleware.C118_header",
    "Verif.Props.Middleware.C118_view",
    "Verif.Props.Middleware.C118_response"
   ],
   "note": "every request, response, connection and direction; further attributes: C208"
  },
  {
   "property": "C119",
   "status": "proved",
   "theorems": [
    "Verif.Props.Middleware.C119_request",
    "Verif.Props.Middleware.C119_response",
    "Verif.Props.Middleware.C119_service"
   ],
   "note": "all requests, responses, directions and prior attributes"
  },
  {
   "property": "C120",
   "status": "proved",
   "theorems": [
    "Verif.Props.FlatNode.C120_peer",
    "Verif.Props.FlatNode.C120_lookup"
   ],
   "note": "every layout of the relational format specification, buffers below 2^31 bytes"
  },
  {
   "property": "C121",
   "status": "proved",
   "theorems": [
    "Verif.Props.FlatNode.C121_contained"
   ],
   "note": "all bytes; crashes: C227"
  },
  {
   "property": "C122",
   "status": "proved",
   "theorems": [
    "Verif.Props.HostProps.C122_read",
    "Verif.Props.HostProps.C122_stored",
    "Verif.Props.HostProps.C122_parents"
   ],
   "note": "reads of dotted paths and of parents"
  },
  {
   "property": "C123",
   "status": "proved",
   "theorems": [
    "Verif.Props.HostProps.C123_single",
    "Verif.Props.HostProps.C123_frame"
   ],
   "note": "every name of one part, value and store; paths: C209"
  },
  {
   "property": "C124",
   "status": "proved",
   "theorems": [
    "Verif.Props.Ticker.C124_exclusive",
    "Verif.Props.Ticker.C124_ends"
   ],
   "note": "mutual exclusion of ticks and calls for every schedule"
  },
  {
   "property": "C125",
   "status": "proved",
   "theorems": [
    "Verif.Props.Ticker.C125_stops"
   ],
   "note": "every schedule of timers, calls, and changes of the period; termination: C210"
  },
  {
   "property": "C126",
   "status": "proved",
   "theorems": [
    "Verif.Props.Vm.C126_sharing",
    "Verif.Props.Vm.C126_runtime"
   ],
   "note": "sequential calls"
  },
  {
   "property": "C127",
   "status": "partial",
   "theorems": [
    "Verif.Props.Vm.C127_errors_partial",
    "Verif.Props.Vm.C127_race_false",
    "Verif.Props.Vm.C127_runtime_false"
   ],
   "note": "errors; _false: concurrent creation, runtime not in key"
  },
  {
   "property": "C128",
   "status": "proved",
   "theorems": [
    "Verif.Props.Vm.C128_close"
   ],
   "note": "every interleaving of acquiring and releasing before; afterwards: C211"
  },
  {
   "property": "C129",
   "status": "proved",
   "theorems": [
    "Verif.Props.Vm.C129_once",
    "Verif.Props.Vm.C129_file"
   ],
   "note": "every sequence of calls and answers; status codes: C212"
  },
  {
   "property": "C130",
   "status": "proved",
   "theorems": [
    "Verif.Props.Context.C130_distinct",
    "Verif.Props.Context.C130_window"
   ],
   "note": "all histories; counters modulo 2^32"
  },
  {
   "property": "C131",
   "status": "proved",
   "theorems": [
    "Verif.Props.Context.C131_one",
    "Verif.Props.Context.C131_names",
    "Verif.Props.Context.C131_parent"
   ],
   "note": "sequential histories"
  },
  {
   "property": "C132",
   "status": "proved",
   "theorems": [
    "Verif.Props.Context.C132_config",
    "Verif.Props.Context.C132_effective"
   ],
   "note": "every history with distinct root ids; same root id: C213"
  },
  {
   "property": "C133",
   "status": "proved",
   "theorems": [
    "Verif.Props.Server.C133_served",
    "Verif.Props.Server.C133_accepts"
   ],
   "note": "for every run of the server model"
  },
  {
   "property": "C134",
   "status": "partial",
   "theorems": [
    "Verif.Props.Server.C134_some_partial",
    "Verif.Props.Server.C134_early_false",
    "Verif.Props.Server.C134_lost_false",
    "Verif.Props.Server.C134_window_false",
    "Verif.Props.Server.C134_panic_false"
   ],
   "note": "proved that some policy allowed it or none had come; falsified by early and lost policies, half-written policies and crashes"
  },
  {
   "property": "C135",
   "status": "proved",
   "theorems": [
    "Verif.Props.CaConfig.C135_revision",
    "Verif.Props.CaConfig.C135_endpoint",
    "Verif.Props.CaConfig.C135_addresses"
   ],
   "note": "every cluster; root certificates: C214"
  },
  {
   "property": "C136",
   "status": "proved",
   "theorems": [
    "Verif.Props.CaConfig.C136_source",
    "Verif.Props.CaConfig.C136_bearer",
    "Verif.Props.CaConfig.C136_names"
   ],
   "note": "every environment and token, every two instances; failing stat: C215"
  },
  {
   "property": "C137",
   "status": "partial",
   "theorems": [
    "Verif.Props.Handler.C137_one_partial",
    "Verif.Props.Handler.C137_after_partial",
    "Verif.Props.Handler.C137_one_false"
   ],
   "note": "sequential; falsified when GetDiscoveryClient runs concurrently with Run"
  },
  {
   "property": "C138",
   "status": "proved",
   "theorems": [
    "Verif.Props.Handler.C138_once"
   ],
   "note": "every history of pushes, failures and the end of the context; what stays: C216"
  },
  {
   "property": "C139",
   "status": "proved",
   "theorems": [
    "Verif.Props.Handler.C139_disabled",
    "Verif.Props.Handler.C139_tls",
    "Verif.Props.Handler.C139_created",
    "Verif.Props.Handler.C139_interval",
    "Verif.Props.Handler.C139_port"
   ],
   "note": "every configuration and every call; without TLS: C217"
  },
  {
   "property": "C140",
   "status": "proved",
   "theorems": [
    "Verif.Props.GrpcDial.C140_address",
    "Verif.Props.GrpcDial.C140_encrypted"
   ],
   "note": "every host, answer of the mesh, server and history; verification: C218"
  },
  {
   "property": "C141",
   "status": "proved",
   "theorems": [
    "Verif.Props.Citadel.C141_name",
    "Verif.Props.Citadel.C141_token"
   ],
   "note": "every configuration, server and answer, every number of requests; chains, closing: C219; the tunnel client of the mesh integration sends the token to the tunnel server too: C290"
  },
  {
   "property": "C142",
   "status": "proved",
   "theorems": [
    "Verif.Props.Gzip.C142_stream",
    "Verif.Props.Gzip.C142_size",
    "Verif.Props.Gzip.C142_snappy",
    "Verif.Props.Gzip.C142_again"
   ],
   "note": "every intact stream; damaged: C220"
  },
  {
   "property": "C143",
   "status": "proved",
   "theorems": [
    "Verif.Props.Python.C143_held",
    "Verif.Props.Python.C143_open"
   ],
   "note": "sequential calls; threads and hashes: C221"
  },
  {
   "property": "C144",
   "status": "proved",
   "theorems": [
    "Verif.Props.Python.C144_same",
    "Verif.Props.Python.C144_value",
    "Verif.Props.Python.C144_free"
   ],
   "note": "every response without zero bytes; others: C222"
  },
  {
   "property": "C145",
   "status": "proved",
   "theorems": [
    "Verif.Props.JavaLog.C145_batches"
   ],
   "note": "up to 1000 waiting lines; beyond: C223"
  },
  {
   "property": "C146",
   "status": "partial",
   "theorems": [
    "Verif.Props.Json.C146_value_partial",
    "Verif.Props.Json.C146_binary_partial",
    "Verif.Props.Json.C146_batch_partial",
    "Verif.Props.Json.C146_messages_partial",
    "Verif.Props.Json.C146_escape_false",
    "Verif.Props.Json.C146_header_false",
    "Verif.Props.Json.C146_record_false",
    "Verif.Props.Json.C146_nan_false"
   ],
   "note": "true if strings need no escaping, floats are numbers, no record has headers and no field is called Type; the rest is false in the code (_false theorems)"
  },
  {
   "property": "C147",
   "status": "proved",
   "theorems": [
    "Verif.Props.Equal.C147_content",
    "Verif.Props.Equal.C147_equivalence",
    "Verif.Props.Equal.C147_bytes"
   ],
   "note": "all pairs and triples of messages without NaN; strict equality: C224"
  },
  {
   "property": "C148",
   "status": "proved",
   "theorems": [
    "Verif.Props.BifrostPorts.C148_recorded",
    "Verif.Props.BifrostPorts.C148_sessions"
   ],
   "note": "every interleaving of event handlers and reconciles; ports listened on: C225"
  },
  {
   "property": "C149",
   "status": "partial",
   "theorems": [
    "Verif.Props.MwHandler.C149_once_partial",
    "Verif.Props.MwHandler.C149_running_partial",
    "Verif.Props.MwHandler.C149_crash_false",
    "Verif.Props.MwHandler.C149_twice_false"
   ],
   "note": "Every middleware once per phase while none is added or removed; crash and double call otherwise (C149_crash_false, C149_twice_false)."
  },
  {
   "property": "C150",
   "status": "partial",
   "theorems": [
    "Verif.Props.C150_roundtrip_partial",
    "Verif.Props.C150_room_partial",
    "Verif.Props.C150_model_partial",
    "Verif.Props.C150_snappy_false",
    "Verif.Props.C150_snappy_rest_false",
    "Verif.Props.C150_snappy_length_false",
    "Verif.Props.C150_grows_false",
    "Verif.Props.C150_empty_false"
   ],
   "note": "Sections of plain and gzip batches (small records) round-trip in any buffer they fit; false for snappy, growing and empty gzip batches."
  },
  {
   "property": "C151",
   "status": "proved",
   "theorems": [
    "Verif.Props.C151_records",
    "Verif.Props.C151_plain"
   ],
   "note": "small records through any splitting of the stream; large: C226"
  },
  {
   "property": "C152",
   "status": "proved",
   "theorems": [
    "Verif.Pool.Timed.C152_pool_expires",
    "Verif.Pool.Timed.C152_conn_expires",
    "Verif.Pool.Timed.C152_conn_exact"
   ],
   "note": "expiry of idle pools (within timeout + 1 s) and idle connections (exactly) for all histories and timings; pools in use: see C160"
  },
  {
   "property": "C229",
   "status": "proved",
   "theorems": [
    "Verif.Props.Life.C229_filter",
    "Verif.Props.Life.C229_instance",
    "Verif.Props.Life.C229_running",
    "Verif.Props.Life.C229_started"
   ],
   "note": "every interleaving and every failure"
  },
  {
   "property": "C230",
   "status": "partial",
   "theorems": [
    "Verif.Props.Life.C230_after_stop_partial",
    "Verif.Props.Life.C230_released_partial",
    "Verif.Props.Life.C230_after_stop_false",
    "Verif.Props.Life.C230_refused_false",
    "Verif.Props.Life.C230_released_false"
   ],
   "note": "instances dropped only while unused; contexts can be created; three counterexamples"
  },
  {
   "property": "C231",
   "status": "proved",
   "theorems": [
    "Verif.Props.TunnelClient.C231_right_listener",
    "Verif.Props.TunnelClient.C231_once"
   ],
   "note": "addresses and streams as in the request; muxado trusted"
  },
  {
   "property": "C232",
   "status": "proved",
   "theorems": [
    "Verif.Props.TunnelClient.C232_requested",
    "Verif.Props.TunnelClient.C232_assigned",
    "Verif.Props.TunnelClient.C232_kept",
    "Verif.Props.TunnelClient.C232_refused"
   ],
   "note": "ports of a connection only; see C233 for late responses"
  },
  {
   "property": "C233",
   "status": "partial",
   "theorems": [
    "Verif.Props.TunnelClient.C233_requested_partial",
    "Verif.Props.TunnelClient.C233_late_false",
    "Verif.Props.TunnelClient.C233_no_crash_partial",
    "Verif.Props.TunnelClient.C233_close_false",
    "Verif.Props.TunnelClient.C233_reconnect_false",
    "Verif.Props.TunnelClient.C233_failed_listener_false",
    "Verif.Props.TunnelClient.C233_no_leak_partial",
    "Verif.Props.TunnelClient.C233_leak_false"
   ],
   "note": "false as stated: late responses, closed listeners and unresolvable addresses (C233_late_false, C233_close_false, C233_reconnect_false, C233_failed_listener_false, C233_leak_false); proved with guards"
  },
  {
   "property": "C234",
   "status": "proved",
   "theorems": [
    "Verif.Props.Keep.C234_silent",
    "Verif.Props.Keep.C234_cut_reason",
    "Verif.Props.Keep.C234_pings"
   ],
   "note": "timers fire in time"
  },
  {
   "property": "C235",
   "status": "partial",
   "theorems": [
    "Verif.Props.Keep.C235_prompt_partial",
    "Verif.Props.Keep.C235_short_false",
    "Verif.Props.Keep.C235_close_false",
    "Verif.Props.Keep.C235_close_partial",
    "Verif.Props.Keep.C235_off_false"
   ],
   "note": "false for timeouts under a second plus the delay, for closing while the timer fires and for timeout 0; proved otherwise"
  },
  {
   "property": "C236",
   "status": "proved",
   "theorems": [
    "Verif.Props.TMsg.C236_all",
    "Verif.Props.TMsg.C236_cut",
    "Verif.Props.TMsg.C236_handler",
    "Verif.Props.TMsg.C236_once"
   ],
   "note": "JSON is a parameter with laws (a decoder takes one value and says how many bytes it used); shown to be satisfiable"
  },
  {
   "property": "C237",
   "status": "partial",
   "theorems": [
    "Verif.Props.TMsg.C237_order_false",
    "Verif.Props.TMsg.C237_stale_false",
    "Verif.Props.TMsg.C237_stale_sent_false",
    "Verif.Props.TMsg.C237_order_partial"
   ],
   "note": "refuted in general: a goroutine per message, and absent fields keep the values of the message before; proved when handlers finish before the next message is read"
  },
  {
   "property": "C238",
   "status": "proved",
   "theorems": [
    "Verif.Props.TMsg.C238_lossless",
    "Verif.Props.TMsg.C238_control"
   ],
   "note": "JSON as in C236"
  },
  {
   "property": "C239",
   "status": "partial",
   "theorems": [
    "Verif.Props.TMsg.C239_lost_false",
    "Verif.Props.TMsg.C239_wait_partial",
    "Verif.Props.TMsg.C239_suffix_partial"
   ],
   "note": "refuted in general: bytes buffered by the decoder are dropped; proved if the peer waits for the answer, and in general that a suffix is read"
  },
  {
   "property": "C240",
   "status": "proved",
   "theorems": [
    "Verif.Props.PiiPat.C240_sound",
    "Verif.Props.PiiPat.C240_covers",
    "Verif.Props.PiiPat.C240_found",
    "Verif.Props.PiiPat.C240_words"
   ],
   "note": "match relation defined independently of the matcher"
  },
  {
   "property": "C241",
   "status": "proved",
   "theorems": [
    "Verif.Props.PiiPat.C241_ssn",
    "Verif.Props.PiiPat.C241_card",
    "Verif.Props.PiiPat.C241_aws_id",
    "Verif.Props.PiiPat.C241_google_oauth",
    "Verif.Props.PiiPat.C241_github",
    "Verif.Props.PiiPat.C241_heroku",
    "Verif.Props.PiiPat.C241_stripe",
    "Verif.Props.PiiPat.C241_github_pat",
    "Verif.Props.PiiPat.C241_email",
    "Verif.Props.PiiPat.C241_aws_env",
    "Verif.Props.PiiPat.C241_gcp_env",
    "Verif.Props.PiiPat.C241_azure_env",
    "Verif.Props.PiiPat.C241_db",
    "Verif.Props.PiiPat.C241_firebase",
    "Verif.Props.PiiPat.C241_google_key",
    "Verif.Props.PiiPat.C241_slack",
    "Verif.Props.PiiPat.C241_phone",
    "Verif.Props.PiiPat.C241_mac",
    "Verif.Props.PiiPat.C241_ipv6",
    "Verif.Props.PiiPat.C241_ipv4",
    "Verif.Props.PiiPat.C241_detect"
   ],
   "note": "languages of all twenty patterns"
  },
  {
   "property": "C242",
   "status": "proved",
   "theorems": [
    "Verif.Props.WasmHeaders.C242_names",
    "Verif.Props.WasmHeaders.C242_token",
    "Verif.Props.WasmHeaders.C242_change",
    "Verif.Props.WasmHeaders.C242_read",
    "Verif.Props.WasmHeaders.C242_set_get",
    "Verif.Props.WasmHeaders.C242_map",
    "Verif.Props.WasmHeaders.C242_reply"
   ],
   "note": "every map, name, value and sequence of changes"
  },
  {
   "property": "C243",
   "status": "partial",
   "theorems": [
    "Verif.Props.WasmHeaders.C243_range_partial",
    "Verif.Props.WasmHeaders.C243_all_partial",
    "Verif.Props.WasmHeaders.C243_several_false",
    "Verif.Props.WasmHeaders.C243_empty_false",
    "Verif.Props.WasmHeaders.C243_raw_false",
    "Verif.Props.WasmHeaders.C243_stop_false"
   ],
   "note": "proved for normalised names with one non-empty value; refuted in general (several values, empty values, raw names, stopping)"
  },
  {
   "property": "C244",
   "status": "proved",
   "theorems": [
    "Verif.Props.InstCtx.C244_same",
    "Verif.Props.InstCtx.C244_stored",
    "Verif.Props.InstCtx.C244_own"
   ],
   "note": "all interleavings"
  },
  {
   "property": "C245",
   "status": "partial",
   "theorems": [
    "Verif.Props.InstCtx.C245_kept_partial",
    "Verif.Props.InstCtx.C245_failed_false",
    "Verif.Props.InstCtx.C245_stop_false",
    "Verif.Props.InstCtx.C245_late_false",
    "Verif.Props.InstCtx.C245_leak_false"
   ],
   "note": "proved for orderly runs; leaks after failed start, failed stop and a late stream (_false), and they are permanent (C245_leak_false)"
  },
  {
   "property": "C246",
   "status": "partial",
   "theorems": [
    "Verif.Props.HttpServer.C246_all_partial",
    "Verif.Props.HttpServer.C246_fixed",
    "Verif.Props.HttpServer.C246_reset_false",
    "Verif.Props.HttpServer.C246_silent_false"
   ],
   "note": "proved for clients that send three bytes or end, and in the fixed modes for all clients; refuted in permissive mode for clients that reset or stay silent"
  },
  {
   "property": "C247",
   "status": "partial",
   "theorems": [
    "Verif.Props.HttpServer.C247_tls_partial",
    "Verif.Props.HttpServer.C247_plain_false",
    "Verif.Props.HttpServer.C247_strict",
    "Verif.Props.HttpServer.C247_serve",
    "Verif.Props.HttpServer.C247_load"
   ],
   "note": "refuted: plain text is answered; proved for TLS clients, strict mode, Serve and load errors"
  },
  {
   "property": "C248",
   "status": "partial",
   "theorems": [
    "Verif.Props.HeimdallWebhook.C248_names_partial",
    "Verif.Props.HeimdallWebhook.C248_hooks",
    "Verif.Props.HeimdallWebhook.C248_found",
    "Verif.Props.HeimdallWebhook.C248_both_false",
    "Verif.Props.HeimdallWebhook.C248_url_false"
   ],
   "note": "Proved: the certificate names exactly the forms of every service of the configuration that is read. False of the code: C248_both_false (a second configuration of the same name is ignored), C248_url_false (panic on a URL webhook)."
  },
  {
   "property": "C249",
   "status": "proved",
   "theorems": [
    "Verif.Props.HeimdallWebhook.C249_token",
    "Verif.Props.HeimdallWebhook.C249_settles",
    "Verif.Props.HeimdallWebhook.C249_deleted"
   ],
   "note": "For every history and selector; C249_deleted records that a deleted labelled group is retried for ever."
  },
  {
   "property": "C250",
   "status": "partial",
   "theorems": [
    "Verif.Dotn.C250_get_partial",
    "Verif.Dotn.C250_scalar_partial",
    "Verif.Dotn.C250_clone",
    "Verif.Dotn.C250_element_false",
    "Verif.Dotn.C250_append_false"
   ],
   "note": "Proved for keys that do not index lists. C250_element_false and C250_append_false: lists in a clone."
  },
  {
   "property": "C251",
   "status": "partial",
   "theorems": [
    "Verif.Ads.Stream.C251_notices_partial",
    "Verif.Ads.Stream.C251_quiet_partial",
    "Verif.Ads.Stream.C251_dead",
    "Verif.Ads.Stream.C251_update_false",
    "Verif.Ads.Stream.C251_full_false",
    "Verif.Ads.Stream.C251_unsupported_false"
   ],
   "note": "Proved for every schedule: a new stream is opened, the client gives up, or one of three stuck states; without stuck states when the receiver is idle at the break. The stuck states are reachable and permanent (C251_update_false, C251_full_false, C251_unsupported_false)."
  },
  {
   "property": "C252",
   "status": "partial",
   "theorems": [
    "Verif.Ads.Stream.C252_gives_up_partial",
    "Verif.Ads.Stream.C252_error",
    "Verif.Ads.Stream.C252_no_more",
    "Verif.Ads.Stream.C252_canceled_false"
   ],
   "note": "Proved as long as no server ends a stream with status Canceled; C252_canceled_false without that."
  },
  {
   "property": "C253",
   "status": "proved",
   "theorems": [
    "Verif.Exp.JavaIo.C253_read",
    "Verif.Exp.JavaIo.C253_gather",
    "Verif.Exp.JavaIo.C253_all",
    "Verif.Exp.JavaIo.C253_writes"
   ],
   "note": "all of it for the model of buffers; the JDK's buffers are environment"
  },
  {
   "property": "C254",
   "status": "partial",
   "theorems": [
    "Verif.Exp.JavaIo.C254_read_partial",
    "Verif.Exp.JavaIo.C254_bounds",
    "Verif.Exp.JavaIo.C254_part_false",
    "Verif.Exp.JavaIo.C254_byte_false",
    "Verif.Exp.JavaIo.C254_write_partial",
    "Verif.Exp.JavaIo.C254_write_false"
   ],
   "note": "C254_read_partial and C254_write_partial are proved for whole arrays; reading or writing part of an array and reading one byte are false of the code"
  },
  {
   "property": "C255",
   "status": "partial",
   "theorems": [
    "Verif.Exp.JavaSel.C255_ready",
    "Verif.Exp.JavaSel.C255_selected",
    "Verif.Exp.JavaSel.C255_accept",
    "Verif.Exp.JavaSel.C255_connect_partial",
    "Verif.Exp.JavaSel.C255_connect_false",
    "Verif.Exp.JavaSel.C255_dispatch",
    "Verif.Exp.JavaSel.C255_register",
    "Verif.Exp.JavaSel.C255_deregister",
    "Verif.Exp.JavaSel.C255_deregistered",
    "Verif.Exp.JavaSel.C255_end_to_end_partial",
    "Verif.Exp.JavaSel.C255_collision_false",
    "Verif.Exp.JavaSel.C255_start",
    "Verif.Exp.JavaSel.C255_start_connect",
    "Verif.Exp.JavaSel.C255_start_server",
    "Verif.Exp.JavaSel.C255_early_false"
   ],
   "note": "proved for reading, writing and accepting with distinct hash codes; the connect event, equal hash codes and interest before connecting are false of the code"
  },
  {
   "property": "C256",
   "status": "partial",
   "theorems": [
    "Verif.Exp.JavaSel.C256_connect_partial",
    "Verif.Exp.JavaSel.C256_dialed_partial",
    "Verif.Exp.JavaSel.C256_finish_partial",
    "Verif.Exp.JavaSel.C256_socket_false",
    "Verif.Exp.JavaSel.C256_twice_false",
    "Verif.Exp.JavaSel.C256_again_false",
    "Verif.Exp.JavaSel.C256_failed_false"
   ],
   "note": "proved for programs that call socket() first, do not repeat finishConnect and change interests once; false otherwise"
  },
  {
   "property": "C257",
   "status": "partial",
   "theorems": [
    "Verif.Exp.Spring.C257_body_partial",
    "Verif.Exp.Spring.C257_order",
    "Verif.Exp.Spring.C257_single_false",
    "Verif.Exp.Spring.C257_last_false",
    "Verif.Exp.Spring.C257_ff_false"
   ],
   "note": "proved for bodies without the byte 255 whose end comes separately; C257_order holds always; the rest is false of the code"
  },
  {
   "property": "C258",
   "status": "partial",
   "theorems": [
    "Verif.Exp.Spring.C258_headers",
    "Verif.Exp.Spring.C258_body_partial",
    "Verif.Exp.Spring.C258_rest_false",
    "Verif.Exp.Spring.C258_cookies_false"
   ],
   "note": "headers and status are proved for all responses, the body for at most one buffer; several buffers, cookies and flushing are false of the code"
  },
  {
   "property": "C259",
   "status": "partial",
   "theorems": [
    "Verif.Exp.PyReq.C259_sent_partial",
    "Verif.Exp.PyReq.C259_headers_false",
    "Verif.Exp.PyReq.C259_text_false",
    "Verif.Exp.PyReq.C259_answer_partial",
    "Verif.Exp.PyReq.C259_failed",
    "Verif.Exp.PyReq.C259_unicode_false"
   ],
   "note": "proved for method, address, bytes without NUL and UTF-8 headers of the answer; request headers, text bodies, NUL and other headers are false of the code"
  },
  {
   "property": "C260",
   "status": "partial",
   "theorems": [
    "Verif.Props.C260_read_partial",
    "Verif.Props.C260_text",
    "Verif.Props.C260_unread",
    "Verif.Props.C260_invalid",
    "Verif.Props.C260_cut_false"
   ],
   "note": "C260_text and C260_unread are proved in full; reading from a part that ends inside a character is false of the code"
  },
  {
   "property": "C261",
   "status": "partial",
   "theorems": [
    "Verif.Bal.C261_endpoints",
    "Verif.Bal.C261_clusters",
    "Verif.Bal.C261_resets",
    "Verif.Bal.C261_routes",
    "Verif.Bal.C261_shared_false",
    "Verif.Bal.C261_both_false",
    "Verif.Bal.C261_weights_false"
   ],
   "note": "the tables after every update are proved in closed form; that traffic then follows the new configuration is false of the code"
  },
  {
   "property": "C262",
   "status": "partial",
   "theorems": [
    "Verif.Dn.C262_attributes",
    "Verif.Dn.C262_parse",
    "Verif.Dn.C262_sound",
    "Verif.Dn.C262_roundtrip_partial",
    "Verif.Dn.C262_comma_false",
    "Verif.Dn.C262_slash_false",
    "Verif.Dn.C262_several_false",
    "Verif.Dn.C262_serial_false"
   ],
   "note": "attributes and soundness are proved in full; the round trip of subjects for simple values only, the rest is false of the code"
  },
  {
   "property": "C263",
   "status": "partial",
   "theorems": [
    "Verif.Exp.Transports.C263_java_partial",
    "Verif.Exp.Transports.C263_await",
    "Verif.Exp.Transports.C263_java_false",
    "Verif.Exp.Transports.C263_failed_false",
    "Verif.Exp.Transports.C263_mobile_false",
    "Verif.Exp.Transports.C263_mobile_partial",
    "Verif.Exp.Transports.C263_server_partial",
    "Verif.Exp.Transports.C263_server_false"
   ],
   "note": "proved for programs that close no transport and for servers that end within a second; the rest is false of the code"
  },
  {
   "property": "C264",
   "status": "partial",
   "theorems": [
    "Verif.Bifrost.Cmd.C264_parse_port",
    "Verif.Bifrost.Cmd.C264_parse_plain",
    "Verif.Bifrost.Cmd.C264_parse_none",
    "Verif.Bifrost.Cmd.C264_exposed",
    "Verif.Bifrost.Cmd.C264_invalid",
    "Verif.Bifrost.Cmd.C264_silent_false",
    "Verif.Bifrost.Cmd.C264_port_false",
    "Verif.Bifrost.Cmd.C264_unresolved_false",
    "Verif.Bifrost.Cmd.C264_connections",
    "Verif.Bifrost.Cmd.C264_delay_false",
    "Verif.Bifrost.Cmd.C264_prompt_partial"
   ],
   "note": "proved if all addresses resolve and numbers fit; silent mistakes, large ports, one bad address and delays are false of the code"
  },
  {
   "property": "C265",
   "status": "proved",
   "theorems": [
    "Verif.Ip.C265_read",
    "Verif.Ip.C265_names",
    "Verif.Ip.C265_write",
    "Verif.Ip.C265_dial",
    "Verif.Ip.C265_same",
    "Verif.Ip.C265_listener",
    "Verif.Ip.C265_hex_digits",
    "Verif.Ip.C265_dec_digits",
    "Verif.Ip.C265_longest",
    "Verif.Ip.C265_shortened"
   ],
   "note": "Go 1.20 net text functions and libnasp's users of them"
  },
  {
   "property": "C266",
   "status": "proved",
   "theorems": [
    "Verif.Ip.C266_v4",
    "Verif.Ip.C266_v6",
    "Verif.Ip.C266_other",
    "Verif.Ip.C266_match",
    "Verif.Ip.C266_malformed",
    "Verif.Ip.C266_chains",
    "Verif.Ip.C266_family"
   ],
   "note": "ParseCIDR and Contains from the text of the range"
  },
  {
   "property": "C267",
   "status": "partial",
   "theorems": [
    "Verif.Ip.C267_reach_partial",
    "Verif.Ip.C267_keys",
    "Verif.Ip.C267_name_false"
   ],
   "note": "holds for endpoints given by address (C267_reach_partial), false for host names (C267_name_false)"
  },
  {
   "property": "C268",
   "status": "partial",
   "theorems": [
    "Verif.TcpMeta.C268_exchange_partial",
    "Verif.TcpMeta.C268_free",
    "Verif.TcpMeta.C268_plain",
    "Verif.TcpMeta.C268_magic_false",
    "Verif.TcpMeta.C268_no_metadata_false",
    "Verif.TcpMeta.C268_cut_early_false",
    "Verif.TcpMeta.C268_cut_length_false",
    "Verif.TcpMeta.C268_server_first_false"
   ],
   "note": "Proved where the client speaks first and the first read of each end gets the metadata whole; what happens otherwise is disproved (cut metadata, server first)."
  },
  {
   "property": "C269",
   "status": "proved",
   "theorems": [
    "Verif.TcpMeta.C269_round_trip",
    "Verif.TcpMeta.C269_pairs",
    "Verif.TcpMeta.C269_environment",
    "Verif.TcpMeta.C269_comma_false",
    "Verif.TcpMeta.C269_unknown",
    "Verif.TcpMeta.C269_unknown_value",
    "Verif.TcpMeta.C269_other_kinds"
   ],
   "note": "Encoding and decoding byte by byte; UTF-8 checks, Base64 and the bytes of flat buffers are left out."
  },
  {
   "property": "C270",
   "status": "partial",
   "theorems": [
    "Verif.TcpMeta.C270_outgoing_partial",
    "Verif.TcpMeta.C270_accepted_partial",
    "Verif.TcpMeta.C270_any_client_false"
   ],
   "note": "Proved: an outgoing connection that has not agreed sends nothing of its own; an accepted one says nothing before metadata arrived. Disproved for accepted connections in general."
  },
  {
   "property": "C271",
   "status": "proved",
   "theorems": [
    "Verif.Pool.Timed.C271_closed_is_quiet",
    "Verif.Pool.Timed.C271_checker_ends",
    "Verif.Pool.Timed.C271_close_again"
   ],
   "note": "at the granularity of one step per call; overlapping calls: C36, C37 and the pool model of Pool/Channel"
  },
  {
   "property": "C272",
   "status": "partial",
   "theorems": [
    "Verif.Wasm.HostAbi.C272_elapsed_partial",
    "Verif.Wasm.HostAbi.C272_forward_partial",
    "Verif.Wasm.HostAbi.C272_fits",
    "Verif.Wasm.HostAbi.C272_backwards_false",
    "Verif.Wasm.HostAbi.C272_short_false"
   ],
   "note": "exact iff both readings fall into the same second; proved to jump back and to hide every full second otherwise"
  },
  {
   "property": "C273",
   "status": "partial",
   "theorems": [
    "Verif.Wasm.HostAbi.C273_answered_partial",
    "Verif.Wasm.HostAbi.C273_missing",
    "Verif.Wasm.HostAbi.C273_internal",
    "Verif.Wasm.HostAbi.C273_present",
    "Verif.Wasm.HostAbi.C273_panic_false"
   ],
   "note": "all calls but 25, which are listed exactly and panic"
  },
  {
   "property": "C274",
   "status": "proved",
   "theorems": [
    "Verif.Wasm.HostAbi.C274_levels",
    "Verif.Wasm.HostAbi.C274_monotone",
    "Verif.Wasm.HostAbi.C274_ok"
   ],
   "note": "all levels"
  },
  {
   "property": "C275",
   "status": "partial",
   "theorems": [
    "Verif.Net.MetricsServer.C275_rests",
    "Verif.Net.MetricsServer.C275_once",
    "Verif.Net.MetricsServer.C275_served_partial",
    "Verif.Net.MetricsServer.C275_kept",
    "Verif.Net.MetricsServer.C275_released_false",
    "Verif.Net.MetricsServer.C275_nofilters",
    "Verif.Net.MetricsServer.C275_nofilters_false"
   ],
   "note": "filters and a granted port; never released"
  },
  {
   "property": "C276",
   "status": "partial",
   "theorems": [
    "Verif.Net.MetricsServer.C276_runs_partial",
    "Verif.Net.MetricsServer.C276_crashes",
    "Verif.Net.MetricsServer.C276_runs_false"
   ],
   "note": "not offered or granted; otherwise always a panic"
  },
  {
   "property": "C277",
   "status": "proved",
   "theorems": [
    "Verif.CliProps.C277_reported"
   ],
   "note": "every record and order of iteration"
  },
  {
   "property": "C278",
   "status": "partial",
   "theorems": [
    "Verif.CliProps.C278_protected_partial",
    "Verif.CliProps.C278_only_partial",
    "Verif.CliProps.C278_unreadable_false",
    "Verif.CliProps.C278_plaintext_false",
    "Verif.CliProps.C278_crash_false",
    "Verif.CliProps.C278_no_endpoint"
   ],
   "note": "exact conditions for a protected connection; false: unreadable metadata, match fields that are not an object"
  },
  {
   "property": "C279",
   "status": "partial",
   "theorems": [
    "Verif.CliProps.C279_subscribed_partial",
    "Verif.CliProps.C279_other_false"
   ],
   "note": "clusters with subscribed endpoints; false for all others"
  },
  {
   "property": "C280",
   "status": "partial",
   "theorems": [
    "Verif.Picks.C280_latest_partial",
    "Verif.Picks.C280_own_partial",
    "Verif.Picks.C280_sequence_partial",
    "Verif.Picks.C280_wasted_false",
    "Verif.Picks.C280_shared_false",
    "Verif.Picks.C280_roundRobin_false"
   ],
   "note": "latest pick, own pick and sequences without refreshes or overlap; false with them"
  },
  {
   "property": "C281",
   "status": "partial",
   "theorems": [
    "Verif.Picks.C281_once_partial",
    "Verif.Picks.C281_asked_partial",
    "Verif.Picks.C281_forever_false",
    "Verif.Picks.C281_unbounded_false"
   ],
   "note": "exact work of a refresh; destinations are never forgotten"
  },
  {
   "property": "C282",
   "status": "partial",
   "theorems": [
    "Verif.CertNames.C282_first",
    "Verif.CertNames.C282_one_partial",
    "Verif.CertNames.C282_identity_false"
   ],
   "note": "the first URI; verified if it is the only one; false with several"
  },
  {
   "property": "C283",
   "status": "partial",
   "theorems": [
    "Verif.Kafka.LoadSpec.C283_error",
    "Verif.Kafka.LoadSpec.C283_last",
    "Verif.Kafka.LoadSpec.C283_all_partial",
    "Verif.Kafka.LoadSpec.C283_same_name_false",
    "Verif.Kafka.LoadSpec.C283_names"
   ],
   "note": "the last message of each name; all if names differ, as in the assets; false otherwise"
  },
  {
   "property": "C284",
   "status": "partial",
   "theorems": [
    "Verif.CertNames.C284_text_partial",
    "Verif.CertNames.C284_text_false"
   ],
   "note": "told for names without commas and spaces; false otherwise"
  },
  {
   "property": "C285",
   "status": "partial",
   "theorems": [
    "Verif.Kafka.GenAll.C285_same_partial",
    "Verif.Kafka.GenAll.C285_every",
    "Verif.Kafka.GenAll.C285_failed",
    "Verif.Kafka.GenAll.C285_written",
    "Verif.Kafka.GenAll.C285_stale_false",
    "Verif.Kafka.GenAll.C285_order_false",
    "Verif.Kafka.GenAll.C285_keys"
   ],
   "note": "same files if API keys differ, as in the assets; every file once; stale files and equal keys (false)"
  },
  {
   "property": "C286",
   "status": "partial",
   "theorems": [
    "Verif.JavaAddr.C286_told",
    "Verif.JavaAddr.C286_crash",
    "Verif.JavaAddr.C286_connected_partial",
    "Verif.JavaAddr.C286_unconnected_false"
   ],
   "note": "connected sockets; exceptions without a connection"
  },
  {
   "property": "C287",
   "status": "partial",
   "theorems": [
    "Verif.JavaAddr.C287_target_partial",
    "Verif.JavaAddr.C287_ipv6_false"
   ],
   "note": "names and IPv4; IPv6 fails"
  },
  {
   "property": "C288",
   "status": "partial",
   "theorems": [
    "Verif.Sec.CitadelMtls.C288_given",
    "Verif.Sec.CitadelMtls.C288_shown",
    "Verif.Sec.CitadelMtls.C288_one",
    "Verif.Sec.CitadelMtls.C288_kept",
    "Verif.Sec.CitadelMtls.C288_taken_up",
    "Verif.Sec.CitadelMtls.C288_signs_partial",
    "Verif.Sec.CitadelMtls.C288_stuck_false",
    "Verif.Sec.CitadelMtls.C288_crash_false",
    "Verif.Sec.CitadelMtls.C288_replaced_false"
   ],
   "note": "what is shown, one connection, taking up; signing goes on unless a rebuild fails; crash without TLS"
  },
  {
   "property": "C289",
   "status": "partial",
   "theorems": [
    "Verif.Bifrost.Flags.C289_value_partial",
    "Verif.Bifrost.Flags.C289_client",
    "Verif.Bifrost.Flags.C289_health_partial",
    "Verif.Bifrost.Flags.C289_env",
    "Verif.Bifrost.Flags.C289_shared_false",
    "Verif.Bifrost.Flags.C289_server_false",
    "Verif.Bifrost.Flags.C289_server_meant_false"
   ],
   "note": "client's options, health check, environment; options both commands declare are the client's"
  },
  {
   "property": "C290",
   "status": "partial",
   "theorems": [
    "Verif.Bifrost.Flags.C290_direct_partial",
    "Verif.Bifrost.Flags.C290_internal_false",
    "Verif.Bifrost.Flags.C290_environment_partial",
    "Verif.Bifrost.Flags.C290_environment_false"
   ],
   "note": "a direct client; the mesh's own client drops them"
  },
  {
   "property": "C291",
   "status": "partial",
   "theorems": [
    "Verif.Echo.C291_answers_partial",
    "Verif.Echo.C291_lines",
    "Verif.Echo.C291_failing",
    "Verif.Echo.C291_rest_false"
   ],
   "note": "all complete lines; an unterminated last line is dropped"
  },
  {
   "property": "C292",
   "status": "partial",
   "theorems": [
    "Verif.Bifrost.ServerCmd.C292_confirmed_partial",
    "Verif.Bifrost.ServerCmd.C292_starts",
    "Verif.Bifrost.ServerCmd.C292_outside_false"
   ],
   "note": "every start and session history in a cluster; outside a cluster nothing is asked of clients"
  },
  {
   "property": "C153",
   "status": "partial",
   "theorems": [
    "Verif.Route.C153_longest_false",
    "Verif.Route.C153_longest_partial"
   ],
   "note": "C153_longest_partial: containing ranges of equal length; C153_longest_false otherwise"
  },
  {
   "property": "C154",
   "status": "partial",
   "theorems": [
    "Verif.Match.C154_text",
    "Verif.Match.C154_regexCase_false",
    "Verif.Match.C154_string_false",
    "Verif.Match.C154_sanText_false",
    "Verif.Match.C154_print"
   ],
   "note": "reading and printing characterised (C154_text, C154_print); printed form not readable, SAN text without colon crashes, lowercased regex differs (_false)"
  },
  {
   "property": "C155",
   "status": "partial",
   "theorems": [
    "Verif.Route.C155_clientCert_false",
    "Verif.Route.C155_clientCert_partial"
   ],
   "note": "C155_clientCert_partial: TLS chains agree; C155_clientCert_false otherwise"
  },
  {
   "property": "C156",
   "status": "partial",
   "theorems": [
    "Verif.Route.C156_nonempty_partial",
    "Verif.Route.C156_empty_false"
   ],
   "note": "C156_nonempty_partial: known names have a well-formed address; C156_empty_false otherwise"
  },
  {
   "property": "C157",
   "status": "partial",
   "theorems": [
    "Verif.Tunnel.C157_exhaustion_partial",
    "Verif.Tunnel.C157_free_smallest_partial",
    "Verif.Tunnel.C157_exhaustion_false",
    "Verif.Tunnel.C157_max_never_free"
   ],
   "note": "all but the last port of the range (C157_exhaustion_partial, C157_free_smallest_partial); the last one is never handed out (C157_max_never_free)"
  },
  {
   "property": "C158",
   "status": "partial",
   "theorems": [
    "Verif.Tunnel.C158_delivery_partial",
    "Verif.Tunnel.C158_accepted_never_delivered_false",
    "Verif.Tunnel.C158_client_told_false",
    "Verif.Tunnel.C158_control_stream_told"
   ],
   "note": "delivery possible while the requester waits, control streams report errors; timeouts lose accepted streams and clients see success (_false)"
  },
  {
   "property": "C159",
   "status": "partial",
   "theorems": [
    "Verif.Bal.C159_choice_false",
    "Verif.Bal.C159_answers_partial",
    "Verif.Bal.C159_allDown_false",
    "Verif.Bal.C159_noneHealthy_false"
   ],
   "note": "random and least request with equal weights (C159_answers_partial); crash with a greater choice count or without healthy endpoint (_false)"
  },
  {
   "property": "C160",
   "status": "partial",
   "theorems": [
    "Verif.Pool.Timed.C160_not_early_partial",
    "Verif.Pool.Timed.C160_early_false",
    "Verif.Pool.Timed.C160_in_use_false",
    "Verif.Pool.Timed.C160_slow_start_false",
    "Verif.Pool.Timed.C160_initial_false"
   ],
   "note": "not closed early unless used between check and Close; four counterexamples"
  },
  {
   "property": "C161",
   "status": "partial",
   "theorems": [
    "Verif.Props.C161_length_prefix_partial",
    "Verif.Props.C161_length_prefix_false"
   ],
   "note": "outside the band of C163; one too large inside"
  },
  {
   "property": "C162",
   "status": "partial",
   "theorems": [
    "Verif.Props.C162_others_rejected_partial",
    "Verif.Props.C162_after_plus_false"
   ],
   "note": "strings without '+'; text after '+' is ignored"
  },
  {
   "property": "C163",
   "status": "partial",
   "theorems": [
    "Verif.Props.C163_uint64Size_false",
    "Verif.Props.C163_int64Size_false",
    "Verif.Props.C163_uint64Size_partial",
    "Verif.Props.C163_int64Size_partial"
   ],
   "note": "exact outside [2^49,2^56), one too large inside"
  },
  {
   "property": "C164",
   "status": "partial",
   "theorems": [
    "Verif.Props.C164_array_roundtrip_partial",
    "Verif.Props.C164_array_of_struct_roundtrip_partial",
    "Verif.Props.C164_array_too_long_false"
   ],
   "note": "arrays whose length fits the length field; longer ones wrap"
  },
  {
   "property": "C165",
   "status": "partial",
   "theorems": [
    "Verif.Props.C165_tags_roundtrip_partial",
    "Verif.Props.C165_empty_last_false"
   ],
   "note": "unless an empty value ends the input"
  },
  {
   "property": "C166",
   "status": "partial",
   "theorems": [
    "Verif.Ads.C166_nack_nonce_false",
    "Verif.Ads.C166_unsupported_false",
    "Verif.Ads.C166_reconnect_nonce_false",
    "Verif.Ads.C166_incremental_partial"
   ],
   "note": "incremental protocol and supported types; three counterexamples"
  },
  {
   "property": "C167",
   "status": "partial",
   "theorems": [
    "Verif.Res.C167_overwrite_false",
    "Verif.Res.C167_drain_false",
    "Verif.Res.C167_deadlock_false",
    "Verif.Res.C167_nil_false",
    "Verif.Res.C167_latest_partial",
    "Verif.Res.C167_progress_partial",
    "Verif.Res.C167_cancelled_false"
   ],
   "note": "no lost update and progress under stated scheduling conditions, each necessary (five _false)"
  },
  {
   "property": "C168",
   "status": "partial",
   "theorems": [
    "Verif.Props.C168_partial_last_partial",
    "Verif.Props.C168_short_partial_false"
   ],
   "note": "incomplete batch of at least 17 bytes; shorter ones are left in the input"
  },
  {
   "property": "C169",
   "status": "partial",
   "theorems": [
    "Verif.Wasm.Stream.C169_new_connection_partial",
    "Verif.Wasm.Stream.C169_close_partial",
    "Verif.Wasm.Stream.C169_request_pause_passes_false",
    "Verif.Wasm.Stream.C169_response_pause_false",
    "Verif.Wasm.Stream.C169_new_connection_pause_false",
    "Verif.Wasm.Stream.C169_close_error_false",
    "Verif.Wasm.Stream.C169_unknown_names_false"
   ],
   "note": "new-connection order and successful Close; five counterexamples"
  },
  {
   "property": "C170",
   "status": "partial",
   "theorems": [
    "Verif.Net.C170_unique_partial",
    "Verif.Net.C170_close_partial",
    "Verif.Net.C170_nopanic_partial",
    "Verif.Net.C170_unique_false",
    "Verif.Net.C170_closeId_false",
    "Verif.Net.C170_race_false",
    "Verif.Net.C170_panic_false",
    "Verif.Net.C170_doubleClose_false",
    "Verif.Net.C170_lost_false"
   ],
   "note": "non-overlapping calls, no own ids, drained before Close; six counterexamples"
  },
  {
   "property": "C171",
   "status": "partial",
   "theorems": [
    "Verif.Props.C171_exact_partial",
    "Verif.Props.C171_order_partial",
    "Verif.Props.C171_single_partial",
    "Verif.Props.C171_order_false",
    "Verif.Props.C171_left_over_false"
   ],
   "note": "patterns that do not interfere; two counterexamples"
  },
  {
   "property": "C172",
   "status": "partial",
   "theorems": [
    "Verif.Bal.C172_priority_partial",
    "Verif.Bal.C172_random_priority_false",
    "Verif.Bal.C172_leastRequest_priority_false",
    "Verif.Bal.C172_single_locality_false",
    "Verif.Bal.C172_same_locality_false"
   ],
   "note": "policies using computed loads, distinct localities; four counterexamples"
  },
  {
   "property": "C173",
   "status": "partial",
   "theorems": [
    "Verif.Bal.C173_close_partial",
    "Verif.Bal.C173_thirds_false",
    "Verif.Bal.C173_many_false"
   ],
   "note": "whole percentages adding up to 100; two counterexamples"
  },
  {
   "property": "C174",
   "status": "partial",
   "theorems": [
    "Verif.Unified.C174_short_partial",
    "Verif.Unified.C174_short_false",
    "Verif.Unified.C174_silent_false"
   ],
   "note": "short connections are closed or refused (C174_short_partial); bytes lost, silent client blocks (_false)"
  },
  {
   "property": "C175",
   "status": "partial",
   "theorems": [
    "Verif.Props.C175_writeAt_partial",
    "Verif.Props.C175_writeAt_short_false",
    "Verif.Props.C175_seek_forward_false"
   ],
   "note": "WriteAt inside the content; two counterexamples"
  },
  {
   "property": "C176",
   "status": "partial",
   "theorems": [
    "Verif.Ads.C176_empty_type_false",
    "Verif.Ads.C176_answers_partial"
   ],
   "note": "every type has had a non-empty response; C176_empty_type_false otherwise"
  },
  {
   "property": "C177",
   "status": "partial",
   "theorems": [
    "Verif.Props.C177_no_panic_partial",
    "Verif.Props.C177_carriers",
    "Verif.Props.C177_shipped_partial",
    "Verif.Props.C177_parse_request_partial",
    "Verif.Props.C177_parse_response_partial",
    "Verif.Props.C177_request_false",
    "Verif.Props.C177_header_false"
   ],
   "note": "all messages without record batches; negative counts crash (_false). Memory exhaustion by huge counts is not modelled"
  },
  {
   "property": "C178",
   "status": "partial",
   "theorems": [
    "Verif.Cert.C178_mesh_partial",
    "Verif.Cert.C178_dropped_false",
    "Verif.Cert.C178_empty_false",
    "Verif.Cert.C178_unreadable"
   ],
   "note": "one usable matcher; dropped restriction, unreadable CA, empty chain (_false)"
  },
  {
   "property": "C179",
   "status": "partial",
   "theorems": [
    "Verif.Props.C179_removed_field_lost_false"
   ],
   "note": "false of the code (C179_removed_field_lost_false)"
  },
  {
   "property": "C180",
   "status": "partial",
   "theorems": [
    "Verif.Route.C180_select_partial",
    "Verif.Route.C180_skips_false",
    "Verif.Route.C180_wildcard_false"
   ],
   "note": "every virtual host has a route for / (C180_select_partial); two counterexamples"
  },
  {
   "property": "C181",
   "status": "partial",
   "theorems": [
    "Verif.Ads.C181_endpoints_partial",
    "Verif.Ads.C181_routes_partial",
    "Verif.Ads.C181_stats_partial",
    "Verif.Ads.C181_empty_false",
    "Verif.Ads.C181_second_route_false",
    "Verif.Ads.C181_stats_false"
   ],
   "note": "exact if something is referenced, first route configuration of a listener, statistics on a change of the subscription; three counterexamples"
  },
  {
   "property": "C182",
   "status": "partial",
   "theorems": [
    "Verif.Pool.C182_exclusive_partial",
    "Verif.Pool.C182_accounted_partial",
    "Verif.Pool.C182_close_leaks_nothing_partial",
    "Verif.Pool.C182_failed_not_reused_partial",
    "Verif.Pool.C182_usable_partial",
    "Verif.Pool.C182_exclusive_false",
    "Verif.Pool.C182_usable_timer_false",
    "Verif.Pool.C182_usable_release_false",
    "Verif.Pool.C182_close_leaks_false",
    "Verif.Pool.C182_get_returns_false",
    "Verif.Pool.Create.C182_create_leaks_partial",
    "Verif.Pool.Create.C182_create_leaks_false"
   ],
   "note": "callers close once; usability needs the Calm guard; six counterexamples"
  },
  {
   "property": "C183",
   "status": "partial",
   "theorems": [
    "Verif.Bal.C183_selection_partial",
    "Verif.Bal.C183_unknown_false",
    "Verif.Bal.C183_overflow_false"
   ],
   "note": "known clusters, total weight below 2^32, (total weight)*(calls) up to 2^51; two counterexamples"
  },
  {
   "property": "C184",
   "status": "proved",
   "theorems": [
    "Verif.Props.C184_response_matches_request",
    "Verif.Props.C184_request_type"
   ],
   "note": "every input"
  },
  {
   "property": "C185",
   "status": "proved",
   "theorems": [
    "Verif.Props.C185_int",
    "Verif.Props.C185_uvarint",
    "Verif.Props.C185_varint"
   ],
   "note": "every number"
  },
  {
   "property": "C186",
   "status": "proved",
   "theorems": [
    "Verif.Pool.C186_len_drift",
    "Verif.Pool.C186_add_never_replaces",
    "Verif.Pool.C186_add_spec"
   ],
   "note": "every interleaving of registry calls"
  },
  {
   "property": "C187",
   "status": "partial",
   "theorems": [
    "Verif.Props.C187_null_text_false"
   ],
   "note": "false of the code (C187_null_text_false)"
  },
  {
   "property": "C188",
   "status": "partial",
   "theorems": [
    "Verif.Props.C188_nested_struct_false",
    "Verif.Props.C188_bytes_limit_false"
   ],
   "note": "false of the code: unsupported nested structures are counted, byte slices of 2^31-1 bytes are refused by SizeInBytes only"
  },
  {
   "property": "C189",
   "status": "partial",
   "theorems": [
    "Verif.Props.C189_null_struct_false"
   ],
   "note": "false of the code (C189_null_struct_false)"
  },
  {
   "property": "C190",
   "status": "partial",
   "theorems": [
    "Verif.Props.C190_truncated_false",
    "Verif.Props.C190_truncated_headers_partial"
   ],
   "note": "C190_truncated_headers_partial: records without key and value bytes; C190_truncated_false otherwise"
  },
  {
   "property": "C191",
   "status": "partial",
   "theorems": [
    "Verif.Props.C191_snappy_false"
   ],
   "note": "false of the code: 16 bytes follow the batch (C191_snappy_false)"
  },
  {
   "property": "C192",
   "status": "partial",
   "theorems": [
    "Verif.Props.C192_snappy_partial",
    "Verif.Props.C192_snappy_false",
    "Verif.Props.C192_band_false"
   ],
   "note": "C192_snappy_partial: the batch and possibly the compressed empty string; two counterexamples"
  },
  {
   "property": "C193",
   "status": "partial",
   "theorems": [
    "Verif.Props.C193_serialize_other_version_false"
   ],
   "note": "false of the code (C193_serialize_other_version_false)"
  },
  {
   "property": "C194",
   "status": "partial",
   "theorems": [
    "Verif.Tunnel.C194_authenticated_partial",
    "Verif.Tunnel.C194_not_ok_accepted_false",
    "Verif.Tunnel.C194_at_most_one_partial",
    "Verif.Tunnel.C194_two_control_streams_false"
   ],
   "note": "authenticators that return an error whenever they reject, sequential control messages; two counterexamples"
  },
  {
   "property": "C195",
   "status": "partial",
   "theorems": [
    "Verif.Wasm.C195_reads_false",
    "Verif.Wasm.C195_eof_partial",
    "Verif.Wasm.C195_eof_false",
    "Verif.Wasm.C195_read_blocks_false",
    "Verif.Wasm.C195_close_loses_writes_false"
   ],
   "note": "end of stream with a buffer not filled; four counterexamples"
  },
  {
   "property": "C196",
   "status": "partial",
   "theorems": [
    "Verif.Wasm.Metrics.C196_record_reaches_partial",
    "Verif.Wasm.Metrics.C196_define_again_partial",
    "Verif.Wasm.Metrics.C196_define_again_false",
    "Verif.Wasm.Metrics.C196_redefine_removed_false",
    "Verif.Wasm.Metrics.C196_remove_blocks_others_false",
    "Verif.Wasm.Metrics.C196_kind_false",
    "Verif.Wasm.Metrics.C196_label_keys_false"
   ],
   "note": "one kind and key set per name, quiet histories; five counterexamples"
  },
  {
   "property": "C197",
   "status": "partial",
   "theorems": [
    "Verif.Props.C197_secured_partial",
    "Verif.Props.C197_stale_factory_false",
    "Verif.Props.C197_discovery_error_false"
   ],
   "note": "settled settings; two counterexamples"
  },
  {
   "property": "C198",
   "status": "partial",
   "theorems": [
    "Verif.Props.C198_own_partial",
    "Verif.Props.C198_answered_partial",
    "Verif.Props.C198_all_handed_partial",
    "Verif.Props.C198_mixed_up_false",
    "Verif.Props.C198_second_left_false",
    "Verif.Props.C198_failure_silent_false"
   ],
   "note": "one key, or one dial per key; three counterexamples"
  },
  {
   "property": "C199",
   "status": "partial",
   "theorems": [
    "Verif.Props.C199_other_namespace_false"
   ],
   "note": "false of the code (C199_other_namespace_false)"
  },
  {
   "property": "C200",
   "status": "partial",
   "theorems": [
    "Verif.Props.C200_override_partial",
    "Verif.Props.C200_override_false",
    "Verif.Props.C200_spiffe_false",
    "Verif.Props.C200_no_address_false"
   ],
   "note": "environments that agree on three fields; three counterexamples"
  },
  {
   "property": "C201",
   "status": "partial",
   "theorems": [
    "Verif.Props.C201_volumes_partial",
    "Verif.Props.C201_label_lost_false",
    "Verif.Props.C201_twice_false"
   ],
   "note": "volumes of the first mutation; two counterexamples"
  },
  {
   "property": "C202",
   "status": "partial",
   "theorems": [
    "Verif.Props.Relay.C202_answer_lost_false",
    "Verif.Props.Relay.C202_no_way_false",
    "Verif.Props.Relay.C202_left_open_false"
   ],
   "note": "false of the code: three counterexamples"
  },
  {
   "property": "C203",
   "status": "partial",
   "theorems": [
    "Verif.Props.LProps.C203_served_partial",
    "Verif.Props.LProps.C203_never_again_false",
    "Verif.Props.LProps.C203_stale_false",
    "Verif.Props.LProps.C203_callback_ignored_false"
   ],
   "note": "living subscriptions; three counterexamples"
  },
  {
   "property": "C204",
   "status": "partial",
   "theorems": [
    "Verif.Props.Bifrost.C204_unnamed_false"
   ],
   "note": "false of the code (C204_unnamed_false)"
  },
  {
   "property": "C205",
   "status": "partial",
   "theorems": [
    "Verif.Props.Bifrost.C205_exact_partial",
    "Verif.Props.Bifrost.C205_transient_false",
    "Verif.Props.Bifrost.C205_rejected_false"
   ],
   "note": "if reads and writes succeed; two counterexamples"
  },
  {
   "property": "C206",
   "status": "partial",
   "theorems": [
    "Verif.Props.WasmHttp.C206_address_false",
    "Verif.Props.WasmHttp.C206_failed_false"
   ],
   "note": "false of the code: two counterexamples"
  },
  {
   "property": "C207",
   "status": "partial",
   "theorems": [
    "Verif.Props.Middleware.C207_spoof_false",
    "Verif.Props.Middleware.C207_fields_false",
    "Verif.Props.Middleware.C207_proto_false"
   ],
   "note": "false of the code: three counterexamples"
  },
  {
   "property": "C208",
   "status": "partial",
   "theorems": [
    "Verif.Props.Middleware.C208_size_false",
    "Verif.Props.Middleware.C208_agent_false",
    "Verif.Props.Middleware.C208_upstream_false",
    "Verif.Props.Middleware.C208_destination_false",
    "Verif.Props.Middleware.C208_tls_false",
    "Verif.Props.Middleware.C208_trailers_false",
    "Verif.Props.Middleware.C208_more_false",
    "Verif.Props.Middleware.C208_number",
    "Verif.Props.Middleware.C208_no_number"
   ],
   "note": "false of the code: seven counterexamples"
  },
  {
   "property": "C209",
   "status": "partial",
   "theorems": [
    "Verif.Props.HostProps.C209_path_false",
    "Verif.Props.HostProps.C209_lost_false",
    "Verif.Props.HostProps.C209_dotted_false"
   ],
   "note": "false of the code: three counterexamples"
  },
  {
   "property": "C210",
   "status": "partial",
   "theorems": [
    "Verif.Props.Ticker.C210_returns_partial",
    "Verif.Props.Ticker.C210_deadlock_false",
    "Verif.Props.Ticker.C210_self_false",
    "Verif.Props.Ticker.C210_twice_false",
    "Verif.Props.Ticker.C210_zero_false"
   ],
   "note": "between two ticks; four counterexamples"
  },
  {
   "property": "C211",
   "status": "partial",
   "theorems": [
    "Verif.Props.Vm.C211_after_partial",
    "Verif.Props.Vm.C211_race_false"
   ],
   "note": "no acquisition under way; one counterexample"
  },
  {
   "property": "C212",
   "status": "partial",
   "theorems": [
    "Verif.Props.Vm.C212_status_false"
   ],
   "note": "false of the code (C212_status_false)"
  },
  {
   "property": "C213",
   "status": "partial",
   "theorems": [
    "Verif.Props.Context.C213_shared_false",
    "Verif.Props.Context.C213_race_false"
   ],
   "note": "false of the code: two counterexamples"
  },
  {
   "property": "C214",
   "status": "partial",
   "theorems": [
    "Verif.Props.CaConfig.C214_roots_partial",
    "Verif.Props.CaConfig.C214_roots_false",
    "Verif.Props.CaConfig.C214_panic_false"
   ],
   "note": "a config map of the revision exists; two counterexamples"
  },
  {
   "property": "C215",
   "status": "partial",
   "theorems": [
    "Verif.Props.CaConfig.C215_source_false"
   ],
   "note": "false of the code (C215_source_false)"
  },
  {
   "property": "C216",
   "status": "partial",
   "theorems": [
    "Verif.Props.Handler.C216_gone_partial",
    "Verif.Props.Handler.C216_gone_false"
   ],
   "note": "requests handled in order; one counterexample"
  },
  {
   "property": "C217",
   "status": "partial",
   "theorems": [
    "Verif.Props.Handler.C217_notls_false"
   ],
   "note": "false of the code (C217_notls_false)"
  },
  {
   "property": "C218",
   "status": "partial",
   "theorems": [
    "Verif.Props.GrpcDial.C218_state_partial",
    "Verif.Props.GrpcDial.C218_verify_false",
    "Verif.Props.GrpcDial.C218_never_false",
    "Verif.Props.GrpcDial.C218_state_false"
   ],
   "note": "newest connection; three counterexamples"
  },
  {
   "property": "C219",
   "status": "partial",
   "theorems": [
    "Verif.Props.Citadel.C219_chain_partial",
    "Verif.Props.Citadel.C219_closed_false"
   ],
   "note": "the chain is proved; connections stay open (C219_closed_false)"
  },
  {
   "property": "C220",
   "status": "partial",
   "theorems": [
    "Verif.Props.Gzip.C220_damaged_false"
   ],
   "note": "false of the code (C220_damaged_false)"
  },
  {
   "property": "C221",
   "status": "partial",
   "theorems": [
    "Verif.Props.Python.C221_shared_false",
    "Verif.Props.Python.C221_race_false",
    "Verif.Props.Python.C221_cancelled_false"
   ],
   "note": "false of the code: three counterexamples"
  },
  {
   "property": "C222",
   "status": "partial",
   "theorems": [
    "Verif.Props.Python.C222_body_false"
   ],
   "note": "false of the code (C222_body_false)"
  },
  {
   "property": "C223",
   "status": "partial",
   "theorems": [
    "Verif.Props.JavaLog.C223_full_false",
    "Verif.Props.JavaLog.C223_setup_false"
   ],
   "note": "false of the code: two counterexamples"
  },
  {
   "property": "C224",
   "status": "partial",
   "theorems": [
    "Verif.Props.Equal.C224_null_false",
    "Verif.Props.Equal.C224_nan_false",
    "Verif.Props.Equal.C224_attributes_false",
    "Verif.Props.Equal.C224_setnull_false"
   ],
   "note": "false of the code: four counterexamples"
  },
  {
   "property": "C225",
   "status": "partial",
   "theorems": [
    "Verif.Props.BifrostPorts.C225_listed_partial",
    "Verif.Props.BifrostPorts.C225_taken_false",
    "Verif.Props.BifrostPorts.C225_stale_false"
   ],
   "note": "events of a port handled in turn; two counterexamples"
  },
  {
   "property": "C226",
   "status": "partial",
   "theorems": [
    "Verif.Props.C226_large_false",
    "Verif.Props.C226_batch_false",
    "Verif.Props.C226_last_false"
   ],
   "note": "false of the code: three counterexamples"
  },
  {
   "property": "C227",
   "status": "partial",
   "theorems": [
    "Verif.Props.FlatNode.C227_short_false",
    "Verif.Props.FlatNode.C227_garbage_false"
   ],
   "note": "false of the code: two counterexamples"
  },
  {
   "property": "C228",
   "status": "partial",
   "theorems": [
    "Verif.Ads.C228_sotw_partial",
    "Verif.Ads.C228_sotw_clusters_false",
    "Verif.Ads.C228_sotw_endpoints_false",
    "Verif.Ads.C228_nametable_delta_false"
   ],
   "note": "subscribed endpoints and routes, name tables; three counterexamples"
  }
 ]
}