# Axioms of the property theorems
Generated by tools/axioms.py from `#print axioms`. No other axiom is used anywhere.

## none
Verif.Props.C10_shipped_keys
Verif.Props.C24_double_release_false
Verif.Ca.C69_ttl_not_honoured
Verif.Ca.C70_options_false
Verif.TlsWrap.C71_client_override_false
Verif.Dial.C72_options_false
Verif.Props.C76_keys
Verif.Props.C100_not_retried_false
Verif.Props.C100_edit_lost_false
Verif.Props.C100_crash_false
Verif.Props.WasmHttp.C111_stream_false
Verif.Props.Context.C131_names
Verif.Props.GrpcDial.C140_address
Verif.Props.HeimdallWebhook.C248_found
Verif.Exp.JavaSel.C256_socket_false
Verif.Exp.JavaSel.C256_again_false
Verif.Bifrost.Cmd.C264_delay_false
Verif.CertNames.C282_first
Verif.Tunnel.C158_client_told_false
Verif.Wasm.Stream.C169_new_connection_pause_false
Verif.Props.C175_writeAt_short_false
Verif.Props.C177_carriers
Verif.Cert.C178_unreadable
Verif.Wasm.C195_close_loses_writes_false
Verif.Wasm.Metrics.C196_define_again_false
Verif.Wasm.Metrics.C196_redefine_removed_false
Verif.Wasm.Metrics.C196_remove_blocks_others_false
Verif.Wasm.Metrics.C196_kind_false
Verif.Wasm.Metrics.C196_label_keys_false
Verif.Props.C200_override_partial
Verif.Props.CaConfig.C215_source_false
Verif.Props.GrpcDial.C218_state_false
Verif.Props.Python.C222_body_false

## propext
Verif.Props.C19_new_message
Verif.Props.C23_insertAt_nothing
Verif.Props.C23_error_changes_nothing
Verif.Bal.C30_random
Verif.Bal.C30_random_all
Verif.Tunnel.C38_k8s_authenticator
Verif.Wasm.C42_closed_reads
Verif.Wasm.Pairs.C45_any_map_false
Verif.Match.C46_refused
Verif.Unified.C50_fixed
Verif.Unified.C50_other
Verif.Route.C56_tls
Verif.Route.C56_superset_false
Verif.Route.C56_crash_false
Verif.Props.C62_foreign_context_false
Verif.Props.C63_concurrent_false
Verif.Props.C63_functions_false
Verif.Props.C63_stale_false
Verif.Props.C63_discovery_error_false
Verif.Plugin.C68_nil_false
Verif.Plugin.C68_late_release_false
Verif.Plugin.C68_wrap_false
Verif.Ca.C69_endpointSAN
Verif.Ca.C70_types
Verif.Ca.C70_uris_false
Verif.TlsWrap.C71_client_error
Verif.TlsWrap.C71_client_decline_false
Verif.TlsWrap.C71_server_callback_false
Verif.Dial.C72_shared_state_false
Verif.Dial.C72_gotConn_false
Verif.Dial.C72_leak_false
Verif.Dial.C72_close_open_false
Verif.Props.C78_unchanged
Verif.Props.C89_wakeup_partial
Verif.Props.C99_kept
Verif.Props.Track.C103_state
Verif.Props.Track.C103_none
Verif.Props.Track.C104_empty_false
Verif.Props.Bifrost.C107_key
Verif.Props.Bifrost.C107_collected
Verif.Props.WasmHttp.C114_sent
Verif.Props.WasmHttp.C114_answer
Verif.Props.WasmHttp.C115_left_partial
Verif.Props.WasmHttp.C115_context_false
Verif.Props.WasmHttp.C115_body_false
Verif.Props.Vm.C129_once
Verif.Props.Server.C134_early_false
Verif.Props.Server.C134_lost_false
Verif.Props.Server.C134_window_false
Verif.Props.Server.C134_panic_false
Verif.Props.CaConfig.C136_source
Verif.Props.CaConfig.C136_names
Verif.Props.Handler.C137_one_false
Verif.Props.Handler.C139_port
Verif.Props.GrpcDial.C140_encrypted
Verif.Props.Gzip.C142_snappy
Verif.Props.Gzip.C142_again
Verif.Props.Python.C144_value
Verif.Props.TMsg.C236_once
Verif.Props.TMsg.C237_order_false
Verif.Props.HttpServer.C247_serve
Verif.Props.HttpServer.C247_load
Verif.Props.HeimdallWebhook.C249_deleted
Verif.Dotn.C250_get_partial
Verif.Dotn.C250_scalar_partial
Verif.Dotn.C250_clone
Verif.Dotn.C250_append_false
Verif.Ads.Stream.C251_dead
Verif.Ads.Stream.C252_no_more
Verif.Exp.JavaIo.C254_bounds
Verif.Exp.JavaIo.C254_byte_false
Verif.Exp.JavaSel.C255_accept
Verif.Exp.JavaSel.C255_connect_partial
Verif.Exp.JavaSel.C255_connect_false
Verif.Exp.JavaSel.C255_register
Verif.Exp.JavaSel.C255_deregister
Verif.Exp.JavaSel.C255_collision_false
Verif.Exp.JavaSel.C255_start
Verif.Exp.JavaSel.C255_start_connect
Verif.Exp.JavaSel.C255_start_server
Verif.Exp.JavaSel.C256_twice_false
Verif.Exp.JavaSel.C256_failed_false
Verif.Exp.PyReq.C259_sent_partial
Verif.Exp.PyReq.C259_headers_false
Verif.Exp.PyReq.C259_unicode_false
Verif.Bal.C261_routes
Verif.Exp.Transports.C263_server_partial
Verif.Bifrost.Cmd.C264_connections
Verif.TcpMeta.C268_free
Verif.TcpMeta.C269_comma_false
Verif.TcpMeta.C270_outgoing_partial
Verif.Wasm.HostAbi.C274_levels
Verif.Net.MetricsServer.C275_released_false
Verif.Net.MetricsServer.C275_nofilters_false
Verif.Net.MetricsServer.C276_runs_false
Verif.CliProps.C278_unreadable_false
Verif.CliProps.C278_plaintext_false
Verif.CliProps.C279_other_false
Verif.Picks.C280_latest_partial
Verif.Picks.C280_shared_false
Verif.Picks.C281_once_partial
Verif.Picks.C281_forever_false
Verif.JavaAddr.C286_crash
Verif.Bifrost.Flags.C290_direct_partial
Verif.Bifrost.Flags.C290_internal_false
Verif.Bifrost.Flags.C290_environment_partial
Verif.Bifrost.Flags.C290_environment_false
Verif.Bifrost.ServerCmd.C292_outside_false
Verif.Route.C155_clientCert_false
Verif.Tunnel.C157_exhaustion_false
Verif.Tunnel.C158_delivery_partial
Verif.Tunnel.C158_accepted_never_delivered_false
Verif.Tunnel.C158_control_stream_told
Verif.Wasm.Stream.C169_close_error_false
Verif.Wasm.Stream.C169_unknown_names_false
Verif.Unified.C174_silent_false
Verif.Props.C175_seek_forward_false
Verif.Cert.C178_empty_false
Verif.Pool.C182_exclusive_false
Verif.Pool.C182_usable_timer_false
Verif.Pool.C182_usable_release_false
Verif.Pool.C182_close_leaks_false
Verif.Tunnel.C194_not_ok_accepted_false
Verif.Tunnel.C194_at_most_one_partial
Verif.Tunnel.C194_two_control_streams_false
Verif.Wasm.C195_reads_false
Verif.Wasm.C195_eof_false
Verif.Wasm.C195_read_blocks_false
Verif.Props.C197_stale_factory_false
Verif.Props.C197_discovery_error_false
Verif.Props.Relay.C202_answer_lost_false
Verif.Props.Relay.C202_no_way_false
Verif.Props.Ticker.C210_returns_partial
Verif.Props.Ticker.C210_self_false
Verif.Props.Ticker.C210_zero_false
Verif.Props.Vm.C212_status_false
Verif.Props.Handler.C216_gone_partial
Verif.Props.Handler.C216_gone_false
Verif.Props.GrpcDial.C218_verify_false
Verif.Props.GrpcDial.C218_never_false
Verif.Props.Equal.C224_setnull_false
Verif.Props.BifrostPorts.C225_taken_false
Verif.Props.BifrostPorts.C225_stale_false
Verif.Props.FlatNode.C227_garbage_false

## propext, Classical.choice, Quot.sound
Verif.Props.C01_varint32_roundtrip
Verif.Props.C01_varint64_roundtrip
Verif.Props.C02_int32Size
Verif.Props.C03_varint32_safe
Verif.Props.C03_varint64_safe
Verif.Props.C04_fixed_roundtrip
Verif.Props.C05_string_roundtrip
Verif.Props.C06_bytes_roundtrip
Verif.Props.C08_size_exact
Verif.Props.C08_shipped_size_exact
Verif.Props.C08_shipped_spec
Verif.Props.C09_message_roundtrip
Verif.Props.C09_message_roundtrip_exact
Verif.Props.C09_spec
Verif.Props.C09_shipped_spec
Verif.Props.C10_shipped_wf
Verif.Props.C10_shipped_roundtrip
Verif.Props.C13_record_roundtrip
Verif.Props.C13_record_roundtrip_exact
Verif.Props.C13_header_roundtrip
Verif.Props.C14_truncated
Verif.Props.C15_prefix
Verif.Props.C15_layout
Verif.Props.C16_batch_roundtrip
Verif.Props.C16_gzip_payload
Verif.Props.C16_snappy_payload
Verif.Props.C17_crc_false
Verif.Props.C18_sequence
Verif.Props.C19_request_header
Verif.Props.C19_response_header
Verif.Props.C20_request_roundtrip
Verif.Props.C20_request_roundtrip_exact
Verif.Props.C20_request_serialize
Verif.Props.C20_response_roundtrip
Verif.Props.C20_response_roundtrip_exact
Verif.Props.C21_fallback_false
Verif.Props.C21_fallback_version18
Verif.Props.C21_version_zero_partial
Verif.Props.C22_chunk_is_window
Verif.Props.C22_later_calls
Verif.Props.C22_parent_continues
Verif.Props.C23_insertAt
Verif.Props.C23_writeAt
Verif.Ads.C26_cache_only_subscribed
Verif.Ads.C27_delta
Verif.Ads.C28_answered_once
Verif.Ads.C28_ack
Verif.Ads.C28_nack_delta
Verif.Ads.C28_nack_sotw_version
Verif.Ads.C28_invalid
Verif.Ads.C29_requests
Verif.Ads.C29_reconnect
Verif.Bal.C30_least
Verif.Bal.C30_least_total
Verif.Bal.C30_healthy
Verif.Bal.C30_sample_all
Verif.Bal.F.C31_order
Verif.Bal.F.C31_special
Verif.Bal.F.C31_finite
Verif.Bal.C31_pick_least
Verif.Bal.C31_never_over
Verif.Bal.C32_listed
Verif.Bal.C32_positive
Verif.Route.C33_select
Verif.Route.C33_error
Verif.Route.C34_select
Verif.Route.C34_notFound
Verif.Route.C34_target
Verif.Route.C34_ipv6
Verif.Res.C35_closed
Verif.Res.C35_refresh
Verif.Res.C35_noPanic
Verif.Tunnel.C38_k8s_metadata
Verif.Pool.C40_get_after_close
Verif.Pool.C40_close_succeeds
Verif.Pool.Create.C40_created
Verif.Pool.C41_cleanup_stopped_partial
Verif.Pool.C41_close_stops_partial
Verif.Wasm.C42_read_progress
Verif.Wasm.Metrics.C43_ids_unique
Verif.Wasm.Metrics.C43_record_never_elsewhere
Verif.Wasm.Metrics.C43_samples_are_defined
Verif.Wasm.Metrics.C43_removed
Verif.Wasm.Metrics.C43_failed_define
Verif.Wasm.Pairs.C45_deterministic
Verif.Wasm.Pairs.C45_numbers
Verif.Wasm.Pairs.C45_scalars
Verif.Match.C46_match
Verif.Match.C46_proto
Verif.Dotn.C48_through_false
Verif.Dotn.C48_escape_false
Verif.Dotn.C48_list_false
Verif.Dotn.C48_map_false
Verif.Dotn.C48_index_false
Verif.Unified.C50_permissive
Verif.Net.C51_once
Verif.Net.C51_order
Verif.Net.C51_conserved
Verif.Net.C51_dup
Verif.Net.C51_stops
Verif.Net.C51_serves
Verif.Route.C53_properties
Verif.Route.C53_order
Verif.Route.C55_target_partial
Verif.Route.C55_single
Verif.Route.C55_lastChain_false
Verif.Route.C55_erased_false
Verif.Route.C55_counted_false
Verif.Props.C57_record
Verif.Props.C57_batch
Verif.Props.C57_message
Verif.Props.C57_shipped
Verif.Props.C58_accepts
Verif.Props.C58_write_spec
Verif.Props.C58_shipped
Verif.Props.C58_batch
Verif.Props.C58_headers
Verif.Props.C63_encrypted_partial
Verif.Props.C63_secured_partial
Verif.Ads.C64_initialized
Verif.Bal.C52_unhealthy
Verif.Bal.C52_locality_weight
Verif.Bal.C52_endpoint_weight
Verif.Plugin.C65_roundRobin
Verif.Plugin.C65_accounting
Verif.Plugin.C65_close
Verif.Plugin.C65_running
Verif.Plugin.C65_ensure
Verif.Plugin.C65_closed
Verif.Ca.C70_serial_partial
Verif.ConnState.C73_progress_partial
Verif.ConnState.C73_finite_partial
Verif.Props.C75_layout
Verif.Props.C75_versions
Verif.Props.C75_unique
Verif.Props.C76_requests_regenerated
Verif.Props.C76_responses_regenerated
Verif.Props.C76_headers_regenerated
Verif.Props.C76_names
Verif.Props.C76_usual
Verif.Props.C76_shipped
Verif.Props.C76_complete
Verif.Props.C76_headers
Verif.Props.C77_inherited
Verif.Props.C77_as_specified_partial
Verif.Props.C77_nullable_at_version_zero_false
Verif.Props.C77_version_zero_false
Verif.Props.C77_nested_false
Verif.Props.C78_engine
Verif.Props.C78_only_stars
Verif.Props.C78_one_hidden
Verif.Props.C79_stream
Verif.Props.C79_cut
Verif.Props.C79_framed
Verif.Props.C80_matched
Verif.Props.C80_in_order
Verif.Props.C81_no_failure_partial
Verif.Props.C81_cut_false
Verif.Props.C81_lost_false
Verif.Props.C81_response_dropped_false
Verif.Props.C81_no_ack_false
Verif.Props.C81_crash_false
Verif.Props.C81_end_false
Verif.Props.C82_roundtrip
Verif.Props.C82_select
Verif.Props.C82_ready
Verif.Props.C83_in_order
Verif.Props.C83_prefix
Verif.Props.C83_one_reader
Verif.Props.C85_in_order
Verif.Props.C85_all_sent
Verif.Props.C87_quiescent
Verif.Props.C89_wakeup_false
Verif.Props.C90_roundtrip
Verif.Props.C90_parse_exact
Verif.Props.C90_only_confirmed
Verif.Props.C90_issued
Verif.Props.C90_refused
Verif.Props.C91_own_ca
Verif.Props.C92_valid
Verif.Props.C92_reconciled
Verif.Props.C92_restored
Verif.Props.C92_refused
Verif.Props.C93_not_repaired_false
Verif.Props.C93_old_account_false
Verif.Props.C93_crash_false
Verif.Props.C93_account_partial
Verif.Props.C94_kept
Verif.Props.C94_added
Verif.Props.C94_annotations
Verif.Props.C95_labels
Verif.Props.C95_values
Verif.Props.C96_deployment
Verif.Props.C96_cronjob
Verif.Props.C96_other
Verif.Props.C96_bare
Verif.Props.C97_environment
Verif.Props.C98_node
Verif.Props.C98_distinct
Verif.Props.Track.C103_tls
Verif.Props.Track.C104_mixed_false
Verif.Props.Bifrost.C106_published
Verif.Props.Bifrost.C107_only_used
Verif.Props.StatTags.C108_labels
Verif.Props.StatTags.C108_injective
Verif.Props.StatTags.C109_empty_code_false
Verif.Props.StatTags.C109_separator_false
Verif.Props.StatTags.C109_cluster_code_false
Verif.Props.StatTags.C109_mongo_false
Verif.Props.StatTags.C109_cluster_partial
Verif.Props.StatTags.C109_word
Verif.Props.StatTags.C109_prefix
Verif.Props.StatTags.C109_listener
Verif.Props.StatTags.C109_class
Verif.Props.StatTags.C109_authz
Verif.Props.WasmHttp.C110_transparent
Verif.Props.WasmHttp.C110_filtered
Verif.Props.WasmHttp.C110_reply
Verif.Props.WasmHttp.C111_status_partial
Verif.Props.WasmHttp.C111_status_false
Verif.Props.WasmHttp.C111_header_false
Verif.Props.WasmHttp.C111_request_false
Verif.Props.WasmHttp.C112_gate
Verif.Props.WasmHttp.C112_phases
Verif.Props.WasmHttp.C112_nothing
Verif.Props.WasmHttp.C113_empty_partial
Verif.Props.WasmHttp.C113_failure_false
Verif.Props.WasmHttp.C113_code_false
Verif.Props.WasmHttp.C115_leak_false
Verif.Props.WasmHttp.C115_reply_false
Verif.Props.WasmHttp.C116_invoke
Verif.Props.WasmHttp.C116_balanced
Verif.Props.Middleware.C117_element
Verif.Props.Middleware.C117_outgoing
Verif.Props.Middleware.C118_request
Verif.Props.Middleware.C118_connection
Verif.Props.Middleware.C118_names
Verif.Props.Middleware.C118_response
Verif.Props.Middleware.C119_request
Verif.Props.Middleware.C119_response
Verif.Props.Middleware.C119_service
Verif.Props.FlatNode.C121_contained
Verif.Props.Ticker.C125_stops
Verif.Props.Vm.C126_sharing
Verif.Props.Vm.C126_runtime
Verif.Props.Vm.C127_errors_partial
Verif.Props.Vm.C127_race_false
Verif.Props.Vm.C127_runtime_false
Verif.Props.Vm.C128_close
Verif.Props.Context.C130_distinct
Verif.Props.Context.C130_window
Verif.Props.Context.C132_effective
Verif.Props.CaConfig.C135_revision
Verif.Props.CaConfig.C135_endpoint
Verif.Props.CaConfig.C135_addresses
Verif.Props.CaConfig.C136_bearer
Verif.Props.Handler.C139_disabled
Verif.Props.Handler.C139_tls
Verif.Props.Handler.C139_created
Verif.Props.Handler.C139_interval
Verif.Props.Citadel.C141_name
Verif.Props.Citadel.C141_token
Verif.Props.Gzip.C142_stream
Verif.Props.Gzip.C142_size
Verif.Props.Python.C143_held
Verif.Props.Python.C143_open
Verif.Props.Python.C144_free
Verif.Props.JavaLog.C145_batches
Verif.Props.Json.C146_value_partial
Verif.Props.Json.C146_batch_partial
Verif.Props.Json.C146_messages_partial
Verif.Props.Json.C146_escape_false
Verif.Props.Json.C146_nan_false
Verif.Props.Equal.C147_content
Verif.Props.Equal.C147_equivalence
Verif.Props.Equal.C147_bytes
Verif.Props.MwHandler.C149_once_partial
Verif.Props.MwHandler.C149_running_partial
Verif.Props.C150_roundtrip_partial
Verif.Props.C150_snappy_false
Verif.Props.C150_snappy_rest_false
Verif.Props.C150_snappy_length_false
Verif.Props.C150_grows_false
Verif.Props.C150_empty_false
Verif.Props.C151_records
Verif.Props.C151_plain
Verif.Pool.Timed.C152_pool_expires
Verif.Pool.Timed.C152_conn_expires
Verif.Pool.Timed.C152_conn_exact
Verif.Props.Keep.C234_silent
Verif.Props.Keep.C234_cut_reason
Verif.Props.Keep.C234_pings
Verif.Props.Keep.C235_prompt_partial
Verif.Props.TMsg.C236_all
Verif.Props.TMsg.C236_cut
Verif.Props.TMsg.C236_handler
Verif.Props.TMsg.C238_lossless
Verif.Props.TMsg.C238_control
Verif.Props.TMsg.C239_suffix_partial
Verif.Props.PiiPat.C240_sound
Verif.Props.PiiPat.C240_covers
Verif.Props.PiiPat.C240_found
Verif.Props.PiiPat.C241_ssn
Verif.Props.PiiPat.C241_card
Verif.Props.PiiPat.C241_aws_id
Verif.Props.PiiPat.C241_google_oauth
Verif.Props.PiiPat.C241_github
Verif.Props.PiiPat.C241_heroku
Verif.Props.PiiPat.C241_stripe
Verif.Props.PiiPat.C241_github_pat
Verif.Props.PiiPat.C241_email
Verif.Props.PiiPat.C241_aws_env
Verif.Props.PiiPat.C241_gcp_env
Verif.Props.PiiPat.C241_azure_env
Verif.Props.PiiPat.C241_db
Verif.Props.PiiPat.C241_firebase
Verif.Props.PiiPat.C241_google_key
Verif.Props.PiiPat.C241_slack
Verif.Props.PiiPat.C241_phone
Verif.Props.PiiPat.C241_mac
Verif.Props.PiiPat.C241_ipv6
Verif.Props.PiiPat.C241_ipv4
Verif.Props.PiiPat.C241_detect
Verif.Props.WasmHeaders.C242_names
Verif.Props.WasmHeaders.C242_token
Verif.Props.WasmHeaders.C242_change
Verif.Props.WasmHeaders.C242_read
Verif.Props.WasmHeaders.C242_set_get
Verif.Props.WasmHeaders.C242_map
Verif.Props.WasmHeaders.C242_reply
Verif.Props.WasmHeaders.C243_range_partial
Verif.Props.WasmHeaders.C243_all_partial
Verif.Props.WasmHeaders.C243_several_false
Verif.Props.WasmHeaders.C243_empty_false
Verif.Props.WasmHeaders.C243_raw_false
Verif.Props.WasmHeaders.C243_stop_false
Verif.Props.InstCtx.C244_same
Verif.Props.InstCtx.C244_stored
Verif.Props.InstCtx.C244_own
Verif.Props.InstCtx.C245_kept_partial
Verif.Props.InstCtx.C245_leak_false
Verif.Props.HttpServer.C246_all_partial
Verif.Props.HttpServer.C246_fixed
Verif.Props.HttpServer.C246_reset_false
Verif.Props.HttpServer.C246_silent_false
Verif.Props.HttpServer.C247_tls_partial
Verif.Props.HttpServer.C247_plain_false
Verif.Props.HeimdallWebhook.C248_names_partial
Verif.Props.HeimdallWebhook.C248_hooks
Verif.Props.HeimdallWebhook.C248_both_false
Verif.Props.HeimdallWebhook.C248_url_false
Verif.Ads.Stream.C251_notices_partial
Verif.Ads.Stream.C251_quiet_partial
Verif.Exp.JavaIo.C253_gather
Verif.Exp.JavaIo.C253_all
Verif.Exp.JavaIo.C253_writes
Verif.Exp.JavaSel.C255_end_to_end_partial
Verif.Exp.Spring.C257_order
Verif.Exp.Spring.C257_ff_false
Verif.Exp.Spring.C258_headers
Verif.Exp.Spring.C258_body_partial
Verif.Exp.Spring.C258_rest_false
Verif.Exp.Spring.C258_cookies_false
Verif.Exp.PyReq.C259_answer_partial
Verif.Props.C260_read_partial
Verif.Props.C260_text
Verif.Props.C260_unread
Verif.Props.C260_invalid
Verif.Props.C260_cut_false
Verif.Bal.C261_resets
Verif.Bal.C261_shared_false
Verif.Bal.C261_both_false
Verif.Bal.C261_weights_false
Verif.Dn.C262_parse
Verif.Dn.C262_roundtrip_partial
Verif.Dn.C262_comma_false
Verif.Dn.C262_slash_false
Verif.Dn.C262_several_false
Verif.Dn.C262_serial_false
Verif.Bifrost.Cmd.C264_parse_plain
Verif.Bifrost.Cmd.C264_parse_none
Verif.Bifrost.Cmd.C264_exposed
Verif.Bifrost.Cmd.C264_invalid
Verif.Bifrost.Cmd.C264_silent_false
Verif.Bifrost.Cmd.C264_port_false
Verif.Ip.C265_read
Verif.Ip.C265_names
Verif.Ip.C265_write
Verif.Ip.C265_dial
Verif.Ip.C265_same
Verif.Ip.C265_listener
Verif.Ip.C265_hex_digits
Verif.Ip.C265_dec_digits
Verif.Ip.C265_shortened
Verif.Ip.C266_v4
Verif.Ip.C266_v6
Verif.Ip.C266_other
Verif.Ip.C266_match
Verif.Ip.C266_malformed
Verif.Ip.C266_chains
Verif.Ip.C266_family
Verif.Ip.C267_reach_partial
Verif.Ip.C267_keys
Verif.Ip.C267_name_false
Verif.TcpMeta.C268_exchange_partial
Verif.TcpMeta.C268_plain
Verif.TcpMeta.C268_cut_early_false
Verif.TcpMeta.C268_server_first_false
Verif.TcpMeta.C269_round_trip
Verif.TcpMeta.C269_environment
Verif.TcpMeta.C269_unknown
Verif.TcpMeta.C269_unknown_value
Verif.TcpMeta.C269_other_kinds
Verif.TcpMeta.C270_accepted_partial
Verif.Pool.Timed.C271_closed_is_quiet
Verif.Pool.Timed.C271_checker_ends
Verif.Pool.Timed.C271_close_again
Verif.Wasm.HostAbi.C272_elapsed_partial
Verif.Wasm.HostAbi.C273_panic_false
Verif.Wasm.HostAbi.C274_monotone
Verif.Net.MetricsServer.C275_once
Verif.Net.MetricsServer.C275_served_partial
Verif.CliProps.C277_reported
Verif.Picks.C280_roundRobin_false
Verif.Kafka.LoadSpec.C283_error
Verif.Kafka.LoadSpec.C283_last
Verif.Kafka.LoadSpec.C283_all_partial
Verif.Kafka.LoadSpec.C283_names
Verif.CertNames.C284_text_partial
Verif.CertNames.C284_text_false
Verif.Kafka.GenAll.C285_same_partial
Verif.Kafka.GenAll.C285_every
Verif.Kafka.GenAll.C285_written
Verif.Kafka.GenAll.C285_keys
Verif.Bifrost.Flags.C289_health_partial
Verif.Route.C153_longest_false
Verif.Route.C153_longest_partial
Verif.Match.C154_text
Verif.Match.C154_regexCase_false
Verif.Match.C154_string_false
Verif.Match.C154_sanText_false
Verif.Match.C154_print
Verif.Route.C155_clientCert_partial
Verif.Route.C156_empty_false
Verif.Bal.C159_choice_false
Verif.Bal.C159_answers_partial
Verif.Bal.C159_allDown_false
Verif.Bal.C159_noneHealthy_false
Verif.Pool.Timed.C160_not_early_partial
Verif.Props.C161_length_prefix_partial
Verif.Props.C161_length_prefix_false
Verif.Props.C162_after_plus_false
Verif.Props.C163_int64Size_false
Verif.Props.C163_uint64Size_partial
Verif.Props.C163_int64Size_partial
Verif.Props.C164_array_roundtrip_partial
Verif.Props.C164_array_of_struct_roundtrip_partial
Verif.Props.C164_array_too_long_false
Verif.Ads.C166_nack_nonce_false
Verif.Ads.C166_unsupported_false
Verif.Ads.C166_reconnect_nonce_false
Verif.Ads.C166_incremental_partial
Verif.Res.C167_overwrite_false
Verif.Res.C167_drain_false
Verif.Res.C167_deadlock_false
Verif.Res.C167_nil_false
Verif.Res.C167_latest_partial
Verif.Res.C167_progress_partial
Verif.Res.C167_cancelled_false
Verif.Props.C168_partial_last_partial
Verif.Props.C168_short_partial_false
Verif.Net.C170_unique_partial
Verif.Net.C170_close_partial
Verif.Net.C170_nopanic_partial
Verif.Net.C170_lost_false
Verif.Props.C171_exact_partial
Verif.Props.C171_order_partial
Verif.Props.C171_single_partial
Verif.Props.C171_order_false
Verif.Props.C171_left_over_false
Verif.Bal.C172_priority_partial
Verif.Bal.C172_random_priority_false
Verif.Bal.C172_leastRequest_priority_false
Verif.Bal.C172_single_locality_false
Verif.Bal.C172_same_locality_false
Verif.Bal.C173_close_partial
Verif.Bal.C173_thirds_false
Verif.Bal.C173_many_false
Verif.Unified.C174_short_partial
Verif.Unified.C174_short_false
Verif.Props.C175_writeAt_partial
Verif.Ads.C176_empty_type_false
Verif.Ads.C176_answers_partial
Verif.Props.C177_parse_request_partial
Verif.Cert.C178_dropped_false
Verif.Route.C180_select_partial
Verif.Route.C180_skips_false
Verif.Route.C180_wildcard_false
Verif.Ads.C181_endpoints_partial
Verif.Ads.C181_routes_partial
Verif.Ads.C181_stats_partial
Verif.Ads.C181_empty_false
Verif.Ads.C181_second_route_false
Verif.Ads.C181_stats_false
Verif.Pool.C182_exclusive_partial
Verif.Pool.C182_accounted_partial
Verif.Pool.C182_close_leaks_nothing_partial
Verif.Pool.C182_failed_not_reused_partial
Verif.Pool.C182_usable_partial
Verif.Pool.C182_get_returns_false
Verif.Bal.C183_selection_partial
Verif.Bal.C183_unknown_false
Verif.Bal.C183_overflow_false
Verif.Props.C185_varint
Verif.Pool.C186_add_never_replaces
Verif.Pool.C186_add_spec
Verif.Props.C190_truncated_headers_partial
Verif.Props.C192_snappy_partial
Verif.Props.C192_band_false
Verif.Props.C193_serialize_other_version_false
Verif.Wasm.Metrics.C196_record_reaches_partial
Verif.Wasm.Metrics.C196_define_again_partial
Verif.Props.C198_answered_partial
Verif.Props.C198_all_handed_partial
Verif.Props.C199_other_namespace_false
Verif.Props.C200_override_false
Verif.Props.C200_spiffe_false
Verif.Props.C200_no_address_false
Verif.Props.C201_volumes_partial
Verif.Props.C201_label_lost_false
Verif.Props.C201_twice_false
Verif.Props.Bifrost.C204_unnamed_false
Verif.Props.Bifrost.C205_exact_partial
Verif.Props.Bifrost.C205_transient_false
Verif.Props.Bifrost.C205_rejected_false
Verif.Props.WasmHttp.C206_address_false
Verif.Props.WasmHttp.C206_failed_false
Verif.Props.Middleware.C207_spoof_false
Verif.Props.Middleware.C207_fields_false
Verif.Props.Middleware.C207_proto_false
Verif.Props.Middleware.C208_size_false
Verif.Props.Middleware.C208_agent_false
Verif.Props.Middleware.C208_upstream_false
Verif.Props.Middleware.C208_destination_false
Verif.Props.Middleware.C208_tls_false
Verif.Props.Middleware.C208_trailers_false
Verif.Props.Middleware.C208_more_false
Verif.Props.Middleware.C208_no_number
Verif.Props.HostProps.C209_lost_false
Verif.Props.HostProps.C209_dotted_false
Verif.Props.Context.C213_shared_false
Verif.Props.Context.C213_race_false
Verif.Props.CaConfig.C214_roots_partial
Verif.Props.CaConfig.C214_roots_false
Verif.Props.CaConfig.C214_panic_false
Verif.Props.Handler.C217_notls_false
Verif.Props.Citadel.C219_chain_partial
Verif.Props.Citadel.C219_closed_false
Verif.Props.Python.C221_shared_false
Verif.Props.Python.C221_race_false
Verif.Props.C226_large_false
Verif.Props.C226_batch_false
Verif.Ads.C228_sotw_partial
Verif.Ads.C228_sotw_clusters_false
Verif.Ads.C228_sotw_endpoints_false
Verif.Ads.C228_nametable_delta_false

## propext, Quot.sound
Verif.Props.C01_uvarint32_roundtrip
Verif.Props.C02_uint32Size
Verif.Props.C03_uvarint32_safe
Verif.Props.C03_truncated_rejected
Verif.Props.C04_fixed_truncated
Verif.Props.C04_unsupported
Verif.Props.C05_string_accepted
Verif.Props.C05_string_size
Verif.Props.C07_tags_accepted
Verif.Props.C07_tags_ascending
Verif.Props.C10_headers_wf
Verif.Props.C11_null_not_written
Verif.Props.C11_null_array_not_written
Verif.Props.C11_null_not_read
Verif.Props.C11_null_array_not_read
Verif.Props.C11_null_message_rejected
Verif.Props.C12_lost_field_rejected
Verif.Props.C12_uncarried_no_bytes
Verif.Props.C16_lz4_zstd_unreadable
Verif.Props.C16_control
Verif.Props.C16_control_unreadable
Verif.Props.C19_unknown_key
Verif.Props.C23_write
Verif.Props.C23_seek_back
Verif.Props.C23_never_exceeds
Verif.Props.C23_writes_concat
Verif.Props.C23_slice
Verif.Props.C24_large_enough
Verif.Props.C24_never_shared
Verif.Props.C24_reusable
Verif.Props.C25_forms_parsed
Verif.Bal.C30_active
Verif.Res.C35_replaces
Verif.Res.C35_order
Verif.Res.C35_quiet
Verif.Res.C35_genuine
Verif.Res.C35_computed
Verif.Tunnel.C36_exclusive_in_range
Verif.Tunnel.C36_released_available
Verif.Tunnel.C36_release_then_get
Verif.Tunnel.C37_no_foreign_release_partial
Verif.Tunnel.C37_close_releases_partial
Verif.Tunnel.C37_free_iff_unheld
Verif.Tunnel.C37_same_name_false
Verif.Tunnel.C37_late_request_false
Verif.Tunnel.C37_overlapping_close_false
Verif.Tunnel.C38_k8s
Verif.Tunnel.C39_exactly_requester
Verif.Tunnel.C39_one_success_per_id
Verif.Tunnel.C39_unknown_rejected
Verif.Pool.C40_idle_bound
Verif.Pool.Create.C40_created_full
Verif.Pool.C41_len_partial
Verif.Pool.C41_close_partial
Verif.Pool.C41_cleanup_running_partial
Verif.Pool.C41_cleanup_stopped_false
Verif.Pool.C41_len_negative_false
Verif.Pool.C41_len_false
Verif.Pool.C41_cleanup_running_false
Verif.Pool.C41_cleanup_removes_open_false
Verif.Pool.C41_add_after_close_false
Verif.Wasm.C42_reads
Verif.Wasm.C42_writes
Verif.Wasm.C42_write_flushes
Verif.Wasm.Stream.C44_selection
Verif.Wasm.Stream.C44_data_in_order
Verif.Wasm.Stream.C44_request
Verif.Wasm.Stream.C44_request_paused
Verif.Wasm.Stream.C44_response
Verif.Wasm.Stream.C44_errors_reported
Verif.Wasm.Stream.C44_tcp_close
Verif.Wasm.Stream.C44_locks_released
Verif.Wasm.Pairs.C45_pairs_round_trip
Verif.Wasm.Pairs.C45_injective
Verif.Match.C46_case
Verif.Cert.C47_accept
Verif.Cert.C47_trusted
Verif.Cert.C47_parsed
Verif.Cert.C47_meshAccepts
Verif.Cert.C47_mesh_hashes
Verif.Dotn.C48_get_partial
Verif.Dotn.C48_frame_partial
Verif.Dotn.C48_list_partial
Verif.Dotn.C48_merge_partial
Verif.Dotn.C48_element_partial
Verif.Labels.C49_name
Verif.Labels.C49_revision
Verif.Unified.C50_reads
Verif.Unified.C50_progress
Verif.Route.C54_resolves
Verif.Route.C54_notFound
Verif.Route.C56_sockets_partial
Verif.Props.C59_consumes
Verif.Props.C59_batch_consumes
Verif.Props.C60_count_partial
Verif.Props.C60_request_pairs
Verif.Props.C60_shared_closer_false
Verif.Props.C60_readded_false
Verif.Props.C60_by_name_false
Verif.Props.C61_address
Verif.Props.C61_some_call
Verif.Props.C62_own_context_partial
Verif.Props.C62_some_context
Verif.Plugin.C65_get
Verif.Plugin.C66_delete_false
Verif.Plugin.C66_same_partial
Verif.Plugin.C66_two_false
Verif.Plugin.C66_leak_false
Verif.Plugin.C66_noInstances_false
Verif.Plugin.C67_own
Verif.Plugin.C68_overcreate_false
Verif.Plugin.C68_skew_false
Verif.Ca.C69_certificates
Verif.Ca.C69_reuse
Verif.Ca.C69_expired
Verif.Ca.C70_unparsable
Verif.Ca.C70_sans_partial
Verif.Ca.C70_serial_false
Verif.TlsWrap.C71_server_partial
Verif.TlsWrap.C71_client_partial
Verif.TlsWrap.C71_client_crash_false
Verif.TlsWrap.C71_server_crash_false
Verif.Dial.C72_own_partial
Verif.Dial.C72_context
Verif.Dial.C72_noleak_partial
Verif.Dial.C72_options_partial
Verif.ConnState.C73_deadlock_false
Verif.Dial.C74_hooks
Verif.Dial.C74_close
Verif.Props.C78_answer
Verif.Props.C79_masked
Verif.Props.C79_off
Verif.Props.C79_fresh
Verif.Props.C83_two_keys_false
Verif.Props.C84_available_partial
Verif.Props.C84_reported_partial
Verif.Props.C84_eof_discards_false
Verif.Props.C84_data_lost_false
Verif.Props.C84_eof_silent_false
Verif.Props.C85_progress
Verif.Props.C86_never_sent_false
Verif.Props.C86_crash_false
Verif.Props.C86_close_loses_false
Verif.Props.C86_repeated_false
Verif.Props.C86_accept_partial
Verif.Props.C87_in_order
Verif.Props.C87_one_goroutine
Verif.Props.C87_announced
Verif.Props.C87_work
Verif.Props.C88_once
Verif.Props.C99_accepted
Verif.Props.C99_recovers
Verif.Props.C99_recognised
Verif.Props.C99_ca_key
Verif.Props.C100_bundle_partial
Verif.Props.C100_corrected_partial
Verif.Props.Relay.C101_order
Verif.Props.Relay.C101_complete
Verif.Props.Relay.C101_returned
Verif.Props.Relay.C101_progress
Verif.Props.Relay.C102_ended
Verif.Props.Relay.C102_closed
Verif.Props.Track.C104_addrs_partial
Verif.Props.Track.C104_one_network_partial
Verif.Props.LProps.C105_latest
Verif.Props.LProps.C105_callbacks
Verif.Props.WasmHttp.C114_once
Verif.Props.Middleware.C118_header
Verif.Props.Middleware.C118_view
Verif.Props.FlatNode.C120_peer
Verif.Props.FlatNode.C120_lookup
Verif.Props.HostProps.C122_read
Verif.Props.HostProps.C122_stored
Verif.Props.HostProps.C122_parents
Verif.Props.HostProps.C123_single
Verif.Props.HostProps.C123_frame
Verif.Props.Ticker.C124_exclusive
Verif.Props.Ticker.C124_ends
Verif.Props.Vm.C129_file
Verif.Props.Context.C131_one
Verif.Props.Context.C131_parent
Verif.Props.Context.C132_config
Verif.Props.Server.C133_served
Verif.Props.Server.C133_accepts
Verif.Props.Server.C134_some_partial
Verif.Props.Handler.C137_one_partial
Verif.Props.Handler.C137_after_partial
Verif.Props.Handler.C138_once
Verif.Props.Python.C144_same
Verif.Props.Json.C146_binary_partial
Verif.Props.Json.C146_header_false
Verif.Props.Json.C146_record_false
Verif.Props.BifrostPorts.C148_recorded
Verif.Props.BifrostPorts.C148_sessions
Verif.Props.MwHandler.C149_crash_false
Verif.Props.MwHandler.C149_twice_false
Verif.Props.C150_room_partial
Verif.Props.C150_model_partial
Verif.Props.Life.C229_filter
Verif.Props.Life.C229_instance
Verif.Props.Life.C229_running
Verif.Props.Life.C229_started
Verif.Props.Life.C230_after_stop_partial
Verif.Props.Life.C230_released_partial
Verif.Props.Life.C230_after_stop_false
Verif.Props.Life.C230_refused_false
Verif.Props.Life.C230_released_false
Verif.Props.TunnelClient.C231_right_listener
Verif.Props.TunnelClient.C231_once
Verif.Props.TunnelClient.C232_requested
Verif.Props.TunnelClient.C232_assigned
Verif.Props.TunnelClient.C232_kept
Verif.Props.TunnelClient.C232_refused
Verif.Props.TunnelClient.C233_requested_partial
Verif.Props.TunnelClient.C233_late_false
Verif.Props.TunnelClient.C233_no_crash_partial
Verif.Props.TunnelClient.C233_close_false
Verif.Props.TunnelClient.C233_reconnect_false
Verif.Props.TunnelClient.C233_failed_listener_false
Verif.Props.TunnelClient.C233_no_leak_partial
Verif.Props.TunnelClient.C233_leak_false
Verif.Props.Keep.C235_short_false
Verif.Props.Keep.C235_close_false
Verif.Props.Keep.C235_close_partial
Verif.Props.Keep.C235_off_false
Verif.Props.TMsg.C237_stale_false
Verif.Props.TMsg.C237_stale_sent_false
Verif.Props.TMsg.C237_order_partial
Verif.Props.TMsg.C239_lost_false
Verif.Props.TMsg.C239_wait_partial
Verif.Props.PiiPat.C240_words
Verif.Props.InstCtx.C245_failed_false
Verif.Props.InstCtx.C245_stop_false
Verif.Props.InstCtx.C245_late_false
Verif.Props.HttpServer.C247_strict
Verif.Props.HeimdallWebhook.C249_token
Verif.Props.HeimdallWebhook.C249_settles
Verif.Dotn.C250_element_false
Verif.Ads.Stream.C251_update_false
Verif.Ads.Stream.C251_full_false
Verif.Ads.Stream.C251_unsupported_false
Verif.Ads.Stream.C252_gives_up_partial
Verif.Ads.Stream.C252_error
Verif.Ads.Stream.C252_canceled_false
Verif.Exp.JavaIo.C253_read
Verif.Exp.JavaIo.C254_read_partial
Verif.Exp.JavaIo.C254_part_false
Verif.Exp.JavaIo.C254_write_partial
Verif.Exp.JavaIo.C254_write_false
Verif.Exp.JavaSel.C255_ready
Verif.Exp.JavaSel.C255_selected
Verif.Exp.JavaSel.C255_dispatch
Verif.Exp.JavaSel.C255_deregistered
Verif.Exp.JavaSel.C255_early_false
Verif.Exp.JavaSel.C256_connect_partial
Verif.Exp.JavaSel.C256_dialed_partial
Verif.Exp.JavaSel.C256_finish_partial
Verif.Exp.Spring.C257_body_partial
Verif.Exp.Spring.C257_single_false
Verif.Exp.Spring.C257_last_false
Verif.Exp.PyReq.C259_text_false
Verif.Exp.PyReq.C259_failed
Verif.Bal.C261_endpoints
Verif.Bal.C261_clusters
Verif.Dn.C262_attributes
Verif.Dn.C262_sound
Verif.Exp.Transports.C263_java_partial
Verif.Exp.Transports.C263_await
Verif.Exp.Transports.C263_java_false
Verif.Exp.Transports.C263_failed_false
Verif.Exp.Transports.C263_mobile_false
Verif.Exp.Transports.C263_mobile_partial
Verif.Exp.Transports.C263_server_false
Verif.Bifrost.Cmd.C264_parse_port
Verif.Bifrost.Cmd.C264_unresolved_false
Verif.Bifrost.Cmd.C264_prompt_partial
Verif.Ip.C265_longest
Verif.TcpMeta.C268_magic_false
Verif.TcpMeta.C268_no_metadata_false
Verif.TcpMeta.C268_cut_length_false
Verif.TcpMeta.C269_pairs
Verif.TcpMeta.C270_any_client_false
Verif.Wasm.HostAbi.C272_forward_partial
Verif.Wasm.HostAbi.C272_fits
Verif.Wasm.HostAbi.C272_backwards_false
Verif.Wasm.HostAbi.C272_short_false
Verif.Wasm.HostAbi.C273_answered_partial
Verif.Wasm.HostAbi.C273_missing
Verif.Wasm.HostAbi.C273_internal
Verif.Wasm.HostAbi.C273_present
Verif.Wasm.HostAbi.C274_ok
Verif.Net.MetricsServer.C275_rests
Verif.Net.MetricsServer.C275_kept
Verif.Net.MetricsServer.C275_nofilters
Verif.Net.MetricsServer.C276_runs_partial
Verif.Net.MetricsServer.C276_crashes
Verif.CliProps.C278_protected_partial
Verif.CliProps.C278_only_partial
Verif.CliProps.C278_crash_false
Verif.CliProps.C278_no_endpoint
Verif.CliProps.C279_subscribed_partial
Verif.Picks.C280_own_partial
Verif.Picks.C280_sequence_partial
Verif.Picks.C280_wasted_false
Verif.Picks.C281_asked_partial
Verif.Picks.C281_unbounded_false
Verif.CertNames.C282_one_partial
Verif.CertNames.C282_identity_false
Verif.Kafka.LoadSpec.C283_same_name_false
Verif.Kafka.GenAll.C285_failed
Verif.Kafka.GenAll.C285_stale_false
Verif.Kafka.GenAll.C285_order_false
Verif.JavaAddr.C286_told
Verif.JavaAddr.C286_connected_partial
Verif.JavaAddr.C286_unconnected_false
Verif.JavaAddr.C287_target_partial
Verif.JavaAddr.C287_ipv6_false
Verif.Sec.CitadelMtls.C288_given
Verif.Sec.CitadelMtls.C288_shown
Verif.Sec.CitadelMtls.C288_one
Verif.Sec.CitadelMtls.C288_kept
Verif.Sec.CitadelMtls.C288_taken_up
Verif.Sec.CitadelMtls.C288_signs_partial
Verif.Sec.CitadelMtls.C288_stuck_false
Verif.Sec.CitadelMtls.C288_crash_false
Verif.Sec.CitadelMtls.C288_replaced_false
Verif.Bifrost.Flags.C289_value_partial
Verif.Bifrost.Flags.C289_client
Verif.Bifrost.Flags.C289_env
Verif.Bifrost.Flags.C289_shared_false
Verif.Bifrost.Flags.C289_server_false
Verif.Bifrost.Flags.C289_server_meant_false
Verif.Echo.C291_answers_partial
Verif.Echo.C291_lines
Verif.Echo.C291_failing
Verif.Echo.C291_rest_false
Verif.Bifrost.ServerCmd.C292_confirmed_partial
Verif.Bifrost.ServerCmd.C292_starts
Verif.Route.C156_nonempty_partial
Verif.Tunnel.C157_exhaustion_partial
Verif.Tunnel.C157_free_smallest_partial
Verif.Tunnel.C157_max_never_free
Verif.Pool.Timed.C160_early_false
Verif.Pool.Timed.C160_in_use_false
Verif.Pool.Timed.C160_slow_start_false
Verif.Pool.Timed.C160_initial_false
Verif.Props.C162_others_rejected_partial
Verif.Props.C163_uint64Size_false
Verif.Props.C165_tags_roundtrip_partial
Verif.Props.C165_empty_last_false
Verif.Wasm.Stream.C169_new_connection_partial
Verif.Wasm.Stream.C169_close_partial
Verif.Wasm.Stream.C169_request_pause_passes_false
Verif.Wasm.Stream.C169_response_pause_false
Verif.Net.C170_unique_false
Verif.Net.C170_closeId_false
Verif.Net.C170_race_false
Verif.Net.C170_panic_false
Verif.Net.C170_doubleClose_false
Verif.Props.C177_no_panic_partial
Verif.Props.C177_shipped_partial
Verif.Props.C177_parse_response_partial
Verif.Props.C177_request_false
Verif.Props.C177_header_false
Verif.Cert.C178_mesh_partial
Verif.Props.C179_removed_field_lost_false
Verif.Pool.Create.C182_create_leaks_partial
Verif.Pool.Create.C182_create_leaks_false
Verif.Props.C184_response_matches_request
Verif.Props.C184_request_type
Verif.Props.C185_int
Verif.Props.C185_uvarint
Verif.Pool.C186_len_drift
Verif.Props.C187_null_text_false
Verif.Props.C188_nested_struct_false
Verif.Props.C188_bytes_limit_false
Verif.Props.C189_null_struct_false
Verif.Props.C190_truncated_false
Verif.Props.C191_snappy_false
Verif.Props.C192_snappy_false
Verif.Tunnel.C194_authenticated_partial
Verif.Wasm.C195_eof_partial
Verif.Props.C197_secured_partial
Verif.Props.C198_own_partial
Verif.Props.C198_mixed_up_false
Verif.Props.C198_second_left_false
Verif.Props.C198_failure_silent_false
Verif.Props.Relay.C202_left_open_false
Verif.Props.LProps.C203_served_partial
Verif.Props.LProps.C203_never_again_false
Verif.Props.LProps.C203_stale_false
Verif.Props.LProps.C203_callback_ignored_false
Verif.Props.Middleware.C208_number
Verif.Props.HostProps.C209_path_false
Verif.Props.Ticker.C210_deadlock_false
Verif.Props.Ticker.C210_twice_false
Verif.Props.Vm.C211_after_partial
Verif.Props.Vm.C211_race_false
Verif.Props.GrpcDial.C218_state_partial
Verif.Props.Gzip.C220_damaged_false
Verif.Props.Python.C221_cancelled_false
Verif.Props.JavaLog.C223_full_false
Verif.Props.JavaLog.C223_setup_false
Verif.Props.Equal.C224_null_false
Verif.Props.Equal.C224_nan_false
Verif.Props.Equal.C224_attributes_false
Verif.Props.BifrostPorts.C225_listed_partial
Verif.Props.C226_last_false
Verif.Props.FlatNode.C227_short_false
