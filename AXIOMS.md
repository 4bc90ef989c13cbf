# Axioms of the theorems in MANIFEST.json

Generated by `tools/gen_axioms.py` from `#print axioms`.

| theorem | axioms |
|---|---|
| `Props.C01_headers_from_mapping` | propext, Classical.choice, Quot.sound |
| `Props.C01_headers_from_pairs` | propext, Classical.choice, Quot.sound |
| `Props.C01_headers_multimap` | propext, Classical.choice, Quot.sound |
| `Props.C01_reachable_wellformed` | propext, Classical.choice, Quot.sound |
| `Props.C02_call_headers` | propext, Classical.choice, Quot.sound |
| `Props.C02_copy_is_faithful` | propext, Classical.choice, Quot.sound |
| `Props.C02_copy_is_faithful_from_pairs` | propext, Classical.choice, Quot.sound |
| `Props.C03_roundtrip_any_chunking` | propext, Quot.sound |
| `Props.C04_chunking_independent` | propext, Quot.sound |
| `Props.C04_chunking_independent_end_partial` | propext, Quot.sound |
| `Props.C04_violation_all` | propext, Quot.sound |
| `Props.C04_violation_connect` | propext, Quot.sound |
| `Props.C04_violation_grpc_web` | propext, Quot.sound |
| `Props.C05_asgi_bounded_partial` | propext, Classical.choice, Quot.sound |
| `Props.C05_asgi_post_oversize` | propext, Classical.choice, Quot.sound |
| `Props.C05_client_messages_bounded` | propext, Classical.choice, Quot.sound |
| `Props.C05_client_unary_oversize` | propext, Classical.choice, Quot.sound |
| `Props.C05_stream_messages_bounded` | propext, Quot.sound |
| `Props.C05_stream_oversize_rejected` | propext, Quot.sound |
| `Props.C05_violation_asgi_get_all` | propext, Classical.choice, Quot.sound |
| `Props.C05_violation_get` | propext, Quot.sound |
| `Props.C05_violation_wsgi_get_all` | propext, Classical.choice, Quot.sound |
| `Props.C05_wsgi_bounded_partial` | propext, Classical.choice, Quot.sound |
| `Props.C05_wsgi_post_oversize` | propext, Classical.choice, Quot.sound |
| `Props.C06_compressed_without_negotiation` | propext, Quot.sound |
| `Props.C07_messages_before_failure` | propext, Quot.sound |
| `Props.C08_write_exact` | propext, Quot.sound |
| `Props.C09_timeout_header_legal` | propext, Classical.choice, Quot.sound |
| `Props.C100_calls` | propext, Classical.choice, Quot.sound |
| `Props.C100_codecs` | propext, Classical.choice, Quot.sound |
| `Props.C100_defaults` | propext, Classical.choice, Quot.sound |
| `Props.C100_registry` | propext, Classical.choice, Quot.sound |
| `Props.C101_connect_unary` | propext, Classical.choice, Quot.sound |
| `Props.C101_streams` | propext, Classical.choice, Quot.sound |
| `Props.C102_asgi` | propext, Classical.choice, Quot.sound |
| `Props.C102_asgi_nothing_else` | propext, Classical.choice, Quot.sound |
| `Props.C102_asgi_reads` | propext, Classical.choice, Quot.sound |
| `Props.C102_wsgi` | propext, Classical.choice, Quot.sound |
| `Props.C102_wsgi_nothing_else` | propext, Classical.choice, Quot.sound |
| `Props.C102_wsgi_reads` | propext, Classical.choice, Quot.sound |
| `Props.C103_bidi_stream_partial` | propext, Classical.choice, Quot.sound |
| `Props.C103_client_stream_partial` | propext, Classical.choice, Quot.sound |
| `Props.C103_errors` | propext, Quot.sound |
| `Props.C103_server_stream_partial` | propext, Classical.choice, Quot.sound |
| `Props.C103_unary_partial` | propext, Classical.choice, Quot.sound |
| `Props.C103_untouched` | propext, Classical.choice, Quot.sound |
| `Props.C103_violation_interrupted` | propext, Classical.choice, Quot.sound |
| `Props.C104_asgi_partial` | propext, Classical.choice, Quot.sound |
| `Props.C104_bidi_asgi_partial` | propext, Classical.choice, Quot.sound |
| `Props.C104_bidi_span_asgi_partial` | propext, Classical.choice, Quot.sound |
| `Props.C104_bidi_span_wsgi_partial` | propext, Classical.choice, Quot.sound |
| `Props.C104_bidi_wsgi_partial` | propext, Classical.choice, Quot.sound |
| `Props.C104_client_stream_asgi_partial` | propext, Classical.choice, Quot.sound |
| `Props.C104_client_stream_span_asgi_partial` | propext, Classical.choice, Quot.sound |
| `Props.C104_client_stream_span_wsgi_partial` | propext, Classical.choice, Quot.sound |
| `Props.C104_client_stream_wsgi_partial` | propext, Classical.choice, Quot.sound |
| `Props.C104_grpc_asgi_partial` | propext, Classical.choice, Quot.sound |
| `Props.C104_grpc_span_asgi_partial` | propext, Classical.choice, Quot.sound |
| `Props.C104_grpc_span_wsgi_partial` | propext, Classical.choice, Quot.sound |
| `Props.C104_grpc_wsgi_partial` | propext, Classical.choice, Quot.sound |
| `Props.C104_span_asgi_partial` | propext, Classical.choice, Quot.sound |
| `Props.C104_span_wsgi_partial` | propext, Classical.choice, Quot.sound |
| `Props.C104_stream_asgi_partial` | propext, Classical.choice, Quot.sound |
| `Props.C104_stream_span_asgi_partial` | propext, Classical.choice, Quot.sound |
| `Props.C104_stream_span_wsgi_partial` | propext, Classical.choice, Quot.sound |
| `Props.C104_stream_wsgi_partial` | propext, Classical.choice, Quot.sound |
| `Props.C104_violation_early_asgi_all` | propext, Classical.choice, Quot.sound |
| `Props.C104_violation_early_wsgi_all` | propext, Classical.choice, Quot.sound |
| `Props.C104_violation_encode_asgi_all` | propext, Classical.choice, Quot.sound |
| `Props.C104_violation_encode_wsgi_all` | propext, Classical.choice, Quot.sound |
| `Props.C104_wsgi_partial` | propext, Classical.choice, Quot.sound |
| `Props.C10_never_lengthened` | propext, Classical.choice, Quot.sound |
| `Props.C11_large_value_rejected` | propext, Classical.choice, Quot.sound |
| `Props.C11_non_numeric_rejected` | propext, Classical.choice, Quot.sound |
| `Props.C11_parse_exact` | propext, Classical.choice, Quot.sound |
| `Props.C11_unknown_unit_rejected` | propext |
| `Props.C12_asgi_refused` | propext, Classical.choice, Quot.sound |
| `Props.C12_connect_timeout_roundtrip` | propext, Classical.choice, Quot.sound |
| `Props.C12_long_header_rejected` | propext |
| `Props.C12_non_numeric_rejected` | propext, Quot.sound |
| `Props.C12_told` | propext, Quot.sound |
| `Props.C12_wsgi_refused` | propext, Classical.choice, Quot.sound |
| `Props.C13_call_timeout_partial` | propext, Classical.choice, Quot.sound |
| `Props.C13_default_timeout` | propext, Classical.choice, Quot.sound |
| `Props.C13_violation_zero` | propext, Quot.sound |
| `Props.C13_violation_zero_all` | propext, Quot.sound |
| `Props.C14_expiry` | propext, Classical.choice, Quot.sound |
| `Props.C14_never_increases` | propext, Classical.choice, Quot.sound |
| `Props.C14_remaining_time` | propext, Classical.choice, Quot.sound |
| `Props.C15_other_status_unknown` | propext, Quot.sound |
| `Props.C15_status_injective` | propext, Quot.sound |
| `Props.C15_status_roundtrip` | propext, Quot.sound |
| `Props.C16_grpc_error` | propext, Classical.choice, Quot.sound |
| `Props.C16_grpc_user_trailers` | propext, Classical.choice, Quot.sound |
| `Props.C17_connect_unary_error` | propext, Classical.choice, Quot.sound |
| `Props.C18_connect_stream_end` | propext, Classical.choice, Quot.sound |
| `Props.C19_grpc_web_trailers` | propext, Classical.choice, Quot.sound |
| `Props.C20_error_body` | propext, Quot.sound |
| `Props.C20_no_json` | propext, Quot.sound |
| `Props.C20_stream_error` | propext, Quot.sound |
| `Props.C21_grpc_failure_partial` | propext, Classical.choice, Quot.sound |
| `Props.C21_grpc_success_not_forgeable` | propext, Classical.choice, Quot.sound |
| `Props.C21_violation_code` | propext, Quot.sound |
| `Props.C21_violation_code_all` | propext, Classical.choice, Quot.sound |
| `Props.C21_violation_grpc_web_line_break` | propext, Quot.sound |
| `Props.C21_violation_message` | propext, Quot.sound |
| `Props.C21_violation_message_all` | propext, Classical.choice, Quot.sound |
| `Props.C22_no_line_breaks` | propext, Classical.choice, Quot.sound |
| `Props.C22_quote_safe_and_reversible` | propext, Classical.choice, Quot.sound |
| `Props.C23_unpadded_base64` | propext, Classical.choice, Quot.sound |
| `Props.C23_urlsafe_base64` | propext, Classical.choice, Quot.sound |
| `Props.C24_every_header` | propext, Quot.sound |
| `Props.C24_first_supported` | propext, Classical.choice, Quot.sound |
| `Props.C25_client_resolves` | propext, Classical.choice, Quot.sound |
| `Props.C26_asgi_get` | propext, Classical.choice, Quot.sound |
| `Props.C26_asgi_post` | propext, Classical.choice, Quot.sound |
| `Props.C26_asgi_stream_partial` | propext, Classical.choice, Quot.sound |
| `Props.C26_violation_asgi_connect_all` | propext, Classical.choice, Quot.sound |
| `Props.C26_violation_connect_stream` | propext, Classical.choice, Quot.sound |
| `Props.C26_violation_wsgi_connect_all` | propext, Classical.choice, Quot.sound |
| `Props.C26_wsgi_get` | propext, Classical.choice, Quot.sound |
| `Props.C26_wsgi_post` | propext, Classical.choice, Quot.sound |
| `Props.C26_wsgi_stream_partial` | propext, Classical.choice, Quot.sound |
| `Props.C27_client_protocol_partial` | propext, Classical.choice, Quot.sound |
| `Props.C27_content_type_decides` | propext, Classical.choice, Quot.sound |
| `Props.C27_violation_codec_name` | propext, Classical.choice, Quot.sound |
| `Props.C27_violation_codec_name_all` | propext, Classical.choice, Quot.sound |
| `Props.C28_asgi_stream_unsupported` | propext, Classical.choice, Quot.sound |
| `Props.C28_asgi_unary_unsupported` | propext, Classical.choice, Quot.sound |
| `Props.C28_connect_client_codec` | propext, Classical.choice, Quot.sound |
| `Props.C28_connect_codec` | propext, Quot.sound |
| `Props.C28_grpc_codec` | propext, Classical.choice, Quot.sound |
| `Props.C28_wsgi_stream_unsupported` | propext, Classical.choice, Quot.sound |
| `Props.C28_wsgi_unary_unsupported` | propext, Classical.choice, Quot.sound |
| `Props.C29_asgi_not_allowed` | propext, Classical.choice, Quot.sound |
| `Props.C29_asgi_runs` | propext, Classical.choice, Quot.sound |
| `Props.C29_wsgi_not_allowed` | propext, Classical.choice, Quot.sound |
| `Props.C29_wsgi_runs` | propext, Classical.choice, Quot.sound |
| `Props.C30_asgi_not_found` | propext, Quot.sound |
| `Props.C30_asgi_only_target` | propext, Quot.sound |
| `Props.C30_asgi_target` | propext, Classical.choice, Quot.sound |
| `Props.C30_wsgi_not_found` | propext, Quot.sound |
| `Props.C30_wsgi_only_target` | propext, Quot.sound |
| `Props.C30_wsgi_target` | propext, Classical.choice, Quot.sound |
| `Props.C31_asgi_stream` | propext, Classical.choice, Quot.sound |
| `Props.C32_violation_end` | propext, Classical.choice, Quot.sound |
| `Props.C32_wsgi_plain` | propext, Classical.choice, Quot.sound |
| `Props.C32_wsgi_stream_partial` | propext, Classical.choice, Quot.sound |
| `Props.C33_asgi_refused` | propext, Classical.choice, Quot.sound |
| `Props.C33_asgi_single` | propext, Classical.choice, Quot.sound |
| `Props.C33_client_single_message` | propext, Quot.sound |
| `Props.C33_client_unary_single_message` | propext, Quot.sound |
| `Props.C33_wsgi_refused` | propext, Classical.choice, Quot.sound |
| `Props.C33_wsgi_single` | propext, Classical.choice, Quot.sound |
| `Props.C34_asgi_accepted` | propext, Classical.choice, Quot.sound |
| `Props.C34_asgi_rejected` | propext, Classical.choice, Quot.sound |
| `Props.C34_wsgi_accepted` | propext, Classical.choice, Quot.sound |
| `Props.C34_wsgi_rejected` | propext, Classical.choice, Quot.sound |
| `Props.C35_asgi_partial` | propext, Classical.choice, Quot.sound |
| `Props.C35_violation_cancelled` | propext, Classical.choice, Quot.sound |
| `Props.C35_violation_cancelled_all` | propext, Classical.choice, Quot.sound |
| `Props.C35_wsgi` | propext, Classical.choice, Quot.sound |
| `Props.C36_asgi_bounded` | propext, Classical.choice, Quot.sound |
| `Props.C36_asgi_canceled_partial` | propext, Classical.choice, Quot.sound |
| `Props.C36_violation_no_message` | propext, Classical.choice, Quot.sound |
| `Props.C36_violation_unnoticed_all` | propext, Classical.choice, Quot.sound |
| `Props.C37_asgi_disconnect` | propext, Classical.choice, Quot.sound |
| `Props.C37_asgi_fragmentation` | propext, Quot.sound |
| `Props.C37_wsgi_cut` | propext, Classical.choice, Quot.sound |
| `Props.C37_wsgi_fragmentation` | propext, Quot.sound |
| `Props.C37_wsgi_truncated` | propext, Classical.choice, Quot.sound |
| `Props.C38_asgi_get_base64_partial` | propext, Classical.choice, Quot.sound |
| `Props.C38_asgi_get_missing_partial` | propext, Classical.choice, Quot.sound |
| `Props.C38_violation_asgi_decode` | propext, Classical.choice, Quot.sound |
| `Props.C38_violation_asgi_get_decode` | propext, Classical.choice, Quot.sound |
| `Props.C38_violation_asgi_get_decompress` | propext, Classical.choice, Quot.sound |
| `Props.C38_violation_asgi_post_decode` | propext, Classical.choice, Quot.sound |
| `Props.C38_violation_asgi_post_decompress` | propext, Classical.choice, Quot.sound |
| `Props.C38_violation_wsgi_get_decompress` | propext, Classical.choice, Quot.sound |
| `Props.C38_wsgi_get_base64_partial` | propext, Classical.choice, Quot.sound |
| `Props.C38_wsgi_get_decode_partial` | propext, Classical.choice, Quot.sound |
| `Props.C38_wsgi_get_decompress_internal` | propext, Classical.choice, Quot.sound |
| `Props.C38_wsgi_get_missing_partial` | propext, Classical.choice, Quot.sound |
| `Props.C38_wsgi_post_decode_partial` | propext, Classical.choice, Quot.sound |
| `Props.C38_wsgi_post_decompress_partial` | propext, Classical.choice, Quot.sound |
| `Props.C39_lawful_partial` | propext, Quot.sound |
| `Props.C39_life` | propext |
| `Props.C39_plain` | propext, Quot.sound |
| `Props.C39_violation_no_endpoints` | propext |
| `Props.C39_violation_no_endpoints_all` | propext, Classical.choice, Quot.sound |
| `Props.C40_asgi_iterator` | propext, Quot.sound |
| `Props.C40_asgi_partial` | propext, Quot.sound |
| `Props.C40_violation_iterator` | propext |
| `Props.C40_wsgi_partial` | propext, Quot.sound |
| `Props.C41_client_partial` | propext, Quot.sound |
| `Props.C41_violation_both` | none |
| `Props.C42_async_stream_partial` | propext |
| `Props.C42_client_stream_partial` | propext |
| `Props.C42_paired` | propext, Quot.sound |
| `Props.C42_transparent` | none |
| `Props.C42_unary_partial` | propext |
| `Props.C42_violation_cancelled` | propext |
| `Props.C42_violation_not_exception` | propext |
| `Props.C43_async_partial` | propext, Quot.sound |
| `Props.C43_sync_bidi_partial` | propext |
| `Props.C43_sync_server_stream_partial` | propext |
| `Props.C43_untouched` | none |
| `Props.C43_violation_order` | propext |
| `Props.C44_unary_failures` | propext, Quot.sound |
| `Props.C44_unary_result` | propext, Classical.choice, Quot.sound |
| `Props.C44_unary_success` | propext, Classical.choice, Quot.sound |
| `Props.C45_stream_errors_partial` | propext, Quot.sound |
| `Props.C45_violation_reset_details` | propext, Quot.sound |
| `Props.C46_cut_response` | propext, Quot.sound |
| `Props.C46_missing_status_partial` | propext, Quot.sound |
| `Props.C46_violation_connect` | propext, Quot.sound |
| `Props.C46_violation_connect_all` | propext, Quot.sound |
| `Props.C47_get_query` | propext, Classical.choice, Quot.sound |
| `Props.C47_unambiguous` | none |
| `Props.C48_metadata_partial` | propext, Classical.choice, Quot.sound |
| `Props.C48_violation_stale_trailers` | none |
| `Props.C48_violation_stale_trailers_all` | propext, Quot.sound |
| `Props.C49_innermost_partial` | propext, Quot.sound |
| `Props.C49_recorded_partial` | propext, Quot.sound |
| `Props.C49_restored_partial` | propext, Quot.sound |
| `Props.C49_violation_reentered` | propext, Quot.sound |
| `Props.C50_violation_close_has_no_effect` | propext, Quot.sound |
| `Props.C51_reset_code` | propext, Quot.sound |
| `Props.C51_reset_trailers_message` | propext, Quot.sound |
| `Props.C52_fixed_headers` | propext, Classical.choice, Quot.sound |
| `Props.C52_other_headers` | propext, Classical.choice, Quot.sound |
| `Props.C53_delay` | propext, Classical.choice, Quot.sound |
| `Props.C53_exit` | propext, Classical.choice, Quot.sound |
| `Props.C53_fires` | propext, Classical.choice, Quot.sound |
| `Props.C53_inside` | propext, Classical.choice, Quot.sound |
| `Props.C53_no_assertion` | propext, Classical.choice, Quot.sound |
| `Props.C53_once` | propext, Classical.choice, Quot.sound |
| `Props.C53_usage` | propext, Classical.choice, Quot.sound |
| `Props.C54_calls` | propext, Classical.choice, Quot.sound |
| `Props.C54_client_exact` | propext, Classical.choice, Quot.sound |
| `Props.C54_client_partial` | propext, Classical.choice, Quot.sound |
| `Props.C54_get` | propext |
| `Props.C54_letters` | propext, Quot.sound |
| `Props.C54_mounted` | propext, Classical.choice, Quot.sound |
| `Props.C54_server` | propext, Classical.choice, Quot.sound |
| `Props.C54_snake_case` | propext, Quot.sound |
| `Props.C54_violation_own_name` | propext |
| `Props.C54_violation_same_name` | propext, Quot.sound |
| `Props.C54_violation_same_name_all` | propext, Classical.choice, Quot.sound |
| `Props.C55_asgi_partial` | propext, Classical.choice, Quot.sound |
| `Props.C55_client_partial` | propext, Classical.choice, Quot.sound |
| `Props.C55_client_side_partial` | propext, Classical.choice, Quot.sound |
| `Props.C55_server_side_partial` | propext |
| `Props.C55_violation_context` | propext, Quot.sound |
| `Props.C55_violation_ipv6_all` | propext |
| `Props.C55_violation_ipv6_host` | propext |
| `Props.C55_violation_url_path` | propext |
| `Props.C55_violation_url_path_all` | propext, Classical.choice, Quot.sound |
| `Props.C55_wsgi_partial` | propext, Classical.choice, Quot.sound |
| `Props.C56_exactly_one` | propext, Classical.choice, Quot.sound |
| `Props.C56_instrumented_partial` | propext, Quot.sound |
| `Props.C56_outermost` | propext, Quot.sound |
| `Props.C56_twice` | propext, Quot.sound |
| `Props.C56_violation_iterator` | propext, Quot.sound |
| `Props.C57_addresses` | propext, Classical.choice, Quot.sound |
| `Props.C57_call_partial` | propext, Quot.sound |
| `Props.C57_stream_async_partial` | propext, Classical.choice, Quot.sound |
| `Props.C57_stream_sync_partial` | propext, Quot.sound |
| `Props.C57_violation_host` | propext, Quot.sound |
| `Props.C57_violation_untraceable` | propext, Classical.choice, Quot.sound |
| `Props.C57_violation_url` | propext, Quot.sound |
| `Props.C58_configured` | propext, Quot.sound |
| `Props.C58_connect_asgi_partial` | propext, Classical.choice, Quot.sound |
| `Props.C58_connect_wsgi_partial` | propext, Classical.choice, Quot.sound |
| `Props.C58_grpc_asgi_partial` | propext, Classical.choice, Quot.sound |
| `Props.C58_grpc_wsgi_partial` | propext, Classical.choice, Quot.sound |
| `Props.C58_violation_long_timeout` | propext, Classical.choice, Quot.sound |
| `Props.C58_violation_long_timeout_all` | propext, Classical.choice, Quot.sound |
| `Props.C59_bidi_asgi_partial` | propext, Classical.choice, Quot.sound |
| `Props.C59_bidi_wsgi_partial` | propext, Classical.choice, Quot.sound |
| `Props.C59_client_stream_asgi_partial` | propext, Classical.choice, Quot.sound |
| `Props.C59_client_stream_wsgi_partial` | propext, Classical.choice, Quot.sound |
| `Props.C59_configured` | propext, Quot.sound |
| `Props.C59_server_stream_asgi_partial` | propext, Classical.choice, Quot.sound |
| `Props.C59_server_stream_wsgi_partial` | propext, Classical.choice, Quot.sound |
| `Props.C59_violation_long_timeout` | propext, Classical.choice, Quot.sound |
| `Props.C59_violation_long_timeout_all` | propext, Classical.choice, Quot.sound |
| `Props.C60_asgi_headers` | propext, Classical.choice, Quot.sound |
| `Props.C60_wsgi_headers` | propext, Classical.choice, Quot.sound |
| `Props.C61_violation` | propext, Quot.sound |
| `Props.C61_violation_asgi_all` | propext, Classical.choice, Quot.sound |
| `Props.C61_violation_wsgi_all` | propext, Classical.choice, Quot.sound |
| `Props.C62_asgi_plain_partial` | propext, Classical.choice, Quot.sound |
| `Props.C62_violation_second_start` | propext, Quot.sound |
| `Props.C62_violation_second_start_all` | propext, Classical.choice, Quot.sound |
| `Props.C63_asgi` | propext, Classical.choice, Quot.sound |
| `Props.C63_wsgi` | propext, Classical.choice, Quot.sound |
| `Props.C64_app` | propext, Quot.sound |
| `Props.C64_client` | propext, Quot.sound |
| `Props.C65_determined` | none |
| `Props.C65_no_silent_truncation` | propext, Quot.sound |
| `Props.C65_request_body` | propext, Quot.sound |
| `Props.C65_unary_body` | propext, Quot.sound |
| `Props.C66_asgi_partial` | propext, Classical.choice, Quot.sound |
| `Props.C66_violation_zero` | propext, Classical.choice, Quot.sound |
| `Props.C66_wsgi_partial` | propext, Classical.choice, Quot.sound |
| `Props.C67_asgi_partial` | propext, Classical.choice, Quot.sound |
| `Props.C67_in_process` | propext, Quot.sound |
| `Props.C67_kinds_asgi_partial` | propext, Classical.choice, Quot.sound |
| `Props.C67_kinds_wsgi_partial` | propext, Classical.choice, Quot.sound |
| `Props.C67_same_trace_partial` | propext, Quot.sound |
| `Props.C67_violation_siblings` | propext, Quot.sound |
| `Props.C67_wsgi_partial` | propext, Classical.choice, Quot.sound |
| `Props.C68_asgi` | propext, Classical.choice, Quot.sound |
| `Props.C68_client` | propext, Quot.sound |
| `Props.C68_wsgi` | propext, Classical.choice, Quot.sound |
| `Props.C69_end_format` | propext, Classical.choice, Quot.sound |
| `Props.C69_error_body` | propext, Classical.choice, Quot.sound |
| `Props.C70_bidi` | propext, Classical.choice, Quot.sound |
| `Props.C70_client_stream` | propext, Classical.choice, Quot.sound |
| `Props.C70_server_stream` | propext, Classical.choice, Quot.sound |
| `Props.C70_unary_connect` | propext, Classical.choice, Quot.sound |
| `Props.C70_unary_connect_error` | propext, Classical.choice, Quot.sound |
| `Props.C70_unary_grpc` | propext, Classical.choice, Quot.sound |
| `Props.C71_bounded` | propext, Quot.sound |
| `Props.C71_order` | propext, Classical.choice, Quot.sound |
| `Props.C71_outcome` | propext, Classical.choice, Quot.sound |
| `Props.C71_progress` | propext, Classical.choice, Quot.sound |
| `Props.C72_asgi_stream` | propext, Classical.choice, Quot.sound |
| `Props.C72_asgi_unary_partial` | propext, Classical.choice, Quot.sound |
| `Props.C72_violation_binary_query` | propext, Classical.choice, Quot.sound |
| `Props.C72_wsgi_stream` | propext, Classical.choice, Quot.sound |
| `Props.C72_wsgi_unary_partial` | propext, Classical.choice, Quot.sound |
| `Props.C73_asgi_stream` | propext, Classical.choice, Quot.sound |
| `Props.C73_asgi_unary` | propext, Classical.choice, Quot.sound |
| `Props.C73_wsgi_stream` | propext, Classical.choice, Quot.sound |
| `Props.C73_wsgi_unary` | propext, Classical.choice, Quot.sound |
| `Props.C74_bidi_stream_partial` | propext, Classical.choice, Quot.sound |
| `Props.C74_client_stream_partial` | propext, Classical.choice, Quot.sound |
| `Props.C74_connect_unary_partial` | propext, Classical.choice, Quot.sound |
| `Props.C74_grpc_unary_partial` | propext, Classical.choice, Quot.sound |
| `Props.C74_server_stream_partial` | propext, Classical.choice, Quot.sound |
| `Props.C74_violation_negative_timeout` | propext, Classical.choice, Quot.sound |
| `Props.C75_stream` | propext, Quot.sound |
| `Props.C75_stream_status` | propext, Quot.sound |
| `Props.C75_unary_connect` | propext, Classical.choice, Quot.sound |
| `Props.C75_unary_connect_status` | propext, Quot.sound |
| `Props.C75_unary_grpc` | propext, Quot.sound |
| `Props.C76_progress_partial` | propext, Classical.choice, Quot.sound |
| `Props.C76_violation_drain` | propext, Classical.choice, Quot.sound |
| `Props.C76_violation_fills` | propext, Classical.choice, Quot.sound |
| `Props.C77_cancelled_between` | propext, Quot.sound |
| `Props.C77_close` | propext, Quot.sound |
| `Props.C77_over` | propext, Quot.sound |
| `Props.C77_prompt` | propext, Classical.choice, Quot.sound |
| `Props.C77_released` | propext, Quot.sound |
| `Props.C77_single_partial` | propext, Classical.choice, Quot.sound |
| `Props.C77_violation_single` | propext, Classical.choice, Quot.sound |
| `Props.C77_whole` | propext, Classical.choice, Quot.sound |
| `Props.C78_after_end` | propext, Classical.choice, Quot.sound |
| `Props.C78_cause` | propext, Classical.choice, Quot.sound |
| `Props.C78_deadline` | propext, Classical.choice, Quot.sound |
| `Props.C78_left_alone_partial` | propext, Classical.choice, Quot.sound |
| `Props.C78_stream_says` | propext, Classical.choice, Quot.sound |
| `Props.C78_violation_interrupted` | propext, Classical.choice, Quot.sound |
| `Props.C78_violation_no_deadline` | propext, Classical.choice, Quot.sound |
| `Props.C79_off_exact` | propext, Quot.sound |
| `Props.C79_off_partial` | propext, Quot.sound |
| `Props.C79_on` | propext, Quot.sound |
| `Props.C79_violation_late_import` | propext, Quot.sound |
| `Props.C80_bounded_partial` | propext, Quot.sound |
| `Props.C80_held_client` | propext, Quot.sound |
| `Props.C80_held_server` | propext, Quot.sound |
| `Props.C80_violation_declared` | propext, Quot.sound |
| `Props.C80_violation_declared_client` | propext, Quot.sound |
| `Props.C81_classes_partial` | propext, Classical.choice, Quot.sound |
| `Props.C81_exact` | propext, Classical.choice, Quot.sound |
| `Props.C81_message_name` | propext |
| `Props.C81_message_other` | propext, Classical.choice, Quot.sound |
| `Props.C81_message_same` | propext, Classical.choice, Quot.sound |
| `Props.C81_only` | propext, Quot.sound |
| `Props.C81_violation_ending` | propext, Quot.sound |
| `Props.C82_asgi_partial` | propext, Quot.sound |
| `Props.C82_same_response` | propext, Quot.sound |
| `Props.C82_trailers` | propext, Quot.sound |
| `Props.C82_violation_receive` | propext, Quot.sound |
| `Props.C82_violation_wsgi` | propext, Quot.sound |
| `Props.C82_wsgi_partial` | propext, Quot.sound |
| `Props.C83_calls_partial` | propext, Classical.choice, Quot.sound |
| `Props.C83_innermost_partial` | propext, Classical.choice, Quot.sound |
| `Props.C83_read_after_partial` | propext, Classical.choice, Quot.sound |
| `Props.C83_stream_grpc` | propext, Classical.choice, Quot.sound |
| `Props.C83_stream_partial` | propext, Classical.choice, Quot.sound |
| `Props.C83_unary_connect` | propext, Quot.sound |
| `Props.C83_violation_metadata` | propext, Classical.choice, Quot.sound |
| `Props.C83_violation_metadata_all` | propext, Quot.sound |
| `Props.C84_closing_partial` | propext, Quot.sound |
| `Props.C84_finished_partial` | propext, Quot.sound |
| `Props.C84_handler_partial` | propext, Quot.sound |
| `Props.C84_send_partial` | propext, Quot.sound |
| `Props.C84_sends_partial` | propext, Quot.sound |
| `Props.C84_unary` | propext, Classical.choice, Quot.sound |
| `Props.C84_unary_sends` | propext, Classical.choice, Quot.sound |
| `Props.C84_violation_reading` | propext, Classical.choice, Quot.sound |
| `Props.C84_violation_reading_stream` | propext, Classical.choice, Quot.sound |
| `Props.C84_violation_success` | propext, Classical.choice, Quot.sound |
| `Props.C84_violation_watcher` | propext, Quot.sound |
| `Props.C85_call` | propext, Quot.sound |
| `Props.C85_inside` | propext, Quot.sound |
| `Props.C85_nested_partial` | propext, Quot.sound |
| `Props.C85_stream_empty` | propext, Quot.sound |
| `Props.C85_stream_partial` | propext, Quot.sound |
| `Props.C85_violation_between` | propext, Quot.sound |
| `Props.C85_violation_elsewhere` | propext, Quot.sound |
| `Props.C85_violation_interleaved` | propext, Quot.sound |
| `Props.C86_contains_partial` | propext, Classical.choice, Quot.sound |
| `Props.C86_equal_exact` | propext, Classical.choice, Quot.sound |
| `Props.C86_equal_partial` | propext, Classical.choice, Quot.sound |
| `Props.C86_view_partial` | propext, Classical.choice, Quot.sound |
| `Props.C86_violation_contains` | propext, Quot.sound |
| `Props.C86_violation_equal` | propext, Classical.choice, Quot.sound |
| `Props.C86_violation_from_headers` | propext, Classical.choice, Quot.sound |
| `Props.C86_violation_mapping` | propext, Classical.choice, Quot.sound |
| `Props.C86_violation_missing` | propext, Quot.sound |
| `Props.C86_violation_stale` | propext, Quot.sound |
| `Props.C87_asgi_stream_partial` | propext, Classical.choice, Quot.sound |
| `Props.C87_asgi_unary` | propext, Classical.choice, Quot.sound |
| `Props.C87_violation_malformed` | propext, Classical.choice, Quot.sound |
| `Props.C87_violation_wsgi` | propext, Classical.choice, Quot.sound |
| `Props.C87_wsgi_log` | propext, Quot.sound |
| `Props.C87_wsgi_malformed_partial` | propext, Classical.choice, Quot.sound |
| `Props.C87_wsgi_stream_partial` | propext, Classical.choice, Quot.sound |
| `Props.C87_wsgi_unary` | propext, Classical.choice, Quot.sound |
| `Props.C88_again` | propext, Classical.choice, Quot.sound |
| `Props.C88_attempts` | propext, Classical.choice, Quot.sound |
| `Props.C88_metadata_partial` | propext, Classical.choice, Quot.sound |
| `Props.C88_plain` | propext, Classical.choice, Quot.sound |
| `Props.C88_retry` | propext, Classical.choice, Quot.sound |
| `Props.C88_skipped` | propext, Classical.choice, Quot.sound |
| `Props.C88_time` | propext, Classical.choice, Quot.sound |
| `Props.C88_time_shrinks` | propext, Classical.choice, Quot.sound |
| `Props.C88_violation_announced` | propext, Classical.choice, Quot.sound |
| `Props.C88_violation_trailers` | propext, Classical.choice, Quot.sound |
| `Props.C89_call` | propext, Quot.sound |
| `Props.C89_no_trace` | propext, Quot.sound |
| `Props.C89_violation_block` | propext, Quot.sound |
| `Props.C89_violation_goes_on` | propext, Quot.sound |
| `Props.C89_violation_not_cancelled` | propext, Quot.sound |
| `Props.C90_alike_partial` | propext, Classical.choice, Quot.sound |
| `Props.C90_configured` | propext, Classical.choice, Quot.sound |
| `Props.C90_violation_corrupt` | propext, Quot.sound |
| `Props.C90_violation_corrupt_all` | propext, Classical.choice, Quot.sound |
| `Props.C90_violation_empty` | propext, Quot.sound |
| `Props.C90_violation_empty_all` | propext, Classical.choice, Quot.sound |
| `Props.C90_violation_garbled` | propext, Quot.sound |
| `Props.C90_violation_garbled_all` | propext, Classical.choice, Quot.sound |
| `Props.C90_violation_get_encoding` | propext, Quot.sound |
| `Props.C90_violation_get_encoding_all` | propext, Classical.choice, Quot.sound |
| `Props.C90_violation_get_stream` | propext, Quot.sound |
| `Props.C90_violation_stream_codec` | propext, Quot.sound |
| `Props.C90_violation_stream_codec_all` | propext, Classical.choice, Quot.sound |
| `Props.C91_calls_partial` | propext, Classical.choice, Quot.sound |
| `Props.C91_interceptors_partial` | propext, Classical.choice, Quot.sound |
| `Props.C91_iteration_partial` | propext, Quot.sound |
| `Props.C91_violation_exit` | propext, Quot.sound |
| `Props.C91_violation_late` | propext, Quot.sound |
| `Props.C92_asgi_partial` | propext, Classical.choice, Quot.sound |
| `Props.C92_brotli` | propext |
| `Props.C92_gzip_accepts` | propext, Quot.sound |
| `Props.C92_gzip_partial` | propext, Quot.sound |
| `Props.C92_request_partial` | propext, Classical.choice, Quot.sound |
| `Props.C92_response_partial` | propext, Classical.choice, Quot.sound |
| `Props.C92_round_trip` | propext, Quot.sound |
| `Props.C92_violation_asgi` | propext, Classical.choice, Quot.sound |
| `Props.C92_violation_asgi_empty` | propext, Classical.choice, Quot.sound |
| `Props.C92_violation_gzip` | propext, Quot.sound |
| `Props.C92_violation_request` | propext, Classical.choice, Quot.sound |
| `Props.C92_violation_response` | propext, Quot.sound |
| `Props.C92_violation_wsgi` | propext, Classical.choice, Quot.sound |
| `Props.C92_violation_zstd` | none |
| `Props.C92_wsgi_partial` | propext, Classical.choice, Quot.sound |
| `Props.C93_asgi_kinds_partial` | propext, Classical.choice, Quot.sound |
| `Props.C93_asgi_partial` | propext, Classical.choice, Quot.sound |
| `Props.C93_asgi_stream_partial` | propext, Classical.choice, Quot.sound |
| `Props.C93_violation_cancelled` | propext, Classical.choice, Quot.sound |
| `Props.C93_violation_disconnect` | propext, Classical.choice, Quot.sound |
| `Props.C93_violation_encode` | propext, Classical.choice, Quot.sound |
| `Props.C93_violation_refused` | propext, Classical.choice, Quot.sound |
| `Props.C93_violation_refused_stream` | propext, Classical.choice, Quot.sound |
| `Props.C93_violation_stream_encode` | propext, Classical.choice, Quot.sound |
| `Props.C93_wsgi_kinds_partial` | propext, Classical.choice, Quot.sound |
| `Props.C93_wsgi_partial` | propext, Classical.choice, Quot.sound |
| `Props.C93_wsgi_stream_partial` | propext, Classical.choice, Quot.sound |
| `Props.C94_bare` | propext, Quot.sound |
| `Props.C94_partial` | propext, Classical.choice, Quot.sound |
| `Props.C94_sent` | propext, Classical.choice, Quot.sound |
| `Props.C94_violation_get` | propext, Classical.choice, Quot.sound |
| `Props.C95_deadline` | propext, Classical.choice, Quot.sound |
| `Props.C95_streams` | propext, Classical.choice, Quot.sound |
| `Props.C95_streams_deadline` | propext, Classical.choice, Quot.sound |
| `Props.C95_unary` | propext, Classical.choice, Quot.sound |
| `Props.C96_chain` | propext, Classical.choice, Quot.sound |
| `Props.C96_partial` | propext, Quot.sound |
| `Props.C96_violation_registry` | propext, Quot.sound |
| `Props.C96_violation_type` | none |
| `Props.C97_partial` | propext, Classical.choice, Quot.sound |
| `Props.C97_refused` | propext, Quot.sound |
| `Props.C97_same` | propext, Classical.choice, Quot.sound |
| `Props.C97_violation_get` | propext, Classical.choice, Quot.sound |
| `Props.C97_violation_stream` | propext, Classical.choice, Quot.sound |
| `Props.C98_asgi_partial` | propext, Classical.choice, Quot.sound |
| `Props.C98_violation_asgi_timeout` | propext, Classical.choice, Quot.sound |
| `Props.C98_violation_wsgi_timeout` | propext, Classical.choice, Quot.sound |
| `Props.C98_wsgi_partial` | propext, Classical.choice, Quot.sound |
| `Props.C99_empty_error_fails` | propext, Quot.sound |
| `Props.C99_failed_end_partial` | propext, Classical.choice, Quot.sound |
| `Props.C99_violation_empty_error` | propext, Quot.sound |
