{
 "claims": [
  {
   "property": "C01",
   "status": "proved",
   "theorems": [
    "Props.C01_headers_multimap",
    "Props.C01_headers_from_mapping",
    "Props.C01_headers_from_pairs",
    "Props.C01_reachable_wellformed"
   ],
   "note": ""
  },
  {
   "property": "C02",
   "status": "proved",
   "theorems": [
    "Props.C02_copy_is_faithful",
    "Props.C02_copy_is_faithful_from_pairs",
    "Props.C02_call_headers"
   ],
   "note": "isolation is structural: model values are immutable and the copy is built by add into fresh dictionaries"
  },
  {
   "property": "C03",
   "status": "proved",
   "theorems": [
    "Props.C03_roundtrip_any_chunking"
   ],
   "note": ""
  },
  {
   "property": "C04",
   "status": "partial",
   "theorems": [
    "Props.C04_chunking_independent",
    "Props.C04_chunking_independent_end_partial",
    "Props.C04_violation_connect",
    "Props.C04_violation_grpc_web",
    "Props.C04_violation_all"
   ],
   "note": "proved for server readers and the gRPC client reader, and for end-message readers when nothing follows the end message; false otherwise"
  },
  {
   "property": "C05",
   "status": "partial",
   "theorems": [
    "Props.C05_stream_messages_bounded",
    "Props.C05_stream_oversize_rejected",
    "Props.C05_client_messages_bounded",
    "Props.C05_client_unary_oversize",
    "Props.C05_wsgi_post_oversize",
    "Props.C05_asgi_post_oversize",
    "Props.C05_wsgi_bounded_partial",
    "Props.C05_asgi_bounded_partial",
    "Props.C05_violation_get",
    "Props.C05_violation_wsgi_get_all",
    "Props.C05_violation_asgi_get_all"
   ],
   "note": "holds except for GET requests, whose message is not checked against the limit (violation)"
  },
  {
   "property": "C06",
   "status": "proved",
   "theorems": [
    "Props.C06_compressed_without_negotiation"
   ],
   "note": ""
  },
  {
   "property": "C07",
   "status": "proved",
   "theorems": [
    "Props.C07_messages_before_failure"
   ],
   "note": ""
  },
  {
   "property": "C08",
   "status": "proved",
   "theorems": [
    "Props.C08_write_exact"
   ],
   "note": ""
  },
  {
   "property": "C09",
   "status": "proved",
   "theorems": [
    "Props.C09_timeout_header_legal"
   ],
   "note": ""
  },
  {
   "property": "C10",
   "status": "proved",
   "theorems": [
    "Props.C10_never_lengthened"
   ],
   "note": ""
  },
  {
   "property": "C11",
   "status": "proved",
   "theorems": [
    "Props.C11_parse_exact",
    "Props.C11_unknown_unit_rejected",
    "Props.C11_large_value_rejected",
    "Props.C11_non_numeric_rejected"
   ],
   "note": ""
  },
  {
   "property": "C12",
   "status": "proved",
   "theorems": [
    "Props.C12_connect_timeout_roundtrip",
    "Props.C12_long_header_rejected",
    "Props.C12_non_numeric_rejected",
    "Props.C12_wsgi_refused",
    "Props.C12_asgi_refused",
    "Props.C12_told"
   ],
   "note": "IntText (Spec/IntText) says which texts int() takes: besides ASCII digits, signs, blanks, underscores between digits and the digits of other scripts."
  },
  {
   "property": "C13",
   "status": "partial",
   "theorems": [
    "Props.C13_call_timeout_partial",
    "Props.C13_default_timeout",
    "Props.C13_violation_zero",
    "Props.C13_violation_zero_all"
   ],
   "note": "false for an explicit timeout of 0, which is replaced by the client default"
  },
  {
   "property": "C14",
   "status": "proved",
   "theorems": [
    "Props.C14_remaining_time",
    "Props.C14_never_increases",
    "Props.C14_expiry"
   ],
   "note": ""
  },
  {
   "property": "C15",
   "status": "proved",
   "theorems": [
    "Props.C15_status_roundtrip",
    "Props.C15_status_injective",
    "Props.C15_other_status_unknown"
   ],
   "note": ""
  },
  {
   "property": "C16",
   "status": "proved",
   "theorems": [
    "Props.C16_grpc_error",
    "Props.C16_grpc_user_trailers"
   ],
   "note": ""
  },
  {
   "property": "C17",
   "status": "proved",
   "theorems": [
    "Props.C17_connect_unary_error"
   ],
   "note": ""
  },
  {
   "property": "C18",
   "status": "proved",
   "theorems": [
    "Props.C18_connect_stream_end"
   ],
   "note": ""
  },
  {
   "property": "C19",
   "status": "proved",
   "theorems": [
    "Props.C19_grpc_web_trailers"
   ],
   "note": ""
  },
  {
   "property": "C20",
   "status": "proved",
   "theorems": [
    "Props.C20_no_json",
    "Props.C20_error_body",
    "Props.C20_stream_error"
   ],
   "note": ""
  },
  {
   "property": "C21",
   "status": "partial",
   "theorems": [
    "Props.C21_violation_message_all",
    "Props.C21_violation_code_all",
    "Props.C21_grpc_success_not_forgeable",
    "Props.C21_grpc_failure_partial",
    "Props.C18_connect_stream_end",
    "Props.C17_connect_unary_error",
    "Props.C21_violation_message",
    "Props.C21_violation_code",
    "Props.C21_violation_grpc_web_line_break"
   ],
   "note": "holds for Connect; false for gRPC handlers that set grpc-message / grpc-status-details-bin, and for gRPC-Web values with line breaks"
  },
  {
   "property": "C22",
   "status": "proved",
   "theorems": [
    "Props.C22_quote_safe_and_reversible",
    "Props.C22_no_line_breaks"
   ],
   "note": ""
  },
  {
   "property": "C23",
   "status": "proved",
   "theorems": [
    "Props.C23_unpadded_base64",
    "Props.C23_urlsafe_base64"
   ],
   "note": ""
  },
  {
   "property": "C24",
   "status": "proved",
   "theorems": [
    "Props.C24_first_supported",
    "Props.C24_every_header"
   ],
   "note": ""
  },
  {
   "property": "C25",
   "status": "proved",
   "theorems": [
    "Props.C25_client_resolves"
   ],
   "note": ""
  },
  {
   "property": "C27",
   "status": "partial",
   "theorems": [
    "Props.C27_violation_codec_name_all",
    "Props.C27_content_type_decides",
    "Props.C27_client_protocol_partial",
    "Props.C27_violation_codec_name"
   ],
   "note": "false for custom codecs whose name starts with '+', '-web' ...: the client content type is then read as another protocol"
  },
  {
   "property": "C26",
   "status": "partial",
   "theorems": [
    "Props.C26_wsgi_post",
    "Props.C26_wsgi_get",
    "Props.C26_asgi_post",
    "Props.C26_asgi_get",
    "Props.C26_wsgi_stream_partial",
    "Props.C26_asgi_stream_partial",
    "Props.C26_violation_connect_stream",
    "Props.C26_violation_wsgi_connect_all",
    "Props.C26_violation_asgi_connect_all"
   ],
   "note": "holds for unary Connect, gRPC and gRPC-Web; false for Connect streams, which take an unknown compression for identity"
  },
  {
   "property": "C28",
   "status": "proved",
   "theorems": [
    "Props.C28_grpc_codec",
    "Props.C28_connect_codec",
    "Props.C28_connect_client_codec",
    "Props.C28_wsgi_unary_unsupported",
    "Props.C28_asgi_unary_unsupported",
    "Props.C28_wsgi_stream_unsupported",
    "Props.C28_asgi_stream_unsupported"
   ],
   "note": ""
  },
  {
   "property": "C29",
   "status": "proved",
   "theorems": [
    "Props.C29_wsgi_runs",
    "Props.C29_asgi_runs",
    "Props.C29_wsgi_not_allowed",
    "Props.C29_asgi_not_allowed"
   ],
   "note": ""
  },
  {
   "property": "C30",
   "status": "proved",
   "theorems": [
    "Props.C30_wsgi_target",
    "Props.C30_asgi_target",
    "Props.C30_wsgi_only_target",
    "Props.C30_asgi_only_target",
    "Props.C30_wsgi_not_found",
    "Props.C30_asgi_not_found"
   ],
   "note": ""
  },
  {
   "property": "C33",
   "status": "proved",
   "theorems": [
    "Props.C33_client_single_message",
    "Props.C33_client_unary_single_message",
    "Props.C33_wsgi_single",
    "Props.C33_wsgi_refused",
    "Props.C33_asgi_single",
    "Props.C33_asgi_refused"
   ],
   "note": ""
  },
  {
   "property": "C34",
   "status": "proved",
   "theorems": [
    "Props.C34_wsgi_accepted",
    "Props.C34_wsgi_rejected",
    "Props.C34_asgi_accepted",
    "Props.C34_asgi_rejected"
   ],
   "note": ""
  },
  {
   "property": "C37",
   "status": "proved",
   "theorems": [
    "Props.C37_wsgi_fragmentation",
    "Props.C37_wsgi_truncated",
    "Props.C37_wsgi_cut",
    "Props.C37_asgi_fragmentation",
    "Props.C37_asgi_disconnect"
   ],
   "note": ""
  },
  {
   "property": "C38",
   "status": "partial",
   "theorems": [
    "Props.C38_wsgi_post_decompress_partial",
    "Props.C38_wsgi_post_decode_partial",
    "Props.C38_wsgi_get_base64_partial",
    "Props.C38_wsgi_get_missing_partial",
    "Props.C38_wsgi_get_decode_partial",
    "Props.C38_asgi_get_base64_partial",
    "Props.C38_asgi_get_missing_partial",
    "Props.C38_violation_asgi_decode",
    "Props.C38_violation_wsgi_get_decompress",
    "Props.C38_wsgi_get_decompress_internal",
    "Props.C38_violation_asgi_post_decompress",
    "Props.C38_violation_asgi_post_decode",
    "Props.C38_violation_asgi_get_decompress",
    "Props.C38_violation_asgi_get_decode"
   ],
   "note": "false for ASGI bodies that cannot be decoded (UNKNOWN, 500) and for WSGI GET messages that cannot be decompressed (INTERNAL)"
  },
  {
   "property": "C44",
   "status": "proved",
   "theorems": [
    "Props.C44_unary_result",
    "Props.C44_unary_success",
    "Props.C44_unary_failures"
   ],
   "note": ""
  },
  {
   "property": "C45",
   "status": "partial",
   "theorems": [
    "Props.C45_stream_errors_partial",
    "Props.C45_violation_reset_details"
   ],
   "note": "false for a reset gRPC stream whose trailers hold malformed status details"
  },
  {
   "property": "C46",
   "status": "partial",
   "theorems": [
    "Props.C46_missing_status_partial",
    "Props.C46_cut_response",
    "Props.C46_violation_connect",
    "Props.C46_violation_connect_all"
   ],
   "note": "holds for gRPC and gRPC-Web, false for Connect"
  },
  {
   "property": "C50",
   "status": "partial",
   "theorems": [
    "Props.C50_violation_close_has_no_effect"
   ],
   "note": "false of the code: close() has no effect"
  },
  {
   "property": "C51",
   "status": "proved",
   "theorems": [
    "Props.C51_reset_code",
    "Props.C51_reset_trailers_message"
   ],
   "note": "streaming calls and gRPC unary calls; a Connect unary call has no reset mapping"
  },
  {
   "property": "C52",
   "status": "proved",
   "theorems": [
    "Props.C52_fixed_headers",
    "Props.C52_other_headers"
   ],
   "note": ""
  },
  {
   "property": "C55",
   "status": "partial",
   "theorems": [
    "Props.C55_violation_ipv6_all",
    "Props.C55_violation_url_path_all",
    "Props.C55_server_side_partial",
    "Props.C55_client_side_partial",
    "Props.C55_wsgi_partial",
    "Props.C55_asgi_partial",
    "Props.C55_client_partial",
    "Props.C55_violation_ipv6_host",
    "Props.C55_violation_url_path",
    "Props.C55_violation_context"
   ],
   "note": "holds for plain host[:port], on every context that handlers and interceptors get; false for IPv6 hosts without port and URLs with a path"
  },
  {
   "property": "C60",
   "status": "proved",
   "theorems": [
    "Props.C60_wsgi_headers",
    "Props.C60_asgi_headers"
   ],
   "note": ""
  },
  {
   "property": "C31",
   "status": "proved",
   "theorems": [
    "Props.C31_asgi_stream"
   ],
   "note": "complete unless a send fails or a Connect/gRPC-Web end marker exceeds 4 GiB"
  },
  {
   "property": "C32",
   "status": "partial",
   "theorems": [
    "Props.C32_wsgi_stream_partial",
    "Props.C32_wsgi_plain",
    "Props.C32_violation_end"
   ],
   "note": "Proved unless a Connect or gRPC-Web end marker is 4 GiB or longer. False there: struct.pack fails and, if no message has been sent, start_response is called again (C32_violation_end; an error message of 2^32 characters does it)."
  },
  {
   "property": "C35",
   "status": "partial",
   "theorems": [
    "Props.C35_wsgi",
    "Props.C35_asgi_partial",
    "Props.C35_violation_cancelled",
    "Props.C35_violation_cancelled_all"
   ],
   "note": "holds on WSGI; false on ASGI for handlers that end with CancelledError: the end marker reports success"
  },
  {
   "property": "C36",
   "status": "partial",
   "theorems": [
    "Props.C36_asgi_bounded",
    "Props.C36_asgi_canceled_partial",
    "Props.C36_violation_no_message",
    "Props.C36_violation_unnoticed_all"
   ],
   "note": "no further message is ever sent; the CANCELED outcome only holds if the handler produces another message"
  },
  {
   "property": "C61",
   "status": "partial",
   "theorems": [
    "Props.C61_violation",
    "Props.C61_violation_wsgi_all",
    "Props.C61_violation_asgi_all"
   ],
   "note": "false of the code: the reader drops an incomplete envelope at the end of the body"
  },
  {
   "property": "C62",
   "status": "partial",
   "theorems": [
    "Props.C62_asgi_plain_partial",
    "Props.C62_violation_second_start",
    "Props.C62_violation_second_start_all"
   ],
   "note": "false if the body event cannot be sent: the error handler sends a second start"
  },
  {
   "property": "C63",
   "status": "proved",
   "theorems": [
    "Props.C63_wsgi",
    "Props.C63_asgi"
   ],
   "note": ""
  },
  {
   "property": "C64",
   "status": "proved",
   "theorems": [
    "Props.C64_app",
    "Props.C64_client"
   ],
   "note": ""
  },
  {
   "property": "C40",
   "status": "partial",
   "theorems": [
    "Props.C40_wsgi_partial",
    "Props.C40_asgi_partial",
    "Props.C40_asgi_iterator",
    "Props.C40_violation_iterator"
   ],
   "note": "false on ASGI for an iterator that can be iterated once: only the first endpoint gets the interceptors"
  },
  {
   "property": "C41",
   "status": "partial",
   "theorems": [
    "Props.C41_client_partial",
    "Props.C40_wsgi_partial",
    "Props.C40_asgi_partial",
    "Props.C41_violation_both"
   ],
   "note": "false of objects that have both metadata callbacks and intercept methods: the methods are never called"
  },
  {
   "property": "C42",
   "status": "partial",
   "theorems": [
    "Props.C42_unary_partial",
    "Props.C42_client_stream_partial",
    "Props.C43_sync_server_stream_partial",
    "Props.C43_sync_bidi_partial",
    "Props.C42_async_stream_partial",
    "Props.C42_paired",
    "Props.C42_transparent",
    "Props.C42_violation_cancelled",
    "Props.C42_violation_not_exception"
   ],
   "note": "false of exceptions that are not instances of Exception (cancellation): reported to the interceptors as success"
  },
  {
   "property": "C43",
   "status": "partial",
   "theorems": [
    "Props.C43_sync_server_stream_partial",
    "Props.C43_sync_bidi_partial",
    "Props.C43_async_partial",
    "Props.C43_untouched",
    "Props.C43_violation_order"
   ],
   "note": "async: exactly one end, but on early close the order is wrong"
  },
  {
   "property": "C39",
   "status": "partial",
   "theorems": [
    "Props.C39_lawful_partial",
    "Props.C39_life",
    "Props.C39_plain",
    "Props.C39_violation_no_endpoints",
    "Props.C39_violation_no_endpoints_all"
   ],
   "note": "false of a generator service without endpoints: its requests are refused after startup too"
  },
  {
   "property": "C53",
   "status": "proved",
   "theorems": [
    "Props.C53_inside",
    "Props.C53_once",
    "Props.C53_exit",
    "Props.C53_no_assertion",
    "Props.C53_fires",
    "Props.C53_usage",
    "Props.C53_delay"
   ],
   "note": ""
  },
  {
   "property": "C49",
   "status": "partial",
   "theorems": [
    "Props.C49_innermost_partial",
    "Props.C49_recorded_partial",
    "Props.C49_restored_partial",
    "Props.C49_violation_reentered"
   ],
   "note": "false of an object entered again while a block of it is open: it stays active after both blocks are left"
  },
  {
   "property": "C47",
   "status": "proved",
   "theorems": [
    "Props.C47_get_query",
    "Props.C47_unambiguous",
    "Props.C63_wsgi",
    "Props.C63_asgi"
   ],
   "note": "C63 for GET requests: both servers hand the message that Param and MessageParam describe to the handler"
  },
  {
   "property": "C48",
   "status": "partial",
   "theorems": [
    "Props.C48_metadata_partial",
    "Props.C58_connect_wsgi_partial",
    "Props.C58_connect_asgi_partial",
    "Props.C48_violation_stale_trailers",
    "Props.C48_violation_stale_trailers_all"
   ],
   "note": "false of a metadata object used for a second call: it keeps the trailers of the first when the second has none"
  },
  {
   "property": "C58",
   "status": "partial",
   "theorems": [
    "Props.C58_connect_wsgi_partial",
    "Props.C58_connect_asgi_partial",
    "Props.C58_grpc_wsgi_partial",
    "Props.C58_grpc_asgi_partial",
    "Props.C58_configured",
    "Props.C59_configured",
    "Props.C58_violation_long_timeout",
    "Props.C58_violation_long_timeout_all"
   ],
   "note": "all protocols, Connect by POST and GET; false for timeouts of more than ten digits, which the server rejects"
  },
  {
   "property": "C59",
   "status": "partial",
   "theorems": [
    "Props.C59_violation_long_timeout_all",
    "Props.C59_server_stream_wsgi_partial",
    "Props.C59_server_stream_asgi_partial",
    "Props.C59_client_stream_wsgi_partial",
    "Props.C59_client_stream_asgi_partial",
    "Props.C59_bidi_wsgi_partial",
    "Props.C59_bidi_asgi_partial",
    "Props.C59_configured",
    "Props.C59_violation_long_timeout"
   ],
   "note": "all protocols and kinds; the HTTP client takes the whole request before it answers; false for Connect timeouts of more than ten digits"
  },
  {
   "property": "C65",
   "status": "proved",
   "theorems": [
    "Props.C65_request_body",
    "Props.C65_unary_body",
    "Props.C65_no_silent_truncation",
    "Props.C65_determined"
   ],
   "note": "What the HTTP client does with a body whose iterator raises is not modelled."
  },
  {
   "property": "C66",
   "status": "partial",
   "theorems": [
    "Props.C13_violation_zero_all",
    "Props.C59_violation_long_timeout_all",
    "Props.C66_wsgi_partial",
    "Props.C66_asgi_partial",
    "Props.C66_violation_zero",
    "Props.C58_violation_long_timeout",
    "Props.C58_violation_long_timeout_all"
   ],
   "note": "headers: names that HTTP passes on and the protocols do not use; false for a timeout of 0 and for Connect timeouts of more than ten digits; for other kinds and protocols TheCall in C58 and C59"
  },
  {
   "property": "C54",
   "status": "partial",
   "theorems": [
    "Props.C54_snake_case",
    "Props.C54_letters",
    "Props.C54_server",
    "Props.C54_client_partial",
    "Props.C54_get",
    "Props.C54_calls",
    "Props.C54_mounted",
    "Props.C54_client_exact",
    "Props.C54_violation_same_name",
    "Props.C54_violation_same_name_all",
    "Props.C54_violation_own_name"
   ],
   "note": "C54_client_exact says for every service exactly which calls of a generated client run an RPC, and which; the claim is false when two methods of a service have the same Python name, or a method has one of the client's own names"
  },
  {
   "property": "C56",
   "status": "partial",
   "theorems": [
    "Props.C56_instrumented_partial",
    "Props.C56_exactly_one",
    "Props.C56_twice",
    "Props.C56_outermost",
    "Props.C56_violation_iterator"
   ],
   "note": "false when the interceptors are a one-shot iterator with a tracing interceptor among its items: all of them are lost"
  },
  {
   "property": "C57",
   "status": "partial",
   "theorems": [
    "Props.C57_call_partial",
    "Props.C57_stream_sync_partial",
    "Props.C57_stream_async_partial",
    "Props.C57_addresses",
    "Props.C57_violation_untraceable",
    "Props.C57_violation_host",
    "Props.C57_violation_url"
   ],
   "note": "exact: proved for calls whose addresses are address:port with any text of an integer as port, and false for all others (C57_violation_untraceable), e.g. a Host header with an IPv6 address and no port or a URL with port and path; the tracer, meter and propagator themselves are assumed not to raise"
  },
  {
   "property": "C67",
   "status": "partial",
   "theorems": [
    "Props.C67_same_trace_partial",
    "Props.C67_wsgi_partial",
    "Props.C67_asgi_partial",
    "Props.C67_kinds_wsgi_partial",
    "Props.C67_kinds_asgi_partial",
    "Props.C67_in_process",
    "Props.C67_violation_siblings"
   ],
   "note": "false between processes: the client injects the span that is current before it starts its own, so the server's span is a sibling of the client's, or the root of a new trace. Proved over the transport, for calls of all kinds by all protocols: the parent of the server's span is the span in which the call was made."
  },
  {
   "property": "C68",
   "status": "proved",
   "theorems": [
    "Props.C68_wsgi",
    "Props.C68_asgi",
    "Props.C68_client"
   ],
   "note": ""
  },
  {
   "property": "C69",
   "status": "proved",
   "theorems": [
    "Props.C69_error_body",
    "Props.C69_end_format"
   ],
   "note": ""
  },
  {
   "property": "C70",
   "status": "proved",
   "theorems": [
    "Props.C70_bidi",
    "Props.C70_server_stream",
    "Props.C70_client_stream",
    "Props.C70_unary_grpc",
    "Props.C70_unary_connect",
    "Props.C70_unary_connect_error"
   ],
   "note": ""
  },
  {
   "property": "C71",
   "status": "proved",
   "theorems": [
    "Props.C71_order",
    "Props.C71_progress",
    "Props.C71_outcome",
    "Props.C71_bounded"
   ],
   "note": "ASGI server; the connection buffers without bound and the HTTP client passes both directions independently (which HTTP/1.1 does not)"
  },
  {
   "property": "C72",
   "status": "partial",
   "theorems": [
    "Props.C72_wsgi_unary_partial",
    "Props.C72_asgi_unary_partial",
    "Props.C72_wsgi_stream",
    "Props.C72_asgi_stream",
    "Props.C72_violation_binary_query"
   ],
   "note": "false of GET requests whose message is neither text nor in base64 (violation proved): everything else is proved"
  },
  {
   "property": "C73",
   "status": "proved",
   "theorems": [
    "Props.C73_wsgi_unary",
    "Props.C73_asgi_unary",
    "Props.C73_wsgi_stream",
    "Props.C73_asgi_stream"
   ],
   "note": "for runs that leave the protocol's own header and trailer names alone; requests as in C72 (GET messages that are text or base64)"
  },
  {
   "property": "C74",
   "status": "partial",
   "theorems": [
    "Props.C74_connect_unary_partial",
    "Props.C74_grpc_unary_partial",
    "Props.C74_client_stream_partial",
    "Props.C74_server_stream_partial",
    "Props.C74_bidi_stream_partial",
    "Props.C74_violation_negative_timeout"
   ],
   "note": "false of timeouts that the notation of the protocol cannot express: by Connect, negative ones and those of more than ten digits are sent as they are (violation proved); everything else is proved"
  },
  {
   "property": "C75",
   "status": "proved",
   "theorems": [
    "Props.C75_stream",
    "Props.C75_unary_grpc",
    "Props.C75_unary_connect",
    "Props.C75_stream_status",
    "Props.C75_unary_connect_status"
   ],
   "note": ""
  },
  {
   "property": "C76",
   "status": "partial",
   "theorems": [
    "Props.C71_order",
    "Props.C71_outcome",
    "Props.C71_bounded",
    "Props.C71_progress",
    "Props.C76_progress_partial",
    "Props.C76_violation_fills",
    "Props.C76_violation_drain"
   ],
   "note": "Order and outcome are proved for every input object. That nothing is held back is proved for servers not of HTTP/1 whose input's read(size) returns what there is (C71_progress), and is false for inputs whose read(size) waits for size bytes, as that of Python's buffered files does (C76_violation_fills): the application always asks for 4096. It is false too on HTTP/1, where an error of the handler is reported only when the rest of the request has been read (C76_violation_drain). On every server less than 4096 bytes are held back, and nothing when the caller has ended the stream (C76_progress_partial)."
  },
  {
   "property": "C77",
   "status": "partial",
   "theorems": [
    "Props.C77_released",
    "Props.C77_over",
    "Props.C77_close",
    "Props.C77_whole",
    "Props.C77_prompt",
    "Props.C77_single_partial",
    "Props.C77_cancelled_between",
    "Props.C77_violation_single"
   ],
   "note": "Proved for the streams that are handed to the caller (C77_released, C77_over, C77_close, C77_whole, C77_prompt). For calls that expect one message it is proved when there is at most one (C77_single_partial), and false when the server sends several: the call raises UNIMPLEMENTED without closing the stream, so the response stays held as long as the exception's traceback lives (C77_violation_single)."
  },
  {
   "property": "C78",
   "status": "partial",
   "theorems": [
    "Props.C78_cause",
    "Props.C78_left_alone_partial",
    "Props.C78_after_end",
    "Props.C78_stream_says",
    "Props.C78_deadline",
    "Props.C78_violation_interrupted",
    "Props.C78_violation_no_deadline"
   ],
   "note": "Proved: what the stream raises and when (C78_stream_says, C78_deadline), that nothing is interrupted after its end (C78_after_end), and the only causes of interruptions (C78_cause). False for callers that await something of their own between messages: the timeout is inside the generator, so it cancels that (C78_violation_interrupted), and a caller that goes on has a stream without deadline (C78_violation_no_deadline). Proved for callers that do not (C78_left_alone_partial)."
  },
  {
   "property": "C79",
   "status": "partial",
   "theorems": [
    "Props.C79_on",
    "Props.C79_off_partial",
    "Props.C79_off_exact",
    "Props.C79_violation_late_import"
   ],
   "note": "While it is on the claim is proved for every history (iterables as in C56). While it is off it is proved for modules that had been imported each time it was switched off, and that condition is shown to be exact (C79_off_exact): import hooks are never taken back, so a module imported after auto-instrumentation was switched off is traced (C79_violation_late_import)."
  },
  {
   "property": "C80",
   "status": "partial",
   "theorems": [
    "Props.C80_held_server",
    "Props.C80_held_client",
    "Props.C80_bounded_partial",
    "Props.C80_violation_declared",
    "Props.C80_violation_declared_client"
   ],
   "note": "That only the message that is arriving is held is proved for every stream (C80_held_server, C80_held_client), and the bound n + 5 for streams whose messages declare at most n bytes (C80_bounded_partial). The bound is false of other streams: the size is compared with the limit only when the whole message has arrived, so a peer can have any number of bytes below 4 GiB held whatever the limit (C80_violation_declared, C80_violation_declared_client)."
  },
  {
   "property": "C81",
   "status": "partial",
   "theorems": [
    "Props.C81_only",
    "Props.C81_exact",
    "Props.C81_classes_partial",
    "Props.C81_violation_ending",
    "Props.C81_message_name",
    "Props.C81_message_other",
    "Props.C81_message_same"
   ],
   "note": "That the classes are there is proved for files in which no service has the name of another with one of the endings, and the exact condition is given (C81_exact). Services Foo and FooClient in one file violate it: the module has no client for Foo (C81_violation_ending). The rest is proved. The names a module imports are chosen by the protobuf library and not modelled."
  },
  {
   "property": "C82",
   "status": "partial",
   "theorems": [
    "Props.C82_asgi_partial",
    "Props.C82_trailers",
    "Props.C82_same_response",
    "Props.C82_violation_receive",
    "Props.C82_wsgi_partial",
    "Props.C82_violation_wsgi"
   ],
   "note": "ASGI: proved unless receive raises in the task that watches for disconnects: what it raised is raised again before the handler's generator is closed (C82_violation_receive). WSGI: proved if every message can be encoded; after a message that cannot be the end marker is made while the generator is suspended, and nobody closes it (C82_violation_wsgi). C82_same_response ties the finer model to the one of C31, C35 and C36; C82_wsgi_partial does so for WSGI."
  },
  {
   "property": "C83",
   "status": "partial",
   "theorems": [
    "Props.C83_stream_partial",
    "Props.C83_stream_grpc",
    "Props.C83_innermost_partial",
    "Props.C83_calls_partial",
    "Props.C83_unary_connect",
    "Props.C83_read_after_partial",
    "Props.C83_violation_metadata",
    "Props.C83_violation_metadata_all"
   ],
   "note": "Proved for gRPC and gRPC-Web, for unary calls of the Connect protocol, and for its streams whose end messages have metadata that can be recorded. Otherwise false: with {\"metadata\": 5} in the end message a stream ends outside a block and raises inside one (C83_violation_metadata). C83_calls_partial (all protocols) leaves out the calls cancelled in between, which C83_stream_partial covers."
  },
  {
   "property": "C84",
   "status": "partial",
   "theorems": [
    "Props.C84_unary",
    "Props.C84_unary_sends",
    "Props.C84_finished_partial",
    "Props.C84_handler_partial",
    "Props.C84_send_partial",
    "Props.C84_closing_partial",
    "Props.C84_sends_partial",
    "Props.C84_violation_success",
    "Props.C84_violation_watcher",
    "Props.C84_violation_reading",
    "Props.C84_violation_reading_stream"
   ],
   "note": "Proved for unary Connect requests. For streams: the handler is finished, no message follows, and the task raises when it is cancelled in the handler, in a send or in cleanup code; but the client is then told that the RPC has succeeded (C84_violation_success, for every such request). Cancelled while the watcher is stopped or while request messages are read, the task ends as the handler ends, which is told CANCELED (C84_violation_watcher, C84_violation_reading, C84_violation_reading_stream). C84_finished_partial and C84_sends_partial leave out a receive that raises in the watcher; C84_sends_partial leaves out cleanup code that raises."
  },
  {
   "property": "C85",
   "status": "partial",
   "theorems": [
    "Props.C85_call",
    "Props.C85_inside",
    "Props.C85_stream_partial",
    "Props.C85_stream_empty",
    "Props.C85_nested_partial",
    "Props.C85_violation_between",
    "Props.C85_violation_interleaved",
    "Props.C85_violation_elsewhere"
   ],
   "note": "Proved for calls with one response. Streams: read in one context, the end of a stream restores the span that was current at its first use, whatever else happened; in nested histories the current span is the innermost open one. False otherwise: between messages the stream's span is current for its reader (C85_violation_between, every stream); after two streams read in turns the span of the first stays current (C85_violation_interleaved); so does that of a stream ended in another task or thread (C85_violation_elsewhere)."
  },
  {
   "property": "C86",
   "status": "partial",
   "theorems": [
    "Props.C86_view_partial",
    "Props.C86_contains_partial",
    "Props.C86_equal_exact",
    "Props.C86_equal_partial",
    "Props.C86_violation_missing",
    "Props.C86_violation_stale",
    "Props.C86_violation_contains",
    "Props.C86_violation_equal",
    "Props.C86_violation_mapping",
    "Props.C86_violation_from_headers"
   ],
   "note": "Views follow the headers when clear has not been called since, and a name had several values then or none has now. Otherwise false: a view taken before any name had several values never shows a further value (C86_violation_missing, all names and values); one used after clear shows values from before it (C86_violation_stale). Testing a line raises AttributeError whenever some name has several values (C86_violation_contains). Equality is exactly that of the first values (C86_equal_exact), which is equality of headers when no name has several (C86_equal_partial) and never notices an added value (C86_violation_equal). Headers made from a mapping with a name not in lower case differ from it (C86_violation_mapping); headers made from headers lose repeated values (C86_violation_from_headers)."
  },
  {
   "property": "C87",
   "status": "partial",
   "theorems": [
    "Props.C87_wsgi_unary",
    "Props.C87_asgi_unary",
    "Props.C87_wsgi_stream_partial",
    "Props.C87_asgi_stream_partial",
    "Props.C87_wsgi_log",
    "Props.C87_wsgi_malformed_partial",
    "Props.C87_violation_wsgi",
    "Props.C87_violation_malformed"
   ],
   "note": "Proved for unary Connect requests on both servers, for streams on ASGI (cancelled requests: C84), and for streams on WSGI up to the handler's first message; only exceptions nobody planned for are ever written to the log (C87_wsgi_log, all requests). False after the first message of every WSGI stream: the operator is told nothing (C87_violation_wsgi). A unary Connect request that does not reach its handler leaves the WSGI log empty (C87_wsgi_malformed_partial), but on ASGI a body that cannot be decoded has the codec's exception raised to the server (C87_violation_malformed)."
  },
  {
   "property": "C88",
   "status": "partial",
   "theorems": [
    "Props.C88_attempts",
    "Props.C88_plain",
    "Props.C88_again",
    "Props.C88_skipped",
    "Props.C88_time",
    "Props.C88_time_shrinks",
    "Props.C88_retry",
    "Props.C88_metadata_partial",
    "Props.C88_violation_announced",
    "Props.C88_violation_trailers"
   ],
   "note": "Proved: the attempts, their requests and outcomes, and the time each is given, for every program of the interceptors. False of what the server is told: the timeout header is written once and announces the whole timeout at every attempt (C88_violation_announced). The recorded headers and trailers are those of the last response if the attempts before left no trailers (C88_metadata_partial); otherwise trailers of both are kept (C88_violation_trailers)."
  },
  {
   "property": "C89",
   "status": "partial",
   "theorems": [
    "Props.C89_call",
    "Props.C89_no_trace",
    "Props.C89_violation_not_cancelled",
    "Props.C89_violation_goes_on",
    "Props.C89_violation_block"
   ],
   "note": "Proved for every program and schedule: how an awaited call ends, and that own timeouts leave no cancellation behind. The last sentence is false: the client turns CancelledError into a ConnectError CANCELED, so a task that awaits calls only never ends as cancelled (C89_violation_not_cancelled), code that tries again goes on (C89_violation_goes_on), and a timeout block around a call raises the ConnectError instead of TimeoutError (C89_violation_block)."
  },
  {
   "property": "C90",
   "status": "partial",
   "theorems": [
    "Props.C90_alike_partial",
    "Props.C90_configured",
    "Props.C90_violation_garbled",
    "Props.C90_violation_corrupt",
    "Props.C90_violation_empty",
    "Props.C90_violation_get_encoding",
    "Props.C90_violation_get_stream",
    "Props.C90_violation_stream_codec",
    "Props.C90_violation_garbled_all",
    "Props.C90_violation_corrupt_all",
    "Props.C90_violation_empty_all",
    "Props.C90_violation_get_encoding_all",
    "Props.C90_violation_stream_codec_all"
   ],
   "note": "Proved for all requests that are clear to both: unary POST and GET and streams of all protocols, handlers that fail, unknown paths, methods, versions, timeouts, compressions, unary codecs and messages over the limit. False of others: bodies that cannot be decoded or decompressed (400 and 500), an empty body in a compression that refuses it (400 and a call of the handler), GET with an unknown encoding (501 and 415), GET of a stream (served and 415), streams in an unknown codec (different Accept-Post); the theorems ending in _all show this for every application and request of the kind, not just for one. Excluded too: exceptions that are not Exceptions within streams (C84), generators whose closing raises, and gRPC without trailers."
  },
  {
   "property": "C91",
   "status": "partial",
   "theorems": [
    "Props.C91_calls_partial",
    "Props.C91_iteration_partial",
    "Props.C91_interceptors_partial",
    "Props.C91_violation_late",
    "Props.C91_violation_exit"
   ],
   "note": "Proved for calls that are not cancelled (the synchronous client cannot be), in time, whose HTTP response raises nothing but ConnectError or TimeoutError when it is left. False otherwise: when the deadline passes as the response ends the synchronous client raises DEADLINE_EXCEEDED where the asynchronous one returns; when reading fails and leaving the response raises, the synchronous client reports the former and the asynchronous one the latter."
  },
  {
   "property": "C92",
   "status": "partial",
   "theorems": [
    "Props.C92_round_trip",
    "Props.C92_gzip_accepts",
    "Props.C92_gzip_partial",
    "Props.C92_brotli",
    "Props.C92_wsgi_partial",
    "Props.C92_asgi_partial",
    "Props.C92_violation_zstd",
    "Props.C92_violation_gzip",
    "Props.C92_violation_wsgi",
    "Props.C92_violation_asgi",
    "Props.C92_violation_asgi_empty",
    "Props.C92_response_partial",
    "Props.C92_violation_response",
    "Props.C92_request_partial",
    "Props.C92_violation_request"
   ],
   "note": "Proved in full for brotli, and for gzip payloads of which something is left and that are not followed by another gzip member. False for zstd: stream_reader().read() returns what it could decode of a frame that was cut and ignores what follows a frame, so a handler runs on a beginning of the message, and a client delivers one (C92_violation_response); in streams, functions receive one (C92_violation_request). False for gzip payloads of which nothing is left, for two gzip payloads in a row, and on ASGI for every compression when nothing is left of the body. The compression libraries are a parameter, assumed to do what they are documented to do."
  },
  {
   "property": "C93",
   "status": "partial",
   "theorems": [
    "Props.C93_wsgi_partial",
    "Props.C93_asgi_partial",
    "Props.C93_wsgi_stream_partial",
    "Props.C93_asgi_stream_partial",
    "Props.C93_wsgi_kinds_partial",
    "Props.C93_asgi_kinds_partial",
    "Props.C93_violation_encode",
    "Props.C93_violation_stream_encode",
    "Props.C93_violation_cancelled",
    "Props.C93_violation_disconnect",
    "Props.C93_violation_refused",
    "Props.C93_violation_refused_stream"
   ],
   "note": "Proved for unary Connect methods, and for methods of every kind in the protocols that use envelopes (also when the request stream fails while the function reads it), when the handler is reached and its responses can be encoded. False otherwise: a response that cannot be encoded is told to the client as a failure and reported as a success, in unary calls and in streams; a stream that ends as CANCELED because the client disconnected, and a handler that is cancelled, are reported as successes; a request that is refused before it reaches the handler is not reported. HTTPException from a handler is outside the statement."
  },
  {
   "property": "C94",
   "status": "partial",
   "theorems": [
    "Props.C94_partial",
    "Props.C94_sent",
    "Props.C94_bare",
    "Props.C94_violation_get"
   ],
   "note": "Proved for all kinds of call and all protocols except `use_get` with gRPC and gRPC-Web. False there: the interceptors are told GET and the request is a POST. The interceptors modelled are those that change headers and pass the call on; others are the subject of C41, C42 and C88."
  },
  {
   "property": "C95",
   "status": "proved",
   "theorems": [
    "Props.C95_unary",
    "Props.C95_deadline",
    "Props.C95_streams",
    "Props.C95_streams_deadline"
   ],
   "note": "Proved for all four kinds of method and hops by Connect (POST and GET), gRPC and gRPC-Web, on WSGI and ASGI. What hops can carry is `Serves`/`Carries` (and `ServesStream`/`CarriesStream`): limits, timeouts the notation can express, legal trailers. `overWsgi_exists` and `overAsgi_exists` show that the networks assumed exist for every application. A timeout of 0 is not passed on (C13, C66)."
  },
  {
   "property": "C96",
   "status": "partial",
   "theorems": [
    "Props.C96_partial",
    "Props.C96_chain",
    "Props.C96_violation_registry",
    "Props.C96_violation_type"
   ],
   "note": "Proved for messages that are attached as they are, packed by `Any.pack`, or as ErrorDetail of these. False for an Any whose type URL has another prefix than type.googleapis.com/: `type_name` keeps the prefix, so no registry finds the type, although the message can be read by its type. False of the error where it was made (not over the network): `value(type)` returns the attached message whatever type is asked for."
  },
  {
   "property": "C97",
   "status": "partial",
   "theorems": [
    "Props.C97_partial",
    "Props.C97_refused",
    "Props.C97_same",
    "Props.C97_violation_stream",
    "Props.C97_violation_get"
   ],
   "note": "Proved for every request, if a handler that takes a stream of requests reads it to its end or raises, a GET request has no body, and a body is not longer than its Content-Length; and without any of these conditions for every request whose response does not say 200 (C97_refused). False of every client or bidirectional stream whose handler succeeds without having read its request: the body is drained after failures only. False of every answered GET request with a body. C97_same ties the model, in which the input is followed read by read, to the one of the other properties. Excluded: exceptions that are not instances of Exception, which reach the server."
  },
  {
   "property": "C98",
   "status": "partial",
   "theorems": [
    "Props.C98_wsgi_partial",
    "Props.C98_asgi_partial",
    "Props.C98_violation_wsgi_timeout",
    "Props.C98_violation_asgi_timeout"
   ],
   "note": "Proved for every request, on both servers: one call of one function, or none and an HTTP error status, an error-only stream in the request's protocol, or an exception with nothing sent (ASGI: codecs and compressions raise ordinary exceptions, and sending works). False is the last sentence: every gRPC and gRPC-Web request with a malformed grpc-timeout gets HTTP status 500 with a Connect JSON body of code UNKNOWN, no gRPC status, and an exception in the server's log or (ASGI) raised to the server. When the report of an error is too long for an envelope, WSGI starts the response a second time (see C32); the second start says it failed."
  },
  {
   "property": "C99",
   "status": "partial",
   "theorems": [
    "Props.C99_failed_end_partial",
    "Props.C99_violation_empty_error",
    "Props.C99_empty_error_fails"
   ],
   "note": "Proved for all three protocols and all ends that cannot be read or report a failure in any form (the parser of google.rpc.Status raises ordinary exceptions, and no deadline or cancellation interferes). Excluded and false: an end message by Connect whose `error` is an empty value other than null, such as {\"error\": {}}, is taken for success (C99_violation_empty_error, for all such responses)."
  },
  {
   "property": "C100",
   "status": "proved",
   "theorems": [
    "Props.C100_codecs",
    "Props.C100_defaults",
    "Props.C100_calls",
    "Props.C100_registry"
   ],
   "note": "The protobuf libraries are parameters; that they read what they write (BinaryReads, JsonReads) is a hypothesis. C100_calls derives from the defaults what C58 and C59 ask of a call, so that those apply."
  },
  {
   "property": "C101",
   "status": "proved",
   "theorems": [
    "Props.C101_streams",
    "Props.C101_connect_unary"
   ],
   "note": "For responses in the format of the client's protocol up to the bad envelope; what follows it is arbitrary. Exceptions of compressions and codecs that are timeouts or stream resets are excluded (the client would report them as such), and so are cancellations meanwhile. That such messages are reported as UNAVAILABLE is what the code does: any exception that is not a ConnectError is."
  },
  {
   "property": "C102",
   "status": "proved",
   "theorems": [
    "Props.C102_wsgi",
    "Props.C102_asgi",
    "Props.C102_wsgi_reads",
    "Props.C102_asgi_reads",
    "Props.C102_wsgi_nothing_else",
    "Props.C102_asgi_nothing_else"
   ],
   "note": "C102_wsgi and C102_asgi give the whole exchange for every function (what it does with the failure is its own matter); the _reads theorems are the case of a function that reads everything first; the _nothing_else theorems hold in all circumstances, also if nothing can be sent. ASGI: the client stays connected and the task is not cancelled (C36 and C84 are about the other cases)."
  },
  {
   "property": "C103",
   "status": "partial",
   "theorems": [
    "Props.C103_unary_partial",
    "Props.C103_client_stream_partial",
    "Props.C103_server_stream_partial",
    "Props.C103_bidi_stream_partial",
    "Props.C103_errors",
    "Props.C103_untouched",
    "Props.C103_violation_interrupted"
   ],
   "note": "Proved for calls of all kinds that return or raise an Exception. False when a BaseException such as KeyboardInterrupt interrupts the synchronous client: it is reported as a success (the asynchronous client turns cancellations into CANCELED, which is reported). Addresses that cannot be traced are C57. Streams are iterated as in C59; what closing one early raises is a parameter (see C85)."
  },
  {
   "property": "C104",
   "status": "partial",
   "theorems": [
    "Props.C104_wsgi_partial",
    "Props.C104_asgi_partial",
    "Props.C104_grpc_wsgi_partial",
    "Props.C104_grpc_asgi_partial",
    "Props.C104_stream_wsgi_partial",
    "Props.C104_stream_asgi_partial",
    "Props.C104_client_stream_wsgi_partial",
    "Props.C104_client_stream_asgi_partial",
    "Props.C104_bidi_wsgi_partial",
    "Props.C104_bidi_asgi_partial",
    "Props.C104_span_wsgi_partial",
    "Props.C104_span_asgi_partial",
    "Props.C104_grpc_span_wsgi_partial",
    "Props.C104_grpc_span_asgi_partial",
    "Props.C104_stream_span_wsgi_partial",
    "Props.C104_stream_span_asgi_partial",
    "Props.C104_client_stream_span_wsgi_partial",
    "Props.C104_client_stream_span_asgi_partial",
    "Props.C104_bidi_span_wsgi_partial",
    "Props.C104_bidi_span_asgi_partial",
    "Props.C104_violation_encode_wsgi_all",
    "Props.C104_violation_encode_asgi_all",
    "Props.C104_violation_early_wsgi_all",
    "Props.C104_violation_early_asgi_all"
   ],
   "note": "Proved for all kinds of methods, by all protocols, streams of responses being read to their end, made where no span is current (there for every propagator that then adds nothing), or within a span (the _span_ theorems: for every propagator that only adds fields). False of every response (by Connect) that cannot be encoded: the server reports a success, the client the error it was told. False also of every stream of responses that ends with an error and that the caller leaves before: the client reports a success, the server the error."
  }
 ]
}
