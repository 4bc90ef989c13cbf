#!/usr/bin/env python3
"""Writes /verif/MANIFEST.json. One entry per property: status, theorems, note."""
import json, os
C = []
def c(prop, status, theorems, note=""):
    C.append(dict(property=prop, status=status, theorems=["Props."+t if "." not in t else t for t in theorems], note=note))

c("C01", "proved", ["C01_headers_multimap", "C01_headers_from_mapping", "C01_headers_from_pairs", "C01_reachable_wellformed"])
c("C02", "proved", ["C02_copy_is_faithful", "C02_copy_is_faithful_from_pairs", "C02_call_headers"],
  "isolation is structural: model values are immutable and the copy is built by add into fresh dictionaries")
c("C03", "proved", ["C03_roundtrip_any_chunking"])
c("C04", "partial", ["C04_chunking_independent", "C04_chunking_independent_end_partial", "C04_violation_connect", "C04_violation_grpc_web", "C04_violation_all"],
  "proved for server readers and the gRPC client reader, and for end-message readers when nothing follows the end message; false otherwise")
c("C05", "partial", ["C05_stream_messages_bounded", "C05_stream_oversize_rejected", "C05_client_messages_bounded",
  "C05_client_unary_oversize", "C05_wsgi_post_oversize", "C05_asgi_post_oversize", "C05_wsgi_bounded_partial", "C05_asgi_bounded_partial",
  "C05_violation_get", "C05_violation_wsgi_get_all", "C05_violation_asgi_get_all"], "holds except for GET requests, whose message is not checked against the limit (violation)")
c("C06", "proved", ["C06_compressed_without_negotiation"])
c("C07", "proved", ["C07_messages_before_failure"])
c("C08", "proved", ["C08_write_exact"])
c("C09", "proved", ["C09_timeout_header_legal"])
c("C10", "proved", ["C10_never_lengthened"])
c("C11", "proved", ["C11_parse_exact", "C11_unknown_unit_rejected", "C11_large_value_rejected", "C11_non_numeric_rejected"])
c("C12", "proved", ["C12_connect_timeout_roundtrip", "C12_long_header_rejected", "C12_non_numeric_rejected", "C12_wsgi_refused", "C12_asgi_refused", "C12_told"],
  "IntText (Spec/IntText) says which texts int() takes: besides ASCII digits, signs, blanks, underscores between digits and the digits of other scripts.")
c("C13", "partial", ["C13_call_timeout_partial", "C13_default_timeout", "C13_violation_zero", "C13_violation_zero_all"],
  "false for an explicit timeout of 0, which is replaced by the client default")
c("C14", "proved", ["C14_remaining_time", "C14_never_increases", "C14_expiry"])
c("C15", "proved", ["C15_status_roundtrip", "C15_status_injective", "C15_other_status_unknown"])
c("C16", "proved", ["C16_grpc_error", "C16_grpc_user_trailers"])
c("C17", "proved", ["C17_connect_unary_error"])
c("C18", "proved", ["C18_connect_stream_end"])
c("C19", "proved", ["C19_grpc_web_trailers"])
c("C20", "proved", ["C20_no_json", "C20_error_body", "C20_stream_error"])
c("C21", "partial", ["C21_violation_message_all", "C21_violation_code_all", "C21_grpc_success_not_forgeable", "C21_grpc_failure_partial", "C18_connect_stream_end", "C17_connect_unary_error",
  "C21_violation_message", "C21_violation_code", "C21_violation_grpc_web_line_break"],
  "holds for Connect; false for gRPC handlers that set grpc-message / grpc-status-details-bin, and for gRPC-Web values with line breaks")
c("C22", "proved", ["C22_quote_safe_and_reversible", "C22_no_line_breaks"])
c("C23", "proved", ["C23_unpadded_base64", "C23_urlsafe_base64"])
c("C24", "proved", ["C24_first_supported", "C24_every_header"])
c("C25", "proved", ["C25_client_resolves"])
c("C27", "partial", ["C27_violation_codec_name_all", "C27_content_type_decides", "C27_client_protocol_partial", "C27_violation_codec_name"],
  "false for custom codecs whose name starts with '+', '-web' ...: the client content type is then read as another protocol")
c("C26", "partial", ["C26_wsgi_post", "C26_wsgi_get", "C26_asgi_post", "C26_asgi_get", "C26_wsgi_stream_partial",
  "C26_asgi_stream_partial", "C26_violation_connect_stream", "C26_violation_wsgi_connect_all", "C26_violation_asgi_connect_all"],
  "holds for unary Connect, gRPC and gRPC-Web; false for Connect streams, which take an unknown compression for identity")
c("C28", "proved", ["C28_grpc_codec", "C28_connect_codec", "C28_connect_client_codec", "C28_wsgi_unary_unsupported",
  "C28_asgi_unary_unsupported", "C28_wsgi_stream_unsupported", "C28_asgi_stream_unsupported"])
c("C29", "proved", ["C29_wsgi_runs", "C29_asgi_runs", "C29_wsgi_not_allowed", "C29_asgi_not_allowed"])
c("C30", "proved", ["C30_wsgi_target", "C30_asgi_target", "C30_wsgi_only_target", "C30_asgi_only_target", "C30_wsgi_not_found",
  "C30_asgi_not_found"])
c("C33", "proved", ["C33_client_single_message", "C33_client_unary_single_message", "C33_wsgi_single", "C33_wsgi_refused",
  "C33_asgi_single", "C33_asgi_refused"])
c("C34", "proved", ["C34_wsgi_accepted", "C34_wsgi_rejected", "C34_asgi_accepted", "C34_asgi_rejected"])
c("C37", "proved", ["C37_wsgi_fragmentation", "C37_wsgi_truncated", "C37_wsgi_cut", "C37_asgi_fragmentation", "C37_asgi_disconnect"])
c("C38", "partial", ["C38_wsgi_post_decompress_partial", "C38_wsgi_post_decode_partial", "C38_wsgi_get_base64_partial",
  "C38_wsgi_get_missing_partial", "C38_wsgi_get_decode_partial", "C38_asgi_get_base64_partial", "C38_asgi_get_missing_partial",
  "C38_violation_asgi_decode", "C38_violation_wsgi_get_decompress", "C38_wsgi_get_decompress_internal",
  "C38_violation_asgi_post_decompress", "C38_violation_asgi_post_decode", "C38_violation_asgi_get_decompress", "C38_violation_asgi_get_decode"],
  "false for ASGI bodies that cannot be decoded (UNKNOWN, 500) and for WSGI GET messages that cannot be decompressed (INTERNAL)")
c("C44", "proved", ["C44_unary_result", "C44_unary_success", "C44_unary_failures"])
c("C45", "partial", ["C45_stream_errors_partial", "C45_violation_reset_details"],
  "false for a reset gRPC stream whose trailers hold malformed status details")
c("C46", "partial", ["C46_missing_status_partial", "C46_cut_response", "C46_violation_connect", "C46_violation_connect_all"], "holds for gRPC and gRPC-Web, false for Connect")
c("C50", "partial", ["C50_violation_close_has_no_effect"], "false of the code: close() has no effect")
c("C51", "proved", ["C51_reset_code", "C51_reset_trailers_message"], "streaming calls and gRPC unary calls; a Connect unary call has no reset mapping")
c("C52", "proved", ["C52_fixed_headers", "C52_other_headers"])
c("C55", "partial", ["C55_violation_ipv6_all", "C55_violation_url_path_all", "C55_server_side_partial", "C55_client_side_partial", "C55_wsgi_partial", "C55_asgi_partial", "C55_client_partial",
  "C55_violation_ipv6_host", "C55_violation_url_path", "C55_violation_context"],
  "holds for plain host[:port], on every context that handlers and interceptors get; false for IPv6 hosts without port and URLs with a path")
c("C60", "proved", ["C60_wsgi_headers", "C60_asgi_headers"])
c("C31", "proved", ["C31_asgi_stream"], "complete unless a send fails or a Connect/gRPC-Web end marker exceeds 4 GiB")
c("C32", "partial", ["C32_wsgi_stream_partial", "C32_wsgi_plain", "C32_violation_end"],
  "Proved unless a Connect or gRPC-Web end marker is 4 GiB or longer. False there: struct.pack fails and, if no message has been sent, start_response is called again (C32_violation_end; an error message of 2^32 characters does it).")
c("C35", "partial", ["C35_wsgi", "C35_asgi_partial", "C35_violation_cancelled", "C35_violation_cancelled_all"],
  "holds on WSGI; false on ASGI for handlers that end with CancelledError: the end marker reports success")
c("C36", "partial", ["C36_asgi_bounded", "C36_asgi_canceled_partial", "C36_violation_no_message", "C36_violation_unnoticed_all"],
  "no further message is ever sent; the CANCELED outcome only holds if the handler produces another message")
c("C61", "partial", ["C61_violation", "C61_violation_wsgi_all", "C61_violation_asgi_all"], "false of the code: the reader drops an incomplete envelope at the end of the body")
c("C62", "partial", ["C62_asgi_plain_partial", "C62_violation_second_start", "C62_violation_second_start_all"],
  "false if the body event cannot be sent: the error handler sends a second start")
c("C63", "proved", ["C63_wsgi", "C63_asgi"], "")
c("C64", "proved", ["C64_app", "C64_client"], "")
c("C40", "partial", ["C40_wsgi_partial", "C40_asgi_partial", "C40_asgi_iterator", "C40_violation_iterator"],
  "false on ASGI for an iterator that can be iterated once: only the first endpoint gets the interceptors")
c("C41", "partial", ["C41_client_partial", "C40_wsgi_partial", "C40_asgi_partial", "C41_violation_both"],
  "false of objects that have both metadata callbacks and intercept methods: the methods are never called")
c("C42", "partial", ["C42_unary_partial", "C42_client_stream_partial", "C43_sync_server_stream_partial", "C43_sync_bidi_partial",
  "C42_async_stream_partial", "C42_paired", "C42_transparent", "C42_violation_cancelled", "C42_violation_not_exception"],
  "false of exceptions that are not instances of Exception (cancellation): reported to the interceptors as success")
c("C43", "partial", ["C43_sync_server_stream_partial", "C43_sync_bidi_partial", "C43_async_partial", "C43_untouched", "C43_violation_order"],
  "async: exactly one end, but on early close the order is wrong")
c("C39", "partial", ["C39_lawful_partial", "C39_life", "C39_plain", "C39_violation_no_endpoints", "C39_violation_no_endpoints_all"],
  "false of a generator service without endpoints: its requests are refused after startup too")

c("C53", "proved", ["C53_inside", "C53_once", "C53_exit", "C53_no_assertion", "C53_fires", "C53_usage", "C53_delay"], "")
c("C49", "partial", ["C49_innermost_partial", "C49_recorded_partial", "C49_restored_partial", "C49_violation_reentered"],
  "false of an object entered again while a block of it is open: it stays active after both blocks are left")
c("C47", "proved", ["C47_get_query", "C47_unambiguous", "C63_wsgi", "C63_asgi"],
  "C63 for GET requests: both servers hand the message that Param and MessageParam describe to the handler")
c("C48", "partial", ["C48_metadata_partial", "C58_connect_wsgi_partial", "C58_connect_asgi_partial", "C48_violation_stale_trailers", "C48_violation_stale_trailers_all"],
  "false of a metadata object used for a second call: it keeps the trailers of the first when the second has none")
c("C58", "partial", ["C58_connect_wsgi_partial", "C58_connect_asgi_partial", "C58_grpc_wsgi_partial", "C58_grpc_asgi_partial", "C58_configured", "C59_configured",
  "C58_violation_long_timeout", "C58_violation_long_timeout_all"],
  "all protocols, Connect by POST and GET; false for timeouts of more than ten digits, which the server rejects")
c("C59", "partial", ["C59_violation_long_timeout_all", "C59_server_stream_wsgi_partial", "C59_server_stream_asgi_partial", "C59_client_stream_wsgi_partial",
  "C59_client_stream_asgi_partial", "C59_bidi_wsgi_partial", "C59_bidi_asgi_partial", "C59_configured", "C59_violation_long_timeout"],
  "all protocols and kinds; the HTTP client takes the whole request before it answers; false for Connect timeouts of more than ten digits")
c("C65", "proved", ["C65_request_body", "C65_unary_body", "C65_no_silent_truncation", "C65_determined"],
  "What the HTTP client does with a body whose iterator raises is not modelled.")
c("C66", "partial", ["C13_violation_zero_all", "C59_violation_long_timeout_all", "C66_wsgi_partial", "C66_asgi_partial", "C66_violation_zero", "C58_violation_long_timeout", "C58_violation_long_timeout_all"],
  "headers: names that HTTP passes on and the protocols do not use; false for a timeout of 0 and for Connect timeouts of more than ten digits; "
  "for other kinds and protocols TheCall in C58 and C59")

c("C54", "partial", ["C54_snake_case", "C54_letters", "C54_server", "C54_client_partial", "C54_get", "C54_calls", "C54_mounted",
  "C54_client_exact", "C54_violation_same_name", "C54_violation_same_name_all", "C54_violation_own_name"],
  "C54_client_exact says for every service exactly which calls of a generated client run an RPC, and which; the claim is false when two methods of a service have the same Python name, or a method has one of the client's own names")

c("C56", "partial", ["C56_instrumented_partial", "C56_exactly_one", "C56_twice", "C56_outermost", "C56_violation_iterator"],
  "false when the interceptors are a one-shot iterator with a tracing interceptor among its items: all of them are lost")
c("C57", "partial", ["C57_call_partial", "C57_stream_sync_partial", "C57_stream_async_partial", "C57_addresses", "C57_violation_untraceable", "C57_violation_host", "C57_violation_url"],
  "exact: proved for calls whose addresses are address:port with any text of an integer as port, and false for all others (C57_violation_untraceable), e.g. a Host header with an IPv6 address and no port or a URL with port and path; the tracer, meter and propagator themselves are assumed not to raise")
c("C67", "partial", ["C67_same_trace_partial", "C67_wsgi_partial", "C67_asgi_partial", "C67_kinds_wsgi_partial", "C67_kinds_asgi_partial", "C67_in_process", "C67_violation_siblings"],
  "false between processes: the client injects the span that is current before it starts its own, so the server's span is a sibling of the client's, or the root of a new trace. Proved over the transport, for calls of all kinds by all protocols: the parent of the server's span is the span in which the call was made.")

c("C68", "proved", ["C68_wsgi", "C68_asgi", "C68_client"])

c("C69", "proved", ["C69_error_body", "C69_end_format"])
c("C70", "proved", ["C70_bidi", "C70_server_stream", "C70_client_stream", "C70_unary_grpc", "C70_unary_connect", "C70_unary_connect_error"])

c("C71", "proved", ["C71_order", "C71_progress", "C71_outcome", "C71_bounded"],
  "ASGI server; the connection buffers without bound and the HTTP client passes both directions independently (which HTTP/1.1 does not)")

c("C72", "partial", ["C72_wsgi_unary_partial", "C72_asgi_unary_partial", "C72_wsgi_stream", "C72_asgi_stream", "C72_violation_binary_query"],
  "false of GET requests whose message is neither text nor in base64 (violation proved): everything else is proved")

c("C73", "proved", ["C73_wsgi_unary", "C73_asgi_unary", "C73_wsgi_stream", "C73_asgi_stream"],
  "for runs that leave the protocol's own header and trailer names alone; requests as in C72 (GET messages that are text or base64)")

c("C74", "partial", ["C74_connect_unary_partial", "C74_grpc_unary_partial", "C74_client_stream_partial", "C74_server_stream_partial", "C74_bidi_stream_partial", "C74_violation_negative_timeout"],
  "false of timeouts that the notation of the protocol cannot express: by Connect, negative ones and those of more than ten digits are sent as they are (violation proved); everything else is proved")

c("C75", "proved", ["C75_stream", "C75_unary_grpc", "C75_unary_connect", "C75_stream_status", "C75_unary_connect_status"])

c("C76", "partial", ["C71_order", "C71_outcome", "C71_bounded", "C71_progress", "C76_progress_partial", "C76_violation_fills", "C76_violation_drain"],
  "Order and outcome are proved for every input object. That nothing is held back is proved for servers not of HTTP/1 whose input's read(size) returns what there is (C71_progress), and is false for inputs whose read(size) waits for size bytes, as that of Python's buffered files does (C76_violation_fills): the application always asks for 4096. It is false too on HTTP/1, where an error of the handler is reported only when the rest of the request has been read (C76_violation_drain). On every server less than 4096 bytes are held back, and nothing when the caller has ended the stream (C76_progress_partial).")

c("C77", "partial", ["C77_released", "C77_over", "C77_close", "C77_whole", "C77_prompt", "C77_single_partial", "C77_cancelled_between", "C77_violation_single"],
  "Proved for the streams that are handed to the caller (C77_released, C77_over, C77_close, C77_whole, C77_prompt). For calls that expect one message it is proved when there is at most one (C77_single_partial), and false when the server sends several: the call raises UNIMPLEMENTED without closing the stream, so the response stays held as long as the exception's traceback lives (C77_violation_single).")

c("C78", "partial", ["C78_cause", "C78_left_alone_partial", "C78_after_end", "C78_stream_says", "C78_deadline", "C78_violation_interrupted", "C78_violation_no_deadline"],
  "Proved: what the stream raises and when (C78_stream_says, C78_deadline), that nothing is interrupted after its end (C78_after_end), and the only causes of interruptions (C78_cause). False for callers that await something of their own between messages: the timeout is inside the generator, so it cancels that (C78_violation_interrupted), and a caller that goes on has a stream without deadline (C78_violation_no_deadline). Proved for callers that do not (C78_left_alone_partial).")

c("C79", "partial", ["C79_on", "C79_off_partial", "C79_off_exact", "C79_violation_late_import"],
  "While it is on the claim is proved for every history (iterables as in C56). While it is off it is proved for modules that had been imported each time it was switched off, and that condition is shown to be exact (C79_off_exact): import hooks are never taken back, so a module imported after auto-instrumentation was switched off is traced (C79_violation_late_import).")

c("C80", "partial", ["C80_held_server", "C80_held_client", "C80_bounded_partial", "C80_violation_declared", "C80_violation_declared_client"],
  "That only the message that is arriving is held is proved for every stream (C80_held_server, C80_held_client), and the bound n + 5 for streams whose messages declare at most n bytes (C80_bounded_partial). The bound is false of other streams: the size is compared with the limit only when the whole message has arrived, so a peer can have any number of bytes below 4 GiB held whatever the limit (C80_violation_declared, C80_violation_declared_client).")

c("C81", "partial", ["C81_only", "C81_exact", "C81_classes_partial", "C81_violation_ending", "C81_message_name", "C81_message_other", "C81_message_same"],
  "That the classes are there is proved for files in which no service has the name of another with one of the endings, and the exact condition is given (C81_exact). Services Foo and FooClient in one file violate it: the module has no client for Foo (C81_violation_ending). The rest is proved. The names a module imports are chosen by the protobuf library and not modelled.")

c("C82", "partial", ["C82_asgi_partial", "C82_trailers", "C82_same_response", "C82_violation_receive", "C82_wsgi_partial", "C82_violation_wsgi"],
  "ASGI: proved unless receive raises in the task that watches for disconnects: what it raised is raised again before the handler's generator is closed (C82_violation_receive). WSGI: proved if every message can be encoded; after a message that cannot be the end marker is made while the generator is suspended, and nobody closes it (C82_violation_wsgi). C82_same_response ties the finer model to the one of C31, C35 and C36; C82_wsgi_partial does so for WSGI.")

c("C83", "partial", ["C83_stream_partial", "C83_stream_grpc", "C83_innermost_partial", "C83_calls_partial", "C83_unary_connect", "C83_read_after_partial", "C83_violation_metadata", "C83_violation_metadata_all"],
  "Proved for gRPC and gRPC-Web, for unary calls of the Connect protocol, and for its streams whose end messages have metadata that can be recorded. Otherwise false: with {\"metadata\": 5} in the end message a stream ends outside a block and raises inside one (C83_violation_metadata). C83_calls_partial (all protocols) leaves out the calls cancelled in between, which C83_stream_partial covers.")

c("C84", "partial", ["C84_unary", "C84_unary_sends", "C84_finished_partial", "C84_handler_partial", "C84_send_partial", "C84_closing_partial", "C84_sends_partial", "C84_violation_success", "C84_violation_watcher", "C84_violation_reading", "C84_violation_reading_stream"],
  "Proved for unary Connect requests. For streams: the handler is finished, no message follows, and the task raises when it is cancelled in the handler, in a send or in cleanup code; but the client is then told that the RPC has succeeded (C84_violation_success, for every such request). Cancelled while the watcher is stopped or while request messages are read, the task ends as the handler ends, which is told CANCELED (C84_violation_watcher, C84_violation_reading, C84_violation_reading_stream). C84_finished_partial and C84_sends_partial leave out a receive that raises in the watcher; C84_sends_partial leaves out cleanup code that raises.")

c("C85", "partial", ["C85_call", "C85_inside", "C85_stream_partial", "C85_stream_empty", "C85_nested_partial", "C85_violation_between", "C85_violation_interleaved", "C85_violation_elsewhere"],
  "Proved for calls with one response. Streams: read in one context, the end of a stream restores the span that was current at its first use, whatever else happened; in nested histories the current span is the innermost open one. False otherwise: between messages the stream's span is current for its reader (C85_violation_between, every stream); after two streams read in turns the span of the first stays current (C85_violation_interleaved); so does that of a stream ended in another task or thread (C85_violation_elsewhere).")

c("C86", "partial", ["C86_view_partial", "C86_contains_partial", "C86_equal_exact", "C86_equal_partial", "C86_violation_missing", "C86_violation_stale", "C86_violation_contains", "C86_violation_equal", "C86_violation_mapping", "C86_violation_from_headers"],
  "Views follow the headers when clear has not been called since, and a name had several values then or none has now. Otherwise false: a view taken before any name had several values never shows a further value (C86_violation_missing, all names and values); one used after clear shows values from before it (C86_violation_stale). Testing a line raises AttributeError whenever some name has several values (C86_violation_contains). Equality is exactly that of the first values (C86_equal_exact), which is equality of headers when no name has several (C86_equal_partial) and never notices an added value (C86_violation_equal). Headers made from a mapping with a name not in lower case differ from it (C86_violation_mapping); headers made from headers lose repeated values (C86_violation_from_headers).")

c("C87", "partial", ["C87_wsgi_unary", "C87_asgi_unary", "C87_wsgi_stream_partial", "C87_asgi_stream_partial", "C87_wsgi_log", "C87_wsgi_malformed_partial", "C87_violation_wsgi", "C87_violation_malformed"],
  "Proved for unary Connect requests on both servers, for streams on ASGI (cancelled requests: C84), and for streams on WSGI up to the handler's first message; only exceptions nobody planned for are ever written to the log (C87_wsgi_log, all requests). False after the first message of every WSGI stream: the operator is told nothing (C87_violation_wsgi). A unary Connect request that does not reach its handler leaves the WSGI log empty (C87_wsgi_malformed_partial), but on ASGI a body that cannot be decoded has the codec's exception raised to the server (C87_violation_malformed).")

c("C88", "partial", ["C88_attempts", "C88_plain", "C88_again", "C88_skipped", "C88_time", "C88_time_shrinks", "C88_retry", "C88_metadata_partial", "C88_violation_announced", "C88_violation_trailers"],
  "Proved: the attempts, their requests and outcomes, and the time each is given, for every program of the interceptors. False of what the server is told: the timeout header is written once and announces the whole timeout at every attempt (C88_violation_announced). The recorded headers and trailers are those of the last response if the attempts before left no trailers (C88_metadata_partial); otherwise trailers of both are kept (C88_violation_trailers).")

c("C89", "partial", ["C89_call", "C89_no_trace", "C89_violation_not_cancelled", "C89_violation_goes_on", "C89_violation_block"],
  "Proved for every program and schedule: how an awaited call ends, and that own timeouts leave no cancellation behind. The last sentence is false: the client turns CancelledError into a ConnectError CANCELED, so a task that awaits calls only never ends as cancelled (C89_violation_not_cancelled), code that tries again goes on (C89_violation_goes_on), and a timeout block around a call raises the ConnectError instead of TimeoutError (C89_violation_block).")

c("C90", "partial", ["C90_alike_partial", "C90_configured", "C90_violation_garbled", "C90_violation_corrupt", "C90_violation_empty", "C90_violation_get_encoding", "C90_violation_get_stream",
  "C90_violation_stream_codec", "C90_violation_garbled_all", "C90_violation_corrupt_all", "C90_violation_empty_all", "C90_violation_get_encoding_all", "C90_violation_stream_codec_all"],
  "Proved for all requests that are clear to both: unary POST and GET and streams of all protocols, handlers that fail, unknown paths, methods, versions, timeouts, compressions, unary codecs and messages over the limit. False of others: bodies that cannot be decoded or decompressed (400 and 500), an empty body in a compression that refuses it (400 and a call of the handler), GET with an unknown encoding (501 and 415), GET of a stream (served and 415), streams in an unknown codec (different Accept-Post); the theorems ending in _all show this for every application and request of the kind, not just for one. Excluded too: exceptions that are not Exceptions within streams (C84), generators whose closing raises, and gRPC without trailers.")

c("C91", "partial", ["C91_calls_partial", "C91_iteration_partial", "C91_interceptors_partial", "C91_violation_late", "C91_violation_exit"],
  "Proved for calls that are not cancelled (the synchronous client cannot be), in time, whose HTTP response raises nothing but ConnectError or TimeoutError when it is left. False otherwise: when the deadline passes as the response ends the synchronous client raises DEADLINE_EXCEEDED where the asynchronous one returns; when reading fails and leaving the response raises, the synchronous client reports the former and the asynchronous one the latter.")

c("C92", "partial", ["C92_round_trip", "C92_gzip_accepts", "C92_gzip_partial", "C92_brotli", "C92_wsgi_partial", "C92_asgi_partial", "C92_violation_zstd", "C92_violation_gzip", "C92_violation_wsgi", "C92_violation_asgi", "C92_violation_asgi_empty", "C92_response_partial", "C92_violation_response", "C92_request_partial", "C92_violation_request"],
  "Proved in full for brotli, and for gzip payloads of which something is left and that are not followed by another gzip member. False for zstd: stream_reader().read() returns what it could decode of a frame that was cut and ignores what follows a frame, so a handler runs on a beginning of the message, and a client delivers one (C92_violation_response); in streams, functions receive one (C92_violation_request). False for gzip payloads of which nothing is left, for two gzip payloads in a row, and on ASGI for every compression when nothing is left of the body. The compression libraries are a parameter, assumed to do what they are documented to do.")

c("C93", "partial", ["C93_wsgi_partial", "C93_asgi_partial", "C93_wsgi_stream_partial", "C93_asgi_stream_partial", "C93_wsgi_kinds_partial", "C93_asgi_kinds_partial", "C93_violation_encode", "C93_violation_stream_encode", "C93_violation_cancelled", "C93_violation_disconnect", "C93_violation_refused", "C93_violation_refused_stream"],
  "Proved for unary Connect methods, and for methods of every kind in the protocols that use envelopes (also when the request stream fails while the function reads it), when the handler is reached and its responses can be encoded. False otherwise: a response that cannot be encoded is told to the client as a failure and reported as a success, in unary calls and in streams; a stream that ends as CANCELED because the client disconnected, and a handler that is cancelled, are reported as successes; a request that is refused before it reaches the handler is not reported. HTTPException from a handler is outside the statement.")

c("C94", "partial", ["C94_partial", "C94_sent", "C94_bare", "C94_violation_get"],
  "Proved for all kinds of call and all protocols except `use_get` with gRPC and gRPC-Web. False there: the interceptors are told GET and the request is a POST. The interceptors modelled are those that change headers and pass the call on; others are the subject of C41, C42 and C88.")

c("C95", "proved", ["C95_unary", "C95_deadline", "C95_streams", "C95_streams_deadline"],
  "Proved for all four kinds of method and hops by Connect (POST and GET), gRPC and gRPC-Web, on WSGI and ASGI. What hops can carry is `Serves`/`Carries` (and `ServesStream`/`CarriesStream`): limits, timeouts the notation can express, legal trailers. `overWsgi_exists` and `overAsgi_exists` show that the networks assumed exist for every application. A timeout of 0 is not passed on (C13, C66).")

c("C96", "partial", ["C96_partial", "C96_chain", "C96_violation_registry", "C96_violation_type"],
  "Proved for messages that are attached as they are, packed by `Any.pack`, or as ErrorDetail of these. False for an Any whose type URL has another prefix than type.googleapis.com/: `type_name` keeps the prefix, so no registry finds the type, although the message can be read by its type. False of the error where it was made (not over the network): `value(type)` returns the attached message whatever type is asked for.")

c("C97", "partial", ["C97_partial", "C97_refused", "C97_same", "C97_violation_stream", "C97_violation_get"],
  "Proved for every request, if a handler that takes a stream of requests reads it to its end or raises, a GET request has no body, and a body is not longer than its Content-Length; and without any of these conditions for every request whose response does not say 200 (C97_refused). False of every client or bidirectional stream whose handler succeeds without having read its request: the body is drained after failures only. False of every answered GET request with a body. C97_same ties the model, in which the input is followed read by read, to the one of the other properties. Excluded: exceptions that are not instances of Exception, which reach the server.")

c("C98", "partial", ["C98_wsgi_partial", "C98_asgi_partial", "C98_violation_wsgi_timeout", "C98_violation_asgi_timeout"],
  "Proved for every request, on both servers: one call of one function, or none and an HTTP error status, an error-only stream in the request's protocol, or an exception with nothing sent (ASGI: codecs and compressions raise ordinary exceptions, and sending works). False is the last sentence: every gRPC and gRPC-Web request with a malformed grpc-timeout gets HTTP status 500 with a Connect JSON body of code UNKNOWN, no gRPC status, and an exception in the server's log or (ASGI) raised to the server. When the report of an error is too long for an envelope, WSGI starts the response a second time (see C32); the second start says it failed.")

c("C99", "partial", ["C99_failed_end_partial", "C99_violation_empty_error", "C99_empty_error_fails"],
  "Proved for all three protocols and all ends that cannot be read or report a failure in any form (the parser of google.rpc.Status raises ordinary exceptions, and no deadline or cancellation interferes). Excluded and false: an end message by Connect whose `error` is an empty value other than null, such as {\"error\": {}}, is taken for success (C99_violation_empty_error, for all such responses).")

c("C100", "proved", ["C100_codecs", "C100_defaults", "C100_calls", "C100_registry"],
  "The protobuf libraries are parameters; that they read what they write (BinaryReads, JsonReads) is a hypothesis. C100_calls derives from the defaults what C58 and C59 ask of a call, so that those apply.")

c("C101", "proved", ["C101_streams", "C101_connect_unary"],
  "For responses in the format of the client's protocol up to the bad envelope; what follows it is arbitrary. Exceptions of compressions and codecs that are timeouts or stream resets are excluded (the client would report them as such), and so are cancellations meanwhile. That such messages are reported as UNAVAILABLE is what the code does: any exception that is not a ConnectError is.")

c("C102", "proved", ["C102_wsgi", "C102_asgi", "C102_wsgi_reads", "C102_asgi_reads", "C102_wsgi_nothing_else", "C102_asgi_nothing_else"],
  "C102_wsgi and C102_asgi give the whole exchange for every function (what it does with the failure is its own matter); the _reads theorems are the case of a function that reads everything first; the _nothing_else theorems hold in all circumstances, also if nothing can be sent. ASGI: the client stays connected and the task is not cancelled (C36 and C84 are about the other cases).")

c("C103", "partial", ["C103_unary_partial", "C103_client_stream_partial", "C103_server_stream_partial", "C103_bidi_stream_partial", "C103_errors", "C103_untouched", "C103_violation_interrupted"],
  "Proved for calls of all kinds that return or raise an Exception. False when a BaseException such as KeyboardInterrupt interrupts the synchronous client: it is reported as a success (the asynchronous client turns cancellations into CANCELED, which is reported). Addresses that cannot be traced are C57. Streams are iterated as in C59; what closing one early raises is a parameter (see C85).")

c("C104", "partial", ["C104_wsgi_partial", "C104_asgi_partial", "C104_grpc_wsgi_partial", "C104_grpc_asgi_partial", "C104_stream_wsgi_partial", "C104_stream_asgi_partial", "C104_client_stream_wsgi_partial", "C104_client_stream_asgi_partial", "C104_bidi_wsgi_partial", "C104_bidi_asgi_partial", "C104_span_wsgi_partial", "C104_span_asgi_partial", "C104_grpc_span_wsgi_partial", "C104_grpc_span_asgi_partial", "C104_stream_span_wsgi_partial", "C104_stream_span_asgi_partial", "C104_client_stream_span_wsgi_partial", "C104_client_stream_span_asgi_partial", "C104_bidi_span_wsgi_partial", "C104_bidi_span_asgi_partial", "C104_violation_encode_wsgi_all", "C104_violation_encode_asgi_all", "C104_violation_early_wsgi_all", "C104_violation_early_asgi_all"],
  "Proved for all kinds of methods, by all protocols, streams of responses being read to their end, made where no span is current (there for every propagator that then adds nothing), or within a span (the _span_ theorems: for every propagator that only adds fields). False of every response (by Connect) that cannot be encoded: the server reports a success, the client the error it was told. False also of every stream of responses that ends with an error and that the caller leaves before: the client reports a success, the server the error.")

out = os.path.join(os.path.dirname(__file__), "..", "MANIFEST.json")
json.dump({"claims": C}, open(out, "w"), indent=1, ensure_ascii=False)
open(out, "a").write("\n")
print(len(C))
