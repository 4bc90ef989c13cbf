#!/usr/bin/env python3
"""Writes /verif/properties.jsonl (single source for the property list)."""
import json, os
P = []
def p(title, statement, quantifier, why, anchors):
    P.append(dict(id=f"C{len(P)+1:02d}", title=title, statement=statement, quantifier=quantifier, why_tests_cant=why, anchors=anchors))

S = "src/connectrpc/"
p("Headers is a case-insensitive ordered multimap",
  "After any history of construction, `h[k]=v`, `add`, `del`, `pop`, `setdefault`, `update`, `popitem` and `clear`, a `Headers` object answers `h[k]`, `k in h`, `len`, iteration, `items`, `getall`, `allitems` and `len(allitems())` exactly as an ordered list of (lower-cased name, non-empty list of values) would; `h[k]=v` replaces every earlier value of k, `add` never drops one.",
  "every sequence of operations, every key and value, every capitalisation of the keys",
  "the two internal dictionaries can only disagree after particular interleavings of add/set/delete; unit tests run a handful of histories",
  [S+"_headers.py: Headers, _AllItemsView"])
p("Copying headers keeps every value and isolates the caller",
  "The headers a client call works on contain every name/value pair (duplicates and order included) of the `Headers` object the caller passed, and later changes made by the library to the copy cannot change the caller's object.",
  "every Headers value reachable by any history",
  "loss can depend on which keys have duplicates and on insertion order",
  [S+"_protocol_connect.py: ConnectClientProtocol.create_request_context", S+"_protocol_grpc.py: GRPCClientProtocol.create_request_context", S+"_headers.py: Headers.__init__"])
p("Enveloped messages survive any fragmentation",
  "Whatever sequence of messages is written as length-prefixed envelopes, and however the transport cuts the bytes into chunks (including empty chunks and cuts inside the 5-byte prefix), the receiver decodes exactly the same messages in the same order, compressed or not.",
  "every list of messages, every split of the byte stream into chunks, every lawful codec and compression",
  "the number of ways to cut a stream is exponential; tests use a few cuts",
  [S+"_envelope.py: EnvelopeReader.feed, EnvelopeReader._read_messages, EnvelopeWriter.write"])
p("Decoding does not depend on chunk boundaries",
  "For arbitrary received bytes (well formed or not) the decoded messages and the error, if any, depend only on the concatenation of the chunks and not on where they were cut.",
  "every byte string, every two ways of cutting it, every codec and compression (also failing ones)",
  "needs all pairs of chunkings of all byte strings, malformed ones included",
  [S+"_envelope.py: EnvelopeReader", S+"_protocol_connect.py: ConnectEnvelopeReader", S+"_protocol_grpc.py: GRPCEnvelopeReader, GRPCWebEnvelopeReader"])
p("read_max_bytes bounds every delivered message",
  "When `read_max_bytes` is set, neither a server handler nor a client caller ever receives a message whose encoded (decompressed) size exceeds it, and the offending call fails with RESOURCE_EXHAUSTED.",
  "every limit, message, compression, RPC kind, protocol, HTTP method and chunking",
  "a bypass can hide in any one of many input paths and sizes",
  [S+"_envelope.py: EnvelopeReader._read_messages", S+"_server_sync.py: ConnectWSGIApplication._handle_post_request, _handle_get_request", S+"_server_async.py: ConnectASGIApplication._read_post_request, _read_get_request", S+"_client_sync.py: _send_request_unary", S+"_client_async.py: _send_request_unary"])
p("A compressed message without negotiated compression is refused",
  "If an envelope is flagged compressed while no (or the identity) compression was negotiated, the stream fails with INTERNAL at that message; its bytes are never decoded and later messages are never delivered.",
  "every byte stream, chunking and codec",
  "must hold at every position in every stream",
  [S+"_envelope.py: EnvelopeReader._read_messages"])
p("Messages before a stream failure are delivered",
  "If the k-th envelope of a stream cannot be accepted (too large, undecodable, undecompressible, bad flag), exactly the first k-1 messages are delivered, in order, before the error is raised.",
  "every stream, every position and kind of failure, every chunking",
  "position and kind of failure multiply with chunkings",
  [S+"_envelope.py: EnvelopeReader._read_messages"])
p("Envelope prefix is exact",
  "Each written envelope is one flag byte (bit 0 set iff a non-identity compression is used, the protocol's end-of-stream bit set iff it is the end message) followed by the payload length as 4 big-endian bytes and the payload; payloads of 2^32 bytes or more are refused rather than truncated.",
  "every message, codec, compression and payload length",
  "sizes around 2^32 and all flag combinations are not testable cheaply",
  [S+"_envelope.py: EnvelopeWriter", S+"_protocol_connect.py: ConnectEnvelopeWriter.end", S+"_protocol_grpc.py: GRPCWebEnvelopeWriter.end"])
p("gRPC timeout header is always legal",
  "For every timeout in milliseconds below 3.6e14 the gRPC timeout header the client sends has at most 8 digits followed by one legal unit letter; non-positive timeouts are sent as an already expired deadline.",
  "every integer timeout in range",
  "bugs sit at the unit boundaries of a 3.6e14-value range",
  [S+"_protocol_grpc.py: _serialize_timeout"])
p("gRPC timeout is never lengthened in transit",
  "The deadline the server derives from the gRPC timeout header a client sent never exceeds the client's timeout, is exact below 1e8 ms, and otherwise is short by less than one unit (1 s, 1 min or 1 h).",
  "every integer timeout in range",
  "rounding errors appear only at particular values",
  [S+"_protocol_grpc.py: _serialize_timeout, _parse_timeout, _lookup_timeout_unit"])
p("gRPC timeout parsing is exact in milliseconds",
  "For every header made of 1-8 decimal digits and a unit in H M S m u n, the server's timeout is the exact integer number of milliseconds (rounded down), although the micro- and nanosecond units go through binary floating point; an unknown unit or a value above 99999999 is rejected.",
  "every header string of that form, and every other unit or larger value",
  "100 million values per unit and floating-point rounding",
  [S+"_protocol_grpc.py: _parse_timeout, _lookup_timeout_unit"])
p("Connect timeout header round trip",
  "Every timeout of at most 10 decimal digits a Connect client sends is read back by the server as the same number of milliseconds; a header of more than ten characters, or one that is not the text of an integer as Python's int() takes it, is rejected with INVALID_ARGUMENT by both servers, for every kind of endpoint, and the handler does not run; an empty header counts as none.",
  "every timeout value and every header string",
  "all strings and all values",
  [S+"_protocol_connect.py: ConnectServerProtocol.create_request_context, ConnectClientProtocol.create_request_context"])
p("A per-call timeout overrides the client default",
  "If a call passes `timeout_ms`, that value (and not the client's default) is the one sent to the server and enforced.",
  "every per-call value, every default",
  "a single special value can break it",
  [S+"_client_sync.py: execute_unary, execute_client_stream, execute_server_stream, execute_bidi_stream", S+"_client_async.py: same"])
p("Remaining time only decreases",
  "The remaining time reported by the request context starts at the configured timeout and decreases one-for-one with elapsed time; without timeout it is absent forever.",
  "every timeout, every non-decreasing clock history",
  "all clock histories",
  [S+"request.py: RequestContext"])
p("Error codes survive the gRPC status mapping",
  "Each of the 16 codes maps to a distinct gRPC status number and back to itself; any other status string is reported as UNKNOWN.",
  "all codes and every status string",
  "the reverse direction ranges over all strings",
  [S+"_protocol_grpc.py: _connect_status_to_grpc, _grpc_status_to_connect", S+"code.py: Code"])
p("gRPC: an error raised by the server is the error raised on the client",
  "If a server RPC over gRPC ends with an error, the client raises an error with the same code, the same message and the same details (for handlers that do not themselves set the reserved gRPC trailers, see C21); trailers the handler set arrive unchanged.",
  "every code, every message (any Unicode text), every list of details, every user trailer set",
  "arbitrary Unicode and binary content has to survive percent-encoding, base64 and protobuf",
  [S+"_protocol_grpc.py: GRPCEnvelopeWriter.end, GRPCEnvelopeReader.handle_response_complete", S+"errors.py: ConnectError"])
p("Connect unary: an error raised by the server is the error raised on the client",
  "If a unary handler over the Connect protocol raises an error with a code, message and details, the HTTP status is the one the protocol prescribes for the code and the client raises an error with the same code, message and details.",
  "every code, message and list of details, sync and async servers and clients",
  "arbitrary text/binary through JSON and base64",
  [S+"_protocol.py: ConnectWireError.to_dict, from_dict, from_response, to_http_status", S+"_server_sync.py: _handle_error", S+"_server_async.py: _handle_error", S+"_client_sync.py: _send_request_unary"])
p("Connect streaming: end-of-stream message carries error and trailers",
  "When a Connect stream ends, the client observes the server's trailers (all values, duplicates included) and, if the server failed, an error with the same code, message and details, after all messages.",
  "every list of messages, trailers, error, chunking",
  "combinations of trailers, errors and chunk cuts",
  [S+"_protocol_connect.py: ConnectEnvelopeWriter.end, ConnectEnvelopeReader.handle_end_message", S+"_response_metadata.py: handle_response_trailers"])
p("gRPC-Web: trailers in the body round trip",
  "When a gRPC-Web response ends, the client recovers from the trailer block exactly the status, message, details and user trailers the server sent, provided trailer names and values are legal HTTP field names and values and the handler does not itself set the reserved gRPC trailers (see C21).",
  "every set of legal trailers, every error, every chunking",
  "text-format round trips fail on particular byte patterns",
  [S+"_protocol_grpc.py: GRPCWebEnvelopeWriter.end, GRPCWebEnvelopeReader.handle_end_message"])
p("Unrecognised error responses map to a fixed code",
  "A failed HTTP response without a recognisable error body is reported with the code the protocol fixes for that HTTP status (UNKNOWN for statuses it does not list); an unrecognised code string is reported as UNAVAILABLE for unary and UNKNOWN for streaming calls.",
  "every status integer, every JSON body",
  "all integers, all JSON documents",
  [S+"_protocol.py: ConnectWireError.from_response, from_dict, from_http_status, _http_status_code_to_error"])
p("Handlers cannot forge the RPC status through trailers",
  "Whatever trailers a handler sets, the status, message and details the client sees are those of the RPC's real outcome.",
  "every trailer set, every outcome",
  "requires all trailer names/values",
  [S+"_protocol_grpc.py: GRPCEnvelopeWriter.end", S+"_headers.py: Headers.__setitem__"])
p("gRPC message text cannot corrupt the trailer block",
  "The header value used to carry an error message contains only printable ASCII letters, digits and `%_.-~` (no CR, LF, colon or space), and decoding it gives back the original text.",
  "every Unicode string",
  "all strings",
  [S+"_protocol_grpc.py: GRPCEnvelopeWriter.end (urllib.parse.quote), handle_response_complete (unquote)"])
p("Binary values survive unpadded base64",
  "Binary payloads sent as base64 with the padding removed (error details, gRPC status details) or in URL-safe form (GET requests) are decoded to the same bytes.",
  "every byte string",
  "all lengths modulo 3 and all byte values",
  [S+"_protocol.py: to_dict, from_dict", S+"_protocol_grpc.py: end, handle_response_complete", S+"_client_shared.py: prepare_get_params", S+"_server_sync.py: _handle_get_request", S+"_server_async.py: _read_get_request"])
p("Response compression is one the client listed, first match first",
  "The compression a server applies to a response is the first entry of the client's accept list (comma separated, surrounding blanks ignored) that the server supports; if there is none the response is sent uncompressed.",
  "every accept header string, every set of server compressions",
  "all header strings",
  [S+"_compression.py: negotiate_compression, resolve_compressions"])
p("A client never rejects the compression its server chose",
  "For every client and server compression configuration, the encoding the server announces for a response is one the client can resolve, and it resolves to an algorithm with that name.",
  "every pair of configurations",
  "all pairs of configurations",
  [S+"_compression.py: resolve_compressions, negotiate_compression", S+"_protocol_connect.py: handle_response_compression, negotiate_stream_compression", S+"_protocol_grpc.py: handle_response_compression, negotiate_stream_compression"])
p("Unknown request compression is rejected",
  "A request whose declared compression the server does not support fails with UNIMPLEMENTED and the handler does not run.",
  "every encoding name, every server configuration, every RPC kind and protocol",
  "a gap in any one path breaks it",
  [S+"_server_sync.py: _handle_post_request, _handle_get_request, _handle_stream", S+"_server_async.py: _read_post_request, _read_get_request, _handle_stream", S+"_protocol_connect.py: negotiate_stream_compression", S+"_protocol_grpc.py: negotiate_stream_compression"])
p("Content type decides the protocol, unambiguously",
  "A request is served as gRPC iff its content type is `application/grpc` or starts with `application/grpc+`, as gRPC-Web iff it is `application/grpc-web` or starts with `application/grpc-web+`, and as Connect otherwise; the request a client of each protocol sends is served with that protocol.",
  "every content-type string, every codec name",
  "all strings; prefixes overlap",
  [S+"_protocol_server.py: negotiate_server_protocol"])
p("The codec named in the content type is the codec used",
  "For every protocol and codec name, the server extracts from the content type a client sends exactly that codec's name; media-type parameters and letter case do not matter for Connect; an unsupported codec gives 415 and the handler does not run.",
  "every lower-case codec name, every parameter suffix, every set of server codecs",
  "all names and suffixes",
  [S+"_protocol_connect.py: codec_name_from_content_type, _normalize_content_type", S+"_protocol_grpc.py: codec_name_from_content_type"])
p("Only side-effect-free methods run on GET",
  "A handler is never run for a GET request unless its method is declared free of side effects and the protocol is Connect; any method other than POST (or GET where allowed) is answered 405 with the allowed methods.",
  "every HTTP method string, idempotency level, protocol, endpoint kind",
  "all method strings and combinations",
  [S+"_protocol_connect.py: ConnectServerProtocol.create_request_context", S+"_protocol_grpc.py: GRPCServerProtocol.create_request_context"])
p("Requests reach the endpoint registered for their path",
  "A request runs the handler registered under its path, or under its path relative to the mount point; any other path is answered 404 and no handler runs.",
  "every path, mount point and endpoint table",
  "all paths and mount points",
  [S+"_server_sync.py: ConnectWSGIApplication.__call__", S+"_server_async.py: ConnectASGIApplication.__call__"])
p("ASGI streaming responses follow the ASGI event protocol",
  "For every streaming (or gRPC) RPC the application emits exactly one response start, then the body events, of which exactly the last one is marked final, then exactly one trailers event iff the protocol uses trailers and nothing afterwards - whatever the handler does (any number of messages, any exception, cancellation, client disconnect at any moment). If a send fails, what was delivered is a prefix of such a sequence.",
  "every handler behaviour, every request body event sequence, every disconnect schedule, every failing send",
  "schedules and failure points are unbounded",
  [S+"_server_async.py: ConnectASGIApplication._handle_stream, _send_stream_response_headers"])
p("WSGI responses call start_response exactly once, before any body",
  "For every request the WSGI application calls start_response exactly once and before the first body chunk is produced, and a trailer-based protocol sends its trailers exactly once, after all messages; only an exception that is not an `Exception` may cut this off, and an end marker must fit the 4 GiB of an envelope.",
  "every handler behaviour, request body, fragmentation",
  "all handler behaviours",
  [S+"_server_sync.py: __call__, _handle_unary, _handle_stream, _response_stream, _handle_error, _end_response"])
p("Unary inputs and outputs are single messages",
  "A unary or server-streaming handler runs only if the request body holds exactly one message, and a unary or client-streaming client call returns only if the response holds exactly one; zero or several messages give UNIMPLEMENTED.",
  "every stream of messages and errors",
  "all stream lengths and error positions",
  [S+"_server_sync.py: _consume_single_request", S+"_server_async.py: _consume_single_request", S+"_client_sync.py: _consume_single_response", S+"_client_async.py: _consume_single_response"])
p("Rejected unary requests never run the handler",
  "For Connect unary calls, the handler runs exactly once if the request is acceptable and not at all otherwise, and every rejection produces a complete error response with the HTTP status of its code.",
  "every request (path, method, headers, body, read behaviour) and every configuration",
  "rejection paths multiply",
  [S+"_server_sync.py: __call__, _handle_unary, _handle_post_request, _handle_get_request", S+"_server_async.py: __call__, _handle_unary_connect, _read_post_request, _read_get_request"])
p("A streaming response is the handler's messages followed by its real outcome",
  "The bytes of a streaming response are the envelopes of the messages the handler produced, in order, each once, followed by exactly one end marker that reports success iff the handler completed, and otherwise its error.",
  "every handler behaviour (any number of messages, failing or being cancelled at any point)",
  "all failure points",
  [S+"_server_sync.py: _handle_stream, _response_stream", S+"_server_async.py: _handle_stream"])
p("A disconnected client stops a server stream",
  "Once a client disconnect has been noticed during a server-streaming RPC, no further message is sent and the RPC ends as CANCELED.",
  "every schedule of disconnect relative to the handler's messages",
  "all interleavings",
  [S+"_server_async.py: _handle_stream (disconnect monitor)"])
p("Request bodies are read completely or refused",
  "A unary POST body is delivered to decoding exactly as sent however the server fragments it; with a declared Content-Length a shorter body is refused with INVALID_ARGUMENT and a longer one is cut at that length; an ASGI client that disconnects mid-body gives CANCELED; the handler does not run in those cases.",
  "every body, every sequence of short reads / body events, every declared length",
  "all fragmentations",
  [S+"_server_sync.py: _read_body_with_content_length, _read_body", S+"_server_async.py: _read_body"])
p("Malformed request messages are the client's fault on both servers",
  "A unary request body (POST) or message parameter (GET) that cannot be decompressed or decoded is answered with INVALID_ARGUMENT, by the WSGI and the ASGI server alike.",
  "every malformed body, codec, compression",
  "needs all bodies on both stacks",
  [S+"_server_sync.py: _handle_post_request, _handle_get_request", S+"_server_async.py: _read_post_request, _read_get_request"])
p("Lifespan: the service is set up before and torn down after requests, once",
  "With a generator-style service, startup obtains the service exactly once before startup is reported complete, a failing startup is reported as failed, shutdown closes the generator exactly once before shutdown is reported, and requests arriving without lifespan support are refused.",
  "every sequence of lifespan messages and every generator behaviour",
  "all event sequences",
  [S+"_server_async.py: ConnectASGIApplication.__call__ (lifespan)"])
p("Every endpoint gets every interceptor",
  "All interceptors passed to a server are applied to all of its endpoints, whatever kind of iterable they are passed as.",
  "every iterable (re-iterable or one-shot), every endpoint table, sync and async",
  "depends on the iterable's behaviour and number of endpoints",
  [S+"_server_async.py: _resolve_endpoints, _apply_interceptors", S+"_server_sync.py: ConnectWSGIApplication.__init__, _apply_interceptors", S+"_interceptor_async.py: resolve_interceptors", S+"_interceptor_sync.py: resolve_interceptors"])
p("Interceptors run in list order, outermost first",
  "A call through interceptors i1..in runs i1 around i2 around ... around the RPC, using for each RPC kind exactly the interceptors that support that kind; a metadata interceptor applies to every kind.",
  "every list of interceptors, every RPC kind, servers and clients",
  "all lists",
  [S+"_server_sync.py: _apply_interceptors", S+"_server_async.py: _apply_interceptors", S+"_client_sync.py: __init__", S+"_client_async.py: __init__"])
p("Metadata interceptors: start and end are paired and transparent",
  "For every metadata interceptor whose start callback returned, the end callback is called exactly once, after the RPC finished, with the token the start callback returned and the error the RPC raised (none on success); calls are properly nested; the RPC's result or error is passed through unchanged.",
  "every list of metadata interceptors, every RPC outcome (result or exception)",
  "all nestings and failure points",
  [S+"_interceptor_sync.py: MetadataInterceptorInvokerSync", S+"_interceptor_async.py: MetadataInterceptorInvoker"])
p("Metadata interceptors end even when a stream is abandoned",
  "For streaming RPCs the end callback is called exactly once also when the consumer stops after any number of messages and closes the stream, and the messages are passed through unchanged.",
  "every stream, every number of consumed messages, nested interceptors",
  "all abandonment points",
  [S+"_interceptor_sync.py: intercept_server_stream_sync, intercept_bidi_stream_sync", S+"_interceptor_async.py: intercept_server_stream, intercept_bidi_stream"])
p("A unary call returns a message or raises ConnectError",
  "A unary Connect call either returns the decoded message of a 200 response with the expected content type, an accepted encoding and an acceptable size, or raises an error of the library's error type; a timeout is DEADLINE_EXCEEDED, transport failures are UNAVAILABLE.",
  "every HTTP response and every transport exception",
  "all responses",
  [S+"_client_sync.py: _send_request_unary", S+"_client_async.py: _send_request_unary", S+"_protocol_connect.py: validate_response"])
p("A streaming call ends normally or raises ConnectError",
  "Iterating a streaming response delivers messages and then either ends or raises an error of the library's error type - never another exception type.",
  "every response, chunking, transport failure at any point, trailers",
  "all failure points",
  [S+"_client_sync.py: _send_request_bidi_stream", S+"_client_async.py: _send_request_bidi_stream", S+"_client_shared.py: maybe_map_stream_reset"])
p("A truncated response stream is an error",
  "If the response body ends before the server's end-of-stream marker (Connect, gRPC-Web) or without a status trailer (gRPC), the client call raises an error instead of ending normally.",
  "every truncation point of every stream, every protocol",
  "all truncation points",
  [S+"_envelope.py: EnvelopeReader.handle_response_complete", S+"_protocol_grpc.py: handle_response_complete", S+"_client_sync.py: _send_request_bidi_stream", S+"_client_async.py: _send_request_bidi_stream"])
p("GET requests carry the same message as POST",
  "For every message, codec and compression, the query string a client builds for a GET call is decoded by both servers to the same encoded message, compression and codec.",
  "every encoded message (any bytes), every codec and compression name",
  "URL-encoding and base64 round trip over all bytes",
  [S+"_client_shared.py: prepare_get_params", S+"_client_sync.py: _send_request_unary", S+"_server_sync.py: _handle_get_request", S+"_server_async.py: _read_get_request"])
p("Response headers and trailers reach the caller separately",
  "For a unary Connect call, the response headers and trailers a handler sets (all values, in order) are exactly what the caller reads from the response metadata as headers (besides the protocol's own) and trailers, for header names not starting with `trailer-`.",
  "every header and trailer set",
  "all names and values",
  [S+"_response_metadata.py: handle_response_headers, ResponseMetadata", S+"_server_sync.py: _add_context_headers", S+"_server_async.py: _add_context_headers"])
p("Response metadata contexts nest",
  "Metadata of a call is recorded in the innermost active metadata context and in no other; leaving a context restores the enclosing one.",
  "every well-nested history of entering, leaving and calls",
  "all histories",
  [S+"_response_metadata.py: ResponseMetadata, handle_response_headers, handle_response_trailers"])
p("A closed client refuses calls",
  "After `close()` a client cannot be used to make requests.",
  "every call after close",
  "all call kinds and states",
  [S+"_client_sync.py: ConnectClientSync.close", S+"_client_async.py: ConnectClient.close"])
p("HTTP/2 stream resets map to fixed codes",
  "In streaming calls and in unary calls over gRPC and gRPC-Web, an HTTP/2 stream reset is reported with the code the protocol prescribes for its reset reason; a CANCEL after the deadline passed is DEADLINE_EXCEEDED, otherwise CANCELED; a status in trailers that arrived with the reset contributes its message and details but not its code.",
  "every reset reason, remaining time, trailer set",
  "all combinations",
  [S+"_client_shared.py: maybe_map_stream_reset", S+"_protocol_grpc.py: handle_response_complete"])
p("Protocol headers cannot be overridden by user headers",
  "The request a client sends carries exactly one value for each header the protocol fixes (content type, protocol version, encodings, timeout when set, te) whatever headers the user passed, and every other user header unchanged.",
  "every user header set, codec, compression, timeout, all three protocols",
  "all header sets",
  [S+"_protocol_connect.py: ConnectClientProtocol.create_request_context", S+"_protocol_grpc.py: GRPCClientProtocol.create_request_context"])
p("Timeout contexts fire at most once and never after exit",
  "The asyncio timeout used on Python 3.10 cancels the task at most once, only while active; leaving the block after it fired turns the cancellation into TimeoutError, leaving it earlier never does; no internal assertion fails.",
  "every interleaving of enter, reschedule, timer firing and exit",
  "all interleavings",
  [S+"_asyncio_timeout.py: Timeout"])
p("Generated client and server agree on the URL of each method",
  "For every service and method, the path a generated client requests is the path the generated server application registers for that method, and generated Python method names differ from the proto names only by case and inserted underscores.",
  "every service and method name, every client address",
  "all names",
  ["protoc-gen-connectrpc/protoc_gen_connectrpc/__init__.py: _method_url, _method_local_name, _pascal_to_snake_case, _supports_get", S+"_client_sync.py: url construction"])
p("server_address is host:port",
  "The server address exposed on the request context has the form `address:port`, with the scheme's default port filled in.",
  "every client URL and every Host header",
  "all URLs and Host values",
  [S+"_protocol.py: host_to_server_address, url_to_server_address", S+"request.py: RequestContext.server_address"])
p("Auto-instrumentation installs exactly one tracing interceptor, first",
  "With instrumentation enabled, every client or application constructed ends up with exactly the user's interceptors, in order, preceded by one OpenTelemetry interceptor unless the user already passed one.",
  "every list of user interceptors",
  "all lists",
  ["connectrpc-otel/connectrpc_otel/_instrumentor.py: ConnectInstrumentor._init_wrapper"])
p("Tracing never breaks a call",
  "Adding the OpenTelemetry interceptor does not change whether a call succeeds, for every server address.",
  "every server address / Host header / client address",
  "all address strings",
  ["connectrpc-otel/connectrpc_otel/_interceptor.py: on_start_sync, _start_span", S+"_protocol.py: host_to_server_address"])
p("End-to-end unary calls",
  "A unary call between a client and a server of this library (sync or async, Connect over POST or GET, gRPC or gRPC-Web) returns the message the handler returned for the very request the caller passed, or raises the error the handler raised.",
  "every request, response, error, codec, compression configuration and chunking",
  "composition of all layers over all inputs",
  [S+"_client_sync.py", S+"_client_async.py", S+"_server_sync.py", S+"_server_async.py"])
p("End-to-end streaming calls",
  "In a streaming call between a client and a server of this library the handler receives exactly the caller's messages and the caller receives exactly the handler's messages, in order, followed by the handler's outcome, for all three protocols.",
  "every message sequence in both directions, outcome, codec, compression configuration and chunking",
  "composition of all layers over all inputs",
  [S+"_client_sync.py", S+"_client_async.py", S+"_server_sync.py", S+"_server_async.py"])
p("Incoming headers are complete",
  "A handler sees every request header the application server passes in: all values and order under ASGI; under WSGI every `HTTP_*`, content-type and content-length entry under its HTTP name.",
  "every header list / environ",
  "all header lists",
  [S+"_server_async.py: _process_headers", S+"_server_sync.py: _process_headers"])
p("A truncated request stream is an error",
  "A request stream whose body ends inside an envelope is reported to the handler (and so to the client) as an error, not as the normal end of the stream.",
  "every request body that ends inside an envelope, both servers, all protocols",
  "all truncation points of all bodies",
  [S+"_server_sync.py: _request_stream", S+"_server_async.py: _request_stream", S+"_envelope.py: EnvelopeReader"])
p("ASGI responses that are not streamed follow the ASGI event protocol",
  "For every request that is not served as a stream - unary Connect RPCs, and every request refused before its RPC starts - the application emits exactly one response start and then exactly one final body event, whichever handler behaviour, request or failing send.",
  "every request, handler behaviour, failing send",
  "all interleavings of failures",
  [S+"_server_async.py: _handle_unary, _handle_error"])
p("Responses to unary requests carry what the handler did",
  "For a unary Connect request that is accepted, the handler is called exactly once, on the message of the request, and the response has status 200 and is the encoded, compressed message it returned, or is the Connect error response for the exception it raised; in both cases every response header, and every trailer under its `trailer-` name, that the handler set before it ended is in the response, in order.",
  "every application, acceptable request, handler behaviour, codec and compression",
  "all handler behaviours and requests",
  [S+"_server_sync.py: _handle_unary, _handle_error", S+"_server_async.py: _handle_unary_connect, _handle_error"])
p("Configuration is what requests are served with",
  "An application and a client use exactly the endpoints, codecs, compressions (with identity always available), timeouts and size limits they were constructed with; where two entries have one name, the later one counts.",
  "every configuration",
  "all configurations",
  [S+"_server_sync.py: ConnectWSGIApplication.__init__", S+"_server_async.py: ConnectASGIApplication.__init__", S+"_client_sync.py: ConnectClientSync.__init__", S+"_client_async.py: ConnectClient.__init__"])
p("Streamed requests are exactly the caller's messages",
  "The request body of a streaming call consists of exactly the caller's messages, encoded in order, each in its own envelope; if the caller's iterator raises, or a message cannot be encoded, the body ends with that error after the messages before it, and never looks like a shorter but complete stream.",
  "every sequence of messages, every codec and compression, every point at which the iterator fails",
  "all message sequences and failure points",
  [S+"_client_sync.py: _streaming_request_content, _send_request_bidi_stream", S+"_client_async.py: _streaming_request_content, _send_request_bidi_stream", S+"_envelope.py: EnvelopeWriter"])
p("The caller's headers and timeout reach the handler",
  "For a unary Connect call between a client and a server of this library the handler's context has every header the caller set (all values, in order; joined by commas on WSGI), and the timeout of the call or else the client's default.",
  "every header set, timeout, message, codec and compression",
  "all header sets and timeouts",
  [S+"_protocol_connect.py: ConnectClientProtocol.create_request_context, ConnectServerProtocol.create_request_context", S+"_server_sync.py: _handle_unary", S+"_server_async.py: _process_headers"])

p("Spans of a call are linked",
  "With tracing on the client and on the server, the server's span is a child of the client's span, whether or not they run in one process.",
  "every current span, propagator, call and handler",
  "all spans and calls; and tests run client and server in one process, where the current span is shared",
  ["connectrpc-otel/connectrpc_otel/_interceptor.py: _start_span, on_start_sync"])

p("The context describes the request",
  "The request context a handler is given has the RPC method registered under the path of the request, the HTTP method and the headers of the request, and the peer's address and port as `address:port` (none if the application server does not tell it); the context of a client call has the method of the call and no client address.",
  "every application, every request on both servers, every client call",
  "all requests and endpoints",
  [S+"_server_sync.py: ConnectWSGIApplication.__call__", S+"_server_async.py: ConnectASGIApplication.__call__", S+"request.py: RequestContext"])

p("Outcomes are written in the published format",
  "Whatever a handler raises and whatever trailers it sets, what the server writes is in the published format of the protocol: the JSON error object of a Connect error response; the end-of-stream envelope of a Connect stream; the status trailers of gRPC; the trailer block of gRPC-Web. Each says exactly the outcome and the trailers of the handler, so that a client of another implementation can read it.",
  "every exception, message, detail, trailer set, compression and protocol",
  "all errors and trailers; and tests of the pair of this client and this server cannot see a format both get wrong",
  [S+"errors.py: ConnectWireError.to_dict", S+"_protocol_connect.py: ConnectEnvelopeWriter.end", S+"_protocol_grpc.py: GRPCEnvelopeWriter.end, GRPCWebEnvelopeWriter.end"])

p("A client understands every conforming server",
  "If the response to a call is complete and in the published format of the protocol, in any of the ways the format allows (any envelopes and chunks, optional members and fields, letter case, padding, blanks, the status in the trailers or in the headers), then the caller gets exactly the messages, the outcome and the metadata it stands for.",
  "every client, call and response in the format",
  "all responses another implementation may send",
  [S+"_client_sync.py: ConnectClientSync", S+"_client_async.py: ConnectClient", S+"_protocol_connect.py: ConnectEnvelopeReader", S+"_protocol_grpc.py: GRPCEnvelopeReader, GRPCWebEnvelopeReader", S+"errors.py: ConnectWireError.from_response"])

p("Bidirectional streams while both sides are active",
  "With an ASGI server (C76 is about WSGI) and an HTTP client that pass the two directions of a stream independently: whatever the handler, whatever chunks are made of the traffic and in whatever order the two sides act, the handler is told the caller's messages in order, and the end only after all of them; the caller receives what the handler yields, in order; nothing is held back: when nothing can happen unless the caller acts, the handler has been told everything the caller has given and waits for more, and the caller has received everything yielded, or the response has ended; and at the end the caller has exactly what the handler has yielded, its outcome, its headers and its trailers.",
  "every protocol, handler with any internal state, schedule and division into chunks",
  "all schedules of two parties and a connection, of any length",
  [S+"_client_async.py: ConnectClient.execute_bidi_stream", S+"_server_async.py: _handle_stream, _request_stream", S+"_envelope.py: EnvelopeReader, EnvelopeWriter"])

p("A server understands every conforming client",
  "Every request in the published format of its protocol, in any of the ways the format allows (parameters of a query in any order and with any escapes, base64 with or without padding, letter case of media types and content encodings, parameters of media types, compressed and plain envelopes, timeouts in any unit), runs the handler of its method once, on exactly its messages; and the handler is told its headers and its timeout.",
  "every application, handler, request in the format, on both servers",
  "all requests another implementation may send",
  [S+"_server_sync.py: ConnectWSGIApplication", S+"_server_async.py: ConnectASGIApplication", S+"_protocol_connect.py: ConnectServerProtocol", S+"_protocol_grpc.py: GRPCServerProtocol", S+"_envelope.py: EnvelopeReader"])

p("Responses to conforming requests are in the published format",
  "The response to a request that the server understands (C72), from a client of any implementation, is in the published format of its protocol: status, content type, a compression the client has said it accepts, envelopes, and the error object, end of stream or status trailers; and it stands for exactly what the handler has produced: its messages in order, its outcome and its metadata. This is so whatever the division of the body into chunks, as long as the handler leaves the header and trailer names of the protocol alone, and, on ASGI, the client stays connected.",
  "every application, handler, request in the format, accept list, on both servers",
  "all requests another implementation may send and all runs of handlers; and tests of this client with this server cannot see a format both get wrong",
  [S+"_server_sync.py: ConnectWSGIApplication", S+"_server_async.py: ConnectASGIApplication", S+"_compression.py: negotiate_compression", S+"_protocol_connect.py: ConnectEnvelopeWriter", S+"_protocol_grpc.py: GRPCEnvelopeWriter, GRPCWebEnvelopeWriter", S+"errors.py: ConnectWireError.to_dict"])

p("Requests are in the published format",
  "Every call sends exactly one request, in the published format of its protocol, so that a server of any implementation that knows the codec and the compression can read it: method and path, content type, version, the compressions accepted, the timeout, and the message as body, as query parameters or in envelopes; and it stands for exactly the messages and the timeout the caller has given.",
  "every client, kind of call, message, header set, timeout and compression",
  "all messages and timeouts; and tests of this client with this server cannot see a format both get wrong",
  [S+"_client_sync.py: ConnectClientSync", S+"_client_async.py: ConnectClient", S+"_client_shared.py: prepare_get_params", S+"_protocol_connect.py: ConnectClientProtocol", S+"_protocol_grpc.py: GRPCClientProtocol", S+"_envelope.py: EnvelopeWriter"])

p("Responses of other servers",
  "A response that is not of the client's protocol never delivers a message. With status 200: if its content type is not one of the protocol the caller gets UNKNOWN, and if it names another codec, or the response a compression the client does not know, INTERNAL; the message names what is to blame. With another status, and no JSON object as its body (a proxy's page): the caller gets the code and the reason phrase of the status.",
  "every client, kind of call and response",
  "all responses that proxies and other services may send",
  [S+"_protocol_connect.py: ConnectClientProtocol.validate_response, validate_stream_response, handle_response_compression", S+"_protocol_grpc.py: GRPCClientProtocol", S+"_protocol.py: ConnectWireError.from_http_status", S+"_client_sync.py: ConnectClientSync", S+"_client_async.py: ConnectClient"])

p("Bidirectional streams on WSGI servers",
  "With a WSGI server that runs the application while the request is being sent, and passes on every chunk of the response before it asks for the next: as C71. The handler is told the caller's messages in order, a message that has been sent as a whole is not held back until more is sent, and the caller receives what the handler yields, then its outcome, which is not held back either until more is sent.",
  "every protocol, handler with any internal state, schedule, division into chunks, and any input object that WSGI allows",
  "all schedules of two parties and a connection, of any length; and servers whose input objects behave differently",
  [S+"_server_sync.py: _read_body, _drain_request_body, _request_stream, _response_stream, _handle_stream", S+"_client_sync.py: ConnectClientSync.execute_bidi_stream", S+"_envelope.py: EnvelopeReader, EnvelopeWriter"])

p("Streaming calls that are iterated or abandoned",
  "A streaming call does nothing until its stream is first asked for a message. Whatever the caller then does, in whatever order (ask, close, be cancelled): the request is sent at most once, no chunk of the response is read beyond the one that completes the message asked for, and the HTTP response is released, exactly once, by the time the stream ends, fails or is closed; after that the stream is empty and nothing more is done. Closing raises nothing unless the HTTP client does. Iterated to its end it gives the messages, the outcome and the metadata of the call. Calls that expect one message release the response too before they return or raise.",
  "every client, protocol, response in any division into chunks, and every sequence of uses of the stream",
  "all histories of uses of a generator, of any length, over all responses",
  [S+"_client_sync.py: ConnectClientSync._send_request_bidi_stream, _consume_single_response", S+"_client_async.py: ConnectClient._send_request_bidi_stream, _consume_single_response", S+"_envelope.py: EnvelopeReader.feed, _read_messages"])

p("The deadline of an async stream shows in the stream only",
  "A stream of the async client with a timeout raises DEADLINE_EXCEEDED when it is being waited for and the timeout has passed since it was first asked for a message, not before; it raises CANCELED only when somebody cancelled the task meanwhile. The caller's own awaits, between messages and after the stream, are not interrupted by it: they raise CancelledError only when somebody cancelled the task.",
  "every timeout, caller, and order of timer callbacks, cancellations, resumptions and passing time",
  "all schedules of an event loop, of any length",
  [S+"_client_async.py: ConnectClient._send_request_bidi_stream", S+"_asyncio_timeout.py: Timeout"])

p("Auto-instrumentation switched on and off",
  "After any sequence of calls that switch auto-instrumentation on and off, and of imports of the library's modules: every client and application that is constructed has the caller's interceptors with exactly one layer of tracing, of its kind and with the providers given when auto-instrumentation was switched on, if it is on; and exactly the caller's interceptors if it is off.",
  "every history of instrument(), uninstrument() and imports, every class, every iterable of interceptors",
  "histories of any length; the tests switch it on and off once, after the import",
  ["connectrpc-otel/connectrpc_otel/_instrumentor.py: ConnectInstrumentor._instrument, _uninstrument, _patch_client, _patch_server, _init_wrapper"])

p("What is held of a stream",
  "However long a stream is and however it is divided into chunks, reading it holds no more than the part of one message that has arrived so far: every complete message has been delivered. With read_max_bytes = n, a message that declares more than n bytes is refused when its length is known, so never more than n + 5 bytes are held.",
  "every stream of any length, in any division into chunks, for every application and client, codec, compression and limit",
  "streams and messages of any length; memory use is not observed by the tests",
  [S+"_envelope.py: EnvelopeReader.feed, _read_messages", S+"_server_sync.py: _request_stream", S+"_server_async.py: _request_stream", S+"_client_sync.py: _send_request_bidi_stream", S+"_client_async.py: _send_request_bidi_stream"])

p("Generated modules",
  "The module generated for a file has, for every service of the file, the classes of the kinds asked for under their documented names (Foo, FooASGIApplication, FooClient, FooSync, FooWSGIApplication, FooClientSync), each for that service, and no others. With protobuf=google, the message classes it refers to are those protoc makes for the messages of the methods: in the module of the message's file, by the names of the messages they are nested in.",
  "every file with any services, every option, every message, every directory",
  "all combinations of names",
  ["protoc-gen-connectrpc/protoc_gen_connectrpc/__init__.py: _generate, _generate_file, _generate_async_stubs, _generate_sync_stubs, _message_ident, _module_name"])

p("Handlers are done before the outcome is sent",
  "When the end marker of a streamed response is made, the handler's stream is over: it has ended, raised, or been closed (once) and its cleanup code has run, whatever ended the response: the handler, a disconnect, a message that cannot be encoded, a send that fails. Nothing is asked of it later, the task watching for disconnects is stopped, and trailers set by cleanup code are in the end marker.",
  "all protocols, handlers, cleanup code, messages, failures of send and points of disconnection",
  "Tests run handlers to their end; which of the ways out leaves a generator open depends on handler, codec and connection together, and a generator that is left open is closed at a time of the garbage collector's choosing.",
  [S + "_server_async.py: ConnectASGIApplication._handle_stream", S + "_server_sync.py: ConnectWSGIApplication._handle_stream, _response_stream"])

p("Metadata blocks are passive, and streams are recorded where they are read",
  "Which ResponseMetadata blocks are open, and where, changes neither the messages nor the outcome of any call. A stream may be made in one place and read in others: its headers are recorded in the innermost block open where it is first asked for a message, its trailers where its end is reached, and nothing is recorded elsewhere, nor at a use after its end; so a stream made in a block and read after it is not recorded.",
  "all protocols, clients, responses, sequences of uses of the stream (next, close, cancellation), and histories of contexts and blocks around and between the uses",
  "Tests use one block around one call; a stream handed to another thread or task, or outliving its block, meets the context variable in a different state at each resumption.",
  [S + "_response_metadata.py: handle_response_headers, handle_response_trailers, ResponseMetadata", S + "_client_sync.py: ConnectClientSync._send_request_bidi_stream", S + "_client_async.py: ConnectClient._send_request_bidi_stream"])

p("A cancelled request is not reported as a success",
  "When the task that serves a request on the ASGI server is cancelled, wherever it is suspended - reading the request, in the handler, sending, stopping the disconnect watcher, closing the handler -, the task ends by raising, no further message of the response is sent, the handler is finished before the response ends, and the client is not told that the RPC has succeeded.",
  "all requests, handlers, cleanup code, protocols, and every await at which the cancellation can arrive",
  "Cancellation can arrive at each await of every run; tests cancel at one or two of them, and mostly look at the handler rather than at what the client is told.",
  [S + "_server_async.py: ConnectASGIApplication.__call__, ConnectASGIApplication._handle_stream, ConnectASGIApplication._handle_unary_connect, _request_stream, _read_body"])

p("Tracing and the current span",
  "What a traced call does is done with its span as the current one. Tracing leaves the current span of the caller alone: when a call has ended, by returning, raising or being closed, the span that was current before it is current again, and reading a stream does not change the current span of its reader, neither between messages nor when nothing is open any more.",
  "all calls of all kinds, sync and async, all histories of calls, streams read in turns, closed or abandoned, spans of the caller, threads and tasks",
  "Tests trace one call at a time in one thread; what is current afterwards depends on the order in which overlapping streams are started and ended, and on the contexts this happens in.",
  ["connectrpc-otel/connectrpc_otel/_interceptor.py: OpenTelemetryInterceptor.on_start_sync, OpenTelemetryInterceptor.on_end_sync, OpenTelemetryInterceptor._start_span", S + "_interceptor_sync.py: MetadataInterceptorInvokerSync", S + "_interceptor_async.py: MetadataInterceptorInvoker"])

p("Views and comparisons of headers",
  "The view of all header lines that headers give out shows, whenever it is iterated, counted or tested for a line, the header lines at that time, whatever was changed since it was taken. Two header objects are equal exactly when they have the same values for the same names, and headers made from headers, or from a mapping, are equal to them.",
  "all histories of calls on headers before and after the view is taken, all pairs of histories, all names, values and mappings",
  "Tests read a view at once; whether it follows later changes depends on the histories before and after, and on which names had several values when.",
  [S + "_headers.py: Headers.allitems, Headers.clear, Headers.add, Headers.__init__, _AllItemsView"])

p("Failures nobody planned for are reported to the operator",
  "If a handler fails with an exception other than a ConnectError, or its response cannot be encoded, the operator of the server is told of that exception: on WSGI it is written to wsgi.errors, on ASGI the application raises it after the response. They are told of nothing when a handler reports a ConnectError or succeeds, or when the request is the caller's mistake.",
  "all applications, requests, handlers, protocols, and points of the response at which the handler fails",
  "Whether a failure is reported depends on where in the response the exception happens; tests assert what the caller gets and do not look at the operator's side.",
  [S + "_server_sync.py: _maybe_log_exception, ConnectWSGIApplication._handle_error, ConnectWSGIApplication._response_stream", S + "_server_async.py: ConnectASGIApplication._handle_error, ConnectASGIApplication._handle_stream"])

p("Interceptors may call on again, or not at all",
  "A unary interceptor of a client may call call_next any number of times, with the same message or another, change the request headers in between, take its time, or answer without calling on. Each time exactly one request is sent, made of the message passed and of the headers as they are then, and the interceptor gets what a call without interceptors would; without calling on nothing is sent. All attempts share the call's timeout: each is given what is left, and its request tells the server no more than that. After a call that succeeds, the caller's ResponseMetadata shows headers and trailers of the last response.",
  "all clients, lists of interceptors and programs in them, messages, timeouts, and behaviours of the network that may depend on all requests before",
  "The number of attempts, what happens between them and how long they take is up to the interceptor and the network; tests try interceptors that call on once.",
  [S + "_client_sync.py: ConnectClientSync.execute_unary, ConnectClientSync._send_request_unary", S + "_client_async.py: ConnectClient._send_request_unary", S + "request.py: RequestContext.timeout_ms", S + "_response_metadata.py: handle_response_headers, handle_response_trailers"])

p("Cancelling a task that waits for a call",
  "A task that awaits a unary call of the async client (Connect protocol) can be cancelled like any other. The call ends: with DEADLINE_EXCEEDED if only its own timeout has passed, with the cancellation if somebody else wanted it, whatever else happened at the same moment. The call's own timeout leaves no cancellation behind in the task. A cancellation has the effect asyncio promises: the task ends as cancelled unless its own code catches CancelledError, and an asyncio.timeout block around the call raises TimeoutError.",
  "all clients, programs of calls, other awaits and nested timeout blocks, and all schedules of cancellations, expiries and answers of the HTTP client",
  "Cancellations and timers may coincide at any await, any number of times and with any nesting of blocks; tests cancel once, and look at the error of the call only.",
  [S + "_client_async.py: ConnectClient._send_request_unary"])

p("Both servers answer alike",
  "An application served by WSGI and by ASGI, with the same endpoints and options, behaves in the same way: the same HTTP request leads to the same calls of endpoint functions (same path, same context, same message), to the same messages of the request stream, and to the same answer: status, header fields (but for the letter case of names), body and trailers.",
  "all applications, handlers, codecs and compressions; all requests both kinds of application servers hand on unchanged, in every division of the body into pieces",
  "Each server has its own code for headers, bodies, query parameters, codecs, compressions, errors and streams. Tests run a list of requests against both; any other request may take different paths.",
  [S + "_server_sync.py: ConnectWSGIApplication.__call__", S + "_server_async.py: ConnectASGIApplication.__call__"])

p("Both clients behave alike",
  "The synchronous and the asynchronous client, with the same options, do the same: given the same calls and the same answers of the network they return the same messages, raise the same errors and record the same metadata, whether a stream is read to its end, read in part or closed; interceptors that do the same lead to the same requests.",
  "all clients, protocols, codecs, compressions and calls; all answers of the network; all sequences of reading and closing a stream; all interceptors of unary calls",
  "The two clients are separate programs of the same size, with their own timeouts, error handling and generators. Tests run the same list of cases against both; any other response or order of uses may take different paths.",
  [S + "_client_sync.py: ConnectClientSync", S + "_client_async.py: ConnectClient"])

p("A compressed message that was cut or extended is not delivered as another message",
  "The three compressions of the library undo what they have done. A payload that has lost its end, or has something after it, is refused rather than taken for another message; a unary request with such a body does not reach its handler, and a message of a streamed response with such a payload does not reach the caller.",
  "all messages; all places at which a payload can be cut, and everything that can follow it; all applications and requests; all compression libraries that do what they are documented to do",
  "There is one place to cut for every byte of every message, and anything can follow. Tests of the compressions check the round trip of a few messages.",
  [S + "compression/gzip.py: GzipCompression", S + "compression/brotli.py: BrotliCompression", S + "compression/zstd.py: ZstdCompression", S + "_server_sync.py: _handle_post_request", S + "_server_async.py: _read_post_request"])

p("What tracing reports of a request is what was answered",
  "With the OpenTelemetry interceptor on a server, every request that is answered is reported once: one span is started and ended and one duration recorded, both with the status the client was told. The answer is the one the handler gives without tracing.",
  "all applications, requests, handlers and outcomes of handlers; unary and streamed responses; both server flavours; all propagators; all moments at which a client disconnects",
  "The interceptor sees the handler, the client sees the response; between them lies everything the server does with the result, for each kind of failure. Tests of the interceptor look at the spans of a few calls that succeed or raise in the handler.",
  ["connectrpc-otel/connectrpc_otel/_interceptor.py: OpenTelemetryInterceptor", S + "_interceptor_sync.py: MetadataInterceptorInvokerSync", S + "_interceptor_async.py: MetadataInterceptorInvoker", S + "_server_sync.py: _handle_unary, _handle_stream", S + "_server_async.py: _handle_unary, _handle_stream"])

p("What the interceptors of a client are told of a call is what is sent",
  "A client interceptor sees the method, HTTP method, headers and timeout of the call. The interceptors that take part in calls of its kind see them in the order of the list, each with the changes of those before it; and the one request that is sent has the HTTP method, the headers, the timeout and the method's URL that the last of them left.",
  "all clients, protocols, kinds of method, messages, interceptor lists and changes they make to the headers, timeouts and user headers; calls with and without use_get",
  "The order and the set of changes range over all lists of interceptors and all four kinds of call, each with its own code; tests use one or two interceptors and one kind of call and look at what the server received.",
  [S + "_client_async.py: ConnectClient.execute_unary, execute_client_stream, execute_server_stream, execute_bidi_stream", S + "_client_sync.py: ConnectClientSync", S + "_interceptor_async.py: resolve_interceptors", S + "_client_shared.py: prepare_get_params", S + "_protocol.py: create_request_context"])

p("Errors and responses pass unchanged through chains of services",
  "A service may answer a request by calling another service with a client of this library and returning, or raising, what the call does; that service may do the same, and so on. The same holds for streams: a service may pass on the messages it gets, and the messages of the answer. The first caller gets what the last service of the chain returned or raised for that request: the same response (the same messages, in order), or an error with the same code, message and details; provided every hop can carry the messages and errors (size limits, legal trailers) and its timeout can be written in the protocol's notation. If every service passes on no more than the time it was given, the last one is told a timeout no longer than that of the first call.",
  "all chains of any length, with any mix of protocols, codecs, compressions, clients and servers; all four kinds of method; all requests, responses, errors and details",
  "Each hop encodes the error anew, in one of two representations, and a service that relays an error has only what it read; that nothing is lost, however often, is a statement about all lengths and all mixes of hops. Tests have one client and one server.",
  [S + "_client_sync.py: ConnectClientSync.execute_unary", S + "_client_async.py: ConnectClient.execute_unary", S + "_protocol.py: ConnectWireError", S + "_server_sync.py: ConnectWSGIApplication", S + "_server_async.py: ConnectASGIApplication", S + "_protocol_grpc.py: GRPCServerProtocol, GRPCClientProtocol", S + "errors.py: ConnectError"])

p("The messages attached to an error can be read by the caller",
  "A handler may attach protobuf messages to an error: as they are, packed in an Any, or as ErrorDetail objects. The caller finds the details in the same order, and reads from each the message that was attached, by its type or with a registry that has the type; asked for another type, or with a registry that does not have the type, it gets None. This holds also when the error has passed through any number of services.",
  "all messages, message types, registries and lists of details; all ways to attach them; all protocols and chains of services",
  "The message is packed, sent in one of two representations, and looked up by a name computed from a type URL; that the message comes out again is a statement about all messages, names and registries. Tests attach two messages of one type.",
  [S + "errors.py: ErrorDetail, ConnectError", S + "_protocol.py: ConnectWireError.to_dict, from_dict", S + "_protocol_grpc.py: GRPCEnvelopeWriter.end, GRPCEnvelopeReader.handle_response_complete"])

p("On HTTP/1 nothing of a request is left on the connection",
  "A connection of HTTP/1 carries one request after the other, so what an application does not read of a request's body is in the way of the next request. When a WSGI application is done with a request that came by HTTP/1, it has read the body to its end: whether the request is answered or refused, for whatever reason and at whatever point, and however its handler ends.",
  "all applications, requests, divisions of the body into reads, handlers and moments at which they fail",
  "What has been read when the response is complete depends on where in the request, the framing or the handler things went wrong, and on how far a lazily read stream had got. Tests look at responses, and at one request per connection.",
  [S + "_server_sync.py: _drain_request_body, _read_body, _read_body_with_content_length, _handle_unary, _handle_stream, _response_stream, _request_stream, _consume_single_request"])

p("Every request is given to its function once, or the caller is told that it failed",
  "Whatever a server is sent, it calls at most one function of the service, and that once. If it calls none, the caller learns it: it gets an HTTP error response, or a stream in the protocol of its request that has no message and ends with an error, or no response at all because the exception went to the application server; never a response that reports success. What is wrong with a gRPC or gRPC-Web request is told in that protocol, as an error of the caller.",
  "all applications, requests (complete or not, well-formed or not), protocols and kinds of method",
  "A request can be turned down at some thirty points, each with its own way to report it, before the function is reached; that none of them looks like a success, or calls the function twice, is a statement about all of them and all requests. Tests cover a handful.",
  [S + "_server_sync.py: ConnectWSGIApplication.__call__, _handle_unary, _handle_stream, _handle_error", S + "_server_async.py: ConnectASGIApplication.__call__, _handle_unary_connect, _handle_stream, _handle_error", S + "_protocol_grpc.py: GRPCServerProtocol.create_request_context, _parse_timeout", S + "_server_shared.py"])

p("A stream is taken for a success only if its end says so",
  "When the end of a streamed response cannot be read, or reports a failure in whatever form, the caller gets the messages before it and then a ConnectError; the stream does not end normally, and a call with a single response does not return it. By Connect the end is a JSON object, and any `error` in it (other than null) is a failure. By gRPC-Web it is a block of header lines with `grpc-status` 0, and by gRPC the trailers have that status; any other status, number or not, is a failure, and so is a line that is not a field.",
  "all clients, protocols, codecs and compressions; all messages, and all bytes an end can consist of; all divisions into chunks; all kinds of call",
  "An end may be wrong in unboundedly many ways, and taking one of them for success turns a failed or truncated answer into a correct-looking one. Tests have a few malformed ends.",
  [S + "_protocol_connect.py: ConnectEnvelopeReader.handle_end_message", S + "_protocol_grpc.py: GRPCWebEnvelopeReader.handle_end_message, GRPCEnvelopeReader.handle_response_complete", S + "_client_sync.py: _send_request_bidi_stream, _consume_single_response", S + "_client_async.py: _send_request_bidi_stream", S + "_envelope.py: EnvelopeReader"])

p("Clients and servers left at their defaults understand each other",
  "A client that is not told which codec to use, or is told to use the binary or the JSON codec, and a server that is not told which codecs to offer, exchange every message of their protobuf library unchanged, by all protocols and kinds of call, with the compressions that are the default. The same holds of a client and a server that are told formats (or use google.protobuf on one side), if the server offers the one the client uses, and the two libraries read in that format what the other writes. A JSON codec made with a registry uses that registry, in both directions, and no other, unless it is empty.",
  "all message classes and protobuf libraries, messages, registries, protocols, methods and remaining settings of both sides",
  "The properties about calls suppose that both sides have the same codec; whether the configurations the library produces do is a statement about all of them and about all messages. Tests use a handful of messages and set the codec explicitly.",
  [S + "_codec.py: ProtoBinaryCodec, ProtoJSONCodec, get_default_codecs, proto_binary_codec, proto_json_codec", S + "compat/_codec.py: google_protobuf_codecs, google_protobuf_binary_codec, google_protobuf_json_codec", S + "_client_sync.py: ConnectClientSync.__init__", S + "_client_async.py: ConnectClient.__init__", S + "_server_sync.py: ConnectWSGIApplication.__init__", S + "_server_async.py: ConnectASGIApplication.__init__"])

p("A message of a response that cannot be accepted is reported where it stands",
  "When an envelope of a streamed response is compressed although the response has no compression, or cannot be decompressed, or is larger than read_max_bytes (the end of the stream included), or is not a message in the client's codec, the caller gets exactly the messages before it and then a ConnectError: INTERNAL, UNAVAILABLE with the text of the failure, RESOURCE_EXHAUSTED with the limit, or UNAVAILABLE with the text of the failure. Nothing that follows in the stream changes that. A call with a single response raises and does not return a message that came before; with several messages before, it raises UNIMPLEMENTED. A unary response by Connect that is too large or not a message raises in the same way.",
  "all clients, protocols, codecs, compressions and limits; all messages before, all bytes of the bad envelope and after it, and all divisions into chunks; all kinds of call",
  "The bad envelope can come after any number of messages, be split anywhere and be followed by anything, also by an end that says success. Tests use one message in one chunk.",
  [S + "_envelope.py: EnvelopeReader", S + "_client_sync.py: _send_request_bidi_stream, _send_request_unary, _consume_single_response", S + "_client_async.py: _send_request_bidi_stream, _send_request_unary, _consume_single_response", S + "_client_shared.py: maybe_map_stream_reset"])

p("A message of a request that cannot be accepted reaches the function where it stands",
  "When an envelope of a streamed request is compressed although the request has no compression, or cannot be decompressed, or is larger than read_max_bytes, or is not a message in the codec of the request, the function reads exactly the messages before it, and then the failure; nothing that follows in the request changes that. If it does not catch the failure, the response consists of the messages it had produced and an end that reports INTERNAL, UNKNOWN with the text of the failure, RESOURCE_EXHAUSTED with the limit, or UNKNOWN with the text of the failure. A function that takes one message is not called: with at most one message before the bad envelope that failure is the answer, with several UNIMPLEMENTED.",
  "both servers; all protocols, codecs, compressions and limits; all messages before, all bytes of the bad envelope and after it, all divisions into pieces; all functions",
  "The bad envelope can come after any number of messages, be split anywhere and be followed by anything, and the function may have produced any messages before it reads that far.",
  [S + "_envelope.py: EnvelopeReader", S + "_server_sync.py: _request_stream, _handle_stream, _consume_single_request", S + "_server_async.py: _request_stream, _handle_stream, _consume_single_request"])

p("What tracing reports of a call is what the caller got",
  "With the OpenTelemetry interceptor on a client whose address is http(s)://host or http(s)://host:port, every call is reported once: one span is started and ended and one duration recorded, both with the status the caller learns, success or the code of the error it gets. This holds of calls of every kind, whatever the server and the network do, also of calls that time out or are cancelled. A stream that the caller gives up before its end is reported as a success, or with the error that closing it raises. Apart from the header of the propagator, the call is the one that is made without tracing: the same request, messages, errors and metadata.",
  "all clients (synchronous and asynchronous), protocols, calls, answers of the network, deadlines and cancellations, numbers of messages read, current spans and propagators",
  "The status of a call is settled at different places: by the response, by its end, by a failure of the network, by a deadline or a cancellation, or by the caller that stops reading; tests cover a few of them.",
  ["connectrpc-otel/connectrpc_otel/_interceptor.py: OpenTelemetryInterceptor", S + "_interceptor_sync.py: MetadataInterceptorInvokerSync", S + "_interceptor_async.py: MetadataInterceptorInvoker", S + "_client_sync.py: ConnectClientSync", S + "_client_async.py: ConnectClient"])

p("The two sides of a traced call report the same status",
  "When the client and the server of a call both have the OpenTelemetry interceptor, the call goes as it does without: the function gets the message, the caller gets what it returned or its error. The span and the duration on the client and those on the server report the same status, which is the one the caller learns.",
  "all kinds of methods, protocols, clients, servers, codecs, compressions, functions, responses and errors",
  "The two interceptors see different things: one the exception the function raised, the other the exception made of the response. Tests look at one side at a time, with one error.",
  ["connectrpc-otel/connectrpc_otel/_interceptor.py: OpenTelemetryInterceptor", S + "_interceptor_sync.py: MetadataInterceptorInvokerSync", S + "_interceptor_async.py: MetadataInterceptorInvoker", S + "_client_sync.py: ConnectClientSync", S + "_client_async.py: ConnectClient", S + "_server_sync.py: _handle_unary", S + "_server_async.py: _handle_unary"])

out = os.path.join(os.path.dirname(__file__), "..", "properties.jsonl")
with open(out, "w") as f:
    for x in P: f.write(json.dumps(x, ensure_ascii=False)+"\n")
print(len(P))
