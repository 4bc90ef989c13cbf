# Formal model of connect-python in Lean 4 — design

Source: `/repo` (connectrpc/connect-python, pinned). Paths below are relative to it.
The Lean project is `/verif/lean`; properties are in `properties.jsonl`; the mapping property → theorem is in `MANIFEST.json`.

## 1. Method

* The model is a set of total, computable Lean functions that mirror the Python functions branch by branch.
  Every definition cites the file and lines it models, and says where it simplifies.
* Python exceptions are values (`Except Exc α`); mutable objects are explicit state; generators and tasks are
  explicit step machines or event scripts; nondeterminism (chunking, short reads, disconnects, failing sends,
  handler behaviour, cancellation) is universally quantified input.
* Specifications live in `Verif/Spec/*`. They do not use the model's helper functions. Property theorems live in
  `Verif/Props/*`, with a concrete non-vacuity `example` next to each.
* Where the code does *not* have the property, the negation is proved with a concrete witness
  (`theorem Cxx_violation_…`), and the strongest true part is proved under the name `…_partial`.

## 2. Layout

| directory | content |
|---|---|
| `Verif/Py/*` | the parts of the Python standard library the code relies on: `str`, `int()`, `dict`, UTF-8, `base64`, `urllib.parse`, `json`, binary floats |
| `Verif/Model/*` | the code of connect-python, function by function |
| `Verif/Spec/*` | small independent specifications |
| `Verif/Proofs/*` | lemmas |
| `Verif/Props/*` | the property theorems, one file per group |

## 3. Modelling choices

* Text is `List Char` (Unicode scalar values). Lone surrogates, which Python strings may contain, are outside the model.
* `str.lower` is modelled for ASCII (header names, content types are ASCII in HTTP); other characters are left alone.
* `int()` takes the decimal digits of every script of Unicode 14 (Python 3.11): ASGI header values are decoded as UTF-8, so such digits can reach it. Other
  versions of Python know a few scripts more or less. CPython's limit of 4300 digits is not modelled.
* `dict` is an insertion-ordered association list.
* bytes are `List UInt8`.
* Codecs and compressions are parameters (records of functions); "lawful" (decode ∘ encode = id) is an explicit
  hypothesis where needed. gzip/zstd/brotli and protobuf serialisation are not modelled beyond that.
* Handlers of streaming RPCs are *scripts*: the list of things one execution of the handler does (receive, emit, mutate
  response headers/trailers) and its outcome. Any finite execution of any handler is a script, and every theorem
  quantifies over all scripts, so nothing is lost for safety properties.
* Transport (pyqwest, the ASGI/WSGI server) is the environment: an arbitrary list of chunks/events/failures.

## 4. Per-property plan

| id | model | proof |
|---|---|---|
| C01, C02 | `Headers` with its two dicts | representation invariant + refinement to an ordered multimap, induction over operation lists |
| C03, C04, C06, C07, C08 | `EnvelopeReader`/`EnvelopeWriter` with an abstract end hook | reader refines a one-shot frame parser; induction on bytes |
| C05 | reader, unary read paths of both servers and clients | case analysis; GET path violates it (negation proved) |
| C09–C11 | `_serialize_timeout`, `_parse_timeout`, exact binary floating point for 1/1000 and 1/1000/1000 | arithmetic; error bound on rounding |
| C12, C13, C14 | timeout headers, `or` defaulting, `RequestContext` | decimal round trip; `int()` refines a grammar of integer texts (`Spec/IntText`), and the servers refuse what is outside it; C13 is violated at 0 |
| C15, C20 | status tables | finite case split over codes; all strings/ints for the reverse direction |
| C16–C19, C21–C23 | error serialisation: base64, percent-encoding, UTF-8, JSON printer and parser | round-trip by induction; user trailers that alias status trailers violate C21 in a corner |
| C24–C26 | negotiation functions | list induction; C26 violated for Connect streams |
| C27–C30 | content type, method and path dispatch of both servers | string lemmas, case analysis |
| C31, C32, C34–C38 | both servers as functions from (request, environment script, handler script) to event traces | trace induction |
| C33 | `_consume_single_*` | case analysis on stream |
| C39 | lifespan as a state machine | invariant over event sequences |
| C40–C43 | interceptor resolution and application; metadata invokers as trace transformers | induction over the interceptor list and generator steps |
| C44–C47 | clients as functions of the HTTP response/transport script | case analysis + reader lemmas |
| C48, C49 | response metadata | induction on header lists; context-variable stack |
| C50 | `close` | violated: `close` has no effect on calls |
| C51–C53, C55 | tables, context creation, timeout state machine, addresses | case analysis, invariant over operation sequences; C55 is violated by some addresses |
| C54 | generated code, by what its classes do | induction over names and methods; violated when names collide |
| C56 | the instrumentor's wrapper of constructors | case analysis on the iterable; violated by one-shot iterators |
| C57, C67 | the tracing interceptor as a metadata interceptor, spans and durations as effects | induction over generators; violated by some addresses, and by the order of injecting and starting |
| C58, C59, C66 | composition of client and server models through the assumptions about HTTP in `Spec/Transport`, `Spec/StreamTransport` | uses the round-trip theorems |
| C68 | contexts made by both servers and the client | case analysis on routing |
| C71 | the two sides and the connection as a transition system (`Model/Duplex`): any interleaving of the caller's, the handler's and the connection's moves | invariants over all histories; a decreasing measure for the absence of livelock |
| C69, C70 | the formats as relations (`Spec/Wire`, `Spec/Conforming`), the writers and readers of all protocols | the writer's output is in the relation; the reader inverts the relation, by induction over envelopes and lines |
| C72 | the formats of requests as relations (`Spec/Request`), the servers' parsing of queries, headers, timeouts and bodies | the parsers invert the relation, by induction over query text and parameters; then C63 and C35 |
| C73 | as C72, with what the client accepts (`Spec/Response`); the writers of responses | C63 and C35 give what is written; it is in the relations of `Spec/Conforming`; negotiation picks an entry of the accept list |
| C74 | the requests of the client (`Model/Client`) and the formats of `Spec/Request` | the query text and the envelopes are in the relations, by induction; the header fields by the lemmas of C26 |
| C75 | the checks of the client on responses, in the calls of `Model/Client` | by cases on what does not fit (`Spec/Rejected`); the check fails before the body is read, and its error is not mapped any more |
| C76 | the transition system of C71 with a WSGI server: chunks are what `read(4096)` returns, an empty one is the end; on HTTP/1 the request is drained before an error is reported | the invariants of C71; a stuck state for inputs that wait for 4096 bytes; an invariant of the histories without an end of the request for draining |
| C77 | the client's generator as a state machine: fresh, suspended at a `yield`, over; `next` and `close` as transitions; a log of what is done to the HTTP client | an invariant of the log under every sequence of uses; the reader one message at a time refines the reader of whole chunks; unread chunks by induction on frames |
| C78 | a task, the event loop and the timeout block of C53 inside the client's generator, as a transition system over the places where the task is suspended | an invariant of all traces, on top of the invariant of C53; concrete traces for the violations |
| C79 | the instrumentor, import hooks and wrapped constructors as a transition system (`Model/Instrumentor`) | an invariant that counts hooks and wrappers, over all histories; exact condition for the off state; violated by late imports |
| C80 | the state of the envelope reader after any chunks (`Model/Envelope`) | induction over chunks: the buffer is the remainder that `Splits` leaves; violated by messages that declare more than the limit |
| C81 | the class statements of a generated module, and the identifiers of message classes (`Model/GenModule`) | the last statement of a name counts: exact condition; string lemmas for file names; violated when the name of one service is that of another with an ending |
| C82 | the order of what is done to a handler's generator and what is sent (`Model/Cleanup`) | invariant of the loop over what it leaves; then the `finally` clause; tied to the coarser model by a lemma; violated when `receive` raises in the watching task, and on WSGI by a message that cannot be encoded |
| C83 | a stream whose generator runs in the context of whoever resumes it (`Model/StreamContext`, over `Model/Iteration` and `Model/RespContext`) | every part of the generator, as a function of the active object, only adds recordings that do not depend on it; induction on uses and operations; then C49. Violated by metadata that cannot be recorded |
| C84 | the `await` at which a cancellation arrives, as a parameter of the response (`Model/Cancel`, over `Model/Cleanup`); unary requests as in `Model/ServerAsync` | the loop up to that point by induction on the run, then the `finally` clauses; failed sends by an invariant of the loop (only the last send has failed). Violated: the client is told success; two awaits swallow the cancellation |
| C85 | OpenTelemetry's context variable as in `Model/RespContext`, the generators of traced streams as in `Model/Interceptor`, run in the context of whoever resumes them (`Model/SpanContext`) | an invariant of the token of the span (unused, and of the right context), kept by everything that is not this span's; nested histories from C49. Violated between messages, by interleaved streams and across tasks |
| C86 | what `allitems()` returns as references to the two dictionaries of the object, of which the second is created late and dropped by `clear` (`Model/HeaderViews`); `Mapping.__eq__` | invariants of histories (the second dictionary stays once it exists), equality of dictionaries with distinct keys as agreement of lookups. Violated by views taken early or used after `clear`, by membership, and by comparing repeated values |
| C87 | what `_maybe_log_exception` writes, as a field of the outcome of the WSGI server (`Model/ServerSync`); what the applications raise | induction over the run of the handler, up to and after its first message (`Proofs/Stream.wsgiFirst_runs`). Violated by WSGI streams after the first message, and on ASGI by undecodable bodies |
| C88 | a unary interceptor as a program (a tree: return, call on, edit headers, wait, read the time left), run around `_send_request_unary` with a clock and a network that depends on the requests before (`Model/Attempts`) | induction over the program; lists of interceptors are merged into one program (`Spec.asOne`). Violated by the timeout header, and by trailers of earlier attempts |
| C89 | the caller's task as a program (a tree: end, await something, await a call, timeout block), with `task.cancelling()` and the open blocks as state and a schedule of what happens at each await; asyncio's `timeout` and `wait_for` after CPython 3.12 (`Model/TaskCancel`, over `Model/Client`) | the call by cases; a conserved count (cancellations by others + expired blocks) by induction over the program. Violated: `CancelledError` becomes a `ConnectError` |
| C90 | one HTTP request (`Spec/Alike.HttpIn`), what a WSGI and an ASGI server make of it, and the two models of the servers (`Model/ServerSync`, `Model/ServerAsync`) | the same header table, route and context; then by cases: the same message, or the same exception; streams by the characterisations in `Proofs/Stream`. Violated for garbled requests |
| C91 | both flavours of `Model/Client`, `Model/Iteration` and `Model/Attempts`, given the same network (`Spec/Twins`) | leaving the response is the same in both, for all but cancellation; then by induction on the chunks and on the uses of the stream; whole calls by C77; interceptors because each attempt is the same function. Violated for late ends and for responses that raise when they are left |
| C92 | `compression/{gzip,brotli,zstd}` over a parameter that stands for the library: what it finds at the beginning of its input (`Model/Codings`, `Spec/Codings`) | gzip accepts exactly sequences of members, by induction; the others by cases; the servers by C38 and C63. Violated by zstd, and by payloads of which nothing is left |
| C93 | the OpenTelemetry interceptor around a handler as the servers run it (`Model/Observed`; handlers that read a stream, as far as they get on it: `Model/ObservedKinds`), over `Model/Otel` and `Model/Server`; `Spec/Observed` says what a report of a status is | the handler with the interceptor is the handler (`watch_eq`, `watchedGen_eq`), so C63, C35 and C36 give the answer; the reports by cases and by induction on the run. Violated when the failure happens after the handler or before it |
| C94 | the `execute_*` methods of both clients with interceptors that note the context and edit its headers (`Model/ClientCalls`), over `Model/Client` and `Model/Interceptor`; `Spec/ClientCalls` says how a context passes through a list and when a request is the one a context describes | induction on the list of interceptors (`passed_apply`), then cases on the kind of call and the protocol. Violated by `use_get` where the protocol has no GET |
| C95 | handlers whose result is that of a client call (`Spec/Relay`: `Hop`, `Chain`; for streams `Spec/StreamRelay`: `StreamChain`), each served by an application of `Model/Server*`; the HTTP client brings requests to it and responses back (`OverWsgi`, `OverAsgi`) | induction on the chain, with C58 and C59 for each hop; the invariant is that every error on its way is one the next hop can carry (`Sendable`), for which C17 and C16 now also say what the details look like when read (`AsRead`) |
| C96 | `ErrorDetail` and the `details` of `ConnectError` as objects (`Model/Detail`), over a protobuf library given by its descriptors, messages and binary form; `Any.pack`, `Any.unpack` and `Registry.message` as documented | the type name of a detail is what survives (C16–C19, C58, C59, C95: `report`), and determines the part of the type URL after the last slash |
| C97 | `wsgi.input` followed read by read through `__call__`, `_handle_unary`, `_handle_stream`, `_response_stream` and the generator `_request_stream` (`Model/Drain`) | simulation: the generator has before it what `App.wsgiRequests` says; induction over the handler's run, with the invariant that the rest of the run reads the rest of the stream or fails |
| C98 | `__call__` of both servers, every branch before the endpoint's function is called | case analysis of every branch; every exception that can arise before the call is answered with a status of at least 400, or as the end of a stream with an error (`Spec/Served`) |
| C99 | the readers of the client (Connect, gRPC, gRPC-Web), fed with messages and then an end that is arbitrary bytes (`Spec/BadEnd`) | the hook for the end raises on every unreadable or failing end; trailers with another status than 0 raise at the end of the body; every such exception becomes a ConnectError |
| C100 | the codec objects of `_codec.py` and `compat/_codec.py`, over parameters for the functions of the protobuf library (`Model/Codecs`); the constructors of clients and servers with what they leave at its default | the choice of the client and the offer of the server are described by format and registry (`Chosen`, `Offered`); the table of codecs is searched; with C92 and C58_configured, C59_configured the hypotheses of C58 and C59 follow |
| C101 | the readers of the client and the `except` clauses around them, fed with messages and then an envelope the client cannot accept (`Spec/BadMessage`) | what C07 says of readers, carried through `inside` and `bidi`: each kind of bad envelope raises a known exception, and each becomes one ConnectError |
| C102 | the readers of the servers (`Model/Envelope.lean`), `wsgiRequests`, `asgiRequests`, `consumeSingleRequest` and the responses to streams (`Model/Server*.lean`), against the bytes of the request (`Spec/BadRequest.lean`) | the envelopes of the body are split (uniquely), the policy delivers those before the bad one and then its error; C35 and C33 give the exchange; induction over the messages for functions that read everything |
| C103 | the tracing interceptor around the calls of both clients (`Model/ClientObserved`), from `Model/Otel`, `Model/ClientCalls` | C57 at the functions of the client; the generator of a stream is used as far as the caller reads; false of interrupted calls of the synchronous client |
| C104 | the traced client of C103 and the traced server of C93, with the transport of C58 and C59 | C58 and C59 of the traced function, then C103 and C57 on its two sides; within a span because servers see no less of a request with more fields (`wsgiSees_fewer`, `asgiSees_fewer`); false of responses that cannot be encoded |
| C60 | header processing | list induction |
| C61 | reader at the end of a request body | violated: an incomplete envelope is dropped |
| C62 | ASGI events of responses that are not streamed | case analysis; violated if the body event fails |
| C63, C64 | unary responses; configuration | case analysis; dictionary lemmas |
| C65 | request bodies of streaming calls | induction over messages |

## 5. Where the code does not have the property

Each line is a theorem `Cxx_violation_…`; what is left is proved under `…_partial`.

| property | what happens |
|---|---|
| C04 | bytes after the end message of a Connect or gRPC-Web stream are noticed or not, depending on chunk boundaries |
| C05 | the message of a GET request is not checked against `read_max_bytes` |
| C13, C66 | a timeout of 0 is replaced by the client's default (every client and call: `C13_violation_zero_all`) |
| C21 | a gRPC handler can set `grpc-message` and `grpc-status-details-bin`; gRPC-Web trailers with line breaks inject trailers |
| C26 | a Connect stream with an unknown compression is read as uncompressed |
| C27 | the content type of a codec with an unusual name is read as another protocol |
| C32 | the end of a Connect or gRPC-Web stream of 4 GiB or more cannot be written; the exception reaches `__call__`, which calls `start_response` again |
| C35, C42 | a handler that ends with `CancelledError` is reported as a success (ASGI; metadata interceptors; every such handler and RPC with one response: `C35_violation_cancelled_all`, `C42_violation_not_exception`) |
| C36 | a disconnect is noticed only when the handler produces another message |
| C38 | a malformed message is reported as the server's fault (ASGI bodies and GET messages, WSGI GET; every such request: the `C38_violation_asgi_*` theorems, `C38_wsgi_get_decompress_internal`) |
| C39 | a generator service without endpoints: requests are refused after startup too |
| C40, C56 | one-shot iterators of interceptors: used up after the first endpoint (ASGI); lost altogether with instrumentation, if tracing is among them |
| C41 | intercept methods of an object that also has metadata callbacks are never called |
| C43 | asynchronous streams that are closed early: `on_end` runs before the inner generator ends |
| C45 | malformed status details in the trailers of a reset gRPC or gRPC-Web stream raise something other than `ConnectError` |
| C46, C61 | truncated Connect responses, and truncated request streams, end normally (all of them: `C46_violation_connect_all`, `C61_violation_wsgi_all`, `C61_violation_asgi_all`) |
| C48 | a metadata object used for a second call keeps the trailers of the first if the second has none |
| C49 | a metadata object entered twice stays active |
| C50 | `close()` has no effect on calls |
| C54 | two methods with one Python name (`GetURL`, `GetUrl`; `C54_violation_same_name_all` for every such service), or one of the client's own (`Close`, `ExecuteUnary`) |
| C55, C57 | addresses that are not `address:port` (Host `[::1]`; URL with port and path); with tracing they make every call fail with `ValueError`, which a peer can cause by its Host header |
| C58, C59, C66 | Connect timeouts of more than ten digits are sent, and refused by the server |
| C62 | if the body event cannot be sent, a second start is sent |
| C67 | the client injects the span that is current before its own is started, so the server's span is not its child (both are children of the span of the caller, also over the transport: `C67_wsgi_partial`, `C67_kinds_wsgi_partial`, …) |
| C72 | a GET request whose message is escaped binary, not base64: the bytes are decoded as text, with replacement, and encoded again |
| C74 | a call by Connect with a negative timeout (or one of more than ten digits): it is sent as it is |
| C76 | a WSGI input whose `read(size)` waits for `size` bytes or the end of the body (PEP 3333 refers to Python's files): a message that has been sent as a whole is held back until 4096 bytes have been sent, so a caller that waits for the answer waits for ever |
| C76 | on HTTP/1 (`SERVER_PROTOCOL`) the rest of the request is drained before an error of the handler is reported: a caller whose stream has been refused, and who waits for an answer before going on, waits for ever |
| C77 | a call that expects one message gets several (gRPC, gRPC-Web and client streams): it raises UNIMPLEMENTED but leaves the generator suspended, so the HTTP response is still held when the caller handles the exception |
| C78 | the deadline comes while the caller of an async stream awaits something of its own between two messages: that raises `CancelledError` in the caller's code, and the stream, if the caller goes on with it, has no deadline any more |
| C79 | switched on and off again before `connectrpc.client` is imported: the hooks that wait for the import stay registered, and what is imported later is traced although auto-instrumentation is off, also after switching it on and off again |
| C80 | a message that declares more than `read_max_bytes` is refused only when all of it has arrived, so the limit does not bound what is held |
| C81 | services `Foo` and `FooClient` in one file: `FooClient` is the protocol class of the second, and the module has no client for the first |
| C82 | `receive` raises in the task that watches for disconnects: awaiting it raises before `aclose()`, and the handler's generator is left open; on WSGI a message that cannot be encoded leaves it open too |
| C83 | the end message of a Connect stream says `{"metadata": 5}`: the stream ends normally, but raises `unavailable` if it is read inside a `ResponseMetadata` block |
| C84 | a stream cancelled in its handler, in a `send` or in cleanup code: `except CancelledError` raises CANCELED but leaves `error` unset, so the `finally` clause sends the end marker of a success. `suppress(CancelledError)` around `await monitor_task` swallows a cancellation of the request's own task; `_request_stream` turns one into an ordinary `ConnectError`, after which the task ends normally |
| C85 | `on_start` enters `start_as_current_span` inside a generator, which runs in its reader's context: the span is current for the reader between messages. Two streams read in turns end in the order they started, so the second resets the variable to the span of the first. A stream ended in another task cannot reset the variable of the first task (OpenTelemetry logs the failure) |
| C86 | `allitems()` returns the view of the first dictionary alone when no name has several values, and one that holds on to the second dictionary otherwise, which `clear` replaces. `_AllItemsView` does not set the `_mapping` that the inherited `__contains__` reads. The inherited `__eq__` compares `items()`, which has first values only; so does `Headers(headers)` |
| C87 | `_response_stream` (WSGI) catches an exception of the handler after the first message, reports it to the caller and drops it: `_maybe_log_exception` is called only for failures before it. On ASGI the unary path reads the message outside of any handler, so that the exception of the codec for an undecodable body is raised to the server like a crash |
| C88 | `create_request_context` writes the timeout header once; `_send_request_unary` computes the time left for the HTTP client but sends the header as it was. `handle_response_trailers` adds to the trailers that the active object holds from an earlier attempt |
| C89 | `except CancelledError as e: raise ConnectError(Code.CANCELED, …)` in the async client: the cancellation of a task ends there; `asyncio.timeout` and `TaskGroup` around the call do not see it |
| C90 | `_read_post_request` (ASGI) lets exceptions of codec and compression through where `_handle_post_request` (WSGI) makes INVALID_ARGUMENT; ASGI does not decompress an empty body, WSGI does; an unknown `encoding` is 501 in WSGI and 415 in ASGI; ASGI takes the codec of every GET from the query, WSGI that of a streamed one from the content type; `Accept-Post` of an unknown stream codec lists unary types in ASGI |
| C91 | only the sync client checks the deadline after the body, and only it keeps `stream_error` when leaving the response raises |
| C92 | `ZstdDecompressor().stream_reader(data).read()` does not tell a complete frame from one that was cut, and stops at the end of the first frame; `gzip.decompress(b"")` is `b""`; ASGI does not decompress an empty body |
| C93 | the interceptor ends when the handler ends: encoding comes after it, refusals before it; `except Exception` does not see `CancelledError` and `GeneratorExit`, so `on_end` is given no error |
| C94 | `execute_unary` makes the context with `http_method="GET"` when `use_get` is set, whatever the protocol; the gRPC clients send unary calls as streams, with POST |
| C96 | `ErrorDetail.type_name` removes one prefix of type URLs only, and `value(registry)` looks up what is left: a detail packed with any other prefix cannot be read with a registry (`C96_violation_registry`). `value(type)` does not look at the type when the detail was made from a message: it returns a message of another type than the annotation promises (`C96_violation_type`) |
| C97 | The request body is drained in the `except` clauses only. A client-streaming or bidirectional handler that succeeds before the end of its request leaves the rest in `wsgi.input` (`C97_violation_stream`), as does a GET request with a body (`C97_violation_get`): on a server that does not drain itself (the comment in the code names gunicorn) the rest is taken for the next request |
| C98 | `_parse_timeout` raises `ValueError`, which nothing turns into a protocol error: a gRPC or gRPC-Web request with a malformed `grpc-timeout` gets HTTP status 500 and a Connect JSON body with code `unknown` instead of a gRPC status, and counts as a failure of the server: it is logged (WSGI) or raised to the application server (ASGI) (`C98_violation_wsgi_timeout`, `C98_violation_asgi_timeout`). Connect requests with a malformed timeout are refused with `invalid_argument` (C12) |
| C99 | `handle_end_message` of the Connect reader tests `if error:`, so an end message whose `error` is empty (`{"error": {}}`, `""`, `[]`, `0`, `false`) counts as success, although the presence of `error` says that the call failed (`C99_violation_empty_error`, for every such response) |
| C103 | `_interceptor_sync.py` catches `Exception` only: a call that `KeyboardInterrupt` ends is given to `on_end` without error, and tracing reports a success (`C103_violation_interrupted`) |
| C104 | the response is encoded after the interceptors: when that fails, the server's span reports a success and the client's the error (`C104_violation_encode_wsgi_all`, `C104_violation_encode_asgi_all`); a caller that leaves a stream of responses before its error does not learn it, and the client's span reports a success (`C104_violation_early_wsgi_all`, `C104_violation_early_asgi_all`) |

## 6. What is modelled and what is not

Modelled, function by function: `_headers`, `_envelope`, `_protocol`, `_protocol_connect`, `_protocol_grpc`, `_protocol_server`,
`_client_sync`, `_client_async`, `_client_shared`, `_server_sync`, `_server_async`, `_server_shared`, `_interceptor_sync`, `_interceptor_async`,
`_response_metadata`, `_asyncio_timeout`, `_codec`, `compat/_codec`, `_compression`, `compression`, `code`, `errors`, `method`, `request`; of `connectrpc-otel` the interceptor and the
instrumentor; of `protoc-gen-connectrpc` what the generated classes do.

Not modelled:

* serialisation of messages: a parameter, lawful by hypothesis (the codec objects around it are modelled, C100; `get_default_codecs` returns one list object to all, and the model has no aliasing); the compressed formats: `compression/*` is modelled (C92) over a parameter for what
  `gzip`, `brotli` and `zstandard` do; elsewhere a compression is a parameter (`C92_round_trip` shows that the three meet the hypotheses);
* `_gen`, the `conformance`, `example` and `docs` directories, type annotations;
* the text and types of generated modules, the names they import (C81 models only the classes and the identifiers of message classes), and `escape_identifier` of the protobuf library (a parameter);
* logging; exceptions of the WSGI input while the rest of a request is drained after an error;
* what the HTTP client does with a request body whose iterator raises (C65 ends at the body);
* the tracer, meter and propagator of OpenTelemetry, assumed not to raise, and its context (`attach`, `detach`), taken to be a context variable reset with a token, a failed reset being logged only; `BaseInstrumentor`, `register_post_import_hook`, `wrap_function_wrapper` and
  `unwrap` are modelled as documented (C79), without threads, reloaded modules or modules removed from `sys.modules`;
* `ExceptionGroup` in `_asyncio_timeout` (absent on Python 3.10, the only version that uses the file).

Limits of the models that are there:

* In C59 the HTTP client takes the whole request before it answers; C71 and C76 cover interleaved bidirectional traffic for the two servers. In C71 the
  connection has unbounded buffers and passes both directions independently (the README says that HTTP/1.1 and WSGI servers do not), and the
  generator that decodes a chunk is run when the chunk arrives rather than message by message.
* Interceptors of servers act on `HandlerFn` (C40, C41); the order of effects (C42, C43, C57) is stated on functions with explicit effects, `TraceFn`.
* A compression the HTTP client does not know breaks unary Connect responses: the end-to-end theorems assume one it passes on.
* In C57 and C67 contexts are values: the change of a header by `on_start` is made where the rest of the call gets the context.

## 7. Assumptions about the environment

`Spec/Transport` and `Spec/StreamTransport` say what HTTP, application servers and the HTTP client do between the two sides: which header fields
pass, how paths and queries arrive, that bodies arrive whole in arbitrary pieces. They are hypotheses of C47, C48, C58, C59 and C66, never axioms, and are
shown to be satisfiable beside the theorems. `Propagates` and `TraceArrives` in `Spec/Otel` are the same for C67.

## 8. Wrong programs

`seeded/LOG.jsonl` has one line for each edit of the model that was tried: the claim it breaks, the theorems that failed, and the theorems that were
tightened because they did not.

## 9. Trusted base

Lean 4.33 kernel; axioms `propext`, `Classical.choice`, `Quot.sound` only (checked with `#print axioms`; `AXIOMS.md` lists them for each theorem).
The correspondence of the Lean definitions to the Python text is by reading, definition by definition.
