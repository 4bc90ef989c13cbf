import Verif.Model.EndStream
import Verif.Model.Clock
/-
Model of the clients: `src/connectrpc/_client_sync.py`, `_client_async.py`, `_client_shared.py`.
The HTTP client (pyqwest) is an arbitrary function from requests to outcomes.
-/
namespace Conn
open Py

/-- Which of the two clients: the two modules are the same but for the points marked below. -/
inductive Flavor where
  | sync | async
deriving DecidableEq, Repr, Inhabited

/-- `_client_sync.py:82-123`, `_client_async.py:82-…` — what a client object keeps; `codec` and `resCodec` are the one
codec of the code at the request and at the response message class. -/
structure Client (Req Res : Type) where
  flavor : Flavor
  address : Str
  codec : Codec Req
  resCodec : Codec Res
  proto : Proto
  comps : Dict Str Compression
  send : Compression
  timeoutMs : Option Int
  readMax : Option Int
  closed : Bool
  userAgent : Str

/-- `_client_sync.py:82-123` `__init__` (without the interceptors, see `Model/Interceptor`). `send = none` disables request
compression. -/
def Client.new {Req Res : Type} (flavor : Flavor) (address : Str) (codec : Codec Req) (resCodec : Codec Res)
    (proto : Proto) (gzip : Compression) (accept : Option (List Compression)) (send : Option Compression)
    (timeoutMs readMax : Option Int) (userAgent : Str) : Client Req Res :=
  { flavor, address, codec, resCodec, proto, comps := resolveCompressions gzip accept
    send := match send with
      | some c => c
      | none => .identity
    timeoutMs, readMax, closed := false, userAgent }

/-- `_client_sync.py:176-179` `close`. -/
def Client.close {Req Res : Type} (c : Client Req Res) : Client Req Res := { c with closed := true }

/-- `_client_sync.py:116` `_accept_compression_header`. -/
def Client.acceptHeader {Req Res : Type} (c : Client Req Res) : Str := join (pys! ",") c.comps.keys

/-- `create_request_context(...)` as called by the four `execute_*` methods — `_client_sync.py:201-211`, `222-232`,
`243-253`, `264-274`. -/
def Client.context {Req Res : Type} (c : Client Req Res) (method : MethodInfo) (httpMethod : Str) (user : UserHeaders)
    (timeoutMs : Option Int) (stream : Bool) : RequestContext :=
  c.proto.clientContext c.userAgent method c.address httpMethod user (pickTimeout timeoutMs c.timeoutMs) c.codec.name stream
    c.acceptHeader (some c.send)

/-- A request handed to the HTTP client. `body` is what the iterator of a streaming request yields before it ends or
raises (`bodyErr`); `timeoutMs` is the timeout the call is run under (`_client_sync.py:285-288`, `357-360`: the remaining time of the
context, see `Model/Clock`, here the value it started from). -/
structure HttpRequest where
  method : Str
  url : Str
  headers : HTTPHeaders
  timeoutMs : Option Int
  body : List Bytes
  bodyErr : Option Exc := none
deriving DecidableEq, Repr, Inhabited

/-- What the HTTP client returns for a unary call. -/
structure FullResponse where
  status : Int
  headers : HTTPHeaders
  content : Bytes
deriving DecidableEq, Repr, Inhabited

/-- `f"{address}/{service}/{method}"` — `_client_sync.py:284`, `356`. -/
def Client.url {Req Res : Type} (c : Client Req Res) (m : MethodInfo) : Str :=
  c.address ++ pys! "/" ++ m.serviceName ++ pys! "/" ++ m.name

/-- `HTTPHeaders.pop(k, None)` (pyqwest): removes every value of a name. -/
def HTTPHeaders.drop' (h : HTTPHeaders) (k : Str) : HTTPHeaders := h.filter fun p => p.1 != lower k

/-- `_client_shared.py:22-31` `prepare_get_params`: the parameters, and the headers without the popped one. -/
def prepareGetParams (codecName : Str) (data : Bytes) (headers : HTTPHeaders) : List (Str × Str) × HTTPHeaders :=
  let base := [(pys! "connect", pys! "v1"), (pys! "base64", pys! "1")]
  let tail := [(pys! "encoding", codecName), (pys! "message", urlsafeB64encode data)]
  match headers.get (pys! "content-encoding") with
  | some enc => (base ++ [(pys! "compression", enc)] ++ tail, headers.drop' (pys! "content-encoding"))
  | none => (base ++ tail, headers)

/-- `_client_sync.py:295-311` — the HTTP request of a Connect unary call. -/
def Client.unaryRequest {Req Res : Type} (c : Client Req Res) (ctx : RequestContext) (data : Bytes) : HttpRequest :=
  let headers : HTTPHeaders := ctx.requestHeaders.allitems
  if ctx.httpMethod = pys! "GET" then
    let (params, headers) := prepareGetParams c.codec.name data headers
    { method := pys! "GET", url := c.url ctx.method ++ pys! "?" ++ urlencode params
      headers := headers.drop' (pys! "content-type"), timeoutMs := ctx.timeoutMs, body := [] }
  else { method := pys! "POST", url := c.url ctx.method, headers, timeoutMs := ctx.timeoutMs, body := [data] }

/-- the `except` clauses of `_client_sync.py:335-340`, `_client_async.py:338-345`. -/
def mapUnaryExc (f : Flavor) : Exc → Exc
  | .other .timeoutError _ => .mk .deadlineExceeded (pys! "Request timed out")
  | .connect e => .connect e
  | .cancelled => match f with
    | .sync => .cancelled
    | .async => .mk .canceled (pys! "Request was cancelled")
  | e => .mk .unavailable e.str

/-- `_client_sync.py:313-334` — from the HTTP response to the result: the metadata sink and the value. -/
def Client.unaryResponse {Req Res : Type} (c : Client Req Res) (sink : Sink) (resp : FullResponse) :
    Sink × Except Exc Res :=
  match connectValidateResponse c.codec.name resp.status (resp.headers.getD (pys! "content-type") []) with
  | some e => (sink, .error e)
  | none =>
    match Proto.responseCompression .connect resp.headers c.comps false with
    | .error e => (sink, .error e)
    | .ok _ =>
      let sink := handleResponseHeaders sink resp.headers
      if resp.status = 200 then
        match c.readMax with
        | some n =>
          if (resp.content.length : Int) > n then (sink, .error (tooLarge n))
          else (sink, c.resCodec.decode resp.content)
        | none => (sink, c.resCodec.decode resp.content)
      else
        match ConnectErr.fromResponse resp.status resp.content with
        | .error e => (sink, .error e)
        | .ok e => (sink, .error (.connect e))

/-- `_client_sync.py:283-340`, `_client_async.py:286-345` — `_send_request_unary` for the Connect protocol. `http` is the HTTP client; an
error is the exception it raises (including cancellation of the awaiting task, async only). -/
def Client.connectUnary {Req Res : Type} (c : Client Req Res) (http : HttpRequest → Except Exc FullResponse)
    (sink : Sink) (ctx : RequestContext) (req : Req) : Sink × Except Exc Res :=
  let r : Sink × Except Exc Res := match c.codec.encode req with
    | .error e => (sink, .error e)
    | .ok data =>
      match http (c.unaryRequest ctx (c.send.compress data)) with
      | .error e => (sink, .error e)
      | .ok resp => c.unaryResponse sink resp
  match r with
  | (sink, .error e) => (sink, .error (mapUnaryExc c.flavor e))
  | (sink, .ok m) => (sink, .ok m)

/-! ### streams -/

/-- `_client_shared.py:35-69` `maybe_map_stream_reset`; `expired` is `ctx.timeout_ms <= 0` at that moment. -/
def mapStreamReset (expired : Bool) : Exc → Option ConnectErr
  | .other (.streamError code) msg =>
    match code with
    | .noError | .protocolError | .internalError | .flowControlError | .settingsTimeout | .frameSizeError
    | .compressionError | .connectError => some { code := .internal, message := msg }
    | .refusedStream => some { code := .unavailable, message := msg }
    | .cancel => some { code := if expired then .deadlineExceeded else .canceled, message := msg }
    | .enhanceYourCalm => some { code := .resourceExhausted, message := pys! "Bandwidth exhausted: " ++ msg }
    | .inadequateSecurity => some { code := .permissionDenied, message := pys! "Transport protocol insecure: " ++ msg }
    | _ => none
  | _ => none

/-- `_client_sync.py:439-444` `_streaming_request_content`: the chunks produced, and the exception that ended the iteration.
`msgs` are the caller's messages; `srcErr` is the exception the caller's iterator raises after them, if any. -/
def streamingContent {M : Type} (w : EnvelopeWriter M) : List M → Option Exc → List Bytes × Option Exc
  | [], srcErr => ([], srcErr)
  | m :: ms, srcErr =>
    match w.write m with
    | .error e => ([], some e)
    | .ok b => let r := streamingContent w ms srcErr; (b :: r.1, r.2)

/-- The HTTP client's response to a streaming call: status and headers, the chunks of the body, how the body iterator
ended, the trailers available then, and the exception raised on leaving the response's context manager. -/
structure StreamResponse where
  status : Int
  headers : HTTPHeaders
  chunks : List Bytes
  bodyErr : Option Exc
  trailers : HTTPHeaders
  exitErr : Option Exc
deriving DecidableEq, Repr, Inhabited

/-- The circumstances of a streaming call that the program does not control: whether the deadline has passed when the body is
finished and when a reset is mapped; for the async client the number of delivered messages after which the
task is cancelled at `await sleep(0)`, and whether the `asyncio` timeout has fired. -/
structure Circumstances where
  expiredAtEnd : Bool
  expiredAtReset : Bool
  cancelAfter : Option Nat
  timeoutFired : Bool
deriving DecidableEq, Repr, Inhabited

/-- `create_envelope_reader(...)` of the clients — `_protocol_connect.py:306-313`, `_protocol_grpc.py:287-294`, `304-311`. -/
def Client.reader {Req Res : Type} (c : Client Req Res) (comp : Compression) : ReaderCfg Res ClientSub :=
  { codec := c.resCodec, compression := comp, readMax := c.readMax, handleEnd := c.proto.endHook }

/-- How the body of the `with` statement ended: normally, or with an exception; `fromFeed` tells that the exception is
the `stream_error` of `_client_sync.py:396`; `reader` is the state of the reader if one had been made. -/
structure Inside (Res : Type) where
  messages : List Res
  exc : Option Exc
  fromFeed : Bool
  reader : Option ClientSub
  sink : Sink

/-- `ReaderState.sub` with an updated sink. -/
def ClientSub.withSink (s : ClientSub) (sink : Sink) : ClientSub := { s with sink }

/-- `_client_async.py:396-402`: the number of messages delivered when the task is cancelled at `await sleep(0)`, which
follows each of the `n` messages (async only). -/
def cancelPoint (f : Flavor) (cancelAfter : Option Nat) (n : Nat) : Option Nat :=
  match f, cancelAfter with
  | .async, some k => if k < n then some (k + 1) else none
  | _, _ => none

/-- `_client_sync.py:392-406`, `_client_async.py:396-402` — reading the body of a 200 response.  When the task is
cancelled at `sleep(0)`, the sink and the reader are taken as they were before the body (metadata of an end
message followed by further messages is not tracked in that case). -/
def Client.readBody {Req Res : Type} (c : Client Req Res) (sc : StatusCodec) (sink : Sink) (comp : Compression)
    (resp : StreamResponse) (cs : Circumstances) : Inside Res :=
  let r := feedAll (c.reader comp) (ReaderState.init (ClientSub.init sink)) resp.chunks
  let sub := r.2.2.sub
  match cancelPoint c.flavor cs.cancelAfter r.1.length with
  | some k => { messages := r.1.take k, exc := some .cancelled, fromFeed := false
                reader := some { ClientSub.init sink with readMessage := c.proto != .connect }, sink }
  | none =>
    match r.2.1 with
    | .raised e => { messages := r.1, exc := some e, fromFeed := true, reader := some sub, sink := sub.sink }
    | .done =>
      match resp.bodyErr with
      | some e => { messages := r.1, exc := some e, fromFeed := true, reader := some sub, sink := sub.sink }
      | none =>
        if c.flavor = .sync ∧ cs.expiredAtEnd then
          { messages := r.1, exc := some (.other .timeoutError []), fromFeed := false, reader := some sub, sink := sub.sink }
        else
          let q := c.proto.complete sc sub ⟨resp.status, resp.headers, resp.trailers⟩ none
          { messages := r.1, exc := q.2, fromFeed := false, reader := some (sub.withSink q.1), sink := q.1 }

/-- `_client_sync.py:377-417`, `_client_async.py:382-413` — the body of the `with` statement. -/
def Client.inside {Req Res : Type} (c : Client Req Res) (sc : StatusCodec) (sink : Sink) (resp : StreamResponse)
    (cs : Circumstances) : Inside Res :=
  let sink := handleResponseHeaders sink resp.headers
  let fail (e : Exc) : Inside Res := { messages := [], exc := some e, fromFeed := false, reader := none, sink }
  if resp.status = 200 then
    match c.proto.validateStream c.codec.name (resp.headers.getD (pys! "content-type") []) with
    | some e => fail e
    | none =>
      match c.proto.responseCompression resp.headers c.comps true with
      | .error e => fail e
      | .ok comp => c.readBody sc sink comp resp cs
  else
    match resp.bodyErr with
    | some e => fail e
    | none =>
      match ConnectErr.fromResponse resp.status resp.chunks.flatten with
      | .error e => fail e
      | .ok e => fail (.connect e)

/-- The exception that leaves the `with` statement: one raised by the exit of the response replaces the one of the body; the
asyncio timeout turns a cancellation into `TimeoutError` when it has fired (`_client_async.py:377`). -/
def leaveWith (f : Flavor) (cs : Circumstances) (body exit : Option Exc) : Option Exc :=
  let e := match exit with
    | some x => some x
    | none => body
  match f, e with
  | .async, some .cancelled => if cs.timeoutFired then some (.other .timeoutError []) else e
  | _, _ => e

/-- `_client_sync.py:430-436`, `_client_async.py:421-427` — the last part of the `except Exception` clause. -/
def Client.mapReset {Req Res : Type} (c : Client Req Res) (sc : StatusCodec) (sink : Sink) (expiredAtReset : Bool)
    (reader : Option ClientSub) (resp : Option StreamResponse) (e : Exc) : Sink × Exc :=
  match mapStreamReset expiredAtReset e with
  | some rst =>
    match reader, resp with
    | some sub, some resp =>
      match c.proto.complete sc sub ⟨resp.status, resp.headers, resp.trailers⟩ (some rst) with
      | (sink, some e2) => (sink, e2)
      | (sink, none) => (sink, .connect rst)
    | _, _ => (sink, .connect rst)
  | none => (sink, .mk .unavailable e.str)

/-- the `except` clauses of `_client_sync.py:418-436`, `_client_async.py:414-427`: the sink and the exception that
reaches the caller. `streamError` is the variable of that name (sync only). -/
def Client.mapStreamExc {Req Res : Type} (c : Client Req Res) (sc : StatusCodec) (sink : Sink) (cs : Circumstances)
    (streamError : Option Exc) (reader : Option ClientSub) (resp : Option StreamResponse) (e : Exc) : Sink × Exc :=
  match e with
  | .other .timeoutError _ => (sink, .mk .deadlineExceeded (pys! "Request timed out"))
  | .connect ce => (sink, .connect ce)
  | .cancelled => match c.flavor with
    | .sync => (sink, .cancelled)
    | .async => (sink, .mk .canceled (pys! "Request was cancelled"))
  | e =>
    match streamError with
    | some se => (sink, se)
    | none => c.mapReset sc sink cs.expiredAtReset reader resp e

/-- A finished iteration over a response stream: the sink, the messages delivered, and the exception raised after them
(`none`: the stream ended normally). -/
structure StreamResult (Res : Type) where
  sink : Sink
  messages : List Res
  exc : Option Exc

/-- `isinstance(e, ConnectError)`. -/
def Exc.isConnect : Exc → Bool
  | .connect _ => true
  | _ => false

/-- `_client_sync.py:352-436`, `_client_async.py:359-427` — `_send_request_bidi_stream`, iterated to its end. `http`
opens the stream; an error is the exception raised while opening it. -/
def Client.bidi {Req Res : Type} (c : Client Req Res) (sc : StatusCodec)
    (http : HttpRequest → Except Exc StreamResponse) (sink : Sink) (cs : Circumstances) (ctx : RequestContext)
    (reqs : List Req) (srcErr : Option Exc) : StreamResult Res :=
  let content := streamingContent ⟨c.codec, some c.send⟩ reqs srcErr
  match http { method := pys! "POST", url := c.url ctx.method, headers := ctx.requestHeaders.allitems
               timeoutMs := ctx.timeoutMs, body := content.1, bodyErr := content.2 } with
  | .error e =>
    match leaveWith c.flavor cs (some e) none with
    | none => ⟨sink, [], none⟩            -- not reachable
    | some e => let q := c.mapStreamExc sc sink cs none none none e; ⟨q.1, [], some q.2⟩
  | .ok resp =>
    let i := c.inside sc sink resp cs
    let streamError := match c.flavor, i.fromFeed, i.exc with
      | .sync, true, some e => if e.isConnect then some e else none
      | _, _, _ => none
    match leaveWith c.flavor cs i.exc resp.exitErr with
    | none => ⟨i.sink, i.messages, none⟩
    | some e =>
      let q := c.mapStreamExc sc i.sink cs streamError i.reader (some resp) e
      ⟨q.1, i.messages, some q.2⟩

/-- "unary response has multiple messages" / "zero messages" — `_client_sync.py:447-457`. -/
def multipleMessages : Exc := .mk .unimplemented (pys! "unary response has multiple messages")
def zeroMessages : Exc := .mk .unimplemented (pys! "unary response has zero messages")

/-- `_client_sync.py:447-457` `_consume_single_response`: the error is raised at the second message, whatever follows. -/
def consumeSingle {Res : Type} (r : StreamResult Res) : Except Exc Res :=
  match r.messages with
  | _ :: _ :: _ => .error multipleMessages
  | [m] => match r.exc with
    | some e => .error e
    | none => .ok m
  | [] => match r.exc with
    | some e => .error e
    | none => .error zeroMessages

/-- The result of a client-stream or gRPC unary call: the sink and the value. The sink of a stream with
several messages may already hold metadata that the code reads later. -/
def Client.single {Res : Type} (r : StreamResult Res) : Sink × Except Exc Res := (r.sink, consumeSingle r)

/-- The HTTP client: unary and streaming calls. -/
structure HttpClient where
  full : HttpRequest → Except Exc FullResponse
  stream : HttpRequest → Except Exc StreamResponse

/-- `_client_sync.py:192-212` `execute_unary` with `_send_request_unary` `277-281` (no interceptors).
`GRPCWebClientProtocol` is a subclass of `GRPCClientProtocol`. -/
def Client.executeUnary {Req Res : Type} (c : Client Req Res) (sc : StatusCodec) (http : HttpClient) (sink : Sink)
    (cs : Circumstances) (req : Req) (method : MethodInfo) (user : UserHeaders) (timeoutMs : Option Int) (useGet : Bool) :
    Sink × Except Exc Res :=
  let ctx := c.context method (if useGet then pys! "GET" else pys! "POST") user timeoutMs false
  match c.proto with
  | .connect => c.connectUnary http.full sink ctx req
  | .grpc | .grpcWeb => Client.single (c.bidi sc http.stream sink cs ctx [req] none)

/-- `_client_sync.py:214-233` `execute_client_stream`, `342-345`. -/
def Client.executeClientStream {Req Res : Type} (c : Client Req Res) (sc : StatusCodec) (http : HttpClient) (sink : Sink)
    (cs : Circumstances) (reqs : List Req) (srcErr : Option Exc) (method : MethodInfo) (user : UserHeaders)
    (timeoutMs : Option Int) : Sink × Except Exc Res :=
  Client.single (c.bidi sc http.stream sink cs (c.context method (pys! "POST") user timeoutMs true) reqs srcErr)

/-- `_client_sync.py:235-254` `execute_server_stream`, `347-350`. -/
def Client.executeServerStream {Req Res : Type} (c : Client Req Res) (sc : StatusCodec) (http : HttpClient) (sink : Sink)
    (cs : Circumstances) (req : Req) (method : MethodInfo) (user : UserHeaders) (timeoutMs : Option Int) : StreamResult Res :=
  c.bidi sc http.stream sink cs (c.context method (pys! "POST") user timeoutMs true) [req] none

/-- `_client_sync.py:256-275` `execute_bidi_stream`. -/
def Client.executeBidiStream {Req Res : Type} (c : Client Req Res) (sc : StatusCodec) (http : HttpClient) (sink : Sink)
    (cs : Circumstances) (reqs : List Req) (srcErr : Option Exc) (method : MethodInfo) (user : UserHeaders)
    (timeoutMs : Option Int) : StreamResult Res :=
  c.bidi sc http.stream sink cs (c.context method (pys! "POST") user timeoutMs true) reqs srcErr

end Conn
