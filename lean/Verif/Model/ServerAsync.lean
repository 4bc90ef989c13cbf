import Verif.Model.Server
import Verif.Py.Url
/-
Model of the ASGI server: `src/connectrpc/_server_async.py`, requests.  See `Model/Lifespan` for the lifespan.
-/
namespace Conn
open Py

/-- What `await receive()` returns during a request. -/
inductive Recv where
  | request (body : Bytes) (more : Bool)
  | disconnect
  | other
deriving DecidableEq, Repr, Inhabited

/-- An ASGI HTTP scope.  `client` is `(host, port)` with the port as text; `trailers`: the extension
`http.response.trailers` is there. -/
structure Scope where
  path : Str
  rootPath : Str
  method : Str
  scheme : Option Str
  headers : List (Bytes × Bytes)
  client : Option (Str × Str)
  query : Bytes
  trailers : Bool
deriving Repr, Inhabited

/-- What happens around a request, chosen by the environment: the events `receive` returns (after the last one it
blocks until the task is cancelled); the exception the `n`-th `send` raises, if any; the number of messages of the response
after which the disconnect monitor of a server stream has seen the disconnect; the number of messages of the request stream after
which the task is cancelled at `await sleep(0)`.  Cancellation during an `await` of the handler is part of the handler's
run. -/
structure Env where
  receive : List Recv
  sendErr : Nat → Option Exc
  disconnectAt : Option Nat
  cancelAfter : Option Nat

/-- The events given to `send`. Header names and values are bytes in the code (UTF-8 of the text here). -/
inductive Sent where
  | start (status : Nat) (headers : List (Str × Str)) (trailers : Bool)
  | body (b : Bytes) (more : Bool)
  | trailers (fields : List (Str × Str)) (more : Bool)
deriving DecidableEq, Repr

/-- A request served to its end: the endpoint functions called, the messages received from the request stream, every event given
to `send` with the exception that `send` raised, and the exception that reached the application server. -/
structure AsgiOut (Req : Type) where
  calls : List (Called Req)
  received : List Req
  sends : List (Sent × Option Exc)
  escaped : Option Exc

/-- `await send(m)`: the log of sends, and the exception raised. -/
def Env.send (env : Env) (log : List (Sent × Option Exc)) (m : Sent) : List (Sent × Option Exc) × Option Exc :=
  let e := env.sendErr log.length
  (log ++ [(m, e)], e)

/-- Several sends in a row: stops at the first exception. -/
def Env.sendAll (env : Env) : List (Sent × Option Exc) → List Sent → List (Sent × Option Exc) × Option Exc
  | log, [] => (log, none)
  | log, m :: ms =>
    match env.send log m with
    | (log, some e) => (log, some e)
    | (log, none) => env.sendAll log ms

/-- `_server_async.py:580-595` `_read_body`, iterated to the end: the chunks, and the exception after them. -/
def asgiBody : List Recv → List Bytes × Option Exc
  | [] => ([], some .cancelled)
  | .request b more :: r => if more then (b :: (asgiBody r).1, (asgiBody r).2) else ([b], none)
  | .disconnect :: _ => ([], some (.mk .canceled (pys! "Client disconnected before request completion")))
  | .other :: _ => ([], some (.mk .unknown (pys! "Unexpected message type")))

/-- `_server_async.py:615-619` `_process_headers`. -/
def asgiHeaders : List (Bytes × Bytes) → Headers → Except Exc Headers
  | [], h => .ok h
  | (k, v) :: r, h =>
    match utf8Decode k, utf8Decode v with
    | some k, some v => asgiHeaders r (h.add k v)
    | _, _ => .error (.other .unicodeError (pys! "'utf-8' codec can't decode"))

section
variable {Req Res : Type}

/-- `_server_async.py:335-366` `_read_post_request`. -/
def App.asgiPost (app : App Req Res) (env : Env) (headers : Headers) (codec : ServerCodec Req Res) : Except Exc Req :=
  match asgiBody env.receive with
  | (_, some e) => .error e
  | (chunks, none) =>
    let name := lower (headers.getD (pys! "content-encoding") (pys! "identity"))
    match app.comps.get? name with
    | none => .error (unknownCompression name app.comps)
    | some c =>
      let data := if chunks.flatten.isEmpty then .ok [] else c.decompress chunks.flatten
      match data with
      | .error e => .error e
      | .ok data => match checkSize app.readMax data with
        | .error e => .error e
        | .ok _ => codec.req.decode data

/-- `_server_async.py:298-317` — the message parameter as bytes. -/
def asgiGetMessage (params : Dict Str (List Str)) : Except Exc Bytes :=
  match firstParam params (pys! "message") with
  | none => .error messageRequired
  | some message =>
    if firstParam params (pys! "base64") = some (pys! "1") then
      match urlsafeB64decode (message ++ pys! "===") with
      | some b => .ok b
      | none => .error (.mk .invalidArgument (pys! "Invalid base64 encoding"))
    else .ok (utf8Encode message)

/-- `_server_async.py:291-333` `_read_get_request`. -/
def App.asgiGet (app : App Req Res) (params : Dict Str (List Str)) (codec : ServerCodec Req Res) : Except Exc Req :=
  match asgiGetMessage params with
  | .error e => .error e
  | .ok raw =>
    let name := match firstParam params (pys! "compression") with
      | some n => n
      | none => pys! "identity"
    match app.comps.get? name with
    | none => .error (unknownCompression name app.comps)
    | some c =>
      let data := if raw.isEmpty then .ok [] else c.decompress raw
      match data with
      | .error e => .error e
      | .ok data => codec.req.decode data

/-- `_server_async.py:495-523` `_handle_error`, then `234-238`: the error is raised again unless it is a `ConnectError` or
`HTTPException`. -/
def asgiFail (env : Env) (calls : List (Called Req)) (log : List (Sent × Option Exc)) (e : Exc)
    (ctx : Option Meta) : AsgiOut Req :=
  if e.isException then
    let r := errorResponse (pys! "content-type") e ctx
    match env.sendAll log [.start r.1 r.2.1 false, .body r.2.2.flatten false] with
    | (log, some x) => { calls, received := [], sends := log, escaped := some x }
    | (log, none) => { calls, received := [], sends := log, escaped := match e with
      | .connect _ | .http _ _ => none
      | e => some e }
  else { calls, received := [], sends := log, escaped := some e }

/-- the headers of a unary response — `_server_async.py:267-277`. -/
def asgiUnaryHeaders (codecName compName : Str) (m : Meta) : List (Str × Str) :=
  [(pys! "content-type", pys! "application/" ++ codecName), (pys! "content-encoding", compName),
   (pys! "vary", pys! "Accept-Encoding")] ++ m.contextHeaders

/-- `_server_async.py:245-289` `_handle_unary_connect` with the `except` clause of `__call__`. -/
def App.asgiUnary (app : App Req Res) (env : Env) (key httpMethod : Str) (headers : Headers) (codec : ServerCodec Req Res)
    (params : Dict Str (List Str)) (ctx : RequestContext) (f : Req → RequestContext → Call Res) : AsgiOut Req :=
  let comp := negotiateCompression (headers.getD (pys! "accept-encoding") []) app.comps
  let read := if httpMethod = pys! "GET" then app.asgiGet params codec else app.asgiPost env headers codec
  match read with
  | .error e => asgiFail env [] [] e (some .empty)
  | .ok req =>
    let run := f req ctx
    let calls := [⟨key, ctx, some req⟩]
    match (HState.init ⟨[], none⟩ : HState Req).call run.steps run.result with
    | (h, .error e) => asgiFail env calls [] e (some h.info)
    | (h, .ok response) =>
      match codec.res.encode response with
      | .error e => asgiFail env calls [] e (some h.info)
      | .ok data =>
        match env.sendAll [] [.start 200 (asgiUnaryHeaders codec.name comp.name h.info) false,
            .body (comp.compress data) false] with
        | (log, some e) => asgiFail env calls log e (some h.info)
        | (log, none) => { calls, received := [], sends := log, escaped := none }

/-- `_server_async.py:561-577` `_request_stream`: the messages and the exception after them.  After each message the
generator awaits `sleep(0)`. -/
def App.asgiRequests (app : App Req Res) (env : Env) (codec : ServerCodec Req Res) (comp : Compression) : ReqStream Req :=
  let canceled : Exc := .mk .canceled (pys! "Request was cancelled")
  let mapCancel (e : Exc) : Exc := match e with
    | .cancelled => canceled
    | e => e
  let body := asgiBody env.receive
  let r := feedAll (app.reader codec comp) (ReaderState.init ()) body.1
  let whole : ReqStream Req := ⟨r.1, match r.2.1 with
    | .raised e => some (mapCancel e)
    | .done => body.2.map mapCancel⟩
  match env.cancelAfter with
  | some k => if k < r.1.length then ⟨r.1.take (k + 1), some canceled⟩ else whole
  | none => whole

/-- What stays the same while a stream is served. -/
structure AsgiCfg (Res : Type) where
  proto : Proto
  sc : StatusCodec
  codecName : Str
  comp : Compression
  writer : EnvelopeWriter Res
  env : Env
  /-- `disconnect_detected.is_set()` from this message on (server streams only) -/
  disconnectAt : Option Nat

/-- How the inner `try` of `_handle_stream` ended: the handler's state, the sends so far, `sent_headers`, the
exception. -/
structure LoopOut (Req : Type) where
  h : HState Req
  log : List (Sent × Option Exc)
  sentHeaders : Bool
  exc : Option Exc

/-- `ConnectError(Code.CANCELED, "Client disconnected")` — `_server_async.py:432`. -/
def clientDisconnected : Exc := .mk .canceled (pys! "Client disconnected")

/-- `await aclose()` in `_server_async.py:445-456` after exception `e`, when the handler's generator has not finished: what closing it
raises takes the place of `e`. -/
def afterClose (closeErr : Option Exc) (e : Exc) : Exc :=
  match closeErr with
  | some x => x
  | none => e

/-- `_send_stream_response_headers` — `_server_async.py:537-558`. -/
def AsgiCfg.startEvent (c : AsgiCfg Res) (m : Meta) : Sent :=
  .start 200 (streamHeaders c.proto c.codecName c.comp.name m) c.proto.usesTrailers

/-- `if not sent_headers: await _send_stream_response_headers(...)` — `_server_async.py:435-439`, `466-470`. -/
def AsgiCfg.ensureStart (c : AsgiCfg Res) (sent : Bool) (m : Meta) (log : List (Sent × Option Exc)) :
    List (Sent × Option Exc) × Option Exc :=
  if sent then (log, none) else c.env.send log (c.startEvent m)

/-- the flag set by the disconnect monitor, when message number `n` of the response has been produced. -/
def AsgiCfg.disconnected (c : AsgiCfg Res) (n : Nat) : Bool :=
  match c.disconnectAt with
  | some k => decide (k ≤ n)
  | none => false

/-- `_server_async.py:429-456` — `async for message in response_stream` and its `finally`; `n` messages have been sent. -/
def AsgiCfg.loop (c : AsgiCfg Res) (outcome closeErr : Option Exc) :
    List (Act Res) → HState Req → List (Sent × Option Exc) → Bool → Nat → LoopOut Req
  | [], h, log, sent, _ => ⟨h, log, sent, outcome⟩
  | .step s :: as, h, log, sent, n =>
    match h.step s with
    | (h, some e) => ⟨h, log, sent, some e⟩
    | (h, none) => c.loop outcome closeErr as h log sent n
  | .emit m :: as, h, log, sent, n =>
    if c.disconnected n then ⟨h, log, sent, some (afterClose closeErr clientDisconnected)⟩
    else
      match c.ensureStart sent h.info log with
      | (log, some e) => ⟨h, log, sent, some (afterClose closeErr e)⟩
      | (log, none) =>
        match c.writer.write m with
        | .error e => ⟨h, log, true, some (afterClose closeErr e)⟩
        | .ok b =>
          match c.env.send log (.body b true) with
          | (log, some e) => ⟨h, log, true, some (afterClose closeErr e)⟩
          | (log, none) => c.loop outcome closeErr as h log true (n + 1)

/-- the events of `_server_async.py:471-491`. -/
def asgiEnd : EndOut → List Sent
  | .body b => [.body b false]
  | .trailers h => [.body [] false, .trailers h.allitems false]

/-- the variable `error` after the outer `except` clauses — `_server_async.py:457-464`: after `CancelledError` it is still
`None`. -/
def asgiError : Option Exc → Option Exc
  | some .cancelled => none
  | e => e

/-- the exception those clauses raise — `_server_async.py:457-464`. -/
def asgiRaised : Option Exc → Option Exc
  | some .cancelled => some (.mk .canceled (pys! "Request was cancelled"))
  | some (.connect _) => none
  | e => e

/-- the outer `except` clauses and `finally` — `_server_async.py:457-493`. -/
def AsgiCfg.finish (c : AsgiCfg Res) (calls : List (Called Req)) (l : LoopOut Req) : AsgiOut Req :=
  match c.writer.end' c.proto c.sc l.h.info.trailers ((asgiError l.exc).map ConnectErr.fromException) with
  | .error x => { calls, received := l.h.got, sends := l.log, escaped := some x }
  | .ok out =>
    match c.ensureStart l.sentHeaders l.h.info l.log with
    | (log, some x) => { calls, received := l.h.got, sends := log, escaped := some x }
    | (log, none) =>
      match c.env.sendAll log (asgiEnd out) with
      | (log, some x) => { calls, received := l.h.got, sends := log, escaped := some x }
      | (log, none) => { calls, received := l.h.got, sends := log, escaped := asgiRaised l.exc }

/-- `_server_async.py:368-493` `_handle_stream`. -/
def App.asgiStream (app : App Req Res) (sc : StatusCodec) (env : Env) (key : Str) (p : Proto) (headers : Headers)
    (codec : ServerCodec Req Res) (ctx : RequestContext) (handler : Handler Req Res) : AsgiOut Req :=
  let comps := p.negotiateStreamCompression headers app.comps
  let cfg : AsgiCfg Res :=
    { proto := p, sc, codecName := codec.name, comp := comps.2, writer := ⟨codec.res, some comps.2⟩, env
      disconnectAt := match handler with
        | .serverStream _ => env.disconnectAt
        | _ => none }
  match comps.1 with
  | none => cfg.finish [] ⟨.init ⟨[], none⟩, [], false, some unrecognizedCompression⟩
  | some reqComp =>
    match handler.start (app.asgiRequests env codec reqComp) ctx with
    | .error e => cfg.finish [] ⟨.init ⟨[], none⟩, [], false, some e⟩
    | .ok (req, h, script) =>
      cfg.finish [⟨key, ctx, req⟩] (cfg.loop script.outcome script.closeErr script.acts h [] false 0)

/-- `_server_async.py:179-186` — the endpoint for the request: its path in the table, and the endpoint. -/
def App.asgiLookup (app : App Req Res) (scope : Scope) : Except Exc (Str × Endpoint Req Res) :=
  match app.endpoints.get? scope.path with
  | some ep => .ok (scope.path, ep)
  | none =>
    if scope.rootPath.isEmpty then .error notFound
    else
      let path := removePrefix scope.rootPath scope.path
      match app.endpoints.get? path with
      | some ep => .ok (path, ep)
      | none => .error notFound

/-- `_server_async.py:195-199` -/
def asgiNoTrailers (contentType : Str) : Exc :=
  .other .runtimeError (pys! "ASGI server does not support ASGI trailers extension but protocol for content-type '" ++
    contentType ++ pys! "' requires trailers")

/-- `_server_async.py:207-215` — the query parameters and the codec name. -/
def asgiCodecName (p : Proto) (scope : Scope) (contentType : Str) (isUnary : Bool) :
    Except Exc (Dict Str (List Str) × Str) :=
  if scope.method = pys! "GET" then
    match utf8Decode scope.query with
    | none => .error (.other .unicodeError (pys! "'utf-8' codec can't decode"))
    | some q =>
      let params := parseQs q
      .ok (params, match firstParam params (pys! "encoding") with
        | some v => v
        | none => [])
  else .ok ([], p.codecNameFromContentType contentType (!isUnary))

/-- `_server_async.py:178-203` — the first part of `__call__`: everything up to the request context. -/
def App.asgiRoute (app : App Req Res) (scope : Scope) : Except Exc (Route Req Res) :=
  match app.asgiLookup scope with
  | .error e => .error e
  | .ok (key, ep) =>
    let scheme := match scope.scheme with
      | some s => s
      | none => pys! "http"
    match asgiHeaders scope.headers Headers.empty with
    | .error e => .error e
    | .ok headers =>
      let client := scope.client.map fun ca => ca.1 ++ pys! ":" ++ ca.2
      let contentType := headers.getD (pys! "content-type") []
      let p := negotiateServerProtocol contentType
      if p.usesTrailers ∧ ¬ scope.trailers then .error (asgiNoTrailers contentType)
      else
        match p.serverContext ep.method scope.method scheme headers client with
        | .error e => .error e
        | .ok ctx => .ok { key, ep, httpMethod := scope.method, headers, proto := p, ctx }

/-- `_server_async.py:205-221` — the query parameters and the codec. -/
def App.asgiCodec (app : App Req Res) (scope : Scope) (r : Route Req Res) :
    Except Exc (Dict Str (List Str) × ServerCodec Req Res) :=
  match asgiCodecName r.proto scope (r.headers.getD (pys! "content-type") []) r.ep.handler.isUnary with
  | .error e => .error e
  | .ok (params, name) =>
    match app.codecs.get? name with
    | none => .error (unsupportedMedia (pys! "application/json, application/proto"))
    | some codec => .ok (params, codec)

/-- `_server_async.py:177-243` `__call__` for an HTTP request, the endpoints being resolved. -/
def App.asgi (app : App Req Res) (sc : StatusCodec) (scope : Scope) (env : Env) : AsgiOut Req :=
  match app.asgiRoute scope with
  | .error e => asgiFail env [] [] e none
  | .ok r =>
    match app.asgiCodec scope r with
    | .error e => asgiFail env [] [] e (some .empty)
    | .ok (params, codec) =>
      match r.ep.handler, r.proto with
      | .unary f, .connect => app.asgiUnary env r.key r.httpMethod r.headers codec params r.ctx f
      | handler, p => app.asgiStream sc env r.key p r.headers codec r.ctx handler

end

end Conn
