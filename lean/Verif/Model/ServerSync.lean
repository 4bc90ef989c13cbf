import Verif.Model.Server
import Verif.Py.Url
/-
Model of the WSGI server: `src/connectrpc/_server_sync.py`.
-/
namespace Conn
open Py

/-- A WSGI request: the string variables of `environ`, `wsgi.input` as the pieces in which the application server hands out the
body (a read returns at most the rest of one piece: short reads happen at arbitrary points), and whether
`wsgi.ext.http.send_trailers` is there.  Reading and sending trailers do not raise. -/
structure Environ where
  vars : Dict Str Str
  input : List Bytes
  sendTrailers : Bool

/-- `environ[k]` — `KeyError`. -/
def Environ.item (env : Environ) (k : Str) : Except Exc Str :=
  match env.vars.get? k with
  | some v => .ok v
  | none => .error (.other .keyError k)

/-- `key[5:].replace("_", "-")` — `_server_sync.py:82`. -/
def wsgiHeaderName (key : Str) : Str := (key.drop 5).map fun c => if c = '_' then '-' else c

/-- `_server_sync.py:73-84` `_process_headers`. -/
def wsgiHeaders (vars : Dict Str Str) : Headers :=
  let h := Headers.empty
  let h := match vars.get? (pys! "CONTENT_TYPE") with
    | some v => h.setItem (pys! "content-type") v
    | none => h
  let h := match vars.get? (pys! "CONTENT_LENGTH") with
    | some v => h.setItem (pys! "content-length") v
    | none => h
  vars.foldl (fun h p => if startsWith (pys! "HTTP_") p.1 then h.setItem (wsgiHeaderName p.1) p.2 else h) h

/-- `input_stream.read(n)`: at most `n` bytes of the next piece; `b""` at the end. -/
def readInput (n : Nat) : List Bytes → Bytes × List Bytes
  | [] => ([], [])
  | s :: r => if s.length ≤ n then (s, r) else (s.take n, s.drop n :: r)

theorem readInput_length (n : Nat) (segs : List Bytes) : (readInput n segs).1.length ≤ n := by
  unfold readInput
  split
  · simp
  · split <;> simp <;> omega

/-- the loop of `_server_sync.py:122-128`: the chunks read. -/
def readRest (todo : Nat) (segs : List Bytes) : Bytes :=
  if _h : todo = 0 then []
  else
    if h' : (readInput todo segs).1 = [] then []
    else (readInput todo segs).1 ++ readRest (todo - (readInput todo segs).1.length) (readInput todo segs).2
termination_by todo
decreasing_by
  have : 0 < (readInput todo segs).1.length := List.length_pos_iff.mpr h'
  omega

/-- "request truncated, expected …" — `_server_sync.py:130-133`. -/
def truncated (want got : Nat) : Exc :=
  .mk .invalidArgument (pys! "request truncated, expected " ++ natDigits want ++ pys! " bytes but only received " ++
    natDigits got ++ pys! " bytes")

/-- `_server_sync.py:109-134` `_read_body_with_content_length`. -/
def readBodyWithLength (segs : List Bytes) (n : Nat) : Except Exc Bytes :=
  let r := readInput n segs
  if r.1.length = n then .ok r.1
  else
    let all := r.1 ++ readRest (n - r.1.length) r.2
    if all.length < n then .error (truncated n all.length) else .ok all

/-- `_server_sync.py:137-143` `_read_body`, iterated to the end: the chunks. `fuel` bounds the number of reads (each returns at
least one byte). -/
def readBodyAux : Nat → List Bytes → List Bytes
  | 0, _ => []
  | fuel + 1, segs =>
    let r := readInput 4096 segs
    if r.1.isEmpty then [] else r.1 :: readBodyAux fuel r.2

def readBody (segs : List Bytes) : List Bytes := readBodyAux (segs.flatten.length + 1) segs

/-- What the application does, seen from the application server: `start_response` calls, trailers sent, and the items of the
returned iterable. -/
inductive WEvent where
  | start (status : Nat) (headers : List (Str × Str))
  | trailers (fields : List (Str × Str))
  | chunk (b : Bytes)
deriving DecidableEq, Repr

/-- A request served to its end: the calls of endpoint functions, the messages the function received from the request stream, the events, and the exception
that reached the application server. -/
structure WsgiOut (Req : Type) where
  calls : List (Called Req)
  received : List Req
  events : List WEvent
  escaped : Option Exc
  /-- the exceptions written to `wsgi.errors` -/
  logged : List Exc := []

/-- `_maybe_log_exception` — `_server_sync.py:664-670`: what is written to `wsgi.errors`. Simplification: the exception instead of its traceback. -/
def maybeLog (e : Exc) : List Exc :=
  match e with
  | .connect _ => []
  | .http _ _ => []
  | e => [e]

/-- `_server_sync.py:508-530` `_handle_error`, with the logging before it (`_server_sync.py:243`). -/
def wsgiError {Req : Type} (calls : List (Called Req)) (e : Exc) (ctx : Option Meta) : WsgiOut Req :=
  let r := errorResponse (pys! "Content-Type") e ctx
  { calls, received := [], events := .start r.1 r.2.1 :: r.2.2.map .chunk, escaped := none, logged := maybeLog e }

/-- the `except Exception` clause of `__call__` — `_server_sync.py:241-244`. -/
def wsgiFail {Req : Type} (calls : List (Called Req)) (e : Exc) (ctx : Option Meta) : WsgiOut Req :=
  if e.isException then wsgiError calls e ctx else { calls, received := [], events := [], escaped := some e }

/-- `_server_sync.py:345-351`, `406-409` — other exceptions become INTERNAL. -/
def internalUnlessConnect (e : Exc) : Exc :=
  match e with
  | .connect c => .connect c
  | e => wrapExc .internal [] e

section
variable {Req Res : Type}

/-- `_server_sync.py:305-310` — the raw body. -/
def wsgiRawBody (env : Environ) : Except Exc Bytes :=
  let len : Except Exc Int := match env.vars.get? (pys! "CONTENT_LENGTH") with
    | none => .ok 0
    | some s =>
      if s.isEmpty then .ok 0
      else match parseInt s with
        | some n => .ok n
        | none => .error (.other .valueError (pys! "invalid literal for int() with base 10: '" ++ s ++ pys! "'"))
  match len with
  | .error e => .error e
  | .ok n => if n > 0 then readBodyWithLength env.input n.toNat else .ok (readBody env.input).flatten

/-- `_server_sync.py:312-327` — decompression. -/
def App.wsgiDecompress (app : App Req Res) (env : Environ) (body : Bytes) : Except Exc Bytes :=
  let name := lower (match env.vars.get? (pys! "HTTP_CONTENT_ENCODING") with
    | some v => v
    | none => pys! "identity")
  if name = pys! "identity" then .ok body
  else match app.comps.get? name with
    | none => .error (unknownCompression name app.comps)
    | some c => match c.decompress body with
      | .ok b => .ok b
      | .error e => .error (wrapExc .invalidArgument (pys! "Failed to decompress request body: ") e)

/-- `_server_sync.py:304-343` — from the body to the message (inside the `try`). -/
def App.wsgiPostBody (app : App Req Res) (env : Environ) (codec : ServerCodec Req Res) : Except Exc Req :=
  match wsgiRawBody env with
  | .error e => .error e
  | .ok raw =>
    match app.wsgiDecompress env raw with
    | .error e => .error e
    | .ok body =>
      match checkSize app.readMax body with
      | .error e => .error e
      | .ok _ => match codec.req.decode body with
        | .ok m => .ok m
        | .error e => .error (wrapExc .invalidArgument (pys! "Failed to decode request body: ") e)

/-- `_server_sync.py:286-351` `_handle_post_request`. -/
def App.wsgiPost (app : App Req Res) (env : Environ) (headers : Headers) : Except Exc (Req × ServerCodec Req Res) :=
  match app.codecs.get? (connectCodecName (headers.getD (pys! "content-type") []) false) with
  | none => .error (unsupportedMedia (pys! "application/json, application/proto"))
  | some codec =>
    match app.wsgiPostBody env codec with
    | .ok m => .ok (m, codec)
    | .error e => .error (internalUnlessConnect e)

/-- `_server_sync.py:361-377` — the message parameter as bytes. The text of the base64 module's exception is left out. -/
def wsgiGetMessage (params : Dict Str (List Str)) : Except Exc Bytes :=
  match firstParam params (pys! "message") with
  | none => .error messageRequired
  | some message =>
    if firstParam params (pys! "base64") = some (pys! "1") then
      match urlsafeB64decode (message ++ pys! "===") with
      | some b => .ok b
      | none => .error (.mk .invalidArgument (pys! "Invalid base64 encoding: "))
    else .ok (utf8Encode message)

/-- `_server_sync.py:357-404` — inside the `try`. -/
def App.wsgiGetBody (app : App Req Res) (params : Dict Str (List Str)) : Except Exc (Req × ServerCodec Req Res) :=
  match wsgiGetMessage params with
  | .error e => .error e
  | .ok raw =>
    let data : Except Exc Bytes := match firstParam params (pys! "compression") with
      | none => .ok raw
      | some name => match app.comps.get? name with
        | none => .error (unknownCompression name app.comps)
        | some c => c.decompress raw
    match data with
    | .error e => .error e
    | .ok data =>
      let name := match firstParam params (pys! "encoding") with
        | some v => v
        | none => []
      match app.codecs.get? name with
      | none => .error (.mk .unimplemented (pys! "invalid message encoding: '" ++ name ++ pys! "'"))
      | some codec => match codec.req.decode data with
        | .ok m => .ok (m, codec)
        | .error e => .error (wrapExc .invalidArgument (pys! "Failed to decode message: ") e)

/-- `_server_sync.py:353-409` `_handle_get_request`. -/
def App.wsgiGet (app : App Req Res) (env : Environ) : Except Exc (Req × ServerCodec Req Res) :=
  let query := match env.vars.get? (pys! "QUERY_STRING") with
    | some q => q
    | none => []
  match app.wsgiGetBody (parseQs query) with
  | .ok r => .ok r
  | .error e => .error (internalUnlessConnect e)

/-- the headers of a unary response — `_server_sync.py:266-281` with `prepare_response_headers` `87-106`. -/
def wsgiUnaryHeaders (codecName compName : Str) (m : Meta) : List (Str × Str) :=
  [(pys! "content-type", pys! "application/" ++ codecName), (pys! "content-encoding", compName),
   (pys! "vary", pys! "Accept-Encoding")] ++ m.contextHeaders

/-- `_server_sync.py:246-284` `_handle_unary` with the `except` clause of `__call__`. -/
def App.wsgiUnary (app : App Req Res) (env : Environ) (key httpMethod : Str) (headers : Headers) (ctx : RequestContext)
    (f : Req → RequestContext → Call Res) : WsgiOut Req :=
  let read := if httpMethod = pys! "GET" then app.wsgiGet env else app.wsgiPost env headers
  match read with
  | .error e => wsgiFail [] e (some .empty)
  | .ok (req, codec) =>
    let run := f req ctx
    let calls := [⟨key, ctx, some req⟩]
    match (HState.init ⟨[], none⟩ : HState Req).call run.steps run.result with
    | (h, .error e) => wsgiFail calls e (some h.info)
    | (h, .ok response) =>
      match codec.res.encode response with
      | .error e => wsgiFail calls e (some h.info)
      | .ok data =>
        let comp := negotiateCompression (headers.getD (pys! "accept-encoding") (pys! "identity")) app.comps
        { calls, received := []
          events := [.start 200 (wsgiUnaryHeaders codec.name comp.name h.info), .chunk (comp.compress data)]
          escaped := none }

/-- `_server_sync.py:533-541` `_end_response`: the events of sending the end (the chunk is the item returned). -/
def wsgiEnd : EndOut → List WEvent
  | .body b => [.chunk b]
  | .trailers h => [.trailers h.allitems, .chunk []]

/-- What stays the same while a stream is served. -/
structure StreamCfg (Req Res : Type) where
  proto : Proto
  sc : StatusCodec
  codecName : Str
  comp : Compression
  writer : EnvelopeWriter Res
  calls : List (Called Req)

/-- `_send_stream_response_headers` — `_server_sync.py:551-565`. -/
def StreamCfg.wsgiStart (c : StreamCfg Req Res) (m : Meta) : WEvent :=
  .start 200 (streamHeaders c.proto c.codecName c.comp.name m)

/-- the end of `_response_stream` — `_server_sync.py:599-605`. -/
def StreamCfg.wsgiFinish (c : StreamCfg Req Res) (h : HState Req) (events : List WEvent) (error : Option Exc) :
    WsgiOut Req :=
  match c.writer.end' c.proto c.sc h.info.trailers (error.map ConnectErr.fromException) with
  | .error e => { calls := c.calls, received := h.got, events, escaped := some e }
  | .ok out => { calls := c.calls, received := h.got, events := events ++ wsgiEnd out, escaped := none }

/-- the `except Exception` clause of `_response_stream` — `_server_sync.py:595-597`. -/
def StreamCfg.wsgiCaught (c : StreamCfg Req Res) (h : HState Req) (events : List WEvent) (e : Exc) : WsgiOut Req :=
  if e.isException then c.wsgiFinish h events (some e)
  else { calls := c.calls, received := h.got, events, escaped := some e }

/-- `_server_sync.py:580-605` `_response_stream` after the headers, on the rest of the handler's run; `events` have happened
before. -/
def StreamCfg.wsgiBody (c : StreamCfg Req Res) (outcome : Option Exc) :
    List (Act Res) → HState Req → List WEvent → WsgiOut Req
  | [], h, events => match outcome with
    | none => c.wsgiFinish h events none
    | some e => c.wsgiCaught h events e
  | .step s :: as, h, events => match h.step s with
    | (h, some e) => c.wsgiCaught h events e
    | (h, none) => c.wsgiBody outcome as h events
  | .emit m :: as, h, events => match c.writer.write m with
    | .error e => c.wsgiCaught h events e
    | .ok b => c.wsgiBody outcome as h (events ++ [.chunk b])

/-- the `except Exception` clause of `_handle_stream` — `_server_sync.py:490-506`: a full error-only response; `before` are the
events before the exception. -/
def StreamCfg.wsgiErrorOnly (c : StreamCfg Req Res) (h : HState Req) (before : List WEvent) (e : Exc) : WsgiOut Req :=
  if e.isException then
    match c.writer.end' c.proto c.sc h.info.trailers (some (ConnectErr.fromException e)) with
    | .ok out => { calls := c.calls, received := h.got, events := before ++ c.wsgiStart h.info :: wsgiEnd out, escaped := none, logged := maybeLog e }
    | .error x =>
      -- the exception leaves `_handle_stream` and reaches the `except` clause of `__call__` (lines 241-244)
      let r := errorResponse (pys! "Content-Type") x (some h.info)
      if x.isException then
        { calls := c.calls, received := h.got
          events := before ++ c.wsgiStart h.info :: .start r.1 r.2.1 :: r.2.2.map .chunk, escaped := none
          logged := maybeLog e ++ maybeLog x }
      else { calls := c.calls, received := h.got, events := before ++ [c.wsgiStart h.info], escaped := some x, logged := maybeLog e }
  else { calls := c.calls, received := h.got, events := before, escaped := some e }

/-- `_server_sync.py:466-489` — up to the first message, then `_response_stream`. -/
def StreamCfg.wsgiFirst (c : StreamCfg Req Res) (outcome : Option Exc) : List (Act Res) → HState Req → WsgiOut Req
  | [], h => match outcome with
    | some e => c.wsgiErrorOnly h [] e
    | none =>
      -- no message: lines 470-480
      match c.writer.end' c.proto c.sc h.info.trailers none with
      | .ok out => { calls := c.calls, received := h.got, events := c.wsgiStart h.info :: wsgiEnd out, escaped := none }
      | .error e => c.wsgiErrorOnly h [c.wsgiStart h.info] e
  | .step s :: as, h => match h.step s with
    | (h, some e) => c.wsgiErrorOnly h [] e
    | (h, none) => c.wsgiFirst outcome as h
  | .emit m :: as, h => c.wsgiBody outcome (.emit m :: as) h [c.wsgiStart h.info]

/-- `_server_sync.py:568-577` `_request_stream`: the messages and the exception after them. -/
def App.wsgiRequests (app : App Req Res) (env : Environ) (codec : ServerCodec Req Res) (comp : Compression) :
    ReqStream Req :=
  let r := feedAll (app.reader codec comp) (ReaderState.init ()) (readBody env.input)
  ⟨r.1, match r.2.1 with
    | .raised e => some e
    | .done => none⟩

/-- `_server_sync.py:411-506` `_handle_stream` with the `except` clause of `__call__`. -/
def App.wsgiStream (app : App Req Res) (sc : StatusCodec) (env : Environ) (key : Str) (p : Proto) (headers : Headers)
    (ctx : RequestContext) (handler : Handler Req Res) : WsgiOut Req :=
  let comps := p.negotiateStreamCompression headers app.comps
  match app.codecs.get? (p.codecNameFromContentType (headers.getD (pys! "content-type") []) true) with
  | none => wsgiFail [] (unsupportedMedia (pys! "application/connect+json, application/connect+proto")) (some .empty)
  | some codec =>
    let cfg : StreamCfg Req Res :=
      { proto := p, sc, codecName := codec.name, comp := comps.2, writer := ⟨codec.res, some comps.2⟩, calls := [] }
    match comps.1 with
    | none => cfg.wsgiErrorOnly (.init ⟨[], none⟩) [] unrecognizedCompression
    | some reqComp =>
      match handler.start (app.wsgiRequests env codec reqComp) ctx with
      | .error e => cfg.wsgiErrorOnly (.init ⟨[], none⟩) [] e
      | .ok (req, h, script) => { cfg with calls := [⟨key, ctx, req⟩] }.wsgiFirst script.outcome script.acts h

/-- `_server_sync.py:197-207` — the endpoint for the request: its path in the table, and the endpoint. -/
def App.wsgiLookup (app : App Req Res) (env : Environ) : Except Exc (Str × Endpoint Req Res) :=
  match env.item (pys! "PATH_INFO") with
  | .error e => .error e
  | .ok path =>
    let path := if path.isEmpty then pys! "/" else path
    match app.endpoints.get? path with
    | some ep => .ok (path, ep)
    | none =>
      match env.item (pys! "SCRIPT_NAME") with
      | .error e => .error e
      | .ok script =>
        if script = app.path then
          match app.endpoints.get? (app.path ++ path) with
          | some ep => .ok (app.path ++ path, ep)
          | none => .error notFound
        else .error notFound

/-- `_server_sync.py:212-216` — the client address. -/
def wsgiClient (vars : Dict Str Str) : Option Str :=
  match vars.get? (pys! "REMOTE_ADDR") with
  | none => none
  | some ra =>
    if ra.isEmpty then none
    else some (ra ++ pys! ":" ++ match vars.get? (pys! "REMOTE_PORT") with
      | some p => p
      | none => pys! "0")

/-- `_server_sync.py:222-226` -/
def wsgiNoTrailers (contentType : Str) : Exc :=
  .other .runtimeError (pys! "WSGI server does not support WSGI trailers extension but protocol for content-type '" ++
    contentType ++ pys! "' requires trailers")

/-- `_server_sync.py:196-229` — the first part of `__call__`: everything before the request body. -/
def App.wsgiRoute (app : App Req Res) (env : Environ) : Except Exc (Route Req Res) :=
  match app.wsgiLookup env with
  | .error e => .error e
  | .ok (key, ep) =>
    match env.item (pys! "REQUEST_METHOD") with
    | .error e => .error e
    | .ok httpMethod =>
      let scheme := match env.vars.get? (pys! "wsgi.url_scheme") with
        | some s => s
        | none => pys! "http"
      let headers := wsgiHeaders env.vars
      let contentType := headers.getD (pys! "content-type") []
      let p := negotiateServerProtocol contentType
      if p.usesTrailers ∧ ¬ env.sendTrailers then .error (wsgiNoTrailers contentType)
      else
        match p.serverContext ep.method httpMethod scheme headers (wsgiClient env.vars) with
        | .error e => .error e
        | .ok ctx => .ok { key, ep, httpMethod, headers, proto := p, ctx }

/-- `_server_sync.py:192-244` `__call__`, and the returned iterable iterated to its end. -/
def App.wsgi (app : App Req Res) (sc : StatusCodec) (env : Environ) : WsgiOut Req :=
  match app.wsgiRoute env with
  | .error e => wsgiFail [] e none
  | .ok r =>
    match r.ep.handler, r.proto with
    | .unary f, .connect => app.wsgiUnary env r.key r.httpMethod r.headers r.ctx f
    | handler, p => app.wsgiStream sc env r.key p r.headers r.ctx handler

end

end Conn
