import Verif.Model.EndStream
/-
Model of what the two servers share: endpoints (`_server_shared.py`), handlers, and the pieces of `_server_sync.py` and
`_server_async.py` that are line by line the same.

Handlers are arbitrary programs.  A handler is represented by what it does in one run, as a function of everything it can
observe (the request messages, how the request stream ends, the request context): a finite list of actions, and how it ends.
Every terminating run of a real handler is such a list, also when the handler decides on its next action from what
it has received so far.
-/
namespace Conn
open Py

/-- `ctx.response_headers`, `ctx.response_trailers` — `request.py:97-131`. -/
structure Meta where
  headers : Headers
  trailers : Headers
deriving DecidableEq, Repr, Inhabited

/-- A fresh context has neither — `request.py:97-131`. -/
def Meta.empty : Meta := ⟨Headers.empty, Headers.empty⟩

/-- One action of a handler: asking the request stream for its next message (`caught`: the handler catches an exception
that raises), or changing the response metadata in any way. -/
inductive Step where
  | recv (caught : Bool)
  | update (f : Meta → Meta)

/-- An action of a handler that is a generator: a step, or `yield m`. -/
inductive Act (Res : Type) where
  | step (s : Step)
  | emit (m : Res)

/-- A run of a handler that returns one response: `result` is what it returns or raises. -/
structure Call (Res : Type) where
  steps : List Step
  result : Except Exc Res

/-- A run of a handler that is a generator: `outcome = none` when it returns; `closeErr` is what closing the generator before
its end raises. -/
structure Script (Res : Type) where
  acts : List (Act Res)
  outcome : Option Exc
  closeErr : Option Exc

/-- `iter([response])` — `_server_sync.py:456`, `459`; `_yield_single_response` — `_server_async.py:406`, `409`,
`611-612`: the call, then the response as the only message. -/
def Call.toScript {Res : Type} (c : Call Res) : Script Res :=
  match c.result with
  | .ok r => ⟨c.steps.map .step ++ [.emit r], none, none⟩
  | .error e => ⟨c.steps.map .step, some e, none⟩

/-- The request messages a handler may ask for, and the exception that follows them, if any. -/
structure ReqStream (Req : Type) where
  messages : List Req
  err : Option Exc
deriving DecidableEq, Repr, Inhabited

/-- The function of an endpoint, by kind — `_server_shared.py:59-77`, `122-138`. -/
inductive Handler (Req Res : Type) where
  | unary (f : Req → RequestContext → Call Res)
  | clientStream (f : ReqStream Req → RequestContext → Call Res)
  | serverStream (f : Req → RequestContext → Script Res)
  | bidi (f : ReqStream Req → RequestContext → Script Res)

/-- `isinstance(endpoint, EndpointUnary)`. -/
def Handler.isUnary {Req Res : Type} : Handler Req Res → Bool
  | .unary _ => true
  | _ => false

/-- `_server_shared.py` `Endpoint`, `EndpointSync`. -/
structure Endpoint (Req Res : Type) where
  method : MethodInfo
  handler : Handler Req Res

/-- A codec of the server: the one codec of the code at the request and at the response class.  The model has one
request and one response type for all endpoints of an application (sums of the message classes). -/
structure ServerCodec (Req Res : Type) where
  name : Str
  req : Codec Req
  res : Codec Res

/-- What an application object keeps — `_server_sync.py:153-190`, `_server_async.py:86-118`; interceptors are already applied
to the endpoints (`Model/Interceptor`). `path` is the service path of `ConnectWSGIApplication`. -/
structure App (Req Res : Type) where
  endpoints : Dict Str (Endpoint Req Res)
  path : Str
  readMax : Option Int
  comps : Dict Str Compression
  codecs : Dict Str (ServerCodec Req Res)

/-- `__init__` — `_server_sync.py:186-190`, `_server_async.py:115-118`. -/
def App.new {Req Res : Type} (endpoints : Dict Str (Endpoint Req Res)) (path : Str) (gzip : Compression)
    (readMax : Option Int) (compressions : Option (List Compression)) (codecs : List (ServerCodec Req Res)) : App Req Res :=
  { endpoints, path, readMax, comps := resolveCompressions gzip compressions
    codecs := Dict.ofList (codecs.map fun c => (c.name, c)) }

/-- A call of an endpoint's function: the path of the endpoint in the table, the context, and the request message if the function
takes one (not a stream). -/
structure Called (Req : Type) where
  path : Str
  ctx : RequestContext
  req : Option Req
deriving DecidableEq, Repr

/-- A request whose endpoint, protocol and context have been determined: the local variables of `__call__`. -/
structure Route (Req Res : Type) where
  key : Str
  ep : Endpoint Req Res
  httpMethod : Str
  headers : Headers
  proto : Proto
  ctx : RequestContext

/-- The state of a running handler: the rest of the request stream, the response metadata, and the messages received. -/
structure HState (Req : Type) where
  reqs : List Req
  err : Option Exc
  info : Meta
  got : List Req

/-- a handler that may read `s` -/
def HState.init {Req : Type} (s : ReqStream Req) : HState Req := ⟨s.messages, s.err, .empty, []⟩

/-- One step of a handler: the new state, and the exception it raises.  A generator that has raised is finished: asking again
gives the end of the stream. -/
def HState.step {Req : Type} (h : HState Req) : Step → HState Req × Option Exc
  | .update f => ({ h with info := f h.info }, none)
  | .recv caught =>
    match h.reqs with
    | m :: ms => ({ h with reqs := ms, got := h.got ++ [m] }, none)
    | [] =>
      match h.err with
      | none => (h, none)
      | some e => ({ h with err := none }, if caught then none else some e)

/-- A whole call of a handler that returns one response. -/
def HState.call {Req Res : Type} (h : HState Req) : List Step → Except Exc Res → HState Req × Except Exc Res
  | [], r => (h, r)
  | s :: ss, r =>
    match h.step s with
    | (h, some e) => (h, .error e)
    | (h, none) => h.call ss r

/-- "unary request has multiple messages" / "zero messages". -/
def multipleRequests : Exc := .mk .unimplemented (pys! "unary request has multiple messages")
def zeroRequests : Exc := .mk .unimplemented (pys! "unary request has zero messages")

/-- `_consume_single_request` — `_server_sync.py:608-618`, `_server_async.py:598-608`: the error is raised at the second
message, whatever follows. -/
def consumeSingleRequest {Req : Type} (s : ReqStream Req) : Except Exc Req :=
  match s.messages with
  | _ :: _ :: _ => .error multipleRequests
  | [m] => match s.err with
    | some e => .error e
    | none => .ok m
  | [] => match s.err with
    | some e => .error e
    | none => .error zeroRequests

/-- Starting the endpoint's function on the request stream — `_server_sync.py:452-464`, `_server_async.py:402-427`: the
request it is called with (`some none`: called with the stream), and its run or the exception before it is called. -/
def Handler.start {Req Res : Type} (h : Handler Req Res) (s : ReqStream Req) (ctx : RequestContext) :
    Except Exc (Option Req × HState Req × Script Res) :=
  match h with
  | .unary f => match consumeSingleRequest s with
    | .error e => .error e
    | .ok m => .ok (some m, .init ⟨[], none⟩, (f m ctx).toScript)
  | .clientStream f => .ok (none, .init s, (f s ctx).toScript)
  | .serverStream f => match consumeSingleRequest s with
    | .error e => .error e
    | .ok m => .ok (some m, .init ⟨[], none⟩, f m ctx)
  | .bidi f => .ok (none, .init s, f s ctx)

/-- `_add_context_headers` — `_server_sync.py:544-548`, `_server_async.py:622-631`; the ASGI server encodes names and values to
UTF-8 bytes, the model keeps the text. -/
def Meta.contextHeaders (m : Meta) : List (Str × Str) :=
  m.headers.allitems ++ m.trailers.allitems.map fun p => (pys! "trailer-" ++ p.1, p.2)

/-- the headers of `_send_stream_response_headers` — `_server_sync.py:558-564`, `_server_async.py:544-550`. -/
def streamHeaders (p : Proto) (codecName compName : Str) (m : Meta) : List (Str × Str) :=
  [(pys! "content-type", p.contentType codecName), (p.compressionHeaderName, compName)] ++ m.headers.allitems

/-- `HTTPException(HTTPStatus.NOT_FOUND, [])` — `_server_sync.py:207`, `_server_async.py:186`. -/
def notFound : Exc := .http 404 []

/-- `HTTPException(HTTPStatus.UNSUPPORTED_MEDIA_TYPE, [("Accept-Post", …)])` — `_server_sync.py:299-302`, `430-438`,
`_server_async.py:218-221`. -/
def unsupportedMedia (accept : Str) : Exc := .http 415 [(pys! "Accept-Post", accept)]

/-- "Unrecognized request compression" — `_server_sync.py:441-444`, `_server_async.py:387-390`. -/
def unrecognizedCompression : Exc := .mk .unimplemented (pys! "Unrecognized request compression")

/-- "unknown compression: …" — `_server_sync.py:317-320`, `384-387`, `_server_async.py:323-326`, `352-355`. -/
def unknownCompression (name : Str) (comps : Dict Str Compression) : Exc :=
  .mk .unimplemented (pys! "unknown compression: '" ++ name ++ pys! "': supported encodings are " ++
    join (pys! ", ") comps.keys)

/-- "'message' parameter is required for GET requests" — `_server_sync.py:361-365`, `_server_async.py:299-303`. -/
def messageRequired : Exc := .mk .invalidArgument (pys! "'message' parameter is required for GET requests")

/-- the reader of `_request_stream` — `_server_sync.py:575`, `_server_async.py:568`. -/
def App.reader {Req Res : Type} (app : App Req Res) (codec : ServerCodec Req Res) (comp : Compression) :
    ReaderCfg Req Unit :=
  { codec := codec.req, compression := comp, readMax := app.readMax, handleEnd := noEndHook }

/-- `params[k][0]` if `k in params`; `parse_qs` gives no empty lists. -/
def firstParam (params : Dict Str (List Str)) (k : Str) : Option Str :=
  match params.get? k with
  | some (v :: _) => some v
  | _ => none

/-- `self._read_max_bytes is not None and len(data) > self._read_max_bytes` — `_server_sync.py:329-336`,
`_server_async.py:360-364`. -/
def checkSize (readMax : Option Int) (data : Bytes) : Except Exc Unit :=
  match readMax with
  | some n => if (data.length : Int) > n then .error (tooLarge n) else .ok ()
  | none => .ok ()

/-- `except Exception as e: raise ConnectError(code, text + str(e)) from e`. -/
def wrapExc (code : Code) (text : Str) (e : Exc) : Exc :=
  if e.isException then .mk code (text ++ e.str) else e

/-- the error response — `_server_sync.py:511-530`, `_server_async.py:499-514`: status, headers, body; the names of the
content-type header are spelled differently, `ct` is the spelling. -/
def errorResponse (ct : Str) (e : Exc) (ctx : Option Meta) : Nat × List (Str × Str) × List Bytes :=
  let extra := match ctx with
    | some m => m.contextHeaders
    | none => []
  match e with
  | .http status headers => (status, headers ++ extra, [])
  | e =>
    let w := ConnectErr.fromException e
    (w.code.httpStatus.1, [(ct, pys! "application/json")] ++ extra, [w.toJsonBytes])

end Conn
