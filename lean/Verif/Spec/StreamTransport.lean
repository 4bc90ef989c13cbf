import Verif.Spec.Transport
import Verif.Props.Errors
/-
Specification for the end-to-end properties of streamed calls (C58, C59): all calls by gRPC and gRPC-Web, and the streaming calls by
Connect. As in `Spec/Transport`, what HTTP does between the two sides is an assumption.
-/
namespace Spec
open Conn Py

/-! ### responses -/

/-- A streamed response of a server: status, fields, the whole body, and the trailers after it. -/
structure StreamedResponse where
  status : Nat
  fields : List (List Char × List Char)
  body : List UInt8
  trailers : List (List Char × List Char)
deriving DecidableEq, Repr

/-- The WSGI application gave exactly this response: one `start_response`, and chunks; trailers, if any, at the end. -/
def WsgiStreamGave {Req : Type} (o : WsgiOut Req) (r : StreamedResponse) : Prop :=
  o.escaped = none ∧ ∃ chunks : List (List UInt8), chunks.flatten = r.body ∧
    ((o.events = .start r.status r.fields :: chunks.map .chunk ∧ r.trailers = []) ∨
     o.events = .start r.status r.fields :: chunks.map .chunk ++ [.trailers r.trailers, .chunk []])

/-- The ASGI application sent exactly this response, and no event failed: one start, which tells whether trailers follow, body events, and
the trailers announced. -/
def AsgiStreamGave {Req : Type} (o : AsgiOut Req) (r : StreamedResponse) : Prop :=
  ∃ (chunks : List (List UInt8)) (last : List UInt8), chunks.flatten ++ last = r.body ∧
    ((o.sends = (Sent.start r.status r.fields false :: chunks.map (Sent.body · true) ++ [Sent.body last false]).map (·, none) ∧
        r.trailers = []) ∨
     o.sends = (Sent.start r.status r.fields true :: chunks.map (Sent.body · true) ++
        [Sent.body last false, Sent.trailers r.trailers false]).map (·, none))

/-- The HTTP client hands the whole response over: status, fields and trailers with names in lower case, and the body in any chunks. (A body
with a content encoding is not considered: no protocol uses one for streams.) -/
structure ReceivedStream (r : StreamedResponse) (resp : StreamResponse) : Prop where
  status : resp.status = r.status
  lower : ∀ p ∈ resp.headers, Py.lower p.1 = p.1
  field : ∀ n, Py.lower n ∉ transportNames → fieldValues resp.headers n = fieldValues r.fields n
  body : fieldValues r.fields (pys! "content-encoding") = [] → resp.chunks.flatten = r.body
  trailersLower : ∀ p ∈ resp.trailers, Py.lower p.1 = p.1
  trailer : ∀ n, Py.lower n ∉ transportNames → fieldValues resp.trailers n = fieldValues r.trailers n
  bodyErr : resp.bodyErr = none
  exitErr : resp.exitErr = none

/-! ### a client and a server that fit together -/

section
variable {Req Res : Type}

/-- Both sides look compressions up by their names, and know identity; the server undoes the compression of the requests, and the
client those of the responses it accepts. -/
structure StreamCompressions (c : Client Req Res) (app : App Req Res) : Prop where
  server : ∀ n k, Dict.get? app.comps n = some k → k.name = n
  serverIdentity : Dict.get? app.comps (pys! "identity") = some .identity
  clientIdentity : Dict.get? c.comps (pys! "identity") = some .identity
  names : ∀ n ∈ Dict.keys c.comps, PlainName n
  request : ∃ k, Dict.get? app.comps c.send.name = some k ∧
    (c.send ≠ .identity → k ≠ .identity ∧ ∀ b, k.decompress (c.send.compress b) = .ok b)
  response : ∀ n k k', Dict.get? app.comps n = some k → Dict.get? c.comps n = some k' → k ≠ .identity →
    k' ≠ .identity ∧ ∀ b, k'.decompress (k.compress b) = .ok b

/-- The timeout the request announces is one a server accepts: at most ten characters for Connect, at most eight digits for gRPC
(see C09). (Without a timeout, the caller sets no timeout header of their own.) -/
def StreamTimeoutFits (c : Client Req Res) (user : UserHeaders) (t : Option Int) : Prop :=
  match c.proto with
  | .connect => TimeoutFits c user t
  | .grpc | .grpcWeb => match callTimeout t c.timeoutMs with
    | some ms => ms < 360000000000000
    | none => given user (pys! "grpc-timeout") = []

/-- A streamed call that a client and a server agree on: the codec, the compressions, the path; by Connect not a unary method; messages
that can be encoded, sent in an envelope, and are within the server's limit; a timeout the server accepts. -/
structure StreamCall (c : Client Req Res) (app : App Req Res) (codec : ServerCodec Req Res) (m ms : MethodInfo)
    (handler : Handler Req Res) (reqs : List Req) (user : UserHeaders) (t : Option Int) : Prop where
  codec : SameCodec c app codec
  comps : StreamCompressions c app
  path : PlainPath (methodPath m)
  endpoint : Dict.get? app.endpoints (methodPath m) = some ⟨ms, handler⟩
  kind : c.proto = .connect → handler.isUnary = false
  messages : ∀ r ∈ reqs, ∃ data, c.codec.encode r = .ok data ∧ (c.send.compress data).length < 2 ^ 32 ∧ WithinLimit app data
  timeout : StreamTimeoutFits c user t

/-! ### what the handler is told -/

/-- The timeout told to the handler, when the caller meant `meant`: by Connect exactly that; in the notation of gRPC never more than that,
exactly that below 10⁸ ms (more than a day), and 0 if it has passed already. -/
def StreamTimeoutTold : Proto → Option Int → Option Int → Prop
  | .connect, meant, told => told = meant
  | .grpc, meant, told | .grpcWeb, meant, told => match meant with
    | none => told = none
    | some ms => ∃ ms', told = some ms' ∧ (ms ≤ 0 → ms' = 0) ∧ (0 ≤ ms → 0 ≤ ms' ∧ ms' ≤ ms) ∧ (0 ≤ ms → ms < 100000000 → ms' = ms)

/-! ### the runs considered, and what the caller gets -/

/-- The size of the message that ends the body of a response (before compression). -/
def endSize (p : Proto) (sc : StatusCodec) (trailers : Headers) (e : Option ConnectErr) : Nat :=
  match p with
  | .connect => (utf8Encode (dumps (connectEndJson trailers e))).length
  | .grpc => 0
  | .grpcWeb => (utf8Encode (trailerBlock (grpcTrailers sc trailers e).allitems)).length

/-- The runs of handlers considered, with the headers `hs` at the first message, the messages `ms`, the trailers at the end and the
outcome `e`: exceptions are ordinary; the headers set no content encoding; the caller's limit is respected; the end of the response
can be written. By Connect, details have well-formed debug renderings. By gRPC and gRPC-Web, the error can be written in protobuf, and the
trailers do not use those names of the protocol that it leaves unused (see C21); by gRPC-Web they are legal HTTP fields (see C21). -/
structure RegularStream (c : Client Req Res) (codec : ServerCodec Req Res) (sc : StatusCodec) (comp : Compression) (hs : Headers)
    (ms : List Res) (trailers : Headers) (e : Option Exc) : Prop where
  caught : Caught e
  built : Props.Built trailers
  encoding : fieldValues hs.allitems (pys! "content-encoding") = []
  limit : ∀ n, c.readMax = some n → (∀ m ∈ ms, ∀ d, codec.res.encode m = .ok d → (d.length : Int) ≤ n) ∧
    (endSize c.proto sc trailers (e.map errorOf) : Int) ≤ n
  ends : ∃ out, EndsWith (writerOf codec comp) c.proto sc trailers e out
  debug : c.proto = .connect → ∀ x, e = some x → DebugOk (errorOf x)
  status : c.proto ≠ .connect → sc.Lawful
  error : c.proto ≠ .connect → ∀ x, e = some x → FitsProtobuf (errorOf x) ∧
    ((errorOf x).details = [] → trailers.getall (pys! "grpc-status-details-bin") = [] ∧
      ((errorOf x).message = [] → trailers.getall (pys! "grpc-message") = []))
  legal : c.proto = .grpcWeb → LegalFields trailers.allitems

/-- The deadline has not passed and the task is not cancelled before the response is read. -/
def Calm (cs : Circumstances) : Prop := cs.expiredAtEnd = false ∧ cs.cancelAfter = none

/-- Header names that are the handler's own on streamed responses. -/
def StreamOwnName (p : Proto) (n : List Char) : Prop :=
  lower n ∉ transportNames ∧ lower n ≠ pys! "content-type" ∧ lower n ≠ encodingHeader p ∧ ¬ pys! "trailer-" <+: lower n

/-- Trailer names that are the handler's own. -/
def StreamOwnTrailer (p : Proto) (n : List Char) : Prop :=
  match p with
  | .connect => True
  | .grpc => lower n ∉ grpcReserved ∧ lower n ∉ transportNames
  | .grpcWeb => lower n ∉ grpcReserved

/-- The metadata object of the caller tells the headers the handler had set at its first message, and the trailers it had set at
its end, with all values in order. (A header whose name begins with `trailer-` cannot be told from a trailer.) -/
def StreamTold (p : Proto) (headers trailers : Headers) (r : RespMeta) : Prop :=
  (∀ n, StreamOwnName p n → r.getHeaders.getall n = fieldValues headers.allitems n) ∧
  ((∀ q ∈ headers.allitems, ¬ pys! "trailer-" <+: lower q.1) →
    ∀ n, StreamOwnTrailer p n → r.getTrailers.getall n = fieldValues trailers.allitems n)

/-- What the caller of a streaming call gets: exactly the messages, then the outcome; and the metadata. -/
structure StreamGets (p : Proto) (sink : Sink) (headers : Headers) (ms : List Res) (trailers : Headers) (e : Option Exc)
    (res : StreamResult Res) : Prop where
  messages : res.messages = ms
  outcome : Seen (e.map errorOf) res.exc
  metadata : sink = some RespMeta.new → ∃ rm, res.sink = some rm ∧ StreamTold p headers trailers rm

/-- What the caller of a call with one response gets, when the run of the handler was `run`: its response (of less than 4 GiB), or its
error; and the metadata. -/
structure SingleGets (p : Proto) (codec : ServerCodec Req Res) (comp : Compression) (sink : Sink) (run : Call Res) (headers trailers : Headers)
    (res : Sink × Except Exc Res) : Prop where
  result : (∀ r b, run.result = .ok r → codec.res.encode r = .ok b → (comp.compress b).length < 2 ^ 32) → Gets codec run res.2
  metadata : sink = some RespMeta.new → ∃ rm, res.1 = some rm ∧ StreamTold p headers trailers rm

/-! ### calls from one end to the other -/

/-- The compression of the responses: negotiated from what the client accepts (see C24). -/
abbrev responseComp (c : Client Req Res) (app : App Req Res) : Compression := negotiateCompression c.acceptHeader app.comps

/-- The handler is told the headers and the timeout of the call. -/
structure TheCall (c : Client Req Res) (ms : MethodInfo) (user : UserHeaders) (t : Option Int) (seen : List (List Char) → List (List Char))
    (scheme : List Char) (headers : Headers) (peer : Option (List Char)) (ctx : RequestContext) : Prop where
  context : CtxIs ctx ms (pys! "POST") scheme headers peer
  passes : Passes user seen headers
  timeout : ∃ meant, TimeoutTold t c.timeoutMs meant ∧ StreamTimeoutTold c.proto meant ctx.timeoutMs

/-- The call sends one request, to the path of its method. The WSGI application (for gRPC: on a server with trailers) runs the handler once,
on exactly the messages `reqs`, and when the response comes back, `gets` describes what the caller gets. -/
def ServedByWsgi (c : Client Req Res) (app : App Req Res) (codec : ServerCodec Req Res) (m ms : MethodInfo) (handler : Handler Req Res)
    (reqs : List Req) (user : UserHeaders) (t : Option Int) (sc : StatusCodec) {α : Type} (call : HttpClient → α)
    (gets : RequestContext → Headers → List Res → Headers → Option Exc → α → Prop) : Prop :=
  ∃ rq, Addressed c.address rq (methodPath m) ∧ SendsOnly (· = rq) call ∧
  ∀ env, WsgiSees c.address rq env → (c.proto = .grpc → env.sendTrailers = true) →
  ∃ ctx, TheCall c ms user t joined (wsgiScheme env.vars) (wsgiHeaders env.vars) (wsgiClient env.vars) ctx ∧
  ∀ req h0 script, Starts ⟨reqs, none⟩ ctx handler req h0 script →
  ∀ i out h' e, Runs (writerOf codec (responseComp c app)).write none h0 script.acts script.outcome i out h' e →
  RegularStream c codec sc (responseComp c app) i.headers out h'.info.trailers e →
  (app.wsgi sc env).calls = [⟨methodPath m, ctx, req⟩] ∧ (app.wsgi sc env).received = h'.got ∧
  ∃ r, WsgiStreamGave (app.wsgi sc env) r ∧
  ∀ resp, ReceivedStream r resp → ∀ http : HttpClient, http.stream rq = .ok resp →
    gets ctx i.headers out h'.info.trailers e (call http)

/-- The same for the ASGI application: on a server that does not fail or cancel the task, while the client stays connected. -/
def ServedByAsgi (c : Client Req Res) (app : App Req Res) (codec : ServerCodec Req Res) (m ms : MethodInfo) (handler : Handler Req Res)
    (reqs : List Req) (user : UserHeaders) (t : Option Int) (sc : StatusCodec) {α : Type} (call : HttpClient → α)
    (gets : RequestContext → Headers → List Res → Headers → Option Exc → α → Prop) : Prop :=
  ∃ rq, Addressed c.address rq (methodPath m) ∧ SendsOnly (· = rq) call ∧
  ∀ scope env, AsgiSees c.address rq scope env → (c.proto = .grpc → scope.trailers = true) → Reliable env → env.cancelAfter = none →
    env.disconnectAt = none → (scope.rootPath = [] ∨ Dict.get? app.endpoints (scope.rootPath ++ methodPath m) = none) →
  ∃ ctx headers, asgiHeaders scope.headers Headers.empty = .ok headers ∧
  TheCall c ms user t id (asgiScheme scope) headers (scope.client.map fun ca => ca.1 ++ [':'] ++ ca.2) ctx ∧
  ∀ req h0 script, Starts ⟨reqs, none⟩ ctx handler req h0 script →
  ∀ i out h' e, Runs (writerOf codec (responseComp c app)).write script.closeErr h0 script.acts script.outcome i out h' e →
  RegularStream c codec sc (responseComp c app) i.headers out h'.info.trailers e →
  (app.asgi sc scope env).calls = [⟨methodPath m, ctx, req⟩] ∧ (app.asgi sc scope env).received = h'.got ∧
  ∃ r, AsgiStreamGave (app.asgi sc scope env) r ∧
  ∀ resp, ReceivedStream r resp → ∀ http : HttpClient, http.stream rq = .ok resp →
    gets ctx i.headers out h'.info.trailers e (call http)

end

end Spec
