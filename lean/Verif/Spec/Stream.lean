import Verif.Spec.Server
import Verif.Spec.Envelope
/-
Specification for streamed responses (C05, C26, C28, C31–C33, C35, C36, C61): every RPC by gRPC and gRPC-Web, and the streaming
RPCs by Connect.
-/
namespace Spec
open Conn Py

/-! ### requests that are served as streams -/

/-- The protocol a content type means. -/
def Speaks : Proto → List Char → Prop
  | .connect => ConnectType
  | .grpc => GrpcType
  | .grpcWeb => GrpcWebType

/-- The protocol headers are in order. -/
def HeadersReady : Proto → Headers → Prop
  | .connect, h => ConnectHeaders h
  | .grpc, h | .grpcWeb, h => ∀ v, h.get (pys! "grpc-timeout") = some v → v = [] ∨ ∃ n, parseTimeout v = .ok n

/-- The codec name the content type of a stream stands for. -/
def StreamCodecName : Proto → List Char → List Char → Prop
  | .connect, ct, name => mediaType ct = pys! "application/connect+" ++ name ∨
      (¬ pys! "application/connect+" <+: mediaType ct ∧ mediaType ct = name)
  | .grpc, ct, name => ct = pys! "application/grpc+" ++ name ∨ (¬ pys! "application/grpc+" <+: ct ∧ name = pys! "proto")
  | .grpcWeb, ct, name =>
      ct = pys! "application/grpc-web+" ++ name ∨ (¬ pys! "application/grpc-web+" <+: ct ∧ name = pys! "proto")

/-- The header that names the compression of the request messages. -/
def encodingHeader : Proto → List Char
  | .connect => pys! "connect-content-encoding"
  | .grpc | .grpcWeb => pys! "grpc-encoding"

/-- The header that lists the compressions the client accepts. -/
def acceptHeader : Proto → List Char
  | .connect => pys! "connect-accept-encoding"
  | .grpc | .grpcWeb => pys! "grpc-accept-encoding"

section
variable {Req Res : Type}

/-- The compression of the request messages: the one named by the header, identity without a header.  By Connect a name the
server does not know is taken for identity. -/
def RequestCompression (app : App Req Res) (p : Proto) (h : Headers) (c : Compression) : Prop :=
  Dict.get? app.comps (h.getD (encodingHeader p) (pys! "identity")) = some c ∨
  (p = .connect ∧ Dict.get? app.comps (h.getD (encodingHeader p) (pys! "identity")) = none ∧ c = .identity)

/-- The compression of the response messages (see C24). -/
def ResponseCompression (app : App Req Res) (p : Proto) (h : Headers) (c : Compression) : Prop :=
  c = negotiateCompression (h.getD (acceptHeader p) []) app.comps

/-- A WSGI request that is served as a stream: its endpoint, an allowed method, the protocol with its headers in order and the
trailers it needs, and not a unary Connect RPC. -/
structure WsgiStreams (app : App Req Res) (env : Environ) (key : List Char) (ep : Endpoint Req Res) (p : Proto) : Prop where
  target : WsgiTarget app env key ep
  method : ∃ hm, Dict.get? env.vars (pys! "REQUEST_METHOD") = some hm ∧
    MayRun ep.method ((wsgiHeaders env.vars).getD (pys! "content-type") []) hm
  proto : Speaks p ((wsgiHeaders env.vars).getD (pys! "content-type") [])
  trailers : p = .grpc → env.sendTrailers = true
  ready : HeadersReady p (wsgiHeaders env.vars)
  kind : p = .connect → ep.handler.isUnary = false

/-- … with a codec the server knows, and these compressions. -/
structure WsgiStreamed (app : App Req Res) (env : Environ) (key : List Char) (ep : Endpoint Req Res) (p : Proto)
    (codec : ServerCodec Req Res) (reqComp resComp : Compression) : Prop where
  streams : WsgiStreams app env key ep p
  codec : ∃ name, StreamCodecName p ((wsgiHeaders env.vars).getD (pys! "content-type") []) name ∧
    Dict.get? app.codecs name = some codec
  reqComp : RequestCompression app p (wsgiHeaders env.vars) reqComp
  resComp : ResponseCompression app p (wsgiHeaders env.vars) resComp

/-- An ASGI request that is served as a stream. -/
structure AsgiStreams (app : App Req Res) (scope : Scope) (headers : Headers) (key : List Char) (ep : Endpoint Req Res)
    (p : Proto) : Prop where
  target : AsgiTarget app scope key ep
  decoded : asgiHeaders scope.headers Headers.empty = .ok headers
  method : MayRun ep.method (headers.getD (pys! "content-type") []) scope.method
  proto : Speaks p (headers.getD (pys! "content-type") [])
  trailers : p = .grpc → scope.trailers = true
  ready : HeadersReady p headers
  kind : p = .connect → ep.handler.isUnary = false

/-- The codec name of an ASGI request: as for WSGI; a GET names its codec in the query. -/
def AsgiCodecName (scope : Scope) (p : Proto) (headers : Headers) (name : List Char) : Prop :=
  (scope.method ≠ pys! "GET" ∧ StreamCodecName p (headers.getD (pys! "content-type") []) name) ∨
  (scope.method = pys! "GET" ∧ ∃ q, utf8Decode scope.query = some q ∧
    (Param (parseQs q) (pys! "encoding") name ∨ (name = [] ∧ ∀ v, ¬ Param (parseQs q) (pys! "encoding") v)))

structure AsgiStreamed (app : App Req Res) (scope : Scope) (headers : Headers) (key : List Char) (ep : Endpoint Req Res)
    (p : Proto) (codec : ServerCodec Req Res) (reqComp resComp : Compression) : Prop where
  streams : AsgiStreams app scope headers key ep p
  codec : ∃ name, AsgiCodecName scope p headers name ∧ Dict.get? app.codecs name = some codec
  reqComp : RequestCompression app p headers reqComp
  resComp : ResponseCompression app p headers resComp

/-! ### the messages of the request -/

/-- What the server agreed to for the messages of a request. -/
def serverPolicy (app : App Req Res) (codec : ServerCodec Req Res) (comp : Compression) : Policy Req where
  decompress := match comp with
    | .identity => none
    | .custom _ _ d => some d
  limit := app.readMax
  decode := codec.req.decode

/-- The request messages a WSGI handler can read, and the error after them: the envelopes of the body in order, up to the first
bad one. -/
def WsgiMessages (app : App Req Res) (env : Environ) (codec : ServerCodec Req Res) (comp : Compression)
    (s : ReqStream Req) : Prop :=
  ∃ fs rest, Splits env.input.flatten fs rest ∧ (s.messages, s.err) = (serverPolicy app codec comp).deliver fs

/-- What arrives of an ASGI request body, and the error that ends it. -/
inductive Arrives : List Recv → List UInt8 → Option Exc → Prop where
  | last (b : List UInt8) (r : List Recv) : Arrives (.request b false :: r) b none
  | more (b : List UInt8) {r : List Recv} {rest : List UInt8} {e : Option Exc} (h : Arrives r rest e) :
      Arrives (.request b true :: r) (b ++ rest) e
  | disconnect (r : List Recv) : Arrives (.disconnect :: r) []
      (some (.mk .canceled (pys! "Client disconnected before request completion")))
  | other (r : List Recv) : Arrives (.other :: r) [] (some (.mk .unknown (pys! "Unexpected message type")))
  | cancelled : Arrives [] [] (some (.mk .canceled (pys! "Request was cancelled")))

/-- The request messages an ASGI handler can read, and the error after them, when the task is not cancelled. -/
def AsgiMessages (app : App Req Res) (env : Env) (codec : ServerCodec Req Res) (comp : Compression)
    (s : ReqStream Req) : Prop :=
  ∃ bytes e fs rest, Arrives env.receive bytes e ∧ Splits bytes fs rest ∧
    s.messages = ((serverPolicy app codec comp).deliver fs).1 ∧
    s.err = (((serverPolicy app codec comp).deliver fs).2.orElse fun _ => e)

/-- The handler takes one message, not a stream. -/
def TakesOne : Handler Req Res → Prop
  | .unary _ | .serverStream _ => True
  | .clientStream _ | .bidi _ => False

/-- The run of a handler that returns one response, as a run that produces messages: what it does, then its response as the only
message; or its exception. -/
inductive Responds : Call Res → Script Res → Prop where
  | returned (steps : List Step) (r : Res) : Responds ⟨steps, .ok r⟩ ⟨steps.map .step ++ [.emit r], none, none⟩
  | raised (steps : List Step) (e : Exc) : Responds ⟨steps, .error e⟩ ⟨steps.map .step, some e, none⟩

/-- A handler that can read `s`, before it has done anything: no response headers and trailers, nothing received. -/
abbrev ready (s : ReqStream Req) : HState Req := ⟨s.messages, s.err, ⟨Headers.empty, Headers.empty⟩, []⟩

/-- The handler is started on the request messages `s`: the request it is called with, what it can read, and its run. A handler
that takes one message is started only if there is exactly one. -/
inductive Starts (s : ReqStream Req) (ctx : RequestContext) :
    Handler Req Res → Option Req → HState Req → Script Res → Prop where
  | unary (f : Req → RequestContext → Call Res) (m : Req) (hm : s.messages = [m]) (he : s.err = none) {script : Script Res}
      (hr : Responds (f m ctx) script) : Starts s ctx (.unary f) (some m) (ready ⟨[], none⟩) script
  | clientStream (f : ReqStream Req → RequestContext → Call Res) {script : Script Res} (hr : Responds (f s ctx) script) :
      Starts s ctx (.clientStream f) none (ready s) script
  | serverStream (f : Req → RequestContext → Script Res) (m : Req) (hm : s.messages = [m]) (he : s.err = none) :
      Starts s ctx (.serverStream f) (some m) (ready ⟨[], none⟩) (f m ctx)
  | bidi (f : ReqStream Req → RequestContext → Script Res) :
      Starts s ctx (.bidi f) none (ready s) (f s ctx)

/-- A handler that takes one message is not started: the error. -/
inductive Refuses (s : ReqStream Req) : Exc → Prop where
  | several (h : 2 ≤ s.messages.length) (msg : List Char) : Refuses s (.mk .unimplemented msg)
  | none (h : s.messages = []) (he : s.err = none) (msg : List Char) : Refuses s (.mk .unimplemented msg)
  | failed (h : s.messages.length ≤ 1) (e : Exc) (he : s.err = some e) : Refuses s e

/-! ### the run of a handler -/

/-- The writer of the response messages: each in an envelope, encoded by the codec and compressed (see C03, C06). -/
abbrev writerOf (codec : ServerCodec Req Res) (comp : Compression) : EnvelopeWriter Res := ⟨codec.res, some comp⟩

/-- One action of a handler: it changes the response metadata, or asks for the next request message. Then it gets the first message it
has not yet received; after the last one, the end of the stream or (once) the exception with which the stream ends, which it may
catch. -/
inductive Does : HState Req → Step → HState Req → Option Exc → Prop where
  | update (h : HState Req) (f : Meta → Meta) : Does h (.update f) ⟨h.reqs, h.err, f h.info, h.got⟩ none
  | message (m : Req) (ms : List Req) (err : Option Exc) (i : Meta) (got : List Req) (caught : Bool) :
      Does ⟨m :: ms, err, i, got⟩ (.recv caught) ⟨ms, err, i, got ++ [m]⟩ none
  | ended (i : Meta) (got : List Req) (caught : Bool) : Does ⟨[], none, i, got⟩ (.recv caught) ⟨[], none, i, got⟩ none
  | failed (e : Exc) (i : Meta) (got : List Req) : Does ⟨[], some e, i, got⟩ (.recv false) ⟨[], none, i, got⟩ (some e)
  | handled (e : Exc) (i : Meta) (got : List Req) : Does ⟨[], some e, i, got⟩ (.recv true) ⟨[], none, i, got⟩ none

/-- A run of a handler from `h`, followed to its end or to the first message that cannot be written: the response metadata when the
first message is produced (at the end, if there is none), the messages written, the state at the end, and how the run ends.
`close` is what closing the unfinished handler raises. -/
inductive Runs (write : Res → Except Exc Bytes) (close : Option Exc) :
    HState Req → List (Act Res) → Option Exc → Meta → List Res → HState Req → Option Exc → Prop where
  | done (h : HState Req) (outcome : Option Exc) : Runs write close h [] outcome h.info [] h outcome
  | step {h h1 h' : HState Req} {s : Step} {as : List (Act Res)} {outcome e : Option Exc} {i : Meta} {ms : List Res}
      (hs : Does h s h1 none) (hr : Runs write close h1 as outcome i ms h' e) :
      Runs write close h (.step s :: as) outcome i ms h' e
  | raised {h h' : HState Req} {s : Step} {as : List (Act Res)} {outcome : Option Exc} {e : Exc}
      (hs : Does h s h' (some e)) : Runs write close h (.step s :: as) outcome h'.info [] h' (some e)
  | emit {h h' : HState Req} {m : Res} {as : List (Act Res)} {outcome e : Option Exc} {i : Meta} {ms : List Res} {b : Bytes}
      (hw : write m = .ok b) (hr : Runs write close h as outcome i ms h' e) :
      Runs write close h (.emit m :: as) outcome h.info (m :: ms) h' e
  | unwritable {h : HState Req} {m : Res} {as : List (Act Res)} {outcome : Option Exc} {x : Exc}
      (hw : write m = .error x) :
      Runs write close h (.emit m :: as) outcome h.info [] h (some (close.getD x))

/-- A handler that is in state `h`, with `acts` still to do, produces a message (whether or not it can be written). -/
inductive Produces : HState Req → List (Act Res) → Prop where
  | now {h : HState Req} {m : Res} {as : List (Act Res)} : Produces h (.emit m :: as)
  | later {h h1 : HState Req} {s : Step} {as : List (Act Res)} (hs : Does h s h1 none) (hp : Produces h1 as) : Produces h (.step s :: as)

/-- The outcome is not a `BaseException` such as `CancelledError`. -/
def Caught (e : Option Exc) : Prop := ∀ x, e = some x → x.isException = true

/-- The end of a response that reports the outcome `e`, with the handler's trailers: the end of the body, or the HTTP trailers.
What a client reads from it is the subject of C16, C18, C19 and C21. -/
def EndsWith (w : EnvelopeWriter Res) (p : Proto) (sc : StatusCodec) (trailers : Headers) (e : Option Exc) (out : EndOut) : Prop :=
  w.end' p sc trailers (e.map errorOf) = .ok out

/-- the header fields a streamed response begins with -/
def streamFields (p : Proto) (codec : ServerCodec Req Res) (comp : Compression) (m : Meta) : List (List Char × List Char) :=
  [(pys! "content-type", (match p with
      | .connect => pys! "application/connect+"
      | .grpc => pys! "application/grpc+"
      | .grpcWeb => pys! "application/grpc-web+") ++ codec.name), (encodingHeader p, comp.name)] ++ m.headers.allitems

/-- The WSGI events of the end of a response: the end of the body, or the trailers (PEP 3333 has the application return an
iterable, so an empty item follows). -/
def wsgiEnding : EndOut → List WEvent
  | .body b => [.chunk b]
  | .trailers h => [.trailers h.allitems, .chunk []]

/-- The ASGI events of the end of a response. -/
def asgiEnding : EndOut → List Sent
  | .body b => [.body b false]
  | .trailers h => [.body [] false, .trailers h.allitems false]

/-! ### the order of events -/

/-- A complete WSGI response: one `start_response`, chunks; with trailers, these are sent once after all chunks that carry
something. -/
def WsgiComplete (trailers : Bool) (events : List WEvent) : Prop :=
  ∃ status fields, ∃ chunks : List (List UInt8), match trailers with
    | false => events = .start status fields :: chunks.map .chunk
    | true => ∃ ts, events = .start status fields :: chunks.map .chunk ++ [.trailers ts, .chunk []]

/-- A complete ASGI response: one start event that tells whether trailers follow, body events with `more_body`, a last body
event, and the trailers announced. -/
def AsgiComplete (trailers : Bool) (sends : List Sent) : Prop :=
  ∃ status fields, ∃ chunks : List (List UInt8), ∃ last, ∃ ts,
    sends = .start status fields trailers :: chunks.map (.body · true) ++ [.body last false] ++
      (if trailers = true then [.trailers ts false] else [])

/-- The events that reached the client. -/
def delivered (sends : List (Sent × Option Exc)) : List Sent := (sends.filter fun s => s.2.isNone).map (·.1)

/-- What the ASGI server raises after the outcome `e` has been reported: not `ConnectError`s. -/
def reraised : Option Exc → Option Exc
  | some (.connect _) => none
  | e => e

/-- The messages that reached the client: body events that are not the last. -/
def messagesSent (sends : List (Sent × Option Exc)) : Nat :=
  (delivered sends).countP fun s => match s with
    | .body _ more => more
    | _ => false

/-- The outcomes a WSGI stream may have to report, with the trailers of the handler: of a request in an unknown compression,
without a single message where one is needed, or of the handler's run. -/
inductive WsgiReports (app : App Req Res) (env : Environ) (ep : Endpoint Req Res) (p : Proto) (codec : ServerCodec Req Res)
    (resComp : Compression) : Headers → Option Exc → Prop where
  | compression (h : ∀ c, ¬ RequestCompression app p (wsgiHeaders env.vars) c) (msg : List Char) :
      WsgiReports app env ep p codec resComp Headers.empty (some (.mk .unimplemented msg))
  | refused {c : Compression} (hc : RequestCompression app p (wsgiHeaders env.vars) c) {s : ReqStream Req}
      (hs : WsgiMessages app env codec c s) (ht : TakesOne ep.handler) {e : Exc} (he : Refuses s e) :
      WsgiReports app env ep p codec resComp Headers.empty (some e)
  | ran {c : Compression} (hc : RequestCompression app p (wsgiHeaders env.vars) c) {s : ReqStream Req}
      (hs : WsgiMessages app env codec c s) {ctx : RequestContext} {req : Option Req} {h h' : HState Req} {script : Script Res}
      (hh : Starts s ctx ep.handler req h script) {i : Meta} {ms : List Res} {e : Option Exc}
      (hr : Runs (writerOf codec resComp).write none h script.acts script.outcome i ms h' e) :
      WsgiReports app env ep p codec resComp h'.info.trailers e

/-- A WSGI response that an exception which is not an `Exception` cut off: nothing, or `start_response` once and chunks. -/
def WsgiCut (events : List WEvent) : Prop :=
  events = [] ∨ ∃ status fields, ∃ chunks : List (List UInt8), events = .start status fields :: chunks.map .chunk

/-- A message whose encoding (uncompressed) is within the server's limit. -/
def Within (app : App Req Res) (m : Req) : Prop :=
  ∃ name codec data, Dict.get? app.codecs name = some codec ∧ codec.req.decode data = .ok m ∧ WithinLimit app data

end

end Spec
