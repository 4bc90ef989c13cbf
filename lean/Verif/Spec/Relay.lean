import Verif.Spec.StreamTransport
/-
Services that answer by calling another service of this library: chains of any length (C95).
-/
namespace Spec
open Conn Py

section
variable {Req Res : Type}

/-- A service calls another one: its client and the settings of the call, which may depend on what the calling handler is told; and the
application it calls, with the codec both use. -/
structure Hop (Req Res : Type) where
  client : Client Req Res
  app : App Req Res
  codec : ServerCodec Req Res
  method : MethodInfo
  registered : MethodInfo
  undo : Undo
  useGet : Bool
  user : RequestContext → UserHeaders
  timeout : RequestContext → Option Int
  circumstances : RequestContext → Circumstances
  http : RequestContext → HttpClient

/-- What the call returns or raises. -/
def Hop.outcome (h : Hop Req Res) (sc : StatusCodec) (req : Req) (ctx : RequestContext) : Except Exc Res :=
  (h.client.executeUnary sc (h.http ctx) none (h.circumstances ctx) req h.method (h.user ctx) (h.timeout ctx) h.useGet).2

/-- The HTTP client brings requests to the WSGI application (for gRPC: on a server with trailers) and its responses back. -/
def OverWsgi (h : Hop Req Res) (sc : StatusCodec) (http : HttpClient) : Prop :=
  ∀ rq, Addressed h.client.address rq (methodPath h.method) → ∃ env, WsgiSees h.client.address rq env ∧
    (h.client.proto = .grpc → env.sendTrailers = true) ∧
    (∀ r, WsgiGave (h.app.wsgi sc env) r → ∃ resp, Received h.undo r resp ∧ http.full rq = .ok resp) ∧
    ∀ r, WsgiStreamGave (h.app.wsgi sc env) r → ∃ resp, ReceivedStream r resp ∧ http.stream rq = .ok resp

/-- The same for the ASGI application: on a server that does not fail or cancel the task, while the client stays connected. -/
def OverAsgi (h : Hop Req Res) (sc : StatusCodec) (http : HttpClient) : Prop :=
  ∀ rq, Addressed h.client.address rq (methodPath h.method) → ∃ scope env, AsgiSees h.client.address rq scope env ∧
    (h.client.proto = .grpc → scope.trailers = true) ∧ Reliable env ∧ env.cancelAfter = none ∧ env.disconnectAt = none ∧
    (scope.rootPath = [] ∨ Dict.get? h.app.endpoints (scope.rootPath ++ methodPath h.method) = none) ∧
    (∀ r, AsgiGave (h.app.asgi sc scope env) r → ∃ resp, Received h.undo r resp ∧ http.full rq = .ok resp) ∧
    ∀ r, AsgiStreamGave (h.app.asgi sc scope env) r → ∃ resp, ReceivedStream r resp ∧ http.stream rq = .ok resp

/-- The application of the hop serves its method with `f`; both sides agree, by any of the protocols, on how `req` is sent; the network works. -/
structure Hop.Serves (h : Hop Req Res) (sc : StatusCodec) (req : Req) (f : Req → RequestContext → Call Res) : Prop where
  connect : h.client.proto = .connect → ∀ ctx,
    UnaryCall h.client h.app h.codec h.method h.registered f req (h.user ctx) (h.timeout ctx) h.useGet
  grpc : h.client.proto ≠ .connect → sc.Lawful ∧ Ordinary h.app ∧ ∀ ctx, Calm (h.circumstances ctx) ∧
    StreamCall h.client h.app h.codec h.method h.registered (.unary f) [req] (h.user ctx) (h.timeout ctx)
  undoes : Undoes h.undo h.client h.app
  limit : ∀ n, h.client.readMax = some n → 0 ≤ n
  network : ∀ ctx, OverWsgi h sc (h.http ctx) ∨ OverAsgi h sc (h.http ctx)

/-- The response can be sent over the hop: it can be encoded, and is within the limit of the caller. -/
def Hop.Holds (h : Hop Req Res) (r : Res) : Prop :=
  ∃ b, h.codec.res.encode r = .ok b ∧ (∀ n, h.client.readMax = some n → (b.length : Int) ≤ n) ∧
    (h.client.proto ≠ .connect → ((responseComp h.client h.app).compress b).length < 2 ^ 32)

/-- What a client may read of an outcome: the same error, its details as the handler gave them or as they came over the network. -/
def ReadingOf : Option ConnectErr → Option ConnectErr → Prop
  | none, e' => e' = none
  | some e, e' => ∃ x, e' = some x ∧ report x = report e ∧ (x = e ∨ AsRead e x)

/-- The end of a response, with its trailers and the error, can be sent over the hop: it can be written, and is within the limit of the caller (by gRPC-Web and
for Connect streams it is part of the body); by gRPC-Web the trailers are legal HTTP fields. -/
structure Hop.HoldsEnd (h : Hop Req Res) (sc : StatusCodec) (trailers : Headers) (e : Option ConnectErr) : Prop where
  legal : h.client.proto = .grpcWeb → LegalFields trailers.allitems
  limit : ∀ n, h.client.readMax = some n → (endSize h.client.proto sc trailers e : Int) ≤ n
  ends : ∃ out, EndsWith (writerOf h.codec (responseComp h.client h.app)) h.client.proto sc trailers (e.map .connect) out

/-- The error a run ends with, as the library reports it. -/
def failureOf (run : Call Res) : Option ConnectErr :=
  match run.result with
  | .ok _ => none
  | .error e => some (errorOf e)

/-- The hop, whose application answers with `f`, can carry the responses of `origin`, and by gRPC-Web its errors with the trailers of `f`. -/
structure Hop.Carries (h : Hop Req Res) (sc : StatusCodec) (req : Req) (origin f : Req → RequestContext → Call Res) : Prop where
  response : ∀ ctx r, (origin req ctx).result = .ok r → h.Holds r
  ending : h.client.proto = .grpcWeb → ∀ ctx ctx' e, ReadingOf (failureOf (origin req ctx)) e → h.HoldsEnd sc (metadataOf (f req ctx').steps).trailers e

/-- The response metadata leaves the fields of the protocols alone: no content encoding, and no trailers with the names of gRPC. -/
structure Modest (run : Call Res) : Prop where
  encoding : fieldValues (metadataFields (metadataOf run.steps)) (pys! "content-encoding") = []
  built : Props.Built (metadataOf run.steps).trailers
  reserved : ∀ n ∈ grpcReserved, (metadataOf run.steps).trailers.getall n = []

/-- The error fits a protobuf message, also with the conventional type URLs. -/
def FitsAnyHop (e : ConnectErr) : Prop :=
  (utf8Encode e.message).length < 2 ^ 31 ∧ ∀ d ∈ e.details, (utf8Encode d.typeUrl).length + d.value.length + 20 < 2 ^ 31 ∧
    (utf8Encode (pys! "type.googleapis.com/" ++ typeNameOf d.typeUrl)).length + d.value.length + 20 < 2 ^ 31

/-- The runs of handlers considered: what they raise is an `Exception` (and not the internal `HTTPException`), with well-formed debug renderings, that fits
a protobuf message. -/
structure Sendable (run : Call Res) : Prop where
  modest : Modest run
  errors : ∀ e, run.result = .error e → e.isException = true ∧ (∀ s hs, e ≠ .http s hs) ∧ DebugOk (errorOf e) ∧ FitsAnyHop (errorOf e)

/-- Handlers that answer `req` by a chain of calls that ends at `origin`: `origin` itself, and every handler that calls a service whose handler is one of
the chain and returns, or raises, what the call does. Every hop satisfies `P`, and can carry the responses and errors of `origin`. -/
inductive Chain (sc : StatusCodec) (req : Req) (origin : Req → RequestContext → Call Res) (P : Hop Req Res → Prop) :
    (Req → RequestContext → Call Res) → Prop where
  | origin : Chain sc req origin P origin
  | relay {f g : Req → RequestContext → Call Res} (hop : Hop Req Res) (hp : P hop) (hf : Chain sc req origin P f) (hs : hop.Serves sc req f)
      (hr : hop.Carries sc req origin f) (hm : ∀ ctx, Modest (g req ctx))
      (hg : ∀ ctx, (g req ctx).result = hop.outcome sc req ctx) : Chain sc req origin P g

/-- The caller gets what the handler returned or raised: the response, or a `ConnectError` with the same code, message and details. -/
def Relayed : Except Exc Res → Except Exc Res → Prop
  | .ok r, got => got = .ok r
  | .error e, got => ∃ e', got = .error (.connect e') ∧ report e' = report (errorOf e)

/-- The call passes on the time its handler has left: a timeout, not 0 (see C13), no longer than the one the handler was told. -/
def Hop.Heeds (h : Hop Req Res) : Prop :=
  ∀ ctx ms, ctx.timeoutMs = some ms → ∃ t, h.timeout ctx = some t ∧ t ≠ 0 ∧ t ≤ max ms 0

end

end Spec
