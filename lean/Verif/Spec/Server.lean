import Verif.Model.ServerSync
import Verif.Model.ServerAsync
import Verif.Spec.Protocol
import Verif.Spec.Errors
import Verif.Spec.Wire
import Verif.Spec.Client
/-
Specification for the server properties (C05, C26, C28–C38, C60).
-/
namespace Spec
open Conn Py

/-! ### routing and methods -/

/-- the gRPC content types -/
def GrpcType (ct : List Char) : Prop := ct = pys! "application/grpc" ∨ pys! "application/grpc+" <+: ct
/-- the gRPC-Web content types -/
def GrpcWebType (ct : List Char) : Prop := ct = pys! "application/grpc-web" ∨ pys! "application/grpc-web+" <+: ct
/-- every other content type means Connect -/
def ConnectType (ct : List Char) : Prop := ¬ GrpcType ct ∧ ¬ GrpcWebType ct

/-- The HTTP methods on which an RPC method may run: POST, and GET if it is free of side effects and the protocol is
Connect. -/
def MayRun (m : MethodInfo) (ct httpMethod : List Char) : Prop :=
  httpMethod = pys! "POST" ∨ (httpMethod = pys! "GET" ∧ m.idempotency = .noSideEffects ∧ ConnectType ct)

/-- The timeout in the headers of a request, in milliseconds: none if there is no such header or its value is empty (see C09–C12 for the
two notations). -/
def timeoutOf (headers : Headers) (ms : Option Int) : Prop :=
  (ConnectType (headers.getD (pys! "content-type") []) →
    ms = (headers.get (pys! "connect-timeout-ms")).bind parseInt) ∧
  (¬ ConnectType (headers.getD (pys! "content-type") []) →
    ms = (headers.get (pys! "grpc-timeout")).bind fun v => (parseTimeout v).toOption)

/-- The scheme of a request, as the two kinds of application servers tell it; `http` if they do not. -/
def wsgiScheme (vars : List (List Char × List Char)) : List Char := (Dict.get? vars (pys! "wsgi.url_scheme")).getD (pys! "http")
def asgiScheme (scope : Scope) : List Char := scope.scheme.getD (pys! "http")

/-- What the handler is told about the request. -/
structure CtxIs (ctx : RequestContext) (m : MethodInfo) (httpMethod scheme : List Char) (headers : Headers)
    (client : Option (List Char)) : Prop where
  method : ctx.method = m
  httpMethod : ctx.httpMethod = httpMethod
  headers : ctx.requestHeaders = headers
  client : ctx.clientAddress = client
  server : ServerAddress scheme (ctx.requestHeaders.get (pys! "host")) ctx.serverAddress
  timeout : timeoutOf ctx.requestHeaders ctx.timeoutMs

/-- The list of those methods for an `allow` header. -/
def Allow (m : MethodInfo) (ct text : List Char) : Prop :=
  (m.idempotency = .noSideEffects ∧ ConnectType ct ∧ text = pys! "GET, POST") ∨
  (¬ (m.idempotency = .noSideEffects ∧ ConnectType ct) ∧ text = pys! "POST")

/-- An empty path is the root. -/
def rooted (p : List Char) : List Char := if p = [] then ['/'] else p

section
variable {Req Res : Type}

/-- The endpoint of a WSGI request, and the path it is registered under: the path of the request, or, when the application is
mounted at its service path, that path followed by the path of the request. -/
inductive WsgiTarget (app : App Req Res) (env : Environ) : List Char → Endpoint Req Res → Prop where
  | direct {p : List Char} {ep : Endpoint Req Res} (hp : Dict.get? env.vars (pys! "PATH_INFO") = some p)
      (hep : Dict.get? app.endpoints (rooted p) = some ep) : WsgiTarget app env (rooted p) ep
  | mounted {p : List Char} {ep : Endpoint Req Res} (hp : Dict.get? env.vars (pys! "PATH_INFO") = some p)
      (hno : Dict.get? app.endpoints (rooted p) = none) (hs : Dict.get? env.vars (pys! "SCRIPT_NAME") = some app.path)
      (hep : Dict.get? app.endpoints (app.path ++ rooted p) = some ep) : WsgiTarget app env (app.path ++ rooted p) ep

/-- The endpoint of an ASGI request: registered under the path of the request, or under what follows the root path. -/
inductive AsgiTarget (app : App Req Res) (scope : Scope) : List Char → Endpoint Req Res → Prop where
  | direct {ep : Endpoint Req Res} (hep : Dict.get? app.endpoints scope.path = some ep) : AsgiTarget app scope scope.path ep
  | mounted {rest : List Char} {ep : Endpoint Req Res} (hno : Dict.get? app.endpoints scope.path = none)
      (hroot : scope.rootPath ≠ []) (hp : scope.path = scope.rootPath ++ rest)
      (hep : Dict.get? app.endpoints rest = some ep) : AsgiTarget app scope rest ep

/-! ### request headers -/

/-- The HTTP header a CGI variable stands for (RFC 3875, PEP 3333), in lower case: `CONTENT_TYPE`, `CONTENT_LENGTH`, and
`HTTP_` followed by the name with underscores for hyphens. -/
def headerOfVar (var : List Char) : Option (List Char) :=
  if var = pys! "CONTENT_TYPE" then some (pys! "content-type")
  else if var = pys! "CONTENT_LENGTH" then some (pys! "content-length")
  else if pys! "HTTP_" <+: var then some (lower ((var.drop 5).map fun c => if c = '_' then '-' else c))
  else none

/-- The values a WSGI request has for a header. -/
def wsgiValues (vars : List (List Char × List Char)) (name : List Char) : List (List Char) :=
  (vars.filter fun p => headerOfVar p.1 = some (lower name)).map (·.2)

/-- No two variables stand for the same header. -/
def DistinctHeaders (vars : List (List Char × List Char)) : Prop := (vars.filterMap fun p => headerOfVar p.1).Nodup

/-! ### responses -/

/-- A complete response: status, header fields, body. -/
structure Response where
  status : Nat
  fields : List (List Char × List Char)
  body : List UInt8
deriving DecidableEq

/-- The WSGI application gave exactly this response and raised nothing: one `start_response`, then the chunks of the body. -/
def WsgiGave (o : WsgiOut Req) (r : Response) : Prop :=
  o.escaped = none ∧ ∃ chunks : List (List UInt8), o.events = .start r.status r.fields :: chunks.map .chunk ∧
    chunks.flatten = r.body

/-- The ASGI application sent exactly this response: a start without trailers and one final body event. -/
def AsgiGave (o : AsgiOut Req) (r : Response) : Prop :=
  o.sends = [(.start r.status r.fields false, none), (.body r.body false, none)]

/-- A Connect error response for `e`: the HTTP status of its code, a JSON content type, and as body the JSON text of the error. -/
def ErrorResponse (r : Response) (e : ConnectErr) : Prop :=
  r.status = connectHttpStatus e.code ∧
  (∃ p ∈ r.fields, lower p.1 = pys! "content-type" ∧ p.2 = pys! "application/json") ∧
  ErrorBody e r.body

/-- A complete refusal: a Connect error response, or a bare 405 or 415 response. -/
def CompleteRefusal (r : Response) : Prop :=
  (∃ e, ErrorResponse r e) ∨ (r.status = 405 ∧ r.body = [] ∧ ∃ a, (pys! "allow", a) ∈ r.fields) ∨
  (r.status = 415 ∧ r.body = [] ∧ ∃ a, (pys! "Accept-Post", a) ∈ r.fields)

/-- The request is refused: no handler has run and the client gets an error response with code `c`. -/
def WsgiRefused (o : WsgiOut Req) (c : Code) : Prop :=
  o.calls = [] ∧ ∃ r e, WsgiGave o r ∧ ErrorResponse r e ∧ e.code = c
def AsgiRefused (o : AsgiOut Req) (c : Code) : Prop :=
  o.calls = [] ∧ ∃ r e, AsgiGave o r ∧ ErrorResponse r e ∧ e.code = c

/-- Codecs and compressions raise ordinary Python exceptions when they cannot decode a request (not errors of this library, and
not `CancelledError`, `KeyboardInterrupt`, …). -/
structure Ordinary (app : App Req Res) : Prop where
  decode : ∀ n c, Dict.get? app.codecs n = some c → ∀ b e, c.req.decode b = .error e → ∃ cls msg, e = .other cls msg
  decompress : ∀ n c, Dict.get? app.comps n = some c → ∀ b e, c.decompress b = .error e → ∃ cls msg, e = .other cls msg

/-- The pieces a WSGI server hands out are not empty (an empty read means the end of the body). -/
def Pieces (segs : List (List UInt8)) : Prop := ∀ s ∈ segs, s ≠ []

/-! ### acceptable unary Connect requests -/

/-- The request is for a unary endpoint, by the Connect protocol. -/
structure WsgiConnectUnary (app : App Req Res) (env : Environ) (key : List Char) (m : MethodInfo)
    (f : Req → RequestContext → Call Res) (httpMethod : List Char) : Prop where
  target : WsgiTarget app env key ⟨m, .unary f⟩
  method : Dict.get? env.vars (pys! "REQUEST_METHOD") = some httpMethod
  connect : ConnectType ((wsgiHeaders env.vars).getD (pys! "content-type") [])

structure AsgiConnectUnary (app : App Req Res) (scope : Scope) (headers : Headers) (key : List Char) (m : MethodInfo)
    (f : Req → RequestContext → Call Res) : Prop where
  target : AsgiTarget app scope key ⟨m, .unary f⟩
  decoded : asgiHeaders scope.headers Headers.empty = .ok headers
  connect : ConnectType (headers.getD (pys! "content-type") [])

/-- The protocol headers of a Connect request are in order: version absent or "1", timeout absent, empty, or a number of at most ten
characters. -/
structure ConnectHeaders (h : Headers) : Prop where
  version : ∀ v, h.get (pys! "connect-protocol-version") = some v → v = ['1']
  timeout : ∀ v, h.get (pys! "connect-timeout-ms") = some v → v = [] ∨ (v.length ≤ 10 ∧ ∃ n, parseInt v = some n)

/-- The codec name a content type of a unary Connect request stands for: what follows `application/` in the media type (or the
media type itself). -/
def UnaryCodecName (ct name : List Char) : Prop :=
  mediaType ct = pys! "application/" ++ name ∨ (¬ pys! "application/" <+: mediaType ct ∧ mediaType ct = name)

/-- No (positive) Content-Length is declared. -/
def NoLength (env : Environ) : Prop :=
  ∀ s, Dict.get? env.vars (pys! "CONTENT_LENGTH") = some s → s = [] ∨ ∃ n, parseInt s = some n ∧ n ≤ 0

/-- A positive Content-Length is declared. -/
def DeclaredLength (env : Environ) (n : Nat) : Prop :=
  0 < n ∧ ∃ s, Dict.get? env.vars (pys! "CONTENT_LENGTH") = some s ∧ s ≠ [] ∧ parseInt s = some (n : Int)

/-- The body of a WSGI request: all of it, or as much as the Content-Length says. -/
inductive WsgiBody (env : Environ) : List UInt8 → Prop where
  | whole (h : NoLength env) : WsgiBody env env.input.flatten
  | declared {n : Nat} (h : DeclaredLength env n) (hlen : n ≤ env.input.flatten.length) :
      WsgiBody env (env.input.flatten.take n)

/-- The name of the compression of a WSGI POST body. -/
def wsgiEncoding (env : Environ) : List Char :=
  lower ((Dict.get? env.vars (pys! "HTTP_CONTENT_ENCODING")).getD (pys! "identity"))

/-- Undoing the compression `name`. -/
def Uncompressed (app : App Req Res) (name : List Char) (raw data : List UInt8) : Prop :=
  (name = pys! "identity" ∧ data = raw) ∨
  (name ≠ pys! "identity" ∧ ∃ c, Dict.get? app.comps name = some c ∧ c.decompress raw = .ok data)

/-- The size limit is kept. -/
def WithinLimit (app : App Req Res) (data : List UInt8) : Prop := ∀ n, app.readMax = some n → (data.length : Int) ≤ n

/-- A POST body that carries the message `req`. -/
def WsgiPostOk (app : App Req Res) (env : Environ) (ct : List Char) (req : Req) : Prop :=
  ∃ name codec raw data, UnaryCodecName ct name ∧ Dict.get? app.codecs name = some codec ∧ WsgiBody env raw ∧
    Uncompressed app (wsgiEncoding env) raw data ∧ WithinLimit app data ∧ codec.req.decode data = .ok req

/-- The first value of a query parameter. -/
def Param (params : List (List Char × List (List Char))) (k v : List Char) : Prop :=
  ∃ vs, Dict.get? params k = some (v :: vs)

/-- The bytes of the `message` parameter. -/
def MessageParam (params : List (List Char × List (List Char))) (raw : List UInt8) : Prop :=
  ∃ text, Param params (pys! "message") text ∧
    ((Param params (pys! "base64") ['1'] ∧ urlsafeB64decode (text ++ pys! "===") = some raw) ∨
     (¬ Param params (pys! "base64") ['1'] ∧ raw = utf8Encode text))

/-- GET parameters that carry the message `req`. -/
def WsgiGetOk (app : App Req Res) (params : List (List Char × List (List Char))) (req : Req) : Prop :=
  ∃ name codec raw data, (Param params (pys! "encoding") name ∨ (name = [] ∧ ∀ v, ¬ Param params (pys! "encoding") v)) ∧
    Dict.get? app.codecs name = some codec ∧ MessageParam params raw ∧
    ((∀ v, ¬ Param params (pys! "compression") v) ∧ data = raw ∨
      ∃ v c, Param params (pys! "compression") v ∧ Dict.get? app.comps v = some c ∧ c.decompress raw = .ok data) ∧
    codec.req.decode data = .ok req

/-- The query parameters of a WSGI request. -/
def wsgiParams (env : Environ) : List (List Char × List (List Char)) :=
  parseQs ((Dict.get? env.vars (pys! "QUERY_STRING")).getD [])

/-- An acceptable unary Connect request for the method `m`, carrying the message `req` (WSGI). -/
def WsgiAcceptable (app : App Req Res) (env : Environ) (m : MethodInfo) (httpMethod : List Char) (req : Req) : Prop :=
  ConnectHeaders (wsgiHeaders env.vars) ∧
  ((httpMethod = pys! "POST" ∧ WsgiPostOk app env ((wsgiHeaders env.vars).getD (pys! "content-type") []) req) ∨
   (httpMethod = pys! "GET" ∧ m.idempotency = .noSideEffects ∧ WsgiGetOk app (wsgiParams env) req))

/-- The body an ASGI server delivers: chunks, the last of them marked. -/
inductive AsgiBody : List Recv → List UInt8 → Prop where
  | last (b : List UInt8) (r : List Recv) : AsgiBody (.request b false :: r) b
  | more (b : List UInt8) {r : List Recv} {rest : List UInt8} (h : AsgiBody r rest) : AsgiBody (.request b true :: r) (b ++ rest)

/-- The client disconnects in the middle of the body. -/
inductive Disconnects : List Recv → Prop where
  | now (r : List Recv) : Disconnects (.disconnect :: r)
  | later (b : List UInt8) {r : List Recv} (h : Disconnects r) : Disconnects (.request b true :: r)

/-- The application server reports the end of the body or something else than a chunk, at some time (it does not leave the
application waiting for ever). -/
def Reported (r : List Recv) : Prop := ∃ e ∈ r, ∀ b, e ≠ .request b true

/-- Undoing the compression `name` (ASGI: an empty body is not decompressed). -/
def AsgiUncompressed (app : App Req Res) (name : List Char) (raw data : List UInt8) : Prop :=
  ∃ c, Dict.get? app.comps name = some c ∧ ((raw = [] ∧ data = []) ∨ (raw ≠ [] ∧ c.decompress raw = .ok data))

def AsgiPostOk (app : App Req Res) (env : Env) (headers : Headers) (req : Req) : Prop :=
  ∃ name codec raw data, UnaryCodecName (headers.getD (pys! "content-type") []) name ∧
    Dict.get? app.codecs name = some codec ∧ AsgiBody env.receive raw ∧
    AsgiUncompressed app (lower (headers.getD (pys! "content-encoding") (pys! "identity"))) raw data ∧
    WithinLimit app data ∧ codec.req.decode data = .ok req

def AsgiGetOk (app : App Req Res) (params : List (List Char × List (List Char))) (req : Req) : Prop :=
  ∃ name codec raw data enc, (Param params (pys! "encoding") name ∨ (name = [] ∧ ∀ v, ¬ Param params (pys! "encoding") v)) ∧
    Dict.get? app.codecs name = some codec ∧ MessageParam params raw ∧
    (Param params (pys! "compression") enc ∨ (enc = pys! "identity" ∧ ∀ v, ¬ Param params (pys! "compression") v)) ∧
    AsgiUncompressed app enc raw data ∧ codec.req.decode data = .ok req

/-- An acceptable unary Connect request for the method `m`, carrying the message `req` (ASGI). -/
def AsgiAcceptable (app : App Req Res) (scope : Scope) (env : Env) (headers : Headers) (m : MethodInfo) (req : Req) : Prop :=
  ConnectHeaders headers ∧
  ((scope.method = pys! "POST" ∧ AsgiPostOk app env headers req) ∨
   (scope.method = pys! "GET" ∧ m.idempotency = .noSideEffects ∧
    ∃ q, utf8Decode scope.query = some q ∧ AsgiGetOk app (parseQs q) req))

/-- A Connect POST for a unary endpoint, with its headers in order and its codec known. -/
structure WsgiPosted (app : App Req Res) (env : Environ) (key : List Char) (m : MethodInfo)
    (f : Req → RequestContext → Call Res) (codec : ServerCodec Req Res) : Prop where
  unary : WsgiConnectUnary app env key m f (pys! "POST")
  ready : ConnectHeaders (wsgiHeaders env.vars)
  codec : ∃ name, UnaryCodecName ((wsgiHeaders env.vars).getD (pys! "content-type") []) name ∧
    Dict.get? app.codecs name = some codec

/-- A GET for a unary endpoint that allows it, with its headers in order. -/
structure WsgiQueried (app : App Req Res) (env : Environ) (key : List Char) (m : MethodInfo)
    (f : Req → RequestContext → Call Res) : Prop where
  unary : WsgiConnectUnary app env key m f (pys! "GET")
  safe : m.idempotency = .noSideEffects
  ready : ConnectHeaders (wsgiHeaders env.vars)

/-- the codec named by the `encoding` parameter -/
def QueryCodec (app : App Req Res) (params : List (List Char × List (List Char))) (codec : ServerCodec Req Res) : Prop :=
  ∃ name, (Param params (pys! "encoding") name ∨ (name = [] ∧ ∀ v, ¬ Param params (pys! "encoding") v)) ∧
    Dict.get? app.codecs name = some codec

structure AsgiPosted (app : App Req Res) (scope : Scope) (headers : Headers) (key : List Char) (m : MethodInfo)
    (f : Req → RequestContext → Call Res) (codec : ServerCodec Req Res) : Prop where
  unary : AsgiConnectUnary app scope headers key m f
  method : scope.method = pys! "POST"
  ready : ConnectHeaders headers
  codec : ∃ name, UnaryCodecName (headers.getD (pys! "content-type") []) name ∧ Dict.get? app.codecs name = some codec

structure AsgiQueried (app : App Req Res) (scope : Scope) (headers : Headers) (key : List Char) (m : MethodInfo)
    (f : Req → RequestContext → Call Res) (params : List (List Char × List (List Char))) (codec : ServerCodec Req Res) : Prop where
  unary : AsgiConnectUnary app scope headers key m f
  method : scope.method = pys! "GET"
  safe : m.idempotency = .noSideEffects
  ready : ConnectHeaders headers
  query : ∃ q, utf8Decode scope.query = some q ∧ params = parseQs q
  codec : QueryCodec app params codec

/-- Sends that never fail. -/
def Reliable (env : Env) : Prop := ∀ n, env.sendErr n = none

end

end Spec
