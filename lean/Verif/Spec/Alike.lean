import Verif.Spec.Transport
/-
Specification for C90: the same HTTP request, served by the WSGI and by the ASGI application with the same endpoints and options.
-/
namespace Spec
open Conn Py

/-- An HTTP request: method, path, query, scheme; the client's host and port, if known; its header fields, Content-Type and Content-Length (if declared) apart; its body; and
whether the server can send trailers. -/
structure HttpIn where
  method : List Char
  path : List Char
  query : List Char
  scheme : List Char
  client : Option (List Char × List Char)
  contentType : Option (List Char)
  declared : Bool
  others : List (List Char × List Char)
  body : List UInt8
  trailers : Bool

/-- All header fields. -/
def HttpIn.fields (r : HttpIn) : List (List Char × List Char) :=
  (r.contentType.map fun v => (pys! "content-type", v)).toList ++
  (if r.declared then [(pys! "content-length", natDigits r.body.length)] else []) ++ r.others

/-- The value of a field. -/
def HttpIn.value (r : HttpIn) (n : List Char) : Option (List Char) := (fieldValues r.fields n).head?

/-- The content type; empty if there is none. -/
def HttpIn.type (r : HttpIn) : List Char := r.contentType.getD []

/-- Requests that both kinds of application servers hand on unchanged: a path; all text is ASCII (WSGI servers decode by Latin-1, the ASGI application by UTF-8); no name with an
underscore, and none twice (WSGI servers drop the former and join the values of the latter). -/
structure HttpIn.Plain (r : HttpIn) : Prop where
  path : r.path ≠ []
  client : ∀ host port, r.client = some (host, port) → host ≠ []
  names : ∀ p ∈ r.others, '_' ∉ p.1 ∧ lower p.1 ≠ pys! "content-type" ∧ lower p.1 ≠ pys! "content-length"
  once : (r.others.map fun p => lower p.1).Nodup
  ascii : ∀ p ∈ r.fields, ∀ c ∈ p.2, c.toNat < 128
  asciiTarget : ∀ c ∈ r.path ++ r.query, c.toNat < 128

/-- The WSGI application, not mounted below a path, is given the request (PEP 3333). -/
structure WsgiGets (r : HttpIn) (env : Environ) : Prop where
  method : Dict.get? env.vars (pys! "REQUEST_METHOD") = some r.method
  path : Dict.get? env.vars (pys! "PATH_INFO") = some r.path
  mount : Dict.get? env.vars (pys! "SCRIPT_NAME") = some []
  query : Dict.get? env.vars (pys! "QUERY_STRING") = some r.query
  scheme : Dict.get? env.vars (pys! "wsgi.url_scheme") = some r.scheme
  host : Dict.get? env.vars (pys! "REMOTE_ADDR") = r.client.map (·.1)
  port : Dict.get? env.vars (pys! "REMOTE_PORT") = r.client.map (·.2)
  type : Dict.get? env.vars (pys! "CONTENT_TYPE") = r.contentType
  length : Dict.get? env.vars (pys! "CONTENT_LENGTH") = if r.declared then some (natDigits r.body.length) else none
  fields : (env.vars.filter fun p => p.1.take 5 = pys! "HTTP_") = r.others.map fun p => (cgiVar p.1, p.2)
  pieces : Pieces env.input
  body : env.input.flatten = r.body
  trailers : env.sendTrailers = r.trailers

/-- The ASGI application, not mounted below a path, is given the request; `send` works and nobody disconnects or cancels. -/
structure AsgiGets (r : HttpIn) (scope : Scope) (env : Env) : Prop where
  method : scope.method = r.method
  path : scope.path = r.path
  mount : scope.rootPath = []
  query : scope.query = utf8Encode r.query
  scheme : scope.scheme = some r.scheme
  client : scope.client = r.client
  fields : scope.headers = r.fields.map fun p => (utf8Encode p.1, utf8Encode p.2)
  body : AsgiBody env.receive r.body
  trailers : scope.trailers = r.trailers
  calm : Reliable env ∧ env.disconnectAt = none ∧ env.cancelAfter = none

/-! ### answers -/

/-- What the client gets: status, header fields, body, and trailers if any. -/
structure HttpOut where
  status : Nat
  fields : List (List Char × List Char)
  body : List UInt8
  trailers : List (List (List Char × List Char))

/-- The bytes, and the trailers, in WSGI events. -/
def wsgiBytes (es : List WEvent) : List UInt8 := (es.map fun
  | .chunk b => b
  | _ => []).flatten
def wsgiTrailers (es : List WEvent) : List (List (List Char × List Char)) := es.filterMap fun
  | .trailers t => some t
  | _ => none

/-- The bytes, and the trailers, in ASGI events. -/
def asgiBytes (es : List Sent) : List UInt8 := (es.map fun
  | .body b _ => b
  | _ => []).flatten
def asgiTrailers (es : List Sent) : List (List (List Char × List Char)) := es.filterMap fun
  | .trailers t _ => some t
  | _ => none

section
variable {Req Res : Type}

/-- The WSGI application answers: it starts one response and raises nothing. -/
def WsgiAnswers (o : WsgiOut Req) (a : HttpOut) : Prop :=
  o.escaped = none ∧ ∃ rest, o.events = .start a.status a.fields :: rest ∧ (∀ s f, .start s f ∉ rest) ∧ a.body = wsgiBytes rest ∧ a.trailers = wsgiTrailers rest

/-- The ASGI application answers: it starts one response, and all its events are sent. -/
def AsgiAnswers (o : AsgiOut Req) (a : HttpOut) : Prop :=
  ∃ t rest, o.sends = (Sent.start a.status a.fields t :: rest).map (·, none) ∧ (∀ s f t, .start s f t ∉ rest) ∧ a.body = asgiBytes rest ∧ a.trailers = asgiTrailers rest

/-- The same answer: the names of fields may differ in letter case. -/
def SameAnswer (a b : HttpOut) : Prop :=
  a.status = b.status ∧ (a.fields.map fun p => (lower p.1, p.2)) = (b.fields.map fun p => (lower p.1, p.2)) ∧ a.body = b.body ∧ a.trailers = b.trailers

/-- Both applications do the same: they call the same functions with the same arguments, hand them the same messages, and give the same answer; or an exception that is not an
`Exception` (such as `KeyboardInterrupt`) leaves both before they begin to answer. -/
def Alike (w : WsgiOut Req) (a : AsgiOut Req) : Prop :=
  w.calls = a.calls ∧ w.received = a.received ∧
  ((∃ x y, WsgiAnswers w x ∧ AsgiAnswers a y ∧ SameAnswer x y) ∨
   (∃ e : Exc, e.isException = false ∧ w.events = [] ∧ w.escaped = some e ∧ a.sends = [] ∧ a.escaped = some e))

/-! ### what both servers understand in the same way -/

/-- The options of both applications, as every configuration has them (C64). -/
structure Configured (app : App Req Res) : Prop where
  identity : Dict.get? app.comps (pys! "identity") = some .identity
  noEmpty : Dict.get? app.comps [] = none
  ordinary : Ordinary app

/-- The body of a unary POST is not garbled: if codec and compression are known it can be decompressed (an empty one to nothing) and, within the limit, decoded. -/
def PostClear (app : App Req Res) (r : HttpIn) : Prop :=
  ∀ name codec comp, UnaryCodecName r.type name → Dict.get? app.codecs name = some codec →
    Dict.get? app.comps (lower ((r.value (pys! "content-encoding")).getD (pys! "identity"))) = some comp →
    ∃ data, comp.decompress r.body = .ok data ∧ (r.body = [] → data = []) ∧ (WithinLimit app data → ∃ m, codec.req.decode data = .ok m)

/-- The parameters of a unary GET are not garbled: the codec is known, the message (if there is one) can be read, and if its compression is known it can be decompressed and decoded. -/
structure GetClear (app : App Req Res) (params : List (List Char × List (List Char))) : Prop where
  message : ∀ text, Param params (pys! "message") text → ∃ raw, MessageParam params raw
  codec : ∃ name codec, (Param params (pys! "encoding") name ∨ (name = [] ∧ ∀ v, ¬ Param params (pys! "encoding") v)) ∧ Dict.get? app.codecs name = some codec ∧
    ∀ raw enc comp, MessageParam params raw → (Param params (pys! "compression") enc ∨ (enc = pys! "identity" ∧ ∀ v, ¬ Param params (pys! "compression") v)) →
      Dict.get? app.comps enc = some comp → ∃ data m, comp.decompress raw = .ok data ∧ (raw = [] → data = []) ∧ codec.req.decode data = .ok m

/-- A stream whose codec is known, sent by POST, and whose outcome can be reported: it is not a `BaseException`, its end marker can be written, and closing the handler's generator
does not raise. -/
structure StreamClear (app : App Req Res) (sc : StatusCodec) (env : Environ) (r : HttpIn) (ep : Endpoint Req Res) (p : Proto) : Prop where
  method : r.method ≠ pys! "GET"
  codec : ∃ name codec, StreamCodecName p r.type name ∧ Dict.get? app.codecs name = some codec ∧
    ∀ tr e resComp, ResponseCompression app p (wsgiHeaders env.vars) resComp → WsgiReports app env ep p codec resComp tr e → Caught e ∧ ∃ out, EndsWith (writerOf codec resComp) p sc tr e out
  close : ∀ s ctx req h script, Starts s ctx ep.handler req h script → script.closeErr = none

/-- Requests that mean the same to both servers. -/
structure Clear (app : App Req Res) (sc : StatusCodec) (env : Environ) (r : HttpIn) : Prop where
  trailers : GrpcType r.type → r.trailers = true
  unary : ∀ m f, Dict.get? app.endpoints r.path = some ⟨m, .unary f⟩ → ConnectType r.type →
    (r.method = pys! "POST" → PostClear app r) ∧ (r.method = pys! "GET" → GetClear app (parseQs r.query))
  stream : ∀ ep p, Dict.get? app.endpoints r.path = some ep → Speaks p r.type → (p = .connect → ep.handler.isUnary = false) →
    MayRun ep.method r.type r.method → StreamClear app sc env r ep p

end
end Spec
