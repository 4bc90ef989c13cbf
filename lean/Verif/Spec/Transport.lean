import Verif.Spec.UnaryResponse
import Verif.Spec.Stream
/-
Specification for the end-to-end properties (C47, C48, C58, C59): what HTTP, the application servers and the HTTP client do between
a client and a server of this library. None of this is code of the library: these are the assumptions about its environment.
-/
namespace Spec
open Conn Py

/-! ### requests -/

/-- Fields that HTTP implementations set, change or consume themselves. -/
def transportNames : List (List Char) :=
  [pys! "host", pys! "connection", pys! "content-length", pys! "transfer-encoding", pys! "te", pys! "trailer", pys! "upgrade",
   pys! "expect", pys! "keep-alive", pys! "via", pys! "date", pys! "server"]

/-- The fields that are passed on as they are (application servers drop names with an underscore). -/
def Forwarded (n : List Char) : Prop := lower n ∉ transportNames ∧ '_' ∉ n

/-- The fields of the three protocols that HTTP implementations do not add of themselves. -/
def protocolNames : List (List Char) :=
  [pys! "content-type", pys! "content-encoding", pys! "connect-protocol-version", pys! "connect-timeout-ms",
   pys! "connect-content-encoding", pys! "connect-accept-encoding", pys! "grpc-timeout", pys! "grpc-encoding",
   pys! "grpc-accept-encoding"]

/-- The letters, digits and marks that are not escaped in a path (RFC 3986, "unreserved"), and the slash. -/
def PathChar (c : Char) : Prop :=
  ('a' ≤ c ∧ c ≤ 'z') ∨ ('A' ≤ c ∧ c ≤ 'Z') ∨ ('0' ≤ c ∧ c ≤ '9') ∨ c ∈ ['_', '.', '-', '~', '/']

/-- A path that needs no escapes. -/
def PlainPath (p : List Char) : Prop := (∃ r, p = '/' :: r) ∧ ∀ c ∈ p, PathChar c

/-- upper case (ASCII) -/
def upperChar (c : Char) : Char := if 'a' ≤ c ∧ c ≤ 'z' then Char.ofNat (c.toNat - 32) else c

/-- The CGI variable of a header (RFC 3875, PEP 3333). -/
def cgiVar (n : List Char) : List Char :=
  if lower n = pys! "content-type" then pys! "CONTENT_TYPE"
  else pys! "HTTP_" ++ n.map fun c => if c = '-' then '_' else upperChar c

/-- The WSGI application mounted at `address` is given the request `rq`: its method, its path below the address, its query, its
fields (the values of one name joined by commas), its body in pieces, with or without its length. -/
structure WsgiSees (address : List Char) (rq : HttpRequest) (env : Environ) : Prop where
  method : Dict.get? env.vars (pys! "REQUEST_METHOD") = some rq.method
  path : ∀ p, PlainPath p → rq.url = address ++ p → Dict.get? env.vars (pys! "PATH_INFO") = some p
  query : ∀ p q, PlainPath p → rq.url = address ++ p ++ ['?'] ++ q →
    Dict.get? env.vars (pys! "PATH_INFO") = some p ∧ Dict.get? env.vars (pys! "QUERY_STRING") = some q
  distinct : DistinctHeaders env.vars
  field : ∀ n, Forwarded n → fieldValues rq.headers n ≠ [] →
    Dict.get? env.vars (cgiVar n) = some (join [','] (fieldValues rq.headers n))
  unset : ∀ n ∈ protocolNames, fieldValues rq.headers n = [] → wsgiValues env.vars n = []
  pieces : Pieces env.input
  body : env.input.flatten = rq.body.flatten
  length : NoLength env ∨ DeclaredLength env rq.body.flatten.length

/-- The ASGI application mounted at `address` is given the request `rq`. -/
structure AsgiSees (address : List Char) (rq : HttpRequest) (scope : Scope) (env : Env) : Prop where
  method : scope.method = rq.method
  path : ∀ p, PlainPath p → rq.url = address ++ p → scope.path = scope.rootPath ++ p
  query : ∀ p q, PlainPath p → rq.url = address ++ p ++ ['?'] ++ q →
    scope.path = scope.rootPath ++ p ∧ scope.query = utf8Encode q
  fields : ∃ fields : List (List Char × List Char),
    scope.headers = fields.map (fun p => (utf8Encode p.1, utf8Encode p.2)) ∧
    (∀ n, Forwarded n → fieldValues rq.headers n ≠ [] → fieldValues fields n = fieldValues rq.headers n) ∧
    (∀ n ∈ protocolNames, fieldValues rq.headers n = [] → fieldValues fields n = [])
  body : AsgiBody env.receive rq.body.flatten

/-- The request goes to `path` below `address`, with or without a query. -/
def Addressed (address : List Char) (rq : HttpRequest) (path : List Char) : Prop :=
  rq.url = address ++ path ∨ ∃ q, rq.url = address ++ path ++ ['?'] ++ q

/-! ### responses -/

/-- Undoing the content encodings of a response, as far as the HTTP client knows them. -/
abbrev Undo := List Char → List UInt8 → Option (List UInt8)

/-- The HTTP client returns the response `r` of the server as `resp`: status and fields, with names in lower case, and the body with
its content encoding undone (the field naming it may be kept or dropped). -/
structure Received (undo : Undo) (r : Response) (resp : FullResponse) : Prop where
  status : resp.status = r.status
  lower : ∀ p ∈ resp.headers, lower p.1 = p.1
  field : ∀ n, Py.lower n ∉ transportNames → Py.lower n ≠ pys! "content-encoding" →
    fieldValues resp.headers n = fieldValues r.fields n
  encoding : fieldValues resp.headers (pys! "content-encoding") = [] ∨
    fieldValues resp.headers (pys! "content-encoding") = fieldValues r.fields (pys! "content-encoding")
  plain : fieldValues r.fields (pys! "content-encoding") = [] → resp.content = r.body
  encoded : ∀ enc, fieldValues r.fields (pys! "content-encoding") = [enc] →
    (enc = pys! "identity" ∧ resp.content = r.body) ∨ (enc ≠ pys! "identity" ∧ undo enc r.body = some resp.content)

/-! ### a client and a server that fit together -/

section
variable {Req Res : Type}

/-- A name of lower-case letters, digits and hyphens. -/
def PlainName (n : List Char) : Prop := n ≠ [] ∧ ∀ c ∈ n, ('a' ≤ c ∧ c ≤ 'z') ∨ ('0' ≤ c ∧ c ≤ '9') ∨ c = '-'

/-- The path of a method. -/
def methodPath (m : MethodInfo) : List Char := ['/'] ++ m.serviceName ++ ['/'] ++ m.name

/-- Both sides have the same codec, for requests and responses. -/
structure SameCodec (c : Client Req Res) (app : App Req Res) (codec : ServerCodec Req Res) : Prop where
  found : Dict.get? app.codecs c.codec.name = some codec
  name : codec.name = c.codec.name
  plain : PlainName c.codec.name
  notGrpc : ¬ pys! "grpc" <+: c.codec.name
  request : ∀ m b, c.codec.encode m = .ok b → codec.req.decode b = .ok m
  response : ∀ m b, codec.res.encode m = .ok b → c.resCodec.decode b = .ok m

/-- Both sides look compressions up by their names, and know identity (as every configuration does, see C64); the server
knows the compression of the requests, and undoes it; no compressed message is empty unless the message is. -/
structure Compressions (c : Client Req Res) (app : App Req Res) : Prop where
  server : ∀ n k, Dict.get? app.comps n = some k → k.name = n
  serverIdentity : Dict.get? app.comps (pys! "identity") = some .identity
  clientIdentity : Dict.get? c.comps (pys! "identity") = some .identity
  names : ∀ n ∈ Dict.keys c.comps, PlainName n
  sendName : PlainName c.send.name
  send : ∃ k, Dict.get? app.comps c.send.name = some k ∧ ∀ b, k.decompress (c.send.compress b) = .ok b
  nonempty : ∀ b, c.send.compress b = [] → b = []

/-- The HTTP client undoes the compressions that both sides know. -/
def Undoes (undo : Undo) (c : Client Req Res) (app : App Req Res) : Prop :=
  ∀ n k, n ∈ Dict.keys c.comps → Dict.get? app.comps n = some k → n ≠ pys! "identity" → ∀ b, undo n (k.compress b) = some b

/-- The timeout of a call: the one given for it, or else that of the client (a timeout of 0 counts as none given, see C13). -/
def callTimeout (call dflt : Option Int) : Option Int := if call = some 0 then dflt else call.or dflt

/-- The timeout the request announces is one a server accepts: at most ten characters. (Without a timeout, the caller sets no
timeout header of their own.) -/
def TimeoutFits (c : Client Req Res) (user : UserHeaders) (t : Option Int) : Prop :=
  match callTimeout t c.timeoutMs with
  | some ms => (intStr ms).length ≤ 10
  | none => given user (pys! "connect-timeout-ms") = []

/-- What the caller gets when the run of the handler was `run`: its response, or its error. -/
inductive Gets (codec : ServerCodec Req Res) (run : Call Res) : Except Exc Res → Prop where
  | returned {r : Res} {data : List UInt8} (hr : run.result = .ok r) (he : codec.res.encode r = .ok data) : Gets codec run (.ok r)
  | failed {e : Exc} {e' : ConnectErr} (hf : Fails codec run e) (hr : report e' = report (errorOf e)) (hb : AsRead (errorOf e) e') :
      Gets codec run (.error (.connect e'))

/-- The runs of handlers the end-to-end properties are about: exceptions are ordinary (`Exception`, but not the library's internal
`HTTPException`), details have well-formed debug renderings, the response headers set no content encoding, and the
response respects the caller's limit. -/
structure Regular (c : Client Req Res) (codec : ServerCodec Req Res) (run : Call Res) : Prop where
  exceptions : ∀ e, Fails codec run e →
    e.isException = true ∧ DebugOk (errorOf e) ∧ ∀ s hs, e ≠ .http s hs
  encoding : fieldValues (metadataFields (metadataOf run.steps)) (pys! "content-encoding") = []
  limit : ∀ r b, run.result = .ok r → codec.res.encode r = .ok b → ∀ n, c.readMax = some n → (b.length : Int) ≤ n

/-- A unary call by Connect that a client and a server agree on: the codec, the compressions, the path; GET only for methods without side
effects; a message that can be encoded and (for POST) is within the server's limit; a timeout the server accepts. -/
structure UnaryCall (c : Client Req Res) (app : App Req Res) (codec : ServerCodec Req Res) (m ms : MethodInfo)
    (f : Req → RequestContext → Call Res) (req : Req) (user : UserHeaders) (t : Option Int) (useGet : Bool) : Prop where
  connect : c.proto = .connect
  codec : SameCodec c app codec
  comps : Compressions c app
  path : PlainPath (methodPath m)
  endpoint : Dict.get? app.endpoints (methodPath m) = some ⟨ms, .unary f⟩
  get : useGet = true → ms.idempotency = .noSideEffects
  message : ∃ data, c.codec.encode req = .ok data ∧ (useGet = false → WithinLimit app data)
  timeout : TimeoutFits c user t

/-! ### what the handler is told -/

/-- The caller's headers are among those the handler is given: every name that HTTP passes on and that the protocols do not use,
with all its values as the application server presents them (`seen`). -/
def Passes (user : UserHeaders) (seen : List (List Char) → List (List Char)) (headers : Headers) : Prop :=
  ∀ n, Forwarded n → lower n ∉ protocolNames → lower n ≠ pys! "accept-encoding" → given user n ≠ [] →
    headers.getall n = seen (given user n)

/-- A WSGI server joins the values of a name with commas. -/
def joined (vs : List (List Char)) : List (List Char) := [join [','] vs]

/-- The handler is told the timeout of the call, or else that of the client (a timeout of 0 counts as none given). -/
def TimeoutTold (call dflt told : Option Int) : Prop :=
  (∀ ms, call = some ms → ms ≠ 0 → told = some ms) ∧ (call = none ∨ call = some 0 → told = dflt)

/-! ### response metadata -/

/-- Header names that are the handler's own on responses: not HTTP's, not those of a unary Connect response, and not those that
stand for trailers. -/
def OwnName (n : List Char) : Prop :=
  lower n ∉ transportNames ∧ lower n ∉ [pys! "content-type", pys! "content-encoding", pys! "vary"] ∧
  ¬ pys! "trailer-" <+: lower n

/-- The metadata object of the caller tells the headers and trailers the handler set, with all values in order. (A header whose name
begins with `trailer-` cannot be told from a trailer.) -/
def Told (m : Meta) (r : RespMeta) : Prop :=
  (∀ n, OwnName n → r.getHeaders.getall n = fieldValues m.headers.allitems n) ∧
  ((∀ p ∈ m.headers.allitems, ¬ pys! "trailer-" <+: lower p.1) →
    ∀ n, r.getTrailers.getall n = fieldValues m.trailers.allitems n)

end

end Spec
