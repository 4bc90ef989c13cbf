import Verif.Spec.Conforming
import Verif.Spec.Timeout
import Verif.Spec.UnaryResponse
/-
Specification for C72–C74: the requests a client may send, whichever implementation it is, in the published formats of the three
protocols, and what a handler has to be told about them.
-/
namespace Spec
open Conn Py

/-! ### queries -/

/-- Text in a query (RFC 3986, and `+` for a blank as in HTML forms): printable ASCII characters that are not reserved may stand for themselves,
and `%` with two hexadecimal digits, of either letter case, stands for any byte. -/
inductive QueryText (reserved : List Char) : List Char → List UInt8 → Prop where
  | nil : QueryText reserved [] []
  | plain {c : Char} {s : List Char} {b : List UInt8} (h : 0x21 ≤ c.toNat ∧ c.toNat ≤ 0x7E) (hr : c ∉ reserved)
      (hs : QueryText reserved s b) : QueryText reserved (c :: s) (UInt8.ofNat c.toNat :: b)
  | blank {s : List Char} {b : List UInt8} (hs : QueryText reserved s b) : QueryText reserved ('+' :: s) (0x20 :: b)
  | escaped {x y : Char} {h l : Nat} {s : List Char} {b : List UInt8} (hx : HexDigit x h) (hy : HexDigit y l)
      (hs : QueryText reserved s b) : QueryText reserved ('%' :: x :: y :: s) (UInt8.ofNat (16 * h + l) :: b)

/-- A query: names and values, joined by `=` and `&`. -/
inductive Query : List (List Char × List UInt8) → List Char → Prop where
  | one {name n v : List Char} {value : List UInt8} (hn : QueryText ['%', '+', '&', '#', '='] n (utf8Encode name))
      (hv : QueryText ['%', '+', '&', '#'] v value) : Query [(name, value)] (n ++ ['='] ++ v)
  | more {name n v q : List Char} {value : List UInt8} {ps : List (List Char × List UInt8)}
      (hn : QueryText ['%', '+', '&', '#', '='] n (utf8Encode name)) (hv : QueryText ['%', '+', '&', '#'] v value) (h : Query ps q) :
      Query ((name, value) :: ps) (n ++ ['='] ++ v ++ ['&'] ++ q)

/-- The values of a parameter. -/
def parameter (params : List (List Char × List UInt8)) (name : List Char) : List (List UInt8) :=
  (params.filter fun p => p.1 = name).map (·.2)

/-- Base64 for URLs (RFC 4648, section 5); the padding may be left out. -/
def UrlBase64 (s : List Char) (b : List UInt8) : Prop :=
  ∃ t, Base64 t b ∧ s = t.map fun c => if c = '+' then '-' else if c = '/' then '_' else c

/-- The message of a query: as it is, or in base64 if there is a parameter `base64=1`. -/
def QueryMessage (params : List (List Char × List UInt8)) (raw : List UInt8) : Prop :=
  (parameter params (pys! "base64") = [] ∧ parameter params (pys! "message") = [raw]) ∨
  (parameter params (pys! "base64") = [[0x31]] ∧
    ∃ s, parameter params (pys! "message") = [utf8Encode s] ∧ UrlBase64 s raw)

/-! ### timeouts -/

/-- The header that announces a timeout. -/
def timeoutName : Proto → List Char
  | .connect => pys! "connect-timeout-ms"
  | .grpc | .grpcWeb => pys! "grpc-timeout"

/-- The timeout a request announces, in milliseconds: none; for Connect, one to ten digits; for gRPC, one to eight digits and a unit. (Fractions of
milliseconds are not told to handlers.) -/
inductive Announced (fields : List (List Char × List Char)) : Proto → Option Int → Prop where
  | none {p : Proto} (h : fieldValues fields (timeoutName p) = []) : Announced fields p none
  | connect {ds : List Char} (h : fieldValues fields (timeoutName .connect) = [ds]) (hd : ∀ c ∈ ds, IsDigit c) (h1 : 1 ≤ ds.length)
      (h10 : ds.length ≤ 10) : Announced fields .connect (some (decimal ds : Nat))
  | grpc {p : Proto} {ds : List Char} {u : Char} {k : Nat} (hp : p ≠ .connect) (h : fieldValues fields (timeoutName p) = [ds ++ [u]])
      (hd : ∀ c ∈ ds, IsDigit c) (h1 : 1 ≤ ds.length) (h8 : ds.length ≤ 8) (hu : (u, k) ∈ unitNanos) :
      Announced fields p (some (decimal ds * k / 1000000 : Nat))

section
variable {Req Res : Type}

/-! ### unary requests by Connect -/

/-- The server knows identity (as every configuration does, see C64), and its compressions make nothing but the empty message of no
bytes. -/
structure UsualCompressions (app : App Req Res) : Prop where
  identity : Dict.get? app.comps (pys! "identity") = some .identity
  empty : ∀ n k data, Dict.get? app.comps n = some k → k.decompress [] = .ok data → data = []

/-- The body of a request without its content encoding, which is named in any letter case; none means identity. -/
def ContentDecoded (app : App Req Res) (fields : List (List Char × List Char)) (raw data : List UInt8) : Prop :=
  (fieldValues fields (pys! "content-encoding") = [] ∧ data = raw) ∨
  ∃ v k, fieldValues fields (pys! "content-encoding") = [v] ∧ Dict.get? app.comps (lower v) = some k ∧ k.decompress raw = .ok data

/-- A unary request by POST: the media type names the codec (with any parameters), the body is the message. -/
def Posted (app : App Req Res) (codec : ServerCodec Req Res) (address path : List Char) (rq : HttpRequest) (req : Req) : Prop :=
  rq.method = pys! "POST" ∧ rq.url = address ++ path ∧
  (∃ ct name, fieldValues rq.headers (pys! "content-type") = [ct] ∧ mediaType ct = pys! "application/" ++ name ∧
    ¬ pys! "grpc" <+: name ∧ Dict.get? app.codecs name = some codec) ∧
  ∃ data, ContentDecoded app rq.headers rq.body.flatten data ∧ WithinLimit app data ∧ codec.req.decode data = .ok req

/-- The parameters of a unary request by GET: the codec, the message, and its compression, if any. -/
def QueryCarries (app : App Req Res) (codec : ServerCodec Req Res) (params : List (List Char × List UInt8)) (req : Req) : Prop :=
  (∃ name, parameter params (pys! "encoding") = [utf8Encode name] ∧ Dict.get? app.codecs name = some codec) ∧
  ∃ raw data, QueryMessage params raw ∧
    ((parameter params (pys! "compression") = [] ∧ data = raw) ∨
     ∃ n k, parameter params (pys! "compression") = [utf8Encode n] ∧ Dict.get? app.comps n = some k ∧ k.decompress raw = .ok data) ∧
    codec.req.decode data = .ok req

/-- A message that is not in base64 is text: the bytes of a string. -/
def TextMessage (params : List (List Char × List UInt8)) : Prop :=
  parameter params (pys! "base64") = [] → ∀ raw, parameter params (pys! "message") = [raw] → ∃ s, raw = utf8Encode s

/-- A unary request by GET: parameters in any order, and possibly others (such as `connect=v1`). -/
def Queried (app : App Req Res) (codec : ServerCodec Req Res) (address path : List Char) (params : List (List Char × List UInt8))
    (rq : HttpRequest) (req : Req) : Prop :=
  rq.method = pys! "GET" ∧ fieldValues rq.headers (pys! "content-type") = [] ∧
  (∃ q, rq.url = address ++ path ++ ['?'] ++ q ∧ Query params q) ∧ QueryCarries app codec params req

/-- The protocol version of a Connect request: 1, or not given. -/
def Version (rq : HttpRequest) : Prop :=
  fieldValues rq.headers (pys! "connect-protocol-version") = [] ∨ fieldValues rq.headers (pys! "connect-protocol-version") = [['1']]

/-- A unary request by Connect, in the published format, with the message `req` and the timeout `told`. -/
structure UnaryRequest (app : App Req Res) (codec : ServerCodec Req Res) (address path : List Char) (rq : HttpRequest) (req : Req)
    (told : Option Int) : Prop where
  version : Version rq
  timeout : Announced rq.headers .connect told
  carries : Posted app codec address path rq req ∨ ∃ params, Queried app codec address path params rq req

/-! ### streams -/

/-- The content type of a stream with messages in a codec: for Connect with any parameters; for the gRPC protocols the codec may be left out
if it is `proto`. -/
def RequestType (p : Proto) (codec ct : List Char) : Prop :=
  match p with
  | .connect => mediaType ct = pys! "application/connect+" ++ codec
  | .grpc | .grpcWeb => StreamedType p codec ct

/-- A streamed request, in the published format of the protocol, with the messages `reqs` and the timeout `told`: each message is in an envelope of
its own, compressed (flag 1) or not (flag 0). -/
structure StreamedRequest (app : App Req Res) (codec : ServerCodec Req Res) (address path : List Char) (p : Proto) (rq : HttpRequest)
    (reqs : List Req) (told : Option Int) : Prop where
  method : rq.method = pys! "POST"
  url : rq.url = address ++ path
  version : p = .connect → Version rq
  timeout : Announced rq.headers p told
  type : ∃ ct name, fieldValues rq.headers (pys! "content-type") = [ct] ∧ RequestType p name ct ∧ Dict.get? app.codecs name = some codec
  body : ∃ (comp : Compression) (fs : List Frame), Named app.comps rq.headers (encodingHeader p) comp ∧ (∀ f ∈ fs, f.Ok ∧ (f.flags = 0 ∨ f.flags = 1)) ∧
    rq.body.flatten = fs.flatMap Frame.bytes ∧ fs.map (serverPolicy app codec comp).message = reqs.map .ok

/-! ### what the handler is told -/

/-- The handler is told the request: its method, its headers (those that HTTP passes on, as the application server presents them) and its timeout. -/
structure ToldOf (rq : HttpRequest) (ms : MethodInfo) (told : Option Int) (seen : List (List Char) → List (List Char))
    (scheme : List Char) (headers : Headers) (peer : Option (List Char)) (ctx : RequestContext) : Prop where
  context : CtxIs ctx ms rq.method scheme headers peer
  timeout : ctx.timeoutMs = told
  headers : ∀ n, Forwarded n → fieldValues rq.headers n ≠ [] → ctx.requestHeaders.getall n = seen (fieldValues rq.headers n)

end

end Spec
