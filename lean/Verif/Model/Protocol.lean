import Verif.Model.Headers
import Verif.Model.Timeout
import Verif.Model.Compression
import Verif.Model.Wire
/-
Model of the protocol classes: `_protocol_server.py`, `_protocol_connect.py`, `_protocol_grpc.py`, and the address helpers
of `_protocol.py`.
-/
namespace Conn
open Py

/-- The three wire protocols, server side (`ConnectServerProtocol`, `GRPCServerProtocol`, `GRPCWebServerProtocol`) and
client side (`ConnectClientProtocol`, `GRPCClientProtocol`, `GRPCWebClientProtocol`). -/
inductive Proto where
  | connect | grpc | grpcWeb
deriving DecidableEq, Repr, Inhabited

/-- `method.py` `IdempotencyLevel`. -/
inductive Idempotency where
  | unknown | noSideEffects | idempotent
deriving DecidableEq, Repr, Inhabited

/-- `method.py` `MethodInfo`, without the message classes. -/
structure MethodInfo where
  name : Str
  serviceName : Str
  idempotency : Idempotency
deriving DecidableEq, Repr, Inhabited

/-- `request.py:18-51` `RequestContext`; the deadline is kept as the constructor argument `timeout_ms`, see
`Model/Clock` for the conversion to an absolute time. -/
structure RequestContext where
  method : MethodInfo
  httpMethod : Str
  requestHeaders : Headers
  timeoutMs : Option Int
  serverAddress : Option Str
  clientAddress : Option Str
deriving DecidableEq, Repr, Inhabited

/-- `_protocol.py:284-293` `host_to_server_address`. -/
def hostToServerAddress (host : Option Str) (scheme : Str) : Option Str :=
  match host with
  | none => none
  | some host =>
    if ':' ∈ host then some host
    else if scheme = pys! "https" then some (host ++ pys! ":443")
    else if scheme = pys! "http" then some (host ++ pys! ":80")
    else some host

/-- `_protocol.py:296-304` `url_to_server_address`. -/
def urlToServerAddress (address : Str) : Option Str :=
  if startsWith (pys! "https://") address then
    hostToServerAddress (some (address.drop 8)) (pys! "https")
  else hostToServerAddress (some (address.drop 7)) (pys! "http")

/-- `_protocol_server.py:19-28` `negotiate_server_protocol`. -/
def negotiateServerProtocol (contentType : Str) : Proto :=
  if contentType = pys! "application/grpc" ∨ startsWith (pys! "application/grpc+") contentType then .grpc
  else if contentType = pys! "application/grpc-web" ∨ startsWith (pys! "application/grpc-web+") contentType then .grpcWeb
  else .connect

/-- `_protocol_connect.py:52-57` `_normalize_content_type`. -/
def normalizeContentType (contentType : Str) : Str := lower (strip (partitionFst ';' contentType))

/-- `_protocol_connect.py:60-71` `codec_name_from_content_type`. -/
def connectCodecName (contentType : Str) (stream : Bool) : Str :=
  let ct := normalizeContentType contentType
  let pre := if stream then pys! "application/connect+" else pys! "application/"
  if startsWith pre ct then ct.drop pre.length else ct

namespace Proto

/-- `uses_trailers` — `_protocol_connect.py:134`, `_protocol_grpc.py:82`, `107`. -/
def usesTrailers : Proto → Bool
  | .connect => false
  | .grpc => true
  | .grpcWeb => false

/-- `content_type` — `_protocol_connect.py:137-138`, `_protocol_grpc.py:85-86`, `110-111`. -/
def contentType (p : Proto) (codecName : Str) : Str :=
  match p with
  | .connect => pys! "application/connect+" ++ codecName
  | .grpc => pys! "application/grpc+" ++ codecName
  | .grpcWeb => pys! "application/grpc-web+" ++ codecName

/-- `compression_header_name` — `_protocol_connect.py:140-141`, `_protocol_grpc.py:88-89`. -/
def compressionHeaderName : Proto → Str
  | .connect => pys! "connect-content-encoding"
  | .grpc => pys! "grpc-encoding"
  | .grpcWeb => pys! "grpc-encoding"

/-- `codec_name_from_content_type` — `_protocol_connect.py:143-144`, `_protocol_grpc.py:91-94`, `113-116`. -/
def codecNameFromContentType (p : Proto) (ct : Str) (stream : Bool) : Str :=
  match p with
  | .connect => connectCodecName ct stream
  | .grpc =>
    if startsWith (pys! "application/grpc+") ct then ct.drop (pys! "application/grpc+").length else pys! "proto"
  | .grpcWeb =>
    if startsWith (pys! "application/grpc-web+") ct then ct.drop (pys! "application/grpc-web+").length
    else pys! "proto"

/-- `negotiate_stream_compression` — `_protocol_connect.py:146-159`, `_protocol_grpc.py:96-103`. -/
def negotiateStreamCompression (p : Proto) (headers : Headers) (comps : Dict Str Compression) :
    Option Compression × Compression :=
  match p with
  | .connect =>
    let req := match comps.get? (headers.getD (pys! "connect-content-encoding") (pys! "identity")) with
      | some c => c
      | none => .identity
    (some req, negotiateCompression (headers.getD (pys! "connect-accept-encoding") []) comps)
  | .grpc | .grpcWeb =>
    (comps.get? (headers.getD (pys! "grpc-encoding") (pys! "identity")),
      negotiateCompression (headers.getD (pys! "grpc-accept-encoding") []) comps)

end Proto

/-- `HTTPException(405, [("allow", …)])`. -/
def methodNotAllowed (allow : Str) : Exc := .http 405 [(pys! "allow", allow)]

/-- `_protocol_connect.py:83-89` — the HTTP methods Connect allows. -/
def connectMethodCheck (idem : Idempotency) (httpMethod : Str) : Option Exc :=
  if idem = .noSideEffects then
    if httpMethod = pys! "GET" ∨ httpMethod = pys! "POST" then none else some (methodNotAllowed (pys! "GET, POST"))
  else if httpMethod = pys! "POST" then none else some (methodNotAllowed (pys! "POST"))

/-- `_protocol_connect.py:102-116` — the Connect timeout header. -/
def connectTimeout (header : Option Str) : Except Exc (Option Int) :=
  match header with
  | none => .ok none
  | some t =>
    if t.isEmpty then .ok none
    else if t.length > 10 then
      .error (.mk .invalidArgument (pys! "Invalid timeout header: '" ++ t ++ pys! " has >10 digits"))
    else match parseInt t with
      | none => .error (.mk .invalidArgument (pys! "Invalid timeout header: '" ++ t ++ pys! "'"))
      | some n => .ok (some n)

/-- `_protocol_connect.py:75-127` `ConnectServerProtocol.create_request_context`. -/
def connectServerContext (method : MethodInfo) (httpMethod scheme : Str) (headers : Headers) (client : Option Str) :
    Except Exc RequestContext :=
  match connectMethodCheck method.idempotency httpMethod with
  | some e => .error e
  | none =>
    let version := headers.getD (pys! "connect-protocol-version") (pys! "1")
    if version ≠ pys! "1" then
      .error (.mk .invalidArgument (pys! "connect-protocol-version must be '1': got '" ++ version ++ pys! "'"))
    else
      match connectTimeout (headers.get (pys! "connect-timeout-ms")) with
      | .error e => .error e
      | .ok t => .ok
        { method, httpMethod, requestHeaders := headers, timeoutMs := t
          serverAddress := hostToServerAddress (headers.get (pys! "host")) scheme, clientAddress := client }

/-- `_protocol_grpc.py:63-64` — the gRPC timeout header. -/
def grpcTimeout (header : Option Str) : Except Exc (Option Int) :=
  match header with
  | none => .ok none
  | some t =>
    if t.isEmpty then .ok none
    else match parseTimeout t with
      | .error e => .error e
      | .ok n => .ok (some n)

/-- `_protocol_grpc.py:52-75` `GRPCServerProtocol.create_request_context`. -/
def grpcServerContext (method : MethodInfo) (httpMethod scheme : Str) (headers : Headers) (client : Option Str) :
    Except Exc RequestContext :=
  if httpMethod ≠ pys! "POST" then .error (methodNotAllowed (pys! "POST"))
  else
    match grpcTimeout (headers.get (pys! "grpc-timeout")) with
    | .error e => .error e
    | .ok t => .ok
      { method, httpMethod, requestHeaders := headers, timeoutMs := t
        serverAddress := hostToServerAddress (headers.get (pys! "host")) scheme, clientAddress := client }

/-- `create_request_context` of the three server protocols. -/
def Proto.serverContext (p : Proto) (method : MethodInfo) (httpMethod scheme : Str) (headers : Headers)
    (client : Option Str) : Except Exc RequestContext :=
  match p with
  | .connect => connectServerContext method httpMethod scheme headers client
  | .grpc | .grpcWeb => grpcServerContext method httpMethod scheme headers client

/-! ### client side -/

/-- `user_headers: Headers | Mapping[str, str] | None`. -/
inductive UserHeaders where
  | headers (h : Headers)
  | mapping (l : List (Str × Str))
  | none
deriving DecidableEq, Repr, Inhabited

/-- `_protocol_connect.py:192-200`, `_protocol_grpc.py:213-221` — the client's own copy of the headers. -/
def UserHeaders.copy : UserHeaders → Headers
  | .headers h => Headers.ofPairs h.allitems
  | .mapping l => Headers.ofMapping l
  | .none => Headers.empty

/-- `if k not in headers: headers[k] = v`. -/
def Headers.setIfAbsent (h : Headers) (k v : Str) : Headers := if h.contains k then h else h.setItem k v

/-- `if compression is not None: headers[k] = compression.name() else: headers.pop(k, None)`. -/
def Headers.setOrDrop (h : Headers) (k : Str) : Option Str → Headers
  | some v => h.setItem k v
  | none => h.popDiscard k

/-- `if timeout_ms is not None: headers[k] = …`. -/
def Headers.setIfSome (h : Headers) (k : Str) : Option Str → Headers
  | some v => h.setItem k v
  | none => h

/-- `_protocol_connect.py:206-215` and `_protocol_grpc.py:45-46`: header names for request and accepted compressions. -/
def Proto.requestEncodingHeader (p : Proto) (stream : Bool) : Str :=
  match p with
  | .connect => if stream then pys! "connect-content-encoding" else pys! "content-encoding"
  | .grpc | .grpcWeb => pys! "grpc-encoding"
def Proto.acceptEncodingHeader (p : Proto) (stream : Bool) : Str :=
  match p with
  | .connect => if stream then pys! "connect-accept-encoding" else pys! "accept-encoding"
  | .grpc | .grpcWeb => pys! "grpc-accept-encoding"

/-- `_protocol_connect.py:222-224`, `_protocol_grpc.py:231`: the request content type. -/
def Proto.requestContentType (p : Proto) (stream : Bool) (codecName : Str) : Str :=
  match p with
  | .connect => (if stream then pys! "application/connect+" else pys! "application/") ++ codecName
  | .grpc => pys! "application/grpc+" ++ codecName
  | .grpcWeb => pys! "application/grpc-web+" ++ codecName

/-- The headers a Connect client sends — `_protocol_connect.py:192-226`. `ua` is the default user agent. -/
def connectClientHeaders (ua : Str) (user : UserHeaders) (timeoutMs : Option Int) (codecName : Str) (stream : Bool)
    (accept : Str) (send : Option Compression) : Headers :=
  let h := user.copy
  let h := h.setIfAbsent (pys! "user-agent") ua
  let h := h.setItem (pys! "connect-protocol-version") (pys! "1")
  let h := h.setItem (Proto.acceptEncodingHeader .connect stream) accept
  let h := h.setOrDrop (Proto.requestEncodingHeader .connect stream) (send.map (·.name))
  let h := h.setItem (pys! "content-type") (Proto.requestContentType .connect stream codecName)
  h.setIfSome (pys! "connect-timeout-ms") (timeoutMs.map intStr)

/-- The headers a gRPC or gRPC-Web client sends — `_protocol_grpc.py:213-233`. -/
def grpcClientHeaders (p : Proto) (ua : Str) (user : UserHeaders) (timeoutMs : Option Int) (codecName : Str) (stream : Bool)
    (accept : Str) (send : Option Compression) : Headers :=
  let h := user.copy
  let h := h.setItem (pys! "te") (pys! "trailers")
  let h := h.setIfAbsent (pys! "user-agent") ua
  let h := h.setItem (pys! "grpc-accept-encoding") accept
  let h := h.setOrDrop (pys! "grpc-encoding") (send.map (·.name))
  let h := h.setItem (pys! "content-type") (p.requestContentType stream codecName)
  h.setIfSome (pys! "grpc-timeout") (timeoutMs.map serializeTimeout)

def Proto.clientHeaders (p : Proto) (ua : Str) (user : UserHeaders) (timeoutMs : Option Int) (codecName : Str)
    (stream : Bool) (accept : Str) (send : Option Compression) : Headers :=
  match p with
  | .connect => connectClientHeaders ua user timeoutMs codecName stream accept send
  | .grpc => grpcClientHeaders .grpc ua user timeoutMs codecName stream accept send
  | .grpcWeb => grpcClientHeaders .grpcWeb ua user timeoutMs codecName stream accept send

/-- `create_request_context` of the client protocols — `_protocol_connect.py:179-236`, `_protocol_grpc.py:200-243`. -/
def Proto.clientContext (p : Proto) (ua : Str) (method : MethodInfo) (url httpMethod : Str) (user : UserHeaders)
    (timeoutMs : Option Int) (codecName : Str) (stream : Bool) (accept : Str) (send : Option Compression) :
    RequestContext :=
  { method, httpMethod, requestHeaders := p.clientHeaders ua user timeoutMs codecName stream accept send
    timeoutMs, serverAddress := urlToServerAddress url, clientAddress := none }

/-! ### response headers on the client (pyqwest) -/

/-- `pyqwest.Headers`: a list of (lower-case name, value) pairs.  pyqwest is not part of the code; assumed: `get`
returns the first value of a name, ignoring letter case; `items` yields every pair in order; `add` appends. -/
abbrev HTTPHeaders := List (Str × Str)

namespace HTTPHeaders
def get (h : HTTPHeaders) (k : Str) : Option Str := Dict.get? h (lower k)
def getD (h : HTTPHeaders) (k d : Str) : Str :=
  match h.get k with
  | some v => v
  | none => d
def add (h : HTTPHeaders) (k v : Str) : HTTPHeaders := h ++ [(lower k, v)]
end HTTPHeaders

/-- "invalid content-type: '…'; expecting '…'" — `_protocol_connect.py:251`, `262`, `271`, `280`, `_protocol_grpc.py:259`, `270`. -/
def badContentType (c : Code) (got expecting : Str) : Exc :=
  .mk c (pys! "invalid content-type: '" ++ got ++ pys! "'; expecting '" ++ expecting ++ pys! "'")

/-- `_protocol_connect.py:238-263` `validate_response`; `none` = accepted. -/
def connectValidateResponse (codecName : Str) (status : Int) (contentType : Str) : Option Exc :=
  let ct := normalizeContentType contentType
  if status ≠ 200 then
    if ct = pys! "application/json" then none else some (.connect (ConnectErr.fromHttpStatus status))
  else if ¬ startsWith (pys! "application/") ct then
    some (badContentType .unknown ct (pys! "application/" ++ codecName))
  else if connectCodecName ct false = codecName then none
  else some (badContentType .internal ct (pys! "application/" ++ codecName))

/-- `_protocol_connect.py:265-281` `validate_stream_response`. -/
def connectValidateStream (codecName contentType : Str) : Option Exc :=
  let pre := pys! "application/connect+"
  if ¬ startsWith pre contentType then some (badContentType .unknown contentType (pre ++ codecName))
  else if contentType.drop pre.length ≠ codecName then
    some (badContentType .internal contentType (pre ++ codecName))
  else none

/-- `_protocol_grpc.py:250-271` `validate_stream_response`; `dflt`/`pre` are `_content_type` and
`_content_type_prefix`. -/
def grpcValidateStream (dflt pre codecName contentType : Str) : Option Exc :=
  if ¬ (contentType = dflt ∨ startsWith pre contentType) then
    some (badContentType .unknown contentType (pre ++ codecName))
  else
    let got := if startsWith pre contentType then contentType.drop pre.length else pys! "proto"
    if got ≠ codecName then some (badContentType .internal contentType (pre ++ codecName)) else none

def Proto.validateStream (p : Proto) (codecName contentType : Str) : Option Exc :=
  match p with
  | .connect => connectValidateStream codecName contentType
  | .grpc => grpcValidateStream (pys! "application/grpc") (pys! "application/grpc+") codecName contentType
  | .grpcWeb => grpcValidateStream (pys! "application/grpc-web") (pys! "application/grpc-web+") codecName contentType

/-- `handle_response_compression` — `_protocol_connect.py:283-304`, `_protocol_grpc.py:273-285`. -/
def Proto.responseCompression (p : Proto) (headers : HTTPHeaders) (comps : Dict Str Compression) (stream : Bool) :
    Except Exc Compression :=
  match headers.get (p.requestEncodingHeader stream) with
  | none => .ok .identity
  | some enc =>
    if enc.isEmpty then .ok .identity
    else match comps.get? enc with
      | some c => .ok c
      | none => .error (.mk .internal (pys! "unknown encoding '" ++ enc ++ pys! "'; accepted encodings are " ++
          join (pys! ", ") comps.keys))

end Conn
