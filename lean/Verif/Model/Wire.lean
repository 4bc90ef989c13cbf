import Verif.Model.Base
import Verif.Py.Base64
/-
Model of `ConnectWireError` and the status tables in `src/connectrpc/_protocol.py`.
A `ConnectWireError` has the same fields as a `ConnectError`, so both are `ConnectErr`.
-/
namespace Conn
open Py

/-- `_protocol.py:51-74` `_error_to_http_status`: HTTP status and reason phrase of a code. -/
def Code.httpStatus : Code → Nat × Str
  | .canceled => (499, pys! "Client Closed Request")
  | .unknown => (500, pys! "Internal Server Error")
  | .invalidArgument => (400, pys! "Bad Request")
  | .deadlineExceeded => (504, pys! "Gateway Timeout")
  | .notFound => (404, pys! "Not Found")
  | .alreadyExists => (409, pys! "Conflict")
  | .permissionDenied => (403, pys! "Forbidden")
  | .resourceExhausted => (429, pys! "Too Many Requests")
  | .failedPrecondition => (400, pys! "Bad Request")
  | .aborted => (409, pys! "Conflict")
  | .outOfRange => (400, pys! "Bad Request")
  | .unimplemented => (501, pys! "Not Implemented")
  | .internal => (500, pys! "Internal Server Error")
  | .unavailable => (503, pys! "Service Unavailable")
  | .dataLoss => (500, pys! "Internal Server Error")
  | .unauthenticated => (401, pys! "Unauthorized")

/-- `_protocol.py:77-86` `_http_status_code_to_error`. -/
def httpStatusToCode : Dict Int Code :=
  [(400, .internal), (401, .unauthenticated), (403, .permissionDenied), (404, .unimplemented), (429, .unavailable),
   (502, .unavailable), (503, .unavailable), (504, .unavailable)]

/-- `_http_status_code_to_error.get(status, Code.UNKNOWN)` — `_protocol.py:122`, `146`. -/
def codeOfHttpStatus (status : Int) : Code :=
  match httpStatusToCode.get? status with
  | some c => c
  | none => .unknown

/-- `HTTPStatus(n).phrase` (Python 3.10–3.12; the standard library, `http/__init__.py`). `none` = `ValueError`. -/
def httpPhrases : Dict Int Str :=
  [(100, pys! "Continue"), (101, pys! "Switching Protocols"), (102, pys! "Processing"), (103, pys! "Early Hints"),
   (200, pys! "OK"), (201, pys! "Created"), (202, pys! "Accepted"), (203, pys! "Non-Authoritative Information"),
   (204, pys! "No Content"), (205, pys! "Reset Content"), (206, pys! "Partial Content"), (207, pys! "Multi-Status"),
   (208, pys! "Already Reported"), (226, pys! "IM Used"),
   (300, pys! "Multiple Choices"), (301, pys! "Moved Permanently"), (302, pys! "Found"), (303, pys! "See Other"),
   (304, pys! "Not Modified"), (305, pys! "Use Proxy"), (307, pys! "Temporary Redirect"),
   (308, pys! "Permanent Redirect"),
   (400, pys! "Bad Request"), (401, pys! "Unauthorized"), (402, pys! "Payment Required"), (403, pys! "Forbidden"),
   (404, pys! "Not Found"), (405, pys! "Method Not Allowed"), (406, pys! "Not Acceptable"),
   (407, pys! "Proxy Authentication Required"), (408, pys! "Request Timeout"), (409, pys! "Conflict"),
   (410, pys! "Gone"), (411, pys! "Length Required"), (412, pys! "Precondition Failed"),
   (413, pys! "Request Entity Too Large"), (414, pys! "Request-URI Too Long"), (415, pys! "Unsupported Media Type"),
   (416, pys! "Requested Range Not Satisfiable"), (417, pys! "Expectation Failed"), (418, pys! "I'm a Teapot"),
   (421, pys! "Misdirected Request"), (422, pys! "Unprocessable Entity"), (423, pys! "Locked"),
   (424, pys! "Failed Dependency"), (425, pys! "Too Early"), (426, pys! "Upgrade Required"),
   (428, pys! "Precondition Required"), (429, pys! "Too Many Requests"),
   (431, pys! "Request Header Fields Too Large"), (451, pys! "Unavailable For Legal Reasons"),
   (500, pys! "Internal Server Error"), (501, pys! "Not Implemented"), (502, pys! "Bad Gateway"),
   (503, pys! "Service Unavailable"), (504, pys! "Gateway Timeout"), (505, pys! "HTTP Version Not Supported"),
   (506, pys! "Variant Also Negotiates"), (507, pys! "Insufficient Storage"), (508, pys! "Loop Detected"),
   (510, pys! "Not Extended"), (511, pys! "Network Authentication Required")]

/-- `errors.py:38-41` `ErrorDetail.type_name`. -/
def ErrorDetail.typeName (d : ErrorDetail) : Str :=
  let p := pys! "type.googleapis.com/"
  if startsWith p d.typeUrl then d.typeUrl.drop p.length else d.typeUrl

namespace ConnectErr

/-- `_protocol.py:95-99` `from_exception`.  `str(exc)` of an `HTTPException` is its argument tuple; it never reaches
this function (both servers test for it first), so the model uses the empty text. -/
def fromException : Exc → ConnectErr
  | .connect e => e
  | .http _ _ => { code := .unknown, message := [] }
  | .other _ msg => { code := .unknown, message := msg }
  | .cancelled => { code := .unknown, message := [] }

/-- `_protocol.py:144-152` `from_http_status`. -/
def fromHttpStatus (status : Int) : ConnectErr :=
  { code := codeOfHttpStatus status
    message := match httpPhrases.get? status with
      | some p => p
      | none => if status = 499 then pys! "Client Closed Request" else [] }

/-- `_protocol.py:165-181` — one detail of `to_dict`. -/
def detailToJson (d : ErrorDetail) : Json :=
  let base := [(pys! "type", .str d.typeName), (pys! "value", .str (rstripChar '=' (b64encode d.value)))]
  match d.debug with
  | none => .obj base
  | some j => .obj (base ++ [(pys! "debug", j)])

/-- `_protocol.py:160-183` `to_dict`. -/
def toDict (e : ConnectErr) : Json :=
  let base := [(pys! "code", .str e.code.value), (pys! "message", .str e.message)]
  if e.details.isEmpty then .obj base
  else .obj (base ++ [(pys! "details", .arr (e.details.map detailToJson))])

/-- `_protocol.py:185-186` `to_json_bytes`. -/
def toJsonBytes (e : ConnectErr) : Bytes := utf8Encode (dumps e.toDict)

/-- `_protocol.py:128-141` — one element of `details`: `none` = skipped. -/
def detailOfJson : Json → Except Exc (Option ErrorDetail)
  | .obj m =>
    match Dict.get? m (pys! "type"), Dict.get? m (pys! "value") with
    | none, _ | some .null, _ | _, none | _, some .null => .ok none
    | some (.str t), some (.str v) =>
      match b64decode (v ++ pys! "===") with
      | some b => .ok (some { typeUrl := pys! "type.googleapis.com/" ++ t, value := b })
      | none => .error (.other .valueError (pys! "binascii.Error"))
    | some _, some _ => .error (.other .typeError (pys! "can only concatenate str"))
  | _ => .error (.other .attributeError (pys! "object has no attribute 'get'"))

/-- `_protocol.py:127-141` — the loop over a list of details. -/
def detailsOfList : List Json → Except Exc (List ErrorDetail)
  | [] => .ok []
  | j :: r =>
    match detailOfJson j with
    | .error e => .error e
    | .ok d =>
      match detailsOfList r with
      | .error e => .error e
      | .ok ds => .ok (match d with | some d => d :: ds | none => ds)

/-- `_protocol.py:124-141` — `data.get("details")`: iterating a non-empty string or dict yields strings, which have no
`get`; numbers and `True` are not iterable. -/
def detailsOfJson : Option Json → Except Exc (List ErrorDetail)
  | none => .ok []
  | some j =>
    if j.truthy then
      match j with
      | .arr l => detailsOfList l
      | .obj _ | .str _ => .error (.other .attributeError (pys! "'str' object has no attribute 'get'"))
      | _ => .error (.other .typeError (pys! "object is not iterable"))
    else .ok []

/-- `_protocol.py:115-122` — the code of an error object. -/
def codeOfDict (m : Dict Str Json) (httpStatus : Int) (unexpected : Code) : Code :=
  match m.get? (pys! "code") with
  | some j =>
    if j.truthy then
      match j with
      | .str s => (match Code.ofValue s with | some c => c | none => unexpected)
      | _ => unexpected
    else codeOfHttpStatus httpStatus
  | none => codeOfHttpStatus httpStatus

/-- `_protocol.py:123` — the message of an error object.  A message that is not a string is kept by the code as it is;
the model stores its JSON text. -/
def messageOfDict (m : Dict Str Json) : Str :=
  match m.get? (pys! "message") with
  | none => []
  | some (.str s) => s
  | some j => dumps j

/-- `_protocol.py:111-142` `from_dict`. -/
def fromDict (m : Dict Str Json) (httpStatus : Int) (unexpected : Code) : Except Exc ConnectErr :=
  match detailsOfJson (m.get? (pys! "details")) with
  | .error e => .error e
  | .ok ds => .ok { code := codeOfDict m httpStatus unexpected, message := messageOfDict m, details := ds }

/-- `_protocol.py:101-109` `from_response`; `response.json()` parses the body. -/
def fromResponse (status : Int) (body : Bytes) : Except Exc ConnectErr :=
  match loadsBytes body with
  | some (.obj m) => fromDict m status .unavailable
  | _ => .ok (fromHttpStatus status)

end ConnectErr

/-- `_protocol_grpc.py:424-441` `_connect_status_to_grpc`. -/
def Code.grpcStatus : Code → Str
  | .canceled => pys! "1"
  | .unknown => pys! "2"
  | .invalidArgument => pys! "3"
  | .deadlineExceeded => pys! "4"
  | .notFound => pys! "5"
  | .alreadyExists => pys! "6"
  | .permissionDenied => pys! "7"
  | .resourceExhausted => pys! "8"
  | .failedPrecondition => pys! "9"
  | .aborted => pys! "10"
  | .outOfRange => pys! "11"
  | .unimplemented => pys! "12"
  | .internal => pys! "13"
  | .unavailable => pys! "14"
  | .dataLoss => pys! "15"
  | .unauthenticated => pys! "16"

/-- `_protocol_grpc.py:443` `_grpc_status_to_connect`. -/
def grpcStatusToCode : Dict Str Code := Dict.ofList (Code.all.map fun c => (c.grpcStatus, c))

/-- `_grpc_status_to_connect.get(status, Code.UNKNOWN)` — `_protocol_grpc.py:363`, `367`. -/
def codeOfGrpcStatus (s : Str) : Code :=
  match grpcStatusToCode.get? s with
  | some c => c
  | none => .unknown

end Conn
