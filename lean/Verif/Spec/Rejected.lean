import Verif.Spec.Conforming
/-
Specification for C75: what a client tells its caller about responses that are not of its protocol (those of proxies, of other services, of
servers with other codecs or compressions).
-/
namespace Spec
open Conn Py

/-- The value of a header that is sent at most once; none is the empty text. -/
def Header (fields : List (List Char × List Char)) (name value : List Char) : Prop :=
  fieldValues fields name = [value] ∨ (fieldValues fields name = [] ∧ value = [])

/-- The content types of the streams of a protocol, in whichever codec. -/
def StreamType (p : Proto) (ct : List Char) : Prop :=
  match p with
  | .connect => pys! "application/connect+" <+: ct
  | .grpc => ct = pys! "application/grpc" ∨ pys! "application/grpc+" <+: ct
  | .grpcWeb => ct = pys! "application/grpc-web" ∨ pys! "application/grpc-web+" <+: ct

section
variable {Req Res : Type}

/-- A response with status 200 that the client cannot read as a stream of its protocol; the code it has to report, and what is to blame: a
content type that is not one of the protocol (UNKNOWN), or names another codec (INTERNAL); or a compression that the client does
not know (INTERNAL). -/
inductive StreamMisfit (c : Client Req Res) (headers : List (List Char × List Char)) : Code → List Char → Prop where
  | type {ct : List Char} (hc : Header headers (pys! "content-type") ct) (ht : ¬ StreamType c.proto ct) : StreamMisfit c headers .unknown ct
  | codec {ct : List Char} (hc : Header headers (pys! "content-type") ct) (ht : StreamType c.proto ct)
      (hn : ¬ StreamedType c.proto c.codec.name ct) : StreamMisfit c headers .internal ct
  | encoding {ct enc : List Char} (hc : Header headers (pys! "content-type") ct) (ht : StreamedType c.proto c.codec.name ct)
      (he : fieldValues headers (encodingHeader c.proto) = [enc]) (h0 : enc ≠ []) (hk : Dict.get? c.comps enc = none) :
      StreamMisfit c headers .internal enc

/-- The same for the response to a unary call by Connect. -/
inductive UnaryMisfit (c : Client Req Res) (headers : List (List Char × List Char)) : Code → List Char → Prop where
  | type {ct : List Char} (hc : Header headers (pys! "content-type") ct) (ht : ¬ pys! "application/" <+: mediaType ct) :
      UnaryMisfit c headers .unknown (mediaType ct)
  | codec {ct : List Char} (hc : Header headers (pys! "content-type") ct) (ht : pys! "application/" <+: mediaType ct)
      (hn : mediaType ct ≠ pys! "application/" ++ c.codec.name) : UnaryMisfit c headers .internal (mediaType ct)
  | encoding {ct enc : List Char} (hc : Header headers (pys! "content-type") ct) (ht : mediaType ct = pys! "application/" ++ c.codec.name)
      (he : fieldValues headers (pys! "content-encoding") = [enc]) (h0 : enc ≠ []) (hk : Dict.get? c.comps enc = none) :
      UnaryMisfit c headers .internal enc

/-- The beginning of a streamed response by gRPC or gRPC-Web that delivers the messages `ms`: it is cut off after any number of bytes, or lacks its
end, so that there is no status. -/
structure CutStream (c : Client Req Res) (ms : List Res) (resp : StreamResponse) : Prop where
  status : resp.status = 200
  lower : ∀ p ∈ resp.headers, Py.lower p.1 = p.1
  trailersLower : ∀ p ∈ resp.trailers, Py.lower p.1 = p.1
  type : ∃ ct, fieldValues resp.headers (pys! "content-type") = [ct] ∧ StreamedType c.proto c.codec.name ct
  body : ∃ comp fs rest, Named c.comps resp.headers (encodingHeader c.proto) comp ∧ Splits resp.chunks.flatten fs rest ∧
    (∀ f ∈ fs, f.flags = 0 ∨ f.flags = 1) ∧ fs.map (receives c comp).message = ms.map .ok
  bodyErr : resp.bodyErr = none
  exitErr : resp.exitErr = none
  noStatus : fieldValues resp.headers (pys! "grpc-status") = [] ∧ (c.proto = .grpc → fieldValues resp.trailers (pys! "grpc-status") = [])

end

/-- The error tells the code, and what is to blame. -/
def Blames (code : Code) (culprit : List Char) (e : Exc) : Prop :=
  ∃ ce, e = .connect ce ∧ ce.code = code ∧ culprit <:+: ce.message

/-- The reason phrases of HTTP statuses (RFC 9110 and its predecessors, as Python's standard library spells them; and nginx's 499). -/
def reasons : List (Int × List Char) :=
  [(100, pys! "Continue"), (101, pys! "Switching Protocols"), (102, pys! "Processing"), (103, pys! "Early Hints"), (200, pys! "OK"),
   (201, pys! "Created"), (202, pys! "Accepted"), (203, pys! "Non-Authoritative Information"), (204, pys! "No Content"),
   (205, pys! "Reset Content"), (206, pys! "Partial Content"), (207, pys! "Multi-Status"), (208, pys! "Already Reported"),
   (226, pys! "IM Used"), (300, pys! "Multiple Choices"), (301, pys! "Moved Permanently"), (302, pys! "Found"), (303, pys! "See Other"),
   (304, pys! "Not Modified"), (305, pys! "Use Proxy"), (307, pys! "Temporary Redirect"), (308, pys! "Permanent Redirect"),
   (400, pys! "Bad Request"), (401, pys! "Unauthorized"), (402, pys! "Payment Required"), (403, pys! "Forbidden"), (404, pys! "Not Found"),
   (405, pys! "Method Not Allowed"), (406, pys! "Not Acceptable"), (407, pys! "Proxy Authentication Required"),
   (408, pys! "Request Timeout"), (409, pys! "Conflict"), (410, pys! "Gone"), (411, pys! "Length Required"),
   (412, pys! "Precondition Failed"), (413, pys! "Request Entity Too Large"), (414, pys! "Request-URI Too Long"),
   (415, pys! "Unsupported Media Type"), (416, pys! "Requested Range Not Satisfiable"), (417, pys! "Expectation Failed"),
   (418, pys! "I'm a Teapot"), (421, pys! "Misdirected Request"), (422, pys! "Unprocessable Entity"), (423, pys! "Locked"),
   (424, pys! "Failed Dependency"), (425, pys! "Too Early"), (426, pys! "Upgrade Required"), (428, pys! "Precondition Required"),
   (429, pys! "Too Many Requests"), (431, pys! "Request Header Fields Too Large"), (451, pys! "Unavailable For Legal Reasons"),
   (499, pys! "Client Closed Request"), (500, pys! "Internal Server Error"), (501, pys! "Not Implemented"), (502, pys! "Bad Gateway"),
   (503, pys! "Service Unavailable"), (504, pys! "Gateway Timeout"), (505, pys! "HTTP Version Not Supported"),
   (506, pys! "Variant Also Negotiates"), (507, pys! "Insufficient Storage"), (508, pys! "Loop Detected"), (510, pys! "Not Extended"),
   (511, pys! "Network Authentication Required")]

/-- The error that stands for an HTTP status: the code of the status (the same table as for C20), and its reason phrase (no text, if it has none). -/
def ErrorOfStatus (status : Int) (e : Exc) : Prop :=
  ∃ ce, e = .connect ce ∧ ce.code = codeOfStatus status ∧ ce.details = [] ∧ (∀ r, (status, r) ∈ reasons → ce.message = r) ∧
    ((∀ r, (status, r) ∉ reasons) → ce.message = [])

end Spec
