import Verif.Spec.Wire
import Verif.Spec.Client
import Verif.Spec.StreamTransport
/-
Specification for C70: the responses a server may send, whichever implementation it is, and what a caller has to learn from them.
-/
namespace Spec
open Conn Py

section
variable {Req Res : Type}

/-- The content type of a streamed response with messages in a codec. (For the gRPC protocols the codec may be left out if it is `proto`.) -/
def StreamedType (p : Proto) (codec ct : List Char) : Prop :=
  match p with
  | .connect => ct = pys! "application/connect+" ++ codec
  | .grpc => ct = pys! "application/grpc+" ++ codec ∨ (codec = pys! "proto" ∧ ct = pys! "application/grpc")
  | .grpcWeb => ct = pys! "application/grpc-web+" ++ codec ∨ (codec = pys! "proto" ∧ ct = pys! "application/grpc-web")

/-- The compression a response names: one of those the client knows; none means identity. -/
def Named (known : Dict (List Char) Compression) (fields : List (List Char × List Char)) (header : List Char) (comp : Compression) : Prop :=
  (fieldValues fields header = [] ∧ comp = .identity) ∨
  ∃ n, fieldValues fields header = [n] ∧ n ≠ [] ∧ Dict.get? known n = some comp

/-- How the client reads the messages of a response in this compression. -/
def receives (c : Client Req Res) (comp : Compression) : Policy Res :=
  { decompress := match comp with
      | .identity => none
      | .custom _ _ _ => some comp.decompress
    limit := c.readMax
    decode := c.resCodec.decode }

/-- The end of a streamed response whose messages are the envelopes `fs`: a last envelope (which counts for the limit on message sizes); or,
by gRPC, the status in the HTTP trailers; or, by the gRPC protocols and without any message, the status in the HTTP headers. -/
inductive StreamEnd (limit : Option Int) (sc : StatusCodec) (comp : Compression) (trailers : List (List Char × List Char))
    (error : Option ConnectErr) (resp : StreamResponse) (fs : List Frame) : Proto → Prop where
  | envelope {p : Proto} {f : Frame} {contents : List UInt8} (hf : EndFrame comp (endFlag p) f contents)
      (hc : EndContents sc trailers error p contents) (hl : ∀ n, limit = some n → (contents.length : Int) ≤ n)
      (hb : resp.chunks.flatten = fs.flatMap Frame.bytes ++ f.bytes) : StreamEnd limit sc comp trailers error resp fs p
  | trailers (hs : StatusFields sc trailers error resp.trailers) (hb : resp.chunks.flatten = fs.flatMap Frame.bytes) :
      StreamEnd limit sc comp trailers error resp fs .grpc
  | trailersOnly {p : Proto} (hp : p ≠ .connect) (hs : StatusFields sc trailers error resp.headers) (hfs : fs = [])
      (hb : resp.chunks.flatten = []) (ht : p = .grpc → fieldValues resp.trailers (pys! "grpc-status") = []) :
      StreamEnd limit sc comp trailers error resp fs p

/-- A complete streamed response in the format of the client's protocol, that delivers the messages `ms` and reports the outcome `error`,
in any chunks. Each message is in an envelope of its own, compressed (flag 1) or not (flag 0). -/
structure ConformingStream (c : Client Req Res) (sc : StatusCodec) (ms : List Res) (trailers : List (List Char × List Char))
    (error : Option ConnectErr) (resp : StreamResponse) : Prop where
  status : resp.status = 200
  lower : ∀ p ∈ resp.headers, Py.lower p.1 = p.1
  trailersLower : ∀ p ∈ resp.trailers, Py.lower p.1 = p.1
  type : ∃ ct, fieldValues resp.headers (pys! "content-type") = [ct] ∧ StreamedType c.proto c.codec.name ct
  body : ∃ comp fs, Named c.comps resp.headers (encodingHeader c.proto) comp ∧
    (∀ f ∈ fs, f.Ok ∧ (f.flags = 0 ∨ f.flags = 1)) ∧ fs.map (receives c comp).message = ms.map .ok ∧
    StreamEnd c.readMax sc comp trailers error resp fs c.proto
  bodyErr : resp.bodyErr = none
  exitErr : resp.exitErr = none

/-- What the caller has to learn: the messages, then the outcome; and the headers and trailers. (A header whose name begins with `trailer-`
cannot be told from a trailer.) -/
structure Understood (p : Proto) (sink : Sink) (headers : List (List Char × List Char)) (ms : List Res)
    (trailers : List (List Char × List Char)) (error : Option ConnectErr) (res : StreamResult Res) : Prop where
  messages : res.messages = ms
  outcome : Seen error res.exc
  metadata : sink = some RespMeta.new → ∃ rm, res.sink = some rm ∧
    (∀ n, ¬ pys! "trailer-" <+: lower n → rm.getHeaders.getall n = fieldValues headers n) ∧
    ((∀ q ∈ headers, ¬ pys! "trailer-" <+: lower q.1) →
      ∀ n, (p ≠ .connect → lower n ∉ grpcReserved) → rm.getTrailers.getall n = fieldValues trailers n)

/-- What the caller of an RPC with a single response has to learn from a stream of messages: the message, if there is exactly one and the
outcome is success; the error, if there is one; and an error if the server did not send exactly one message. (Two messages are an error whatever
the outcome.) -/
def Single (ms : List Res) (error : Option ConnectErr) (res : Except Exc Res) : Prop :=
  match ms, error with
  | _ :: _ :: _, _ => ∃ e', res = .error (.connect e') ∧ e'.code = .unimplemented
  | _, some e => ∃ e', res = .error (.connect e') ∧ report e' = report e
  | [m], none => res = .ok m
  | [], none => ∃ e', res = .error (.connect e') ∧ e'.code = .unimplemented

/-- The same, and the metadata. -/
structure UnderstoodSingle (p : Proto) (sink : Sink) (headers : List (List Char × List Char)) (ms : List Res)
    (trailers : List (List Char × List Char)) (error : Option ConnectErr) (res : Sink × Except Exc Res) : Prop where
  outcome : Single ms error res.2
  metadata : sink = some RespMeta.new → ∃ rm, res.1 = some rm ∧
    (∀ n, ¬ pys! "trailer-" <+: lower n → rm.getHeaders.getall n = fieldValues headers n) ∧
    ((∀ q ∈ headers, ¬ pys! "trailer-" <+: lower q.1) →
      ∀ n, (p ≠ .connect → lower n ∉ grpcReserved) → rm.getTrailers.getall n = fieldValues trailers n)

/-- A successful response to a unary call by Connect: status 200, the media type of the codec, and the message. (`content` is the body as the
HTTP client hands it over, which undoes a content encoding.) -/
structure ConformingUnary (c : Client Req Res) (m : Res) (resp : FullResponse) : Prop where
  status : resp.status = 200
  lower : ∀ p ∈ resp.headers, Py.lower p.1 = p.1
  type : ∃ ct, fieldValues resp.headers (pys! "content-type") = [ct] ∧ mediaType ct = pys! "application/" ++ c.codec.name
  encoding : ∃ comp, Named c.comps resp.headers (pys! "content-encoding") comp
  body : c.resCodec.decode resp.content = .ok m
  limit : ∀ n, c.readMax = some n → (resp.content.length : Int) ≤ n

/-- An error response to a unary call by Connect: a status that is not 200, JSON, and an error object. -/
structure ConformingError (c : Client Req Res) (e : ConnectErr) (resp : FullResponse) : Prop where
  status : resp.status ≠ 200
  lower : ∀ p ∈ resp.headers, Py.lower p.1 = p.1
  type : ∃ ct, fieldValues resp.headers (pys! "content-type") = [ct] ∧ mediaType ct = pys! "application/json"
  encoding : ∃ comp, Named c.comps resp.headers (pys! "content-encoding") comp
  body : ErrorBody e resp.content

/-- The metadata of a unary call by Connect: fields whose names begin with `trailer-` are the trailers, the others the headers. -/
def UnaryMetadata (headers : List (List Char × List Char)) (sink sink' : Sink) : Prop :=
  sink = some RespMeta.new → ∃ rm, sink' = some rm ∧
    (∀ n, ¬ pys! "trailer-" <+: lower n → rm.getHeaders.getall n = fieldValues headers n) ∧
    ∀ n, rm.getTrailers.getall n = fieldValues headers (pys! "trailer-" ++ n)

end

end Spec
