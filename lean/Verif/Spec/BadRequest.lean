import Verif.Spec.BadMessage
import Verif.Spec.Request
/-
Specification for C102: messages of a streamed request that the server cannot accept.
-/
namespace Spec
open Conn Py

section
variable {Req Res : Type}

/-- An envelope that the server cannot accept, in a request with this compression; the code of the error, and a part of its text. It is
compressed although the request has no compression (INTERNAL); or it cannot be decompressed (UNKNOWN, with what the compression says); or it
is too large (RESOURCE_EXHAUSTED, with the limit); or it cannot be decoded (UNKNOWN, with what the codec says). -/
inductive BadFrame (app : App Req Res) (codec : ServerCodec Req Res) (comp : Compression) (f : Frame) : Code → List Char → Prop where
  | unexpected (hf : f.flags.toNat % 2 = 1) (hc : comp = .identity) : BadFrame app codec comp f .internal []
  | spoilt {cls : Cls} {msg : List Char} (hf : f.flags.toNat % 2 = 1) (hc : comp ≠ .identity)
      (h : comp.decompress f.payload = .error (.other cls msg)) : BadFrame app codec comp f .unknown msg
  | large {contents : List UInt8} {n : Int} (hc : Holds comp f contents) (hn : app.readMax = some n) (h : n < contents.length) :
      BadFrame app codec comp f .resourceExhausted (intStr n)
  | garbled {contents : List UInt8} {cls : Cls} {msg : List Char} (hc : Holds comp f contents)
      (hn : ∀ n, app.readMax = some n → (contents.length : Int) ≤ n) (h : codec.req.decode contents = .error (.other cls msg)) :
      BadFrame app codec comp f .unknown msg

/-- A streamed request, in the published format of the protocol up to a point: the messages `reqs` come first, then the envelope `next`, then
`rest`. -/
structure RequestUpTo (app : App Req Res) (codec : ServerCodec Req Res) (address path : List Char) (p : Proto) (rq : HttpRequest)
    (comp : Compression) (reqs : List Req) (told : Option Int) (next : Frame) (rest : List UInt8) : Prop where
  method : rq.method = pys! "POST"
  url : rq.url = address ++ path
  version : p = .connect → Version rq
  timeout : Announced rq.headers p told
  type : ∃ ct name, fieldValues rq.headers (pys! "content-type") = [ct] ∧ RequestType p name ct ∧ Dict.get? app.codecs name = some codec
  named : Named app.comps rq.headers (encodingHeader p) comp
  body : ∃ fs : List Frame, (∀ f ∈ fs, f.Ok ∧ (f.flags = 0 ∨ f.flags = 1)) ∧ fs.map (serverPolicy app codec comp).message = reqs.map .ok ∧
    rq.body.flatten = fs.flatMap Frame.bytes ++ next.bytes ++ rest
  nextOk : next.Ok

/-- Such a request in which that envelope cannot be accepted; anything may follow it. -/
def SpoiltRequest (app : App Req Res) (codec : ServerCodec Req Res) (address path : List Char) (p : Proto) (rq : HttpRequest)
    (reqs : List Req) (told : Option Int) (code : Code) (text : List Char) : Prop :=
  ∃ comp bad rest, RequestUpTo app codec address path p rq comp reqs told bad rest ∧ BadFrame app codec comp bad code text

/-- The exception (not a cancellation) is reported as an error with this code; the text is part of its message. -/
def ReportedAs (e : Exc) (code : Code) (text : List Char) : Prop := e ≠ .cancelled ∧ (errorOf e).code = code ∧ text <:+: (errorOf e).message

/-- A function that reads all messages, and the end or failure after them, before it does anything else; it does not catch the failure. -/
def ReadsFirst (acts : List (Act Res)) (s : ReqStream Req) : Prop :=
  ∃ more, acts = List.replicate (s.messages.length + 1) (.step (.recv false)) ++ more

end

end Spec
