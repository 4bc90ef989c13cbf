import Verif.Spec.Rejected
/-
Specification for C101: messages of a response that the client cannot accept.
-/
namespace Spec
open Conn Py

/-- An exception of a decompressor or a decoder that has nothing to do with the network: not a timeout, not a reset of the stream. -/
def Ordinarily (cls : Cls) : Prop := cls ≠ .timeoutError ∧ ∀ code, cls ≠ .streamError code

/-- What an envelope contains: its payload, or what its compression makes of it if the first bit of its flags is set. -/
def Holds (comp : Compression) (f : Frame) (contents : List UInt8) : Prop :=
  (f.flags.toNat % 2 = 0 ∧ contents = f.payload) ∨
  (f.flags.toNat % 2 = 1 ∧ comp ≠ .identity ∧ comp.decompress f.payload = .ok contents)

section
variable {Req Res : Type}

/-- Contents that are too large for the client (RESOURCE_EXHAUSTED, with the limit), or that are not a message (UNAVAILABLE, with what the codec
says). -/
inductive BadContents (c : Client Req Res) (contents : List UInt8) : Code → List Char → Prop where
  | large {n : Int} (hn : c.readMax = some n) (h : n < contents.length) : BadContents c contents .resourceExhausted (intStr n)
  | garbled {cls : Cls} {msg : List Char} (hn : ∀ n, c.readMax = some n → (contents.length : Int) ≤ n)
      (h : c.resCodec.decode contents = .error (.other cls msg)) (ho : Ordinarily cls) : BadContents c contents .unavailable msg

/-- An envelope that the client cannot accept, in a response with this compression; the code it has to report, and a part of the text. It is compressed
although the response has no compression (INTERNAL); or it cannot be decompressed (UNAVAILABLE, with what the compression says); or it is too
large (also if it is the last one, with the end of the stream); or it is a message that cannot be decoded. -/
inductive BadEnvelope (c : Client Req Res) (comp : Compression) (f : Frame) : Code → List Char → Prop where
  | unexpected (hf : f.flags.toNat % 2 = 1) (hc : comp = .identity) : BadEnvelope c comp f .internal []
  | spoilt {cls : Cls} {msg : List Char} (hf : f.flags.toNat % 2 = 1) (hc : comp ≠ .identity)
      (h : comp.decompress f.payload = .error (.other cls msg)) (ho : Ordinarily cls) : BadEnvelope c comp f .unavailable msg
  | large {contents : List UInt8} {n : Int} (hc : Holds comp f contents) (hn : c.readMax = some n) (h : n < contents.length) :
      BadEnvelope c comp f .resourceExhausted (intStr n)
  | contents {contents : List UInt8} {code : Code} {text : List Char} (hf : f.flags = 0 ∨ f.flags = 1) (hc : Holds comp f contents)
      (h : BadContents c contents code text) : BadEnvelope c comp f code text

/-- A streamed response in the format of the client's protocol, with this compression, that delivers the messages `ms`; after them comes the
envelope `next`, and then `rest`. -/
structure StreamUpTo (c : Client Req Res) (comp : Compression) (ms : List Res) (next : Frame) (rest : List UInt8) (resp : StreamResponse) : Prop where
  status : resp.status = 200
  lower : ∀ p ∈ resp.headers, Py.lower p.1 = p.1
  type : ∃ ct, fieldValues resp.headers (pys! "content-type") = [ct] ∧ StreamedType c.proto c.codec.name ct
  named : Named c.comps resp.headers (encodingHeader c.proto) comp
  body : ∃ fs : List Frame, (∀ f ∈ fs, f.Ok ∧ (f.flags = 0 ∨ f.flags = 1)) ∧ fs.map (receives c comp).message = ms.map .ok ∧
    resp.chunks.flatten = fs.flatMap Frame.bytes ++ next.bytes ++ rest
  nextOk : next.Ok
  exitErr : resp.exitErr = none

/-- Such a response in which that envelope cannot be accepted; anything may follow it, and the connection may fail. -/
def SpoiltStream (c : Client Req Res) (ms : List Res) (resp : StreamResponse) (code : Code) (text : List Char) : Prop :=
  ∃ comp bad rest, StreamUpTo c comp ms bad rest resp ∧ BadEnvelope c comp bad code text

/-- A response to a unary call by Connect with such contents. -/
structure SpoiltUnary (c : Client Req Res) (resp : FullResponse) (code : Code) (text : List Char) : Prop where
  status : resp.status = 200
  lower : ∀ p ∈ resp.headers, Py.lower p.1 = p.1
  type : ∃ ct, Header resp.headers (pys! "content-type") ct ∧ mediaType ct = pys! "application/" ++ c.codec.name
  coding : ∃ comp, Named c.comps resp.headers (pys! "content-encoding") comp
  bad : BadContents c resp.content code text

end

end Spec
