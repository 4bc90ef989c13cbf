import Verif.Spec.Rejected
/-
Specification for C99: ends of streams that do not say that the call succeeded.
-/
namespace Spec
open Conn Py

/-- The lines of a text: each but the last ends with a carriage return and a line feed. -/
def Lines (text : List UInt8) (lines : List (List UInt8)) : Prop :=
  ∃ init last, lines = init ++ [last] ∧ text = (init.flatMap fun l => l ++ [13, 10]) ++ last ∧ ∀ l ∈ lines, (13 : UInt8) ∉ l

/-- A line that is not a field: there is no colon in it, or what is before or after the first colon is not UTF-8. -/
def NoField (line : List UInt8) : Prop :=
  line ≠ [] ∧ ((58 : UInt8) ∉ line ∨ ∃ name value, line = name ++ 58 :: value ∧ (58 : UInt8) ∉ name ∧
    (utf8Decode name = none ∨ utf8Decode value = none))

/-- The empty JSON values: null, false, zero, and the empty string, array and object. -/
inductive Blank : Json → Prop where
  | null : Blank .null
  | no : Blank (.bool false)
  | zero : Blank (.int 0)
  | float {t : List Char} (h : t = pys! "0.0" ∨ t = pys! "-0.0") : Blank (.flt t)
  | str : Blank (.str [])
  | arr : Blank (.arr [])
  | obj : Blank (.obj [])

/-- The contents of a last envelope that do not say that the call succeeded. By Connect: what is not JSON, or JSON that is not an object, or
an object with an error (whatever it looks like, except null, which is no error; `blank` says whether the other empty values count as well). By
gRPC-Web: a text with a line that is not a field, or a header block with one `grpc-status` that is not 0. -/
inductive NoSuccess (blank : Bool) : Proto → List UInt8 → Prop where
  | notJson {contents : List UInt8} (h : loadsBytes contents = none) : NoSuccess blank .connect contents
  | notObject {contents : List UInt8} {j : Json} (h : loadsBytes contents = some j) (hj : ∀ m, j ≠ .obj m) : NoSuccess blank .connect contents
  | error {contents : List UInt8} {m : List (List Char × Json)} {e : Json} (h : loadsBytes contents = some (.obj m))
      (he : member m (pys! "error") = some e) (hn : if blank then e ≠ .null else ¬ Blank e) : NoSuccess blank .connect contents
  | line {contents : List UInt8} {lines : List (List UInt8)} {line : List UInt8} (h : Lines contents lines) (hl : line ∈ lines)
      (hb : NoField line) : NoSuccess blank .grpcWeb contents
  | status {fields : List (List Char × List Char)} {text status : List Char} (hb : Block fields text)
      (hs : fieldValues fields (pys! "grpc-status") = [status]) (h0 : status ≠ pys! "0") : NoSuccess blank .grpcWeb (utf8Encode text)

/-- The end of a streamed response whose messages are the envelopes `fs`, that does not say that the call succeeded: a last envelope (within the
limit on message sizes); or, by gRPC, HTTP trailers with one `grpc-status` that is not 0. -/
inductive FailedEnd (blank : Bool) (limit : Option Int) (comp : Compression) (resp : StreamResponse) (fs : List Frame) : Proto → Prop where
  | envelope {p : Proto} {f : Frame} {contents : List UInt8} (hf : EndFrame comp (endFlag p) f contents) (hc : NoSuccess blank p contents)
      (hl : ∀ n, limit = some n → (contents.length : Int) ≤ n) (hb : resp.chunks.flatten = fs.flatMap Frame.bytes ++ f.bytes) :
      FailedEnd blank limit comp resp fs p
  | trailers {status : List Char} (hs : fieldValues resp.trailers (pys! "grpc-status") = [status]) (h0 : status ≠ pys! "0")
      (hb : resp.chunks.flatten = fs.flatMap Frame.bytes) : FailedEnd blank limit comp resp fs .grpc

section
variable {Req Res : Type}

/-- A streamed response in the format of the client's protocol that delivers the messages `ms`, with such an end. -/
structure FailedStream (blank : Bool) (c : Client Req Res) (ms : List Res) (resp : StreamResponse) : Prop where
  status : resp.status = 200
  lower : ∀ p ∈ resp.headers, Py.lower p.1 = p.1
  trailersLower : ∀ p ∈ resp.trailers, Py.lower p.1 = p.1
  type : ∃ ct, fieldValues resp.headers (pys! "content-type") = [ct] ∧ StreamedType c.proto c.codec.name ct
  body : ∃ comp fs, Named c.comps resp.headers (encodingHeader c.proto) comp ∧
    (∀ f ∈ fs, f.Ok ∧ (f.flags = 0 ∨ f.flags = 1)) ∧ fs.map (receives c comp).message = ms.map .ok ∧
    FailedEnd blank c.readMax comp resp fs c.proto
  bodyErr : resp.bodyErr = none
  exitErr : resp.exitErr = none

/-- A response by Connect that delivers the messages `ms`, and ends with an error that is an empty value other than null (`{"error": {}}`). -/
structure EmptyError (c : Client Req Res) (ms : List Res) (resp : StreamResponse) : Prop where
  status : resp.status = 200
  lower : ∀ p ∈ resp.headers, Py.lower p.1 = p.1
  type : ∃ ct, fieldValues resp.headers (pys! "content-type") = [ct] ∧ StreamedType c.proto c.codec.name ct
  body : ∃ (comp : Compression) (fs : List Frame) (f : Frame) (contents : List UInt8) (m : List (List Char × Json)) (e : Json),
    Named c.comps resp.headers (encodingHeader c.proto) comp ∧
    (∀ f ∈ fs, f.Ok ∧ (f.flags = 0 ∨ f.flags = 1)) ∧ fs.map (receives c comp).message = ms.map .ok ∧
    EndFrame comp (endFlag c.proto) f contents ∧ loadsBytes contents = some (.obj m) ∧ member m (pys! "error") = some e ∧ Blank e ∧ e ≠ .null ∧
    Absent m (pys! "metadata") ∧ (∀ n, c.readMax = some n → (contents.length : Int) ≤ n) ∧
    resp.chunks.flatten = fs.flatMap Frame.bytes ++ f.bytes
  bodyErr : resp.bodyErr = none
  exitErr : resp.exitErr = none

end

end Spec
