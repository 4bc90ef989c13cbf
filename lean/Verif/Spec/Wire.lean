import Verif.Spec.Errors
import Verif.Spec.Protocol
import Verif.Spec.Envelope
import Verif.Spec.Fields
import Verif.Model.EndStream
/-
The published formats in which a server reports the outcome of an RPC (C69, C70): error responses and end-of-stream messages of the Connect
protocol, the status trailers of gRPC, and the trailer block of gRPC-Web. They are stated as relations between the outcome and what is on
the wire, so that everything another implementation may send is included.
-/
namespace Spec
open Conn Py

/-! ### Connect -/

/-- The value of a member of a JSON object. -/
def member (m : List (List Char × Json)) (name : List Char) : Option Json := (m.find? fun p => p.1 = name).map (·.2)

/-- Base64 (RFC 4648); the padding may be left out. -/
def Base64 (s : List Char) (b : List UInt8) : Prop := ∃ k, s ++ List.replicate k '=' = b64encode b

/-- A detail: an object with the name of the message type, and the bytes of the message in base64. It may have further members (`debug`). -/
def DetailObject (d : ErrorDetail) (j : Json) : Prop :=
  ∃ m v, j = .obj m ∧ member m (pys! "type") = some (.str (typeNameOf d.typeUrl)) ∧ member m (pys! "value") = some (.str v) ∧ Base64 v d.value

/-- The details of an error, in order. -/
inductive DetailObjects : List ErrorDetail → List Json → Prop where
  | nil : DetailObjects [] []
  | cons {d : ErrorDetail} {ds : List ErrorDetail} {j : Json} {js : List Json} (h : DetailObject d j) (hs : DetailObjects ds js) :
      DetailObjects (d :: ds) (j :: js)

/-- An error: an object with the name of the code, the message (which may be left out if it is empty) and the details in order (which may be
left out if there are none). -/
structure ErrorObject (e : ConnectErr) (m : List (List Char × Json)) : Prop where
  code : member m (pys! "code") = some (.str (codeName e.code))
  message : member m (pys! "message") = some (.str e.message) ∨ (e.message = [] ∧ member m (pys! "message") = none)
  details : (∃ l, member m (pys! "details") = some (.arr l) ∧ DetailObjects e.details l) ∨
    (e.details = [] ∧ member m (pys! "details") = none)

/-- The body of an error response: the JSON text of an error object. -/
def ErrorBody (e : ConnectErr) (body : List UInt8) : Prop := ∃ m, loadsBytes body = some (.obj m) ∧ ErrorObject e m

/-- The strings in a JSON array. -/
def jsonStrings : Json → List (List Char)
  | .arr l => l.filterMap fun j => match j with
    | .str s => some s
    | _ => none
  | _ => []

/-- Trailers as an object: under each name, an array of the values in order. (Names are compared without letter case.) -/
structure MetadataObject (trailers : List (List Char × List Char)) (m : List (List Char × Json)) : Prop where
  arrays : ∀ p ∈ m, ∃ vs : List (List Char), p.2 = .arr (vs.map .str)
  values : ∀ n, (m.filter fun p => lower p.1 = lower n).flatMap (fun p => jsonStrings p.2) = fieldValues trailers n

/-- A member that is left out, or null. -/
def Absent (m : List (List Char × Json)) (name : List Char) : Prop := member m name = none ∨ member m name = some .null

/-- The end of a stream: an object with the error, if there is one, and the trailers (which may be left out, or null, if there are none). -/
structure EndObject (trailers : List (List Char × List Char)) (error : Option ConnectErr) (m : List (List Char × Json)) : Prop where
  error : match error with
    | none => Absent m (pys! "error")
    | some e => ∃ em, member m (pys! "error") = some (.obj em) ∧ ErrorObject e em
  metadata : (∃ md, member m (pys! "metadata") = some (.obj md) ∧ MetadataObject trailers md) ∨
    (trailers = [] ∧ Absent m (pys! "metadata"))

/-! ### gRPC -/

/-- A hexadecimal digit, in either letter case, and its value. -/
def HexDigit (c : Char) (n : Nat) : Prop :=
  ('0' ≤ c ∧ c ≤ '9' ∧ c.toNat = n + '0'.toNat) ∨ ('a' ≤ c ∧ c ≤ 'f' ∧ c.toNat + 10 = n + 'a'.toNat) ∨
  ('A' ≤ c ∧ c ≤ 'F' ∧ c.toNat + 10 = n + 'A'.toNat)

/-- Percent-encoding of bytes: printable ASCII characters other than `%` may stand for themselves, and `%` with two hexadecimal digits
stands for any byte. -/
inductive Percent : List Char → List UInt8 → Prop where
  | nil : Percent [] []
  | plain {c : Char} {s : List Char} {b : List UInt8} (h : 0x20 ≤ c.toNat ∧ c.toNat ≤ 0x7E) (hp : c ≠ '%') (hs : Percent s b) :
      Percent (c :: s) (UInt8.ofNat c.toNat :: b)
  | escaped {x y : Char} {h l : Nat} {s : List Char} {b : List UInt8} (hx : HexDigit x h) (hy : HexDigit y l) (hs : Percent s b) :
      Percent ('%' :: x :: y :: s) (UInt8.ofNat (16 * h + l) :: b)

/-- The number of an outcome: 0 for success. -/
def statusNumber : Option ConnectErr → Nat
  | none => 0
  | some e => grpcNumber e.code

/-- The status trailers of an outcome, among the trailers of the handler: `grpc-status` is its number; for an error, `grpc-message` is the
message, percent-encoded (it may be left out if it is empty), and `grpc-status-details-bin` a `google.rpc.Status` with the number, the
message and the details, in base64 (it may be left out if there are no details). -/
structure StatusFields (sc : StatusCodec) (trailers : List (List Char × List Char)) (error : Option ConnectErr)
    (fields : List (List Char × List Char)) : Prop where
  own : ∀ n, lower n ∉ grpcReserved → fieldValues fields n = fieldValues trailers n
  status : fieldValues fields (pys! "grpc-status") = [intStr (statusNumber error)]
  message : ∀ e, error = some e → (∃ v, fieldValues fields (pys! "grpc-message") = [v] ∧ Percent v (utf8Encode e.message)) ∨
    (e.message = [] ∧ fieldValues fields (pys! "grpc-message") = [])
  details : ∀ e, error = some e → (∃ v b, fieldValues fields (pys! "grpc-status-details-bin") = [v] ∧ Base64 v b ∧
      sc.fromBinary b = .ok ⟨grpcNumber e.code, e.message, e.details.map fun d => (d.typeUrl, d.value)⟩) ∨
    (e.details = [] ∧ fieldValues fields (pys! "grpc-status-details-bin") = [])

/-- A header block: lines of a name, a colon and a value, which may have blanks around it. -/
inductive Block : List (List Char × List Char) → List Char → Prop where
  | nil : Block [] []
  | line {name value left right : List Char} {fields : List (List Char × List Char)} {text : List Char} (hn : LegalName name)
      (hv : LegalValue value) (hl : ∀ c ∈ left, c = ' ' ∨ c = '\t') (hr : ∀ c ∈ right, c = ' ' ∨ c = '\t') (h : Block fields text) :
      Block ((name, value) :: fields) (name ++ [':'] ++ left ++ value ++ right ++ ['\r', '\n'] ++ text)

/-! ### the end of a response -/

/-- An end-of-stream envelope with these contents: its flag is the end flag of the protocol, plus 1 if it is compressed. -/
def EndFrame (comp : Compression) (flag : UInt8) (f : Frame) (contents : List UInt8) : Prop :=
  f.Ok ∧ ((f.flags = flag ∧ f.payload = contents) ∨
    (f.flags = flag + 1 ∧ comp ≠ .identity ∧ comp.decompress f.payload = .ok contents))

/-- The contents of the envelope that ends the body of a response: a JSON object (Connect) or a header block (gRPC-Web). A body of gRPC has no
such envelope. -/
inductive EndContents (sc : StatusCodec) (trailers : List (List Char × List Char)) (error : Option ConnectErr) :
    Proto → List UInt8 → Prop where
  | connect {contents : List UInt8} {m : List (List Char × Json)} (hj : loadsBytes contents = some (.obj m))
      (ho : EndObject trailers error m) : EndContents sc trailers error .connect contents
  | grpcWeb {fields : List (List Char × List Char)} {text : List Char} (hb : Block fields text)
      (hs : StatusFields sc trailers error fields) : EndContents sc trailers error .grpcWeb (utf8Encode text)

/-- The end flag of a protocol. -/
def endFlag : Proto → UInt8
  | .connect => 2
  | .grpc => 0
  | .grpcWeb => 128

/-- The end of a response in the format of the protocol: the last envelope of the body, or the HTTP trailers. -/
inductive EndFormat (sc : StatusCodec) (comp : Compression) (trailers : List (List Char × List Char)) (error : Option ConnectErr)
    (p : Proto) : EndOut → Prop where
  | body {f : Frame} {contents : List UInt8} (hf : EndFrame comp (endFlag p) f contents) (hc : EndContents sc trailers error p contents) :
      EndFormat sc comp trailers error p (.body f.bytes)
  | trailers {h : Headers} (hp : p = .grpc) (hs : StatusFields sc trailers error h.allitems) :
      EndFormat sc comp trailers error p (.trailers h)

end Spec
