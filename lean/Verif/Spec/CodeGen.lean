import Verif.Model.CodeGen
import Verif.Spec.Transport
/-
Specification for generated code (C54).
-/
namespace Spec
open Conn Py

/-- A capital letter, a small letter. -/
def Capital (c : Char) : Prop := 'A' ≤ c ∧ c ≤ 'Z'
def Small (c : Char) : Prop := 'a' ≤ c ∧ c ≤ 'z'
instance (c : Char) : Decidable (Capital c) := inferInstanceAs (Decidable (_ ∧ _))
instance (c : Char) : Decidable (Small c) := inferInstanceAs (Decidable (_ ∧ _))

/-- A word starts at `y`, between `x` and `next`: `y` is a capital letter; `x` is a small letter, or `y` is followed by one (and `x` is not
already an underscore). -/
def WordStarts (x y : Char) (next : Option Char) : Prop := Capital y ∧ (Small x ∨ x ≠ '_' ∧ ∃ z, next = some z ∧ Small z)
instance (x y : Char) (next : Option Char) : Decidable (WordStarts x y next) :=
  match next with
  | none => decidable_of_iff (Capital y ∧ Small x) (by simp [WordStarts])
  | some z => decidable_of_iff (Capital y ∧ (Small x ∨ x ≠ '_' ∧ Small z)) (by simp [WordStarts])

/-- The name with an underscore at the start of each word but the first. -/
def underscored : List Char → List Char
  | x :: y :: r => x :: ((if WordStarts x y r.head? then ['_'] else []) ++ underscored (y :: r))
  | s => s

/-- `escape_identifier` leaves names alone or appends an underscore. -/
def Escapes (escape : List Char → List Char) : Prop := ∀ n, escape n = n ∨ escape n = n ++ ['_']

/-- Letters, digits and underscores. -/
def NameChar (c : Char) : Prop := Capital c ∨ Small c ∨ ('0' ≤ c ∧ c ≤ '9') ∨ c = '_'

/-- A service as the protobuf compiler accepts it: names are made of letters, digits and underscores (and dots, in the full name of the
service); methods have different names. -/
structure WellFormed (svc : DescService) : Prop where
  typeName : ∀ c ∈ svc.typeName, NameChar c ∨ c = '.'
  names : ∀ m ∈ svc.methods, ∀ c ∈ m.name, NameChar c
  distinct : (svc.methods.map (·.name)).Nodup

/-- The names client objects have of themselves. -/
def clientNames : List (List Char) :=
  [pys! "close", pys! "execute_unary", pys! "execute_client_stream", pys! "execute_server_stream", pys! "execute_bidi_stream",
   pys! "_send_request_unary", pys! "_send_request_client_stream", pys! "_send_request_server_stream", pys! "_send_request_bidi_stream",
   pys! "_address", pys! "_codec", pys! "_timeout_ms", pys! "_read_max_bytes", pys! "_response_compressions",
   pys! "_accept_compression_header", pys! "_send_compression", pys! "_http_client", pys! "_closed", pys! "_protocol",
   pys! "_execute_unary", pys! "_execute_client_stream", pys! "_execute_server_stream", pys! "_execute_bidi_stream"]

/-- The Python names of the methods are different from one another, and from those names. -/
structure NamesApart (escape : List Char → List Char) (svc : DescService) : Prop where
  distinct : (svc.methods.map (·.localName escape)).Nodup
  free : ∀ m ∈ svc.methods, m.localName escape ∉ clientNames

/-- The functions of the library that a call of the kind by the protocol goes through. -/
def ownFunctions (p : Proto) : Kind → List (List Char)
  | .unary => [pys! "execute_unary", pys! "_send_request_unary"] ++ (if p = .connect then [] else [pys! "_send_request_bidi_stream"])
  | .clientStream => [pys! "execute_client_stream", pys! "_send_request_client_stream", pys! "_send_request_bidi_stream"]
  | .serverStream => [pys! "execute_server_stream", pys! "_send_request_server_stream", pys! "_send_request_bidi_stream"]
  | .bidi => [pys! "execute_bidi_stream", pys! "_send_request_bidi_stream"]

/-- The names of what a client object keeps (its address, codec and so on). -/
def kept : List (List Char) :=
  [pys! "_address", pys! "_codec", pys! "_timeout_ms", pys! "_read_max_bytes", pys! "_response_compressions",
   pys! "_accept_compression_header", pys! "_send_compression", pys! "_http_client", pys! "_closed", pys! "_protocol",
   pys! "_execute_unary", pys! "_execute_client_stream", pys! "_execute_server_stream", pys! "_execute_bidi_stream"]

/-- The method of a service that a generated client has under a Python name: the last one of that name. -/
def LastOfName (escape : List Char → List Char) (svc : DescService) (name : List Char) (m : DescMethod) : Prop :=
  ∃ before after, svc.methods = before ++ m :: after ∧ m.localName escape = name ∧ ∀ m' ∈ after, m'.localName escape ≠ name

/-- The endpoint runs the attribute `name` of the user's service, as a function for RPCs of the kind. -/
inductive RunsAttribute {Req Res : Type} (impl : ServiceImpl Req Res) (name : List Char) : Kind → Handler Req Res → Prop where
  | unary : RunsAttribute impl name .unary (.unary (impl name .unary))
  | clientStream : RunsAttribute impl name .clientStream (.clientStream (impl name .clientStream))
  | serverStream : RunsAttribute impl name .serverStream (.serverStream (impl name .serverStream))
  | bidi : RunsAttribute impl name .bidi (.bidi (impl name .bidi))

end Spec
