import Verif.Model.Base
/-
Specification for error fidelity (C16–C19, C21): what a caller can observe of an error, and legal HTTP fields.
-/
namespace Spec
open Conn Py

/-- Full name of the message in an `Any`: the type URL without the conventional prefix. -/
def typeNameOf (url : List Char) : List Char :=
  let pre := pys! "type.googleapis.com/"
  if pre <+: url then url.drop pre.length else url

/-- What a caller observes of an error: code, message, and type name and bytes of every detail, in order. -/
def report (e : ConnectErr) : Code × List Char × List (List Char × List UInt8) :=
  (e.code, e.message, e.details.map fun d => (typeNameOf d.typeUrl, d.value))

/-- The optional debug rendering of every detail is a JSON value (no NaN, no duplicate object members). -/
def DebugOk (e : ConnectErr) : Prop := ∀ d ∈ e.details, ∀ j, d.debug = some j → j.WF

/-- A legal HTTP field name: no colon, CR or LF, no blank at either end. -/
structure LegalName (n : List Char) : Prop where
  colon : ':' ∉ n
  cr : '\r' ∉ n
  lf : '\n' ∉ n
  first : ∀ c, n.head? = some c → isSpace c = false
  last : ∀ c, n.getLast? = some c → isSpace c = false

/-- A legal HTTP field value: no CR or LF, no blank at either end. -/
structure LegalValue (v : List Char) : Prop where
  cr : '\r' ∉ v
  lf : '\n' ∉ v
  first : ∀ c, v.head? = some c → isSpace c = false
  last : ∀ c, v.getLast? = some c → isSpace c = false

/-- All fields of a header block are legal. -/
def LegalFields (l : List (List Char × List Char)) : Prop := ∀ p ∈ l, LegalName p.1 ∧ LegalValue p.2

end Spec

namespace Spec
open Conn Py

/-- The details are as they came from the network: their type and bytes, without a message object (so they are sent on without debug information). -/
def Bare (e : ConnectErr) : Prop := ∀ d ∈ e.details, d.debug = none

/-- The details of `e'` are those of `e`, as a client reads them: their bytes, and their type URL or (by Connect) the type name with the conventional
prefix; without a message object. -/
def AsRead (e e' : ConnectErr) : Prop := ∀ d' ∈ e'.details, d'.debug = none ∧ ∃ d ∈ e.details, d'.value = d.value ∧
  (d'.typeUrl = d.typeUrl ∨ d'.typeUrl = pys! "type.googleapis.com/" ++ typeNameOf d.typeUrl)

/-- The same error, down to the full type URL of every detail, as a client has it. -/
structure SameError (e e' : ConnectErr) : Prop where
  code : e'.code = e.code
  message : e'.message = e.message
  details : e'.details.map (fun d => (d.typeUrl, d.value)) = e.details.map fun d => (d.typeUrl, d.value)
  bare : Bare e'

/-- What the client sees (an exception or none) is the outcome of the RPC (an error or none), type URLs included. -/
def SeenExactly : Option ConnectErr → Option Exc → Prop
  | none, seen => seen = none
  | some e, seen => ∃ e', seen = some (.connect e') ∧ SameError e e'

/-- The same up to the conventional prefix of type URLs. -/
def Seen : Option ConnectErr → Option Exc → Prop
  | none, seen => seen = none
  | some e, seen => ∃ e', seen = some (.connect e') ∧ report e' = report e ∧ AsRead e e'

/-- The error as which an exception of a handler is reported: a `ConnectError` as itself, any other exception as an unknown error with its
text. -/
def errorOf : Exc → ConnectErr
  | .connect e => e
  | .other _ text => { code := .unknown, message := text }
  | .http _ _ | .cancelled => { code := .unknown, message := [] }

/-- The error fits a protobuf message (protobuf limits messages to 2 GiB). -/
structure FitsProtobuf (e : ConnectErr) : Prop where
  message : (utf8Encode e.message).length < 2 ^ 31
  details : ∀ d ∈ e.details, (utf8Encode d.typeUrl).length + d.value.length + 20 < 2 ^ 31

/-- The trailer names gRPC uses itself. -/
def grpcReserved : List (List Char) := [pys! "grpc-status", pys! "grpc-message", pys! "grpc-status-details-bin"]

end Spec
