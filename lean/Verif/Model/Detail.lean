import Verif.Model.Wire
/-
Error details as objects: `ErrorDetail` and the `details` argument of `ConnectError` (`errors.py`).
-/
namespace Conn
open Py

/-- The protobuf library (not part of the code): descriptors of message types, messages, their binary form and their JSON form
(`message_to_json_value`, `none` when it fails). -/
structure Protobuf where
  Desc : Type
  Msg : Type
  fullName : Desc → Str
  descOf : Msg → Desc
  toBinary : Msg → Bytes
  fromBinary : Desc → Bytes → Except Exc Msg
  toJson : Msg → Option Json

/-- `google.protobuf.Any`. -/
structure AnyMsg where
  typeUrl : Str
  value : Bytes
deriving DecidableEq, Repr, Inhabited

/-- The part of a type URL after its last slash (the whole, if it has none). -/
def afterSlash (url : Str) : Str := (url.reverse.takeWhile (· ≠ '/')).reverse

/-- `Any.pack(message)` of the library. -/
def AnyMsg.pack (L : Protobuf) (m : L.Msg) : AnyMsg := ⟨pys! "type.googleapis.com/" ++ L.fullName (L.descOf m), L.toBinary m⟩

/-- `any.unpack(desc)` of the library: `None` when the message is of another type, an exception when it cannot be decoded. -/
def AnyMsg.unpack (L : Protobuf) (a : AnyMsg) (d : L.Desc) : Except Exc (Option L.Msg) :=
  if afterSlash a.typeUrl = L.fullName d then
    match L.fromBinary d a.value with
    | .ok m => .ok (some m)
    | .error e => .error e
  else .ok none

/-- `errors.py:30-36` — the attributes of an `ErrorDetail`. -/
structure DetailObj (L : Protobuf) where
  message : Option L.Msg
  any : AnyMsg

/-- An element of the argument `details`: a message (`Any` is one too), or an `ErrorDetail`. -/
inductive DetailArg (L : Protobuf) where
  | message (m : L.Msg)
  | any (a : AnyMsg)
  | detail (d : DetailObj L)

/-- `errors.py:30-36` `ErrorDetail.__init__`, for a message that is an `Any`. -/
def DetailObj.ofAny (L : Protobuf) (a : AnyMsg) : DetailObj L := ⟨none, a⟩

/-- `errors.py:30-36` `ErrorDetail.__init__`, for other messages. -/
def DetailObj.ofMessage (L : Protobuf) (m : L.Msg) : DetailObj L := ⟨some m, AnyMsg.pack L m⟩

/-- `errors.py:38-41` `type_name`. -/
def DetailObj.typeName {L : Protobuf} (d : DetailObj L) : Str :=
  let p := pys! "type.googleapis.com/"
  if startsWith p d.any.typeUrl then d.any.typeUrl.drop p.length else d.any.typeUrl

/-- `errors.py:43-46` `message_bytes`. -/
def DetailObj.messageBytes {L : Protobuf} (d : DetailObj L) : Bytes := d.any.value

/-- The argument of `value`: nothing, a `Registry` (by what `registry.message(name)` finds), or a descriptor or message class. -/
inductive ValueArg (L : Protobuf) where
  | nothing
  | registry (find : Str → Option L.Desc)
  | desc (d : L.Desc)

/-- `errors.py:60-74` `value`. Messages and descriptors are true; a registry that is false (one without types) finds nothing, so the model does not
distinguish `not desc_or_registry` for registries. -/
def DetailObj.value {L : Protobuf} (d : DetailObj L) (arg : ValueArg L) : Except Exc (Option L.Msg) :=
  match d.message with
  | some m => .ok (some m)
  | none =>
    match arg with
    | .nothing => .ok none
    | .registry find =>
      match find d.typeName with
      | none => .ok none
      | some desc => d.any.unpack L desc
    | .desc desc => d.any.unpack L desc

/-- `errors.py:101-105` — the elements of `details` of a `ConnectError`. -/
def DetailArg.toDetail {L : Protobuf} : DetailArg L → DetailObj L
  | .message m => .ofMessage L m
  | .any a => .ofAny L a
  | .detail d => d

/-- What is sent of a detail (`_protocol.py:165-181`, `_protocol_grpc.py:171-176`): its `Any`, and by Connect the JSON form of its message. -/
def DetailObj.toError {L : Protobuf} (d : DetailObj L) : ErrorDetail :=
  ⟨d.any.typeUrl, d.any.value, d.message.bind L.toJson⟩

/-- `errors.py:86-105` `ConnectError(code, message, details)`. -/
def ConnectErr.ofArgs {L : Protobuf} (code : Code) (message : Str) (details : List (DetailArg L)) : ConnectErr :=
  ⟨code, message, details.map fun a => a.toDetail.toError⟩

/-- The details of an error a client has read: made from an `Any` (`_protocol.py:134-141`, `_protocol_grpc.py:366`). -/
def ConnectErr.detailObjs (L : Protobuf) (e : ConnectErr) : List (DetailObj L) := e.details.map fun d => .ofAny L ⟨d.typeUrl, d.value⟩

end Conn
