import Verif.Model.Detail
import Verif.Spec.Errors
import Mathlib.Data.List.Forall2
/-
Specification for error details as messages (C96).
-/
namespace Spec
open Conn Py

/-- What is documented of the protobuf library: a message can be read back from its binary form, by its type; full names of messages have no slash. -/
structure LawfulProtobuf (L : Protobuf) : Prop where
  binary : ∀ m, L.fromBinary (L.descOf m) (L.toBinary m) = .ok m
  name : ∀ d, '/' ∉ L.fullName d

/-- The three ways to attach a message to an error: as it is, packed in an `Any` by the library, and as an `ErrorDetail` made from either. -/
inductive Attaches (L : Protobuf) (m : L.Msg) : DetailArg L → Prop where
  | message : Attaches L m (.message m)
  | packed : Attaches L m (.any (.pack L m))
  | detail : Attaches L m (.detail (.ofMessage L m))
  | packedDetail : Attaches L m (.detail (.ofAny L (.pack L m)))

/-- A detail from which `m` can be read, in every way the library offers, and no other message. -/
structure ReadsAs {L : Protobuf} (d : DetailObj L) (m : L.Msg) : Prop where
  /-- its type and bytes -/
  typeName : d.typeName = L.fullName (L.descOf m)
  bytes : d.messageBytes = L.toBinary m
  /-- `value(type)` -/
  own : d.value (.desc (L.descOf m)) = .ok (some m)
  other : ∀ desc, L.fullName desc ≠ L.fullName (L.descOf m) → d.value (.desc desc) = .ok none
  /-- `value(registry)`: by a registry that has the type; `None` by one that has not -/
  found : ∀ find, find (L.fullName (L.descOf m)) = some (L.descOf m) → d.value (.registry find) = .ok (some m)
  missing : ∀ find, find (L.fullName (L.descOf m)) = none → d.value (.registry find) = .ok none
  /-- `value()` -/
  plain : d.value .nothing = .ok none

end Spec
