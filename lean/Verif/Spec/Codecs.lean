import Verif.Model.Codecs
import Verif.Spec.Transport
/-
What it is for two protobuf implementations to agree, for C100.
-/
namespace Spec
open Conn Py

variable {Reg Reg' M Req Res : Type}

/-- What `w` writes in the binary format, `r` reads as the same message. -/
def BinaryReads (w : MessageClass Reg M) (r : MessageClass Reg' M) : Prop := ∀ m b, w.toBinary m = .ok b → r.fromBinary b = .ok m

/-- What `w` writes in JSON with the registry `reg`, `r` reads as the same message with the registry `reg'` (which, for messages with
`Any` and extensions, has to know the types `reg` knows). -/
def JsonReads (w : MessageClass Reg M) (reg : Reg) (r : MessageClass Reg' M) (reg' : Reg') : Prop :=
  ∀ m t, w.toJson reg m = .ok t → r.fromJson reg' (utf8Encode t) = .ok m

/-- The two formats, with the registry for JSON. -/
inductive WireFormat (Reg : Type) where
  | binary
  | json (reg : Reg)

/-- The name by which each format is asked for. -/
def WireFormat.name : WireFormat Reg → List Char
  | .binary => "proto".toList
  | .json _ => "json".toList

/-- The format a caller chooses: binary if they choose none; JSON with the registry they give, or the default one if they give none or one
that is false. -/
inductive Chosen (R : Registries Reg) : Option (ProtoCodec Reg) → WireFormat Reg → Prop where
  | unset : Chosen R none .binary
  | binary : Chosen R (some protoBinaryCodec) .binary
  | json : Chosen R (some (protoJsonCodec R none)) (.json R.dflt)
  | registry {r : Reg} (h : R.truthy r = true) : Chosen R (some (protoJsonCodec R (some r))) (.json r)
  | emptyRegistry {r : Reg} (h : R.truthy r = false) : Chosen R (some (protoJsonCodec R (some r))) (.json R.dflt)

/-- The formats a server offers: both, if it is told nothing; otherwise those it is told, no two under one name. -/
inductive Offered (R : Registries Reg) : Option (List (ProtoCodec Reg)) → List (WireFormat Reg) → Prop where
  | unset : Offered R none [.binary, .json R.dflt]
  | one {k f} (h : Chosen R (some k) f) : Offered R (some [k]) [f]
  | two {k k' f f'} (h : Chosen R (some k) f) (h' : Chosen R (some k') f') (hn : f.name ≠ f'.name) : Offered R (some [k, k']) [f, f']

/-- The messages of a class pass from one side to the other in the format: written by `w` in the format `f`, read by `r` in the format `f'`. -/
inductive Carries (w : MessageClass Reg M) (r : MessageClass Reg' M) : WireFormat Reg → WireFormat Reg' → Prop where
  | binary (h : BinaryReads w r) : Carries w r .binary .binary
  | json {reg reg'} (h : JsonReads w reg r reg') : Carries w r (.json reg) (.json reg')

/-- How the codec of a server works that writes and reads the format. -/
structure SpeaksFormat (f : WireFormat Reg) (req : MessageClass Reg Req) (res : MessageClass Reg Res) (k : ServerCodec Req Res) : Prop where
  name : k.name = f.name
  reads : ∀ b, k.req.decode b = match f with
    | .binary => req.fromBinary b
    | .json reg => req.fromJson reg b
  writes : ∀ m b, k.res.encode m = .ok b ↔ match f with
    | .binary => res.toBinary m = .ok b
    | .json reg => ∃ t, res.toJson reg m = .ok t ∧ b = utf8Encode t

end Spec
