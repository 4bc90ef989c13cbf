import Verif.Spec.Client
import Verif.Spec.Envelope
/-
Specification of the bodies of streamed requests (C65).
-/
namespace Spec
open Conn Py

section
variable {M : Type}

/-- `b` is the envelope of the message `m`: the encoded message, compressed; the first flag tells whether a compression is used. -/
def EnvelopeOf (codec : Codec M) (comp : Compression) (m : M) (b : List UInt8) : Prop :=
  ∃ d, codec.encode m = .ok d ∧ (comp.compress d).length < 2 ^ 32 ∧
    b = (Frame.mk (match comp with
      | .identity => 0
      | .custom _ _ _ => 1) (comp.compress d)).bytes

/-- `m` has no envelope: it cannot be encoded, or is too long. -/
inductive NoEnvelope (codec : Codec M) (comp : Compression) (m : M) : Exc → Prop where
  | encode {e : Exc} (h : codec.encode m = .error e) : NoEnvelope codec comp m e
  | long {d : List UInt8} (h : codec.encode m = .ok d) (hl : 2 ^ 32 ≤ (comp.compress d).length) (msg : List Char) :
      NoEnvelope codec comp m (.other .structError msg)

/-- The pieces of a body are the envelopes of these messages, in order. -/
inductive Envelopes (codec : Codec M) (comp : Compression) : List M → List (List UInt8) → Prop where
  | nil : Envelopes codec comp [] []
  | cons {m : M} {b : List UInt8} {ms : List M} {bs : List (List UInt8)} (h : EnvelopeOf codec comp m b)
      (hr : Envelopes codec comp ms bs) : Envelopes codec comp (m :: ms) (b :: bs)

/-- The body of a request for the messages `ms`, after which the caller's iterator raises `srcErr` (or ends normally): the
envelopes of all messages, and then whatever the iterator ended with; or those of the messages before the first that has no envelope, and
then the error of that. -/
inductive BodyOf (codec : Codec M) (comp : Compression) (ms : List M) (srcErr : Option Exc) :
    List (List UInt8) → Option Exc → Prop where
  | all {bs : List (List UInt8)} (h : Envelopes codec comp ms bs) : BodyOf codec comp ms srcErr bs srcErr
  | cut {pre post : List M} {m : M} {bs : List (List UInt8)} {e : Exc} (hs : ms = pre ++ m :: post)
      (h : Envelopes codec comp pre bs) (he : NoEnvelope codec comp m e) : BodyOf codec comp ms srcErr bs (some e)

end

end Spec
