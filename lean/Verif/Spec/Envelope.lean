import Verif.Model.Base
/-
Specification of the envelope format (C03, C04, C06, C07, C08): what a stream of envelopes is and what a
receiver must make of it, independent of buffering.
-/
namespace Spec
open Conn Py

/-- One envelope: a flag byte and a payload. -/
structure Frame where
  flags : UInt8
  payload : List UInt8
deriving DecidableEq, Repr

/-- Wire form: flag byte, payload length as four big-endian bytes, payload. -/
def Frame.bytes (f : Frame) : List UInt8 :=
  let n := f.payload.length
  [f.flags, UInt8.ofNat (n / 2^24), UInt8.ofNat (n / 2^16), UInt8.ofNat (n / 2^8), UInt8.ofNat n] ++ f.payload

/-- The length must fit in 32 bits. -/
def Frame.Ok (f : Frame) : Prop := f.payload.length < 2^32

/-- No complete envelope starts here. -/
def Incomplete (bs : List UInt8) : Prop := ∀ f : Frame, f.Ok → ¬ f.bytes <+: bs

/-- `bs` is the sequence of envelopes `fs` followed by an incomplete remainder. -/
structure Splits (bs : List UInt8) (fs : List Frame) (rest : List UInt8) : Prop where
  eq : bs = fs.flatMap Frame.bytes ++ rest
  ok : ∀ f ∈ fs, f.Ok
  inc : Incomplete rest

/-- What a receiver agreed to: a decompressor (if a compression was negotiated), a size limit, a decoder. -/
structure Policy (M : Type) where
  decompress : Option (List UInt8 → Except Exc (List UInt8))
  limit : Option Int
  decode : List UInt8 → Except Exc M

/-- The content of one envelope after decompression; a flagged envelope needs a negotiated compression. -/
def Policy.inflate {M : Type} (p : Policy M) (f : Frame) : Except Exc (List UInt8) :=
  if f.flags.toNat % 2 = 1 then
    match p.decompress with
    | none => .error (.mk .internal (pys! "protocol error: sent compressed message without compression support"))
    | some dec => dec f.payload
  else .ok f.payload

/-- The size rule. -/
def Policy.checkSize {M : Type} (p : Policy M) (d : List UInt8) : Except Exc (List UInt8) :=
  match p.limit with
  | none => .ok d
  | some n =>
    if (d.length : Int) ≤ n then .ok d
    else .error (.mk .resourceExhausted (pys! "message is larger than configured max " ++ intStr n))

/-- One envelope as a message: decompress, check the size, decode. -/
def Policy.message {M : Type} (p : Policy M) (f : Frame) : Except Exc M :=
  match p.inflate f with
  | .error e => .error e
  | .ok d => match p.checkSize d with
    | .error e => .error e
    | .ok d => p.decode d

/-- Messages delivered, and the error that ends the delivery (if any): envelopes in order, up to the first bad one. -/
def Policy.deliver {M : Type} (p : Policy M) : List Frame → List M × Option Exc
  | [] => ([], none)
  | f :: fs =>
    match p.message f with
    | .error e => ([], some e)
    | .ok m => let r := p.deliver fs; (m :: r.1, r.2)

end Spec
