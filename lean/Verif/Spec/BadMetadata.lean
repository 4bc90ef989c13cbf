import Verif.Spec.BadEnd
/-
Specification for the case in which C83 is false: end messages with metadata that cannot be recorded.
-/
namespace Spec
open Conn Py

/-- A JSON value that is not text and contains no other values: null, a boolean, a number. -/
def Atomic (j : Json) : Prop := j = .null ∨ (∃ b, j = .bool b) ∨ (∃ i, j = .int i) ∨ ∃ t, j = .flt t

/-- Metadata of an end message that cannot be recorded, and the fields that can be before that is noticed: something other than an object (and not empty), or
an object with a member that is neither text nor a list; before it there are lists of texts. -/
inductive Unrecordable : Json → List (List Char × List Char) → Prop where
  | notObject {j : Json} (h : ¬ Blank j) (hj : ∀ m, j ≠ .obj m) : Unrecordable j []
  | member {good : List (List Char × List (List Char))} {name : List Char} {j : Json} {rest : List (List Char × Json)} (h : Atomic j) :
      Unrecordable (.obj ((good.map fun p => (p.1, .arr (p.2.map .str))) ++ (name, j) :: rest)) (good.flatMap fun p => p.2.map fun v => (p.1, v))

variable {Req Res : Type}

/-- A response by Connect that delivers the messages `ms`, and ends with an end message without error that has such metadata. -/
structure OddEnd (c : Client Req Res) (ms : List Res) (resp : StreamResponse) (fields : List (List Char × List Char)) : Prop where
  status : resp.status = 200
  lower : ∀ p ∈ resp.headers, Py.lower p.1 = p.1
  type : ∃ ct, fieldValues resp.headers (pys! "content-type") = [ct] ∧ StreamedType c.proto c.codec.name ct
  body : ∃ (comp : Compression) (fs : List Frame) (f : Frame) (contents : List UInt8) (m : List (List Char × Json)) (md : Json),
    Named c.comps resp.headers (encodingHeader c.proto) comp ∧
    (∀ f ∈ fs, f.Ok ∧ (f.flags = 0 ∨ f.flags = 1)) ∧ fs.map (receives c comp).message = ms.map .ok ∧
    EndFrame comp (endFlag c.proto) f contents ∧ loadsBytes contents = some (.obj m) ∧ Absent m (pys! "error") ∧
    member m (pys! "metadata") = some md ∧ Unrecordable md fields ∧ (∀ n, c.readMax = some n → (contents.length : Int) ≤ n) ∧
    resp.chunks.flatten = fs.flatMap Frame.bytes ++ f.bytes
  bodyErr : resp.bodyErr = none
  exitErr : resp.exitErr = none

end Spec
