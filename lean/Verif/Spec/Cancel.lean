import Verif.Model.Cancel
import Verif.Spec.Cleanup
import Verif.Spec.Stream
/-
Specification for requests that are cancelled (C84).
-/
namespace Spec
open Conn Py

section
variable {Req Res : Type}

/-- What the server raises for a cancelled stream. -/
def requestCancelled : Exc := .mk .canceled (pys! "Request was cancelled")

/-- The cleanup code of a handler raises nothing, wherever it is closed. -/
def Silent (Req : Type) (g : Producer Res) : Prop :=
  ∀ n (h : HState Req), ∃ h', AfterSteps h (g.closing n).1 h' ∧ (g.closing n).2 = none

/-- An event that carries a message of the response. -/
def IsMessage (s : Sent) : Prop := ∃ b, s = .body b true

/-- The client is told that the RPC has succeeded: the last events sent, and delivered, are an end marker without an error. -/
def ToldSuccess (w : EnvelopeWriter Res) (p : Proto) (sc : StatusCodec) (sends : List (Sent × Option Exc)) : Prop :=
  ∃ rest trailers out, EndsWith w p sc trailers none out ∧ sends = rest ++ (asgiEnding out).map (·, none)

/-- `receive` gives parts of the body, and then the task waits until it is cancelled. -/
def Waits (r : List Recv) : Prop := ∀ e ∈ r, ∃ b, e = .request b true

end

end Spec
