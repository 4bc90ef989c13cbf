import Verif.Spec.UnaryResponse
import Verif.Spec.Stream
/-
Specification for C87: what the operator of a server gets to know of failures.
-/
namespace Spec
open Conn Py

/-- An exception nobody planned for: neither a `ConnectError`, with which services report errors, nor the library's own `HTTPException`. -/
def Unforeseen (e : Exc) : Prop := (∃ cls msg, e = .other cls msg) ∨ e = .cancelled

section
variable {Req Res : Type}

/-- What the operator of a WSGI server is told: what is written to `wsgi.errors`, and what the application raises. -/
def wsgiTold (o : WsgiOut Req) : List Exc := o.logged ++ o.escaped.toList

/-- What the operator of an ASGI server is told: what the application raises. -/
def asgiTold (o : AsgiOut Req) : List Exc := o.escaped.toList

/-- The operator is told of the outcome exactly if it is a failure that nobody planned for. -/
def OperatorTold (outcome : Option Exc) (told : List Exc) : Prop :=
  (∀ e, outcome = some e → Unforeseen e → told = [e]) ∧ (∀ c, outcome = some (.connect c) → told = []) ∧ (outcome = none → told = [])

end
end Spec
