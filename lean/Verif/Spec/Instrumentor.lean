import Verif.Model.Instrumentor
import Verif.Spec.Otel
/-
What a user knows of auto-instrumentation from the events so far: whether it is on, with which providers, and which modules have been imported.
-/
namespace Spec
open Conn

variable {P : Type}

/-- Auto-instrumentation is off (`none`), or on with the providers given when it was switched on. -/
def switched : Option P → InstrEvent P → Option P
  | none, .instrument true p => some p
  | none, _ => none
  | some _, .uninstrument => none
  | some p, _ => some p

/-- … after a history. -/
def switchedOn (history : List (InstrEvent P)) : Option P := history.foldl switched none

/-- At some time auto-instrumentation was switched off, and the module had not been imported yet. -/
def SwitchedOffBefore (m : LibModule) (history : List (InstrEvent P)) : Prop :=
  ∃ past future, history = past ++ .uninstrument :: future ∧ (switchedOn past).isSome = true ∧ .load m ∉ past

/-- The class is a client's. -/
def LibClass.isClient : LibClass → Bool
  | .client | .clientSync => true
  | .asgi | .wsgi => false

end Spec
