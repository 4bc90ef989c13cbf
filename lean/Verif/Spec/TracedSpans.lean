import Verif.Spec.ClientObserved
import Verif.Spec.Transport
import Verif.Props.Errors
/-
Specification of calls made within a span (C104).
-/
namespace Spec
open Conn Py
variable {C : Type}

/-- What the propagator does to the headers `h` of a call: it adds fields, under names that had no value and that mean nothing to the protocols. -/
structure AddsFields (t : Telemetry C) (current : Option C) (h : Headers) : Prop where
  built : Props.Built (t.inject current h)
  kept : ∀ n, h.getall n ≠ [] → (t.inject current h).getall n = h.getall n
  protocol : ∀ n, lower n ∈ protocolNames → (t.inject current h).getall n = h.getall n

/-- The fields of the propagator have arrived with the request: under every name that a server passes on, `headers` has what was put there. -/
def SpanArrives (t : Telemetry C) (current : Option C) (h : Headers) (seen : List (List Char) → List (List Char)) (headers : Headers) : Prop :=
  ∀ n, Forwarded n → lower n ∉ protocolNames → (t.inject current h).getall n ≠ [] → headers.getall n = seen ((t.inject current h).getall n)

/-- The propagator works by the fields `names`, which servers pass on: it puts one value under each (in the headers `h`), and looks at nothing else. -/
structure UsesFields (t : Telemetry C) (names : List (List Char)) (h : Headers) : Prop where
  forwarded : ∀ n ∈ names, Forwarded n ∧ lower n ∉ protocolNames
  writes : ∀ c n, n ∈ names → ∃ v, (t.inject (some c) h).getall n = [v]
  reads : ∀ h h', (∀ n ∈ names, h.getall n = h'.getall n) → t.extract h = t.extract h'

end Spec
