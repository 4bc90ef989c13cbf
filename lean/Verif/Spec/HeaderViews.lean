import Verif.Model.HeaderViews
import Verif.Spec.Multimap
import Verif.Props.Headers
/-
Specification for C86: views of headers, and comparing headers.
-/
namespace Spec
open Conn Py Props

/-- The headers an object has, as a multimap (C01), after a history of calls. -/
def contents (history : List HOp) : Multimap := (headersAfter Headers.empty history).abs

/-- A view taken after `history`, when `later` has happened too. -/
def viewAfter (history : List HOp) : List HOp → AllView × Headers
  | later => go (headersAfter Headers.empty history).allitemsView (headersAfter Headers.empty history) later
where
  go (v : AllView) (h : Headers) : List HOp → AllView × Headers
    | [] => (v, h)
    | op :: ops => go (match op with
        | .clear => v.afterClear h.extra
        | _ => v) (headersCall h op).2 ops

/-- some name has several values -/
def Repeats (m : Multimap) : Prop := ∃ e ∈ m, 2 ≤ e.2.length

/-- the same values for the same names, whatever the order of the names -/
def SameHeaders (m n : Multimap) : Prop := ∀ k, m.valuesOf k = n.valuesOf k

/-- the same first values for the same names -/
def SameFirst (m n : Multimap) : Prop := ∀ k, (m.valuesOf k).head? = (n.valuesOf k).head?

end Spec
