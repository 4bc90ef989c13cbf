import Verif.Model.Protocol
/-
What a list of header fields, and what the headers argument of a client call, say under a name.
-/
namespace Spec
open Conn Py

/-- All values of a field in a list of HTTP fields, names compared without letter case. -/
def fieldValues (fields : List (List Char × List Char)) (name : List Char) : List (List Char) :=
  (fields.filter fun p => lower p.1 = lower name).map (·.2)

/-- The values the caller gives for a name: those of their `Headers` object, in order; for a mapping, whose keys may differ in letter
case only, the last one. -/
def given : UserHeaders → List Char → List (List Char)
  | .headers h, name => fieldValues h.allitems name
  | .mapping items, name => (fieldValues items name).getLast?.toList
  | .none, _ => []

end Spec
