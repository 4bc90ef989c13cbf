import Verif.Model.Base
/-
Specification for compression negotiation and content types (C24–C28).
-/
namespace Spec
open Conn Py

/-- The compressions available under each name for a configuration: `none` is the default (gzip and identity), a list
is what the user passed; identity is always available, and of two with the same name the later one counts. -/
def available (gzip : Compression) (cfg : Option (List Compression)) (n : List Char) : Option Compression :=
  if n = pys! "identity" then some .identity
  else match cfg with
    | none => if n = pys! "gzip" then some gzip else none
    | some cs => (cs.filter fun c => c.name = n).getLast?

/-- One entry of an accept list with the blanks around it. -/
structure AcceptEntry where
  lead : List Char
  name : List Char
  trail : List Char

/-- Blanks outside, the name without comma and without blanks at its ends. -/
structure AcceptEntry.Ok (e : AcceptEntry) : Prop where
  lead : ∀ c ∈ e.lead, isSpace c = true
  trail : ∀ c ∈ e.trail, isSpace c = true
  comma : ',' ∉ e.name
  first : ∀ c, e.name.head? = some c → isSpace c = false
  last : ∀ c, e.name.getLast? = some c → isSpace c = false

/-- The text of an accept list: entries separated by commas. -/
def acceptText : List AcceptEntry → List Char
  | [] => []
  | [e] => e.lead ++ e.name ++ e.trail
  | e :: e' :: r => e.lead ++ e.name ++ e.trail ++ [','] ++ acceptText (e' :: r)

/-- A compression name as HTTP allows it in an accept list (no comma, no blank at the ends, not empty). -/
def TokenLike (n : List Char) : Prop :=
  n ≠ [] ∧ ',' ∉ n ∧ (∀ c, n.head? = some c → isSpace c = false) ∧ (∀ c, n.getLast? = some c → isSpace c = false)

end Spec
