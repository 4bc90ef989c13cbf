import Verif.Model.Headers
import Verif.Model.Base
/-
Model of the views of `src/connectrpc/_headers.py`: what `allitems()` returns, used after the headers have changed.

Views hold references to the two dictionaries of the object. The first is never replaced. The second is created when a name first gets another value
(`_headers.py:76-77`) and dropped by `clear` (`_headers.py:85`), all other methods change it in place.
-/
namespace Conn
open Py

/-- The view `allitems()` returns — `_headers.py:97-101`: the items view of the first dictionary, or an `_AllItemsView` of both. Of the second dictionary of the latter:
`none` if it is still that of the object, and otherwise what it holds. -/
inductive AllView where
  | plain
  | both (dropped : Option (Dict Str (List Str)))
deriving DecidableEq, Repr

/-- `allitems()` — `_headers.py:97-101`. -/
def Headers.allitemsView (h : Headers) : AllView :=
  match h.extra with
  | none => .plain
  | some _ => .both none

namespace AllView

/-- `clear()` drops the second dictionary of the object; `extra` is that dictionary — `_headers.py:82-85`. -/
def afterClear (extra : Option (Dict Str (List Str))) : AllView → AllView
  | .plain => .plain
  | .both none => .both (some (extra.getD []))
  | .both (some e) => .both (some e)

/-- Iteration: `dict_items.__iter__`, or `_AllItemsView.__iter__` — `_headers.py:137-142`. -/
def iter (h : Headers) : AllView → List (Str × Str)
  | .plain => h.store
  | .both none => Headers.allItemsIter h.store (h.extra.getD [])
  | .both (some e) => Headers.allItemsIter h.store e

/-- `len(view)`: `_AllItemsView.__len__` — `_headers.py:144-148`. -/
def len (h : Headers) : AllView → Nat
  | .plain => h.store.length
  | .both none => h.store.length + (if (h.extra.getD []).isEmpty then 0 else ((h.extra.getD []).values.map List.length).sum)
  | .both (some e) => h.store.length + (if e.isEmpty then 0 else (e.values.map List.length).sum)

/-- `(name, value) in view`: that of dictionary views, or that of `collections.abc.ItemsView`, which uses the attribute `_mapping` that
`_AllItemsView.__init__` (`_headers.py:131-135`) does not set. -/
def contains (h : Headers) (p : Str × Str) : AllView → Except Exc Bool
  | .plain => .ok (h.store.get? p.1 == some p.2)
  | .both _ => .error (.other .attributeError (pys! "_mapping"))

end AllView

/-- `headers == mapping` (`Mapping.__eq__`, inherited): `dict(self.items()) == dict(other.items())`. -/
def Headers.eqMapping (h : Headers) (other : List (Str × Str)) : Bool := Headers.eqDict h.items (Dict.ofList other)

end Conn
