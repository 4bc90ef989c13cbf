import Verif.Py.Str
import Verif.Py.Dict
/-
Model of `src/connectrpc/_headers.py` (`Headers`, `_AllItemsView`), including the methods `Headers` inherits
from `collections.abc.MutableMapping`.
-/
namespace Conn
open Py

/-- `_headers.py:15-25` — the two dictionaries of a `Headers` object. -/
structure Headers where
  store : Dict Str Str
  extra : Option (Dict Str (List Str))
deriving DecidableEq, Repr, Inhabited

namespace Headers

/-- `Headers()` — `_headers.py:27-40` with `items = ()`. -/
def empty : Headers := ⟨[], none⟩

/-- `_headers.py:42-44` `__getitem__` (`none` = `KeyError`). -/
def getItem (h : Headers) (key : Str) : Option Str := h.store.get? (lower key)

/-- `_headers.py:46-50` `__setitem__`. -/
def setItem (h : Headers) (key value : Str) : Headers :=
  let key := lower key
  { store := h.store.set key value, extra := h.extra.map (·.erase key) }

/-- `_headers.py:52-58` `__delitem__` (`none` = `KeyError`, object unchanged). -/
def delItem (h : Headers) (key : Str) : Option Headers :=
  let key := lower key
  if h.store.contains key then
    some { store := h.store.erase key, extra := h.extra.map (·.erase key) }
  else none

/-- `_headers.py:60-61` `__iter__`, and `keys()` `_headers.py:110-112`. -/
def iter (h : Headers) : List Str := h.store.keys

/-- `_headers.py:63-64` `__len__`. -/
def len (h : Headers) : Nat := h.store.length

/-- `dict.setdefault(key, []).append(value)` as used in `_headers.py:78`. -/
def appendExtra (e : Dict Str (List Str)) (key value : Str) : Dict Str (List Str) :=
  match e.get? key with
  | some l => e.set key (l ++ [value])
  | none => e.set key [value]

/-- `_headers.py:69-80` `add`. -/
def add (h : Headers) (key value : Str) : Headers :=
  let key := lower key
  if h.store.contains key then
    let e := match h.extra with
      | none => []
      | some e => e
    { h with extra := some (appendExtra e key value) }
  else { h with store := h.store.set key value }

/-- `_headers.py:82-85` `clear`. -/
def clear (_h : Headers) : Headers := ⟨[], none⟩

/-- `_headers.py:87-95` `getall`. -/
def getall (h : Headers) (key : Str) : List Str :=
  let key := lower key
  match h.store.get? key with
  | none => []
  | some v =>
    match h.extra with
    | none => [v]
    | some e =>
      match e.get? key with
      | none => [v]
      | some l => v :: l

/-- `_headers.py:137-142` `_AllItemsView.__iter__`; the test `if self._extra` is true for a non-empty dict only. -/
def allItemsIter (store : Dict Str Str) (extra : Dict Str (List Str)) : List (Str × Str) :=
  store.flatMap fun (k, v) =>
    (k, v) :: (if extra.isEmpty then [] else
      match extra.get? k with
      | none => []
      | some l => l.map fun vv => (k, vv))

/-- `_headers.py:97-101` `allitems` (iteration order). -/
def allitems (h : Headers) : List (Str × Str) :=
  match h.extra with
  | none => h.store
  | some e => allItemsIter h.store e

/-- `len(h.allitems())` — `_headers.py:97-101` and `144-148`. -/
def allitemsLen (h : Headers) : Nat :=
  match h.extra with
  | none => h.store.length
  | some e => h.store.length + (if e.isEmpty then 0 else (e.values.map List.length).sum)

/-- `_headers.py:106-108` `items`. -/
def items (h : Headers) : List (Str × Str) := h.store

/-- `_headers.py:114-116` `values`. -/
def values (h : Headers) : List Str := h.store.values

/-- `_headers.py:118-122` `__contains__` (string keys). -/
def contains (h : Headers) (key : Str) : Bool := h.store.contains (lower key)

/-- `Mapping.get` (inherited): `self[key]`, or the default on `KeyError`. -/
def get (h : Headers) (key : Str) : Option Str := h.getItem key
def getD (h : Headers) (key dflt : Str) : Str :=
  match h.getItem key with
  | some v => v
  | none => dflt

/-- `MutableMapping.pop(key)` (inherited; `none` = `KeyError`): read the item, then `del self[key]`. -/
def pop (h : Headers) (key : Str) : Option (Str × Headers) :=
  match h.getItem key with
  | none => none
  | some v => match h.delItem key with
    | some h' => some (v, h')
    | none => none

/-- `MutableMapping.pop(key, None)` used as a statement (inherited). -/
def popDiscard (h : Headers) (key : Str) : Headers :=
  match h.pop key with
  | some (_, h') => h'
  | none => h

/-- `MutableMapping.popitem()` (inherited): the first key of the iteration order. -/
def popitem (h : Headers) : Option ((Str × Str) × Headers) :=
  match h.iter with
  | [] => none
  | k :: _ => match h.getItem k with
    | none => none
    | some v => match h.delItem k with
      | some h' => some ((k, v), h')
      | none => none

/-- `MutableMapping.setdefault(key, default)` (inherited). -/
def setdefault (h : Headers) (key dflt : Str) : Str × Headers :=
  match h.getItem key with
  | some v => (v, h)
  | none => (dflt, h.setItem key dflt)

/-- `MutableMapping.update(other)` (inherited): `self[k] = v` for each pair in order. -/
def update (h : Headers) (other : List (Str × Str)) : Headers :=
  other.foldl (fun h p => h.setItem p.1 p.2) h

/-- `Headers(mapping)` — `_headers.py:31-36`: dict comprehension with lower-cased keys. -/
def ofMapping (items : List (Str × Str)) : Headers :=
  ⟨Dict.ofList (items.map fun p => (lower p.1, p.2)), none⟩

/-- `Headers(sequence_of_pairs)` — `_headers.py:37-40`: `add` each pair. -/
def ofPairs (items : List (Str × Str)) : Headers :=
  items.foldl (fun h p => h.add p.1 p.2) empty

/-- `bool(headers)`: no `__bool__`, so `len(self) != 0`. -/
def truthy (h : Headers) : Bool := h.len != 0

/-- `Mapping.__eq__` (inherited): `dict(self.items()) == dict(other.items())`; `dict` equality ignores order. -/
def eqDict (a b : Dict Str Str) : Bool :=
  a.length == b.length && a.all fun p => b.get? p.1 == some p.2
def beq (h h' : Headers) : Bool := eqDict h.items h'.items

end Headers
end Conn
