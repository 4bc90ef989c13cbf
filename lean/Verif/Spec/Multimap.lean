/-
Specification for C01/C02: an ordered multimap with case-insensitive keys, as one list of
(name, values) entries.  Nothing here refers to the model of `Headers`.
-/
namespace Spec

/-- ASCII lower-casing of a header name, letter by letter. -/
def foldCase (s : List Char) : List Char :=
  s.map fun c => if c.toNat ≥ 65 ∧ c.toNat ≤ 90 then Char.ofNat (c.toNat + 32) else c

/-- entries: lower-cased name and all its values, in order of first insertion of the name. -/
abbrev Multimap := List (List Char × List (List Char))

namespace Multimap
abbrev Name := List Char
abbrev Val := List Char

/-- all values of a name (none if the name is absent). -/
def valuesOf (m : Multimap) (k : Name) : List Val :=
  (m.filter fun e => e.1 = foldCase k).flatMap (·.2)

def present (m : Multimap) (k : Name) : Prop := foldCase k ∈ m.map (·.1)
instance (m : Multimap) (k : Name) : Decidable (m.present k) := by unfold present; infer_instance

/-- replace all values of `k` by `v`; a new name goes last. -/
def assign (m : Multimap) (k : Name) (v : Val) : Multimap :=
  if m.present k then m.map fun e => if e.1 = foldCase k then (e.1, [v]) else e
  else m ++ [(foldCase k, [v])]

/-- append a value to `k`; a new name goes last. -/
def append (m : Multimap) (k : Name) (v : Val) : Multimap :=
  if m.present k then m.map fun e => if e.1 = foldCase k then (e.1, e.2 ++ [v]) else e
  else m ++ [(foldCase k, [v])]

def remove (m : Multimap) (k : Name) : Multimap := m.filter fun e => e.1 ≠ foldCase k

/-- every (name, value) pair, duplicates included. -/
def pairs (m : Multimap) : List (Name × Val) := m.flatMap fun e => e.2.map fun v => (e.1, v)

/-- one pair per name: the first value. -/
def firsts (m : Multimap) : List (Name × Val) := m.filterMap fun e => e.2.head?.map fun v => (e.1, v)

end Multimap

/-- The operations of the public `Headers` API. -/
inductive HOp where
  | setItem (k v : List Char) | add (k v : List Char) | delItem (k : List Char)
  | pop (k : List Char) | popDefault (k d : List Char) | popitem | setdefault (k d : List Char)
  | update (l : List (List Char × List Char)) | clear
  | getItem (k : List Char) | getDefault (k d : List Char) | getall (k : List Char) | contains (k : List Char)
  | len | iter | items | values | allitems | allitemsLen | truthy

/-- What an operation returns to the caller. -/
inductive HOut where
  | unit | keyError | str (s : List Char) | pair (p : List Char × List Char) | strs (l : List (List Char))
  | pairs (l : List (List Char × List Char)) | nat (n : Nat) | bool (b : Bool)
deriving DecidableEq

open Multimap in
/-- Meaning of every operation on the multimap. -/
def HOp.spec (m : Multimap) : HOp → HOut × Multimap
  | .setItem k v => (.unit, m.assign k v)
  | .add k v => (.unit, m.append k v)
  | .delItem k => if m.present k then (.unit, m.remove k) else (.keyError, m)
  | .pop k => match (m.valuesOf k).head? with
    | some v => (.str v, m.remove k)
    | none => (.keyError, m)
  | .popDefault k d => match (m.valuesOf k).head? with
    | some v => (.str v, m.remove k)
    | none => (.str d, m)
  | .popitem => match m.firsts with
    | p :: _ => (.pair p, m.tail)
    | [] => (.keyError, m)
  | .setdefault k d => match (m.valuesOf k).head? with
    | some v => (.str v, m)
    | none => (.str d, m.assign k d)
  | .update l => (.unit, l.foldl (fun m p => m.assign p.1 p.2) m)
  | .clear => (.unit, [])
  | .getItem k => match (m.valuesOf k).head? with
    | some v => (.str v, m)
    | none => (.keyError, m)
  | .getDefault k d => match (m.valuesOf k).head? with
    | some v => (.str v, m)
    | none => (.str d, m)
  | .getall k => (.strs (m.valuesOf k), m)
  | .contains k => (.bool (decide (m.present k)), m)
  | .len => (.nat m.length, m)
  | .iter => (.strs (m.map (·.1)), m)
  | .items => (.pairs m.firsts, m)
  | .values => (.strs (m.firsts.map (·.2)), m)
  | .allitems => (.pairs m.pairs, m)
  | .allitemsLen => (.nat m.pairs.length, m)
  | .truthy => (.bool (decide (m ≠ [])), m)

/-- Outputs of a whole history. -/
def HOp.specRun : Multimap → List HOp → List HOut
  | _, [] => []
  | m, op :: ops => (op.spec m).1 :: HOp.specRun (op.spec m).2 ops

end Spec
