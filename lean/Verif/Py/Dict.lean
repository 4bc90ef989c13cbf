/-
Python `dict` as an insertion-ordered association list.
`d[k] = v` keeps the position of an existing key and appends a new one; `del` removes the entry.
-/
namespace Py

abbrev Dict (α β : Type) := List (α × β)

namespace Dict
variable {α β : Type} [DecidableEq α]

/-- `d.get(k)` / `d[k]` (`none` = `KeyError`). -/
def get? : Dict α β → α → Option β
  | [], _ => none
  | (k', v) :: r, k => if k' = k then some v else get? r k

/-- `k in d`. -/
def contains (d : Dict α β) (k : α) : Bool := (d.get? k).isSome

/-- `d[k] = v`. -/
def set : Dict α β → α → β → Dict α β
  | [], k, v => [(k, v)]
  | (k', v') :: r, k, v => if k' = k then (k', v) :: r else (k', v') :: set r k v

/-- `d.pop(k, None)`: remove the entry of `k` if there is one. -/
def erase : Dict α β → α → Dict α β
  | [], _ => []
  | (k', v') :: r, k => if k' = k then r else (k', v') :: erase r k

def keys (d : Dict α β) : List α := d.map Prod.fst
def values (d : Dict α β) : List β := d.map Prod.snd

/-- `{k: v for k, v in items}` / `dict(items)`. -/
def ofList (l : List (α × β)) : Dict α β := l.foldl (fun d p => d.set p.1 p.2) []

end Dict
end Py
