/-
Python text (`str`) as far as connect-python uses it.

Simplifications (also in DESIGN.md):
* `Str = List Char`: Unicode scalar values only, no lone surrogates.
* `lower` is ASCII lower-casing; non-ASCII characters are left unchanged.
-/
namespace Py

abbrev Str := List Char
abbrev Bytes := List UInt8

open Lean in
/-- `pys! "abc"` is the explicit character list `['a', 'b', 'c']` (so that the kernel can compute with it). -/
macro "pys!" s:str : term => do
  let cs := s.getString.toList.map fun c => (Syntax.mkCharLit c : TSyntax `term)
  `(([ $[$(cs.toArray)],* ] : List Char))

/-- `str.lower()` on one character (ASCII part). -/
def lowerChar (c : Char) : Char :=
  if 'A' ≤ c ∧ c ≤ 'Z' then Char.ofNat (c.toNat + 32) else c

/-- `str.lower()` (ASCII part). -/
def lower (s : Str) : Str := s.map lowerChar

/-- `str.isspace()` on one character: the set `str.strip()` removes. -/
def isSpace (c : Char) : Bool :=
  let n := c.toNat
  (9 ≤ n && n ≤ 13) || (28 ≤ n && n ≤ 32) || n == 0x85 || n == 0xa0 || n == 0x1680 ||
  (0x2000 ≤ n && n ≤ 0x200a) || n == 0x2028 || n == 0x2029 || n == 0x202f || n == 0x205f || n == 0x3000

def lstripBy (p : Char → Bool) (s : Str) : Str := s.dropWhile p
def rstripBy (p : Char → Bool) (s : Str) : Str := (s.reverse.dropWhile p).reverse

/-- `str.strip()`. -/
def strip (s : Str) : Str := rstripBy isSpace (lstripBy isSpace s)

/-- `s.rstrip(c)` for a single character `c`. -/
def rstripChar (c : Char) (s : Str) : Str := rstripBy (· == c) s

/-- `s.partition(c)[0]` for a single character `c`. -/
def partitionFst (c : Char) (s : Str) : Str := s.takeWhile (· != c)

/-- `s.split(c)` for a single-character separator (always at least one piece). -/
def split (c : Char) : Str → List Str
  | [] => [[]]
  | x :: xs =>
    if x == c then [] :: split c xs
    else match split c xs with
      | [] => [[x]]          -- not reachable: `split` never returns `[]`
      | p :: ps => (x :: p) :: ps

/-- `s.startswith(p)`. -/
def startsWith (p s : Str) : Bool := p.isPrefixOf s

/-- `s.removeprefix(p)`. -/
def removePrefix (p s : Str) : Str := if startsWith p s then s.drop p.length else s

/-- `sep.join(parts)`. -/
def join (sep : Str) : List Str → Str
  | [] => []
  | [x] => x
  | x :: y :: r => x ++ sep ++ join sep (y :: r)

end Py
