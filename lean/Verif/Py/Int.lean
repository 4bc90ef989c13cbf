import Verif.Py.Str
/-
Python `int(str)` and `str(int)`, and the binary floating point arithmetic used by the timeout code.
-/
namespace Py

/-- The code points of the digits zero of the Unicode decimal digits (category Nd) other than the ASCII ones; each is followed by its digits one to nine.
This is Unicode 14, the version of Python 3.11. Simplification: later versions of Python know a few scripts more, and 3.10 one less. -/
def decimalZeros : List Nat := [
  0x0660, 0x06f0, 0x07c0, 0x0966, 0x09e6, 0x0a66, 0x0ae6, 0x0b66, 0x0be6, 0x0c66, 0x0ce6, 0x0d66, 0x0de6, 0x0e50, 0x0ed0, 0x0f20, 0x1040, 0x1090,
  0x17e0, 0x1810, 0x1946, 0x19d0, 0x1a80, 0x1a90, 0x1b50, 0x1bb0, 0x1c40, 0x1c50, 0xa620, 0xa8d0, 0xa900, 0xa9d0, 0xa9f0, 0xaa50, 0xabf0, 0xff10,
  0x104a0, 0x10d30, 0x11066, 0x110f0, 0x11136, 0x111d0, 0x112f0, 0x11450, 0x114d0, 0x11650, 0x116c0, 0x11730, 0x118e0, 0x11950, 0x11c50, 0x11d50,
  0x11da0, 0x16a60, 0x16ac0, 0x16b50, 0x1d7ce, 0x1d7d8, 0x1d7e2, 0x1d7ec, 0x1d7f6, 0x1e140, 0x1e2f0, 0x1e950, 0x1fbf0]

/-- value of a decimal digit, ASCII or not, as `int()` takes it (`Py_UNICODE_TODECIMAL`). -/
def digitVal (c : Char) : Option Nat :=
  if 48 ≤ c.toNat ∧ c.toNat ≤ 57 then some (c.toNat - 48)
  else (decimalZeros.find? fun z => decide (z ≤ c.toNat ∧ c.toNat ≤ z + 9)).map (c.toNat - ·)

/-- digits with single underscores between them; `prev`: the previous character was a digit. -/
def parseDigits (acc : Nat) (prev : Bool) : Str → Option Nat
  | [] => if prev then some acc else none
  | c :: r =>
    if c = '_' then (if prev then parseDigits acc false r else none)
    else match digitVal c with
      | some d => parseDigits (acc * 10 + d) true r
      | none => none

/-- `int(s)`; `none` = `ValueError`.  (The 4300-digit limit of CPython is not modelled.) -/
def parseInt (s : Str) : Option Int :=
  match strip s with
  | '+' :: r => (parseDigits 0 false r).map Int.ofNat
  | '-' :: r => (parseDigits 0 false r).map fun n => - Int.ofNat n
  | r => (parseDigits 0 false r).map Int.ofNat

/-- `str(n)` for a natural number: decimal digits. -/
def natDigits (n : Nat) : Str :=
  if h : n < 10 then [Char.ofNat (48 + n)]
  else natDigits (n / 10) ++ [Char.ofNat (48 + n % 10)]
termination_by n
decreasing_by omega

/-- `str(i)` for an integer. -/
def intStr : Int → Str
  | .ofNat n => natDigits n
  | .negSucc n => '-' :: natDigits (n + 1)

/-! ### IEEE binary64, as far as needed: exact product of two doubles rounded to 53 bits -/

/-- `n / 2^s` rounded to the nearest integer, ties to even. -/
def roundShift (n s : Nat) : Nat :=
  let d := n / 2 ^ s
  let r := n % 2 ^ s
  if 2 * r < 2 ^ s then d
  else if 2 ^ s < 2 * r then d + 1
  else if d % 2 = 0 then d else d + 1

/-- Round a natural number to 53 significant bits: `(m, s)` stands for `m * 2^s`. -/
def round53 (n : Nat) : Nat × Nat :=
  let s := n.log2 - 52
  (roundShift n s, s)

/-- `int(v * c)` for a non-negative integer `v` and the double `c = cm * 2^-k`: convert `v` to double, multiply
(rounding to 53 bits), truncate.  Overflow (`v ≥ 2^1024`) is not modelled. -/
def mulDoubleTrunc (v cm k : Nat) : Nat :=
  let (vm, vs) := round53 v
  let (m, s) := round53 (vm * cm)
  m * 2 ^ (vs + s) / 2 ^ k

end Py
