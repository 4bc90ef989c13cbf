import Verif.Py.Int
/-
The texts that Python's `int()` accepts (the Python documentation of `int`, and of integer literals in base 10).
-/
namespace Spec
open Py

/-- `c` is a decimal digit, of any script, with the value `d`. -/
def Decimal (c : Char) (d : Nat) : Prop := d < 10 ∧ ∃ z ∈ 0x30 :: decimalZeros, c.toNat = z + d

/-- Digits, with single underscores between them, and their values. -/
inductive DigitText : List Char → List Nat → Prop where
  | one {c : Char} {d : Nat} (h : Decimal c d) : DigitText [c] [d]
  | next {c : Char} {d : Nat} {s : List Char} {ds : List Nat} (h : Decimal c d) (hs : DigitText s ds) : DigitText (c :: s) (d :: ds)
  | under {c : Char} {d : Nat} {s : List Char} {ds : List Nat} (h : Decimal c d) (hs : DigitText s ds) : DigitText (c :: '_' :: s) (d :: ds)

/-- The number with these decimal digits. -/
def digitsValue (ds : List Nat) : Nat := ds.foldl (fun n d => 10 * n + d) 0

/-- A text for the integer `n`: digits, with a sign or without, and with blanks around them or without. -/
def IntText (s : List Char) (n : Int) : Prop :=
  ∃ pre sign body post ds, s = pre ++ (sign ++ body) ++ post ∧ (∀ c ∈ pre, isSpace c = true) ∧ (∀ c ∈ post, isSpace c = true) ∧ DigitText body ds ∧
    ((sign = [] ∧ n = digitsValue ds) ∨ (sign = ['+'] ∧ n = digitsValue ds) ∨ (sign = ['-'] ∧ n = - (digitsValue ds : Int)))

end Spec
