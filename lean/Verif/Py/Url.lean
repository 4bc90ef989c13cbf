import Verif.Py.Utf8
import Verif.Py.Dict
/-
`urllib.parse`: `quote(s, safe="")`, `quote_plus`, `unquote`, `unquote_plus`, `urlencode`, `parse_qs`.
-/
namespace Py

/-- upper-case hexadecimal digit, `n < 16` -/
def hexDigit (n : Nat) : Char := if n < 10 then Char.ofNat (48 + n) else Char.ofNat (55 + n)

/-- `_ALWAYS_SAFE`: letters, digits and `_.-~`. -/
def alwaysSafe (n : Nat) : Bool :=
  (65 ≤ n && n ≤ 90) || (97 ≤ n && n ≤ 122) || (48 ≤ n && n ≤ 57) || n == 95 || n == 46 || n == 45 || n == 126

def quoteByte (b : UInt8) : Str :=
  if alwaysSafe b.toNat then [Char.ofNat b.toNat]
  else ['%', hexDigit (b.toNat / 16), hexDigit (b.toNat % 16)]

/-- `quote(s, safe="")`. -/
def quote (s : Str) : Str := (utf8Encode s).flatMap quoteByte

/-- `quote_plus(s)`: as `quote`, but a space becomes `+`. -/
def quotePlus (s : Str) : Str := (utf8Encode s).flatMap fun b => if b.toNat = 32 then ['+'] else quoteByte b

/-- hexadecimal value of an ASCII code -/
def hexVal (n : Nat) : Option Nat :=
  if 48 ≤ n ∧ n ≤ 57 then some (n - 48)
  else if 65 ≤ n ∧ n ≤ 70 then some (n - 55)
  else if 97 ≤ n ∧ n ≤ 102 then some (n - 87)
  else none

/-- `unquote_to_bytes(b)`. -/
def unquoteToBytes : Bytes → Bytes
  | [] => []
  | [b] => [b]
  | [b0, b1] => [b0, b1]
  | b0 :: b1 :: b2 :: r =>
    if b0.toNat = 37 then
      match hexVal b1.toNat, hexVal b2.toNat with
      | some h, some l => UInt8.ofNat (h * 16 + l) :: unquoteToBytes r
      | _, _ => b0 :: unquoteToBytes (b1 :: b2 :: r)
    else b0 :: unquoteToBytes (b1 :: b2 :: r)

/-- `unquote(s)`: each maximal run of ASCII characters is unquoted to bytes and decoded (with replacement); other
characters are kept. `run` is the current run of ASCII characters. -/
def unquoteAux (run : Bytes) : Str → Str
  | [] => utf8DecodeReplace (unquoteToBytes run)
  | c :: r =>
    if c.toNat < 128 then unquoteAux (run ++ [UInt8.ofNat c.toNat]) r
    else utf8DecodeReplace (unquoteToBytes run) ++ c :: unquoteAux [] r

def unquote (s : Str) : Str := unquoteAux [] s

/-- `unquote_plus(s)` -/
def unquotePlus (s : Str) : Str := unquote (s.map fun c => if c = '+' then ' ' else c)

/-- `urlencode(params)` for a `dict` of strings. -/
def urlencode (params : Dict Str Str) : Str :=
  join ['&'] (params.map fun kv => quotePlus kv.1 ++ ['='] ++ quotePlus kv.2)

/-- `s.partition("=")` as (before, after); without `=` the second part is empty. -/
def partitionEq (s : Str) : Str × Str := (s.takeWhile (· != '='), (s.dropWhile (· != '=')).drop 1)

/-- `parse_qsl(qs, keep_blank_values=True)`. -/
def parseQsl (qs : Str) : List (Str × Str) :=
  (split '&' qs).filterMap fun nv =>
    if nv.isEmpty then none
    else some (unquotePlus (partitionEq nv).1, unquotePlus (partitionEq nv).2)

/-- `parse_qs(qs, keep_blank_values=True)`. -/
def parseQs (qs : Str) : Dict Str (List Str) :=
  (parseQsl qs).foldl (fun d kv => d.set kv.1 ((d.get? kv.1).getD [] ++ [kv.2])) []

end Py
