import Verif.Py.Str
/-
`base64.b64encode`, `base64.b64decode`, `base64.urlsafe_b64encode`, `base64.urlsafe_b64decode`.
-/
namespace Py

/-- The standard base64 alphabet (`n < 64`). -/
def b64Char (n : Nat) : Char :=
  if n < 26 then Char.ofNat (65 + n)
  else if n < 52 then Char.ofNat (97 + (n - 26))
  else if n < 62 then Char.ofNat (48 + (n - 52))
  else if n = 62 then '+' else '/'

/-- CPython's `table_a2b_base64`. -/
def b64Val (c : Char) : Option Nat :=
  let n := c.toNat
  if 65 ≤ n ∧ n ≤ 90 then some (n - 65)
  else if 97 ≤ n ∧ n ≤ 122 then some (n - 97 + 26)
  else if 48 ≤ n ∧ n ≤ 57 then some (n - 48 + 52)
  else if n = 43 then some 62
  else if n = 47 then some 63
  else none

/-- `b64encode(bs).decode()`. -/
def b64encode : Bytes → Str
  | [] => []
  | [a] => [b64Char (a.toNat / 4), b64Char (a.toNat % 4 * 16), '=', '=']
  | [a, b] =>
    [b64Char (a.toNat / 4), b64Char (a.toNat % 4 * 16 + b.toNat / 16), b64Char (b.toNat % 16 * 4), '=']
  | a :: b :: c :: r =>
    b64Char (a.toNat / 4) :: b64Char (a.toNat % 4 * 16 + b.toNat / 16) ::
      b64Char (b.toNat % 16 * 4 + c.toNat / 64) :: b64Char (c.toNat % 64) :: b64encode r

/-- CPython's `binascii.a2b_base64` (non-strict): state is the position in the quad, the bits left over and the
number of padding characters just seen; `none` = `binascii.Error`. -/
def a2b (q left pads : Nat) : Str → Option Bytes
  | [] => if q = 0 then some [] else none
  | ch :: r =>
    if ch = '=' then
      if 2 ≤ q then (if 4 ≤ q + (pads + 1) then some [] else a2b q left (pads + 1) r)
      else a2b q left pads r
    else
      match b64Val ch with
      | none => a2b q left pads r
      | some v =>
        if q = 0 then a2b 1 v 0 r
        else if q = 1 then (a2b 2 (v % 16) 0 r).map (UInt8.ofNat (left * 4 + v / 16) :: ·)
        else if q = 2 then (a2b 3 (v % 4) 0 r).map (UInt8.ofNat (left * 16 + v / 4) :: ·)
        else (a2b 0 0 0 r).map (UInt8.ofNat (left * 64 + v) :: ·)

/-- `b64decode(s)` for a `str`: `ValueError` (`none`) for non-ASCII input or bad padding. -/
def b64decode (s : Str) : Option Bytes :=
  if s.all (fun c => c.toNat < 128) then a2b 0 0 0 s else none

/-- `urlsafe_b64encode(bs).decode("ascii")`: `+/` become `-_`. -/
def urlsafeB64encode (b : Bytes) : Str :=
  (b64encode b).map fun c => if c = '+' then '-' else if c = '/' then '_' else c

/-- `urlsafe_b64decode(s)`. -/
def urlsafeB64decode (s : Str) : Option Bytes :=
  b64decode (s.map fun c => if c = '-' then '+' else if c = '_' then '/' else c)

end Py
