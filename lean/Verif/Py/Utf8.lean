import Verif.Py.Str
/-
`str.encode("utf-8")` and `bytes.decode("utf-8", errors)` for `errors` = "strict" and "replace".
-/
namespace Py

/-- UTF-8 encoding of one character. -/
def utf8EncodeChar (c : Char) : Bytes :=
  let n := c.toNat
  if n < 0x80 then [UInt8.ofNat n]
  else if n < 0x800 then [UInt8.ofNat (0xC0 + n / 64), UInt8.ofNat (0x80 + n % 64)]
  else if n < 0x10000 then
    [UInt8.ofNat (0xE0 + n / 4096), UInt8.ofNat (0x80 + n / 64 % 64), UInt8.ofNat (0x80 + n % 64)]
  else
    [UInt8.ofNat (0xF0 + n / 262144), UInt8.ofNat (0x80 + n / 4096 % 64), UInt8.ofNat (0x80 + n / 64 % 64),
      UInt8.ofNat (0x80 + n % 64)]

/-- `s.encode()`.  (Cannot fail: model strings hold no lone surrogates.) -/
def utf8Encode (s : Str) : Bytes := s.flatMap utf8EncodeChar

/-- continuation byte -/
def isCont (b : UInt8) : Bool := 0x80 ≤ b.toNat && b.toNat < 0xC0

/-- Is `b1` an acceptable second byte after the lead byte `b0`?  (`E0`, `ED`, `F0`, `F4` restrict it.) -/
def isCont2 (b0 b1 : UInt8) : Bool :=
  isCont b1 &&
    (if b0.toNat = 0xE0 then 0xA0 ≤ b1.toNat
     else if b0.toNat = 0xED then b1.toNat < 0xA0
     else if b0.toNat = 0xF0 then 0x90 ≤ b1.toNat
     else if b0.toNat = 0xF4 then b1.toNat < 0x90
     else true)

/-- One step of CPython's UTF-8 decoder: the next character and the number of bytes used, or (`none`) the number of
bytes that are bad. -/
def utf8Step (b0 : UInt8) (rest : Bytes) : Option Char × Nat :=
  let n0 := b0.toNat
  if n0 < 0x80 then (some (Char.ofNat n0), 1)
  else if n0 < 0xC2 then (none, 1)
  else if n0 < 0xE0 then
    match rest with
    | [] => (none, 1)
    | b1 :: _ => if isCont b1 then (some (Char.ofNat ((n0 - 0xC0) * 64 + (b1.toNat - 0x80))), 2) else (none, 1)
  else if n0 < 0xF0 then
    match rest with
    | [] => (none, 1)
    | b1 :: r1 =>
      if isCont2 b0 b1 then
        match r1 with
        | [] => (none, 2)
        | b2 :: _ =>
          if isCont b2 then
            (some (Char.ofNat ((n0 - 0xE0) * 4096 + (b1.toNat - 0x80) * 64 + (b2.toNat - 0x80))), 3)
          else (none, 2)
      else (none, 1)
  else if n0 < 0xF5 then
    match rest with
    | [] => (none, 1)
    | b1 :: r1 =>
      if isCont2 b0 b1 then
        match r1 with
        | [] => (none, 2)
        | b2 :: r2 =>
          if isCont b2 then
            match r2 with
            | [] => (none, 3)
            | b3 :: _ =>
              if isCont b3 then
                (some (Char.ofNat
                  ((n0 - 0xF0) * 262144 + (b1.toNat - 0x80) * 4096 + (b2.toNat - 0x80) * 64 + (b3.toNat - 0x80))), 4)
              else (none, 3)
          else (none, 2)
      else (none, 1)
  else (none, 1)

/-- `b.decode("utf-8")` with `errors="strict"`; `none` = `UnicodeDecodeError`.  `skip` bytes have already been used by
the previous character. -/
def utf8DecodeAux : Nat → Bytes → Option Str
  | _, [] => some []
  | k + 1, _ :: r => utf8DecodeAux k r
  | 0, b0 :: r =>
    match utf8Step b0 r with
    | (some c, k) => (utf8DecodeAux (k - 1) r).map (c :: ·)
    | (none, _) => none

def utf8Decode (b : Bytes) : Option Str := utf8DecodeAux 0 b

/-- `b.decode("utf-8", "replace")`. -/
def utf8DecodeReplaceAux : Nat → Bytes → Str
  | _, [] => []
  | k + 1, _ :: r => utf8DecodeReplaceAux k r
  | 0, b0 :: r =>
    match utf8Step b0 r with
    | (some c, k) => c :: utf8DecodeReplaceAux (k - 1) r
    | (none, k) => Char.ofNat 0xFFFD :: utf8DecodeReplaceAux (k - 1) r

def utf8DecodeReplace (b : Bytes) : Str := utf8DecodeReplaceAux 0 b

end Py
