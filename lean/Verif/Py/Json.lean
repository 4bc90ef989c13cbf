import Verif.Py.Utf8
import Verif.Py.Int
import Verif.Py.Dict
import Verif.Py.Url
/-
`json.dumps` (default settings: `ensure_ascii`, separators `", "` and `": "`) and `json.loads`.

Simplifications: lone surrogate escapes are a parse error (model strings cannot hold them); recursion depth and the
length of integers are unlimited; floats are kept as their source text; `json.loads` of bytes assumes UTF-8
(UTF-16/32 detection and byte order marks are not modelled).
-/
namespace Py

/-- A JSON value as Python holds it. `flt` keeps the text of a non-integer number. -/
inductive Json where
  | null
  | bool (b : Bool)
  | int (i : Int)
  | flt (raw : Str)
  | str (s : Str)
  | arr (l : List Json)
  | obj (l : List (Str × Json))
deriving Repr, Inhabited

mutual
/-- decidable equality of JSON values -/
def Json.decEq : (a b : Json) → Decidable (a = b)
  | .null, .null => isTrue rfl
  | .bool a, .bool b => if h : a = b then isTrue (by rw [h]) else isFalse (by simp [h])
  | .int a, .int b => if h : a = b then isTrue (by rw [h]) else isFalse (by simp [h])
  | .flt a, .flt b => if h : a = b then isTrue (by rw [h]) else isFalse (by simp [h])
  | .str a, .str b => if h : a = b then isTrue (by rw [h]) else isFalse (by simp [h])
  | .arr a, .arr b => match Json.decEqElems a b with
    | isTrue h => isTrue (by rw [h])
    | isFalse h => isFalse (by simp [h])
  | .obj a, .obj b => match Json.decEqMembers a b with
    | isTrue h => isTrue (by rw [h])
    | isFalse h => isFalse (by simp [h])
  | .null, .bool _ | .null, .int _ | .null, .flt _ | .null, .str _ | .null, .arr _ | .null, .obj _ => isFalse (by simp)
  | .bool _, .null | .bool _, .int _ | .bool _, .flt _ | .bool _, .str _ | .bool _, .arr _ | .bool _, .obj _ => isFalse (by simp)
  | .int _, .null | .int _, .bool _ | .int _, .flt _ | .int _, .str _ | .int _, .arr _ | .int _, .obj _ => isFalse (by simp)
  | .flt _, .null | .flt _, .bool _ | .flt _, .int _ | .flt _, .str _ | .flt _, .arr _ | .flt _, .obj _ => isFalse (by simp)
  | .str _, .null | .str _, .bool _ | .str _, .int _ | .str _, .flt _ | .str _, .arr _ | .str _, .obj _ => isFalse (by simp)
  | .arr _, .null | .arr _, .bool _ | .arr _, .int _ | .arr _, .flt _ | .arr _, .str _ | .arr _, .obj _ => isFalse (by simp)
  | .obj _, .null | .obj _, .bool _ | .obj _, .int _ | .obj _, .flt _ | .obj _, .str _ | .obj _, .arr _ => isFalse (by simp)
def Json.decEqElems : (a b : List Json) → Decidable (a = b)
  | [], [] => isTrue rfl
  | x :: r, y :: t => match Json.decEq x y, Json.decEqElems r t with
    | isTrue h, isTrue h' => isTrue (by rw [h, h'])
    | isFalse h, _ => isFalse (by simp [h])
    | _, isFalse h => isFalse (by simp [h])
  | [], _ :: _ | _ :: _, [] => isFalse (by simp)
def Json.decEqMembers : (a b : List (Str × Json)) → Decidable (a = b)
  | [], [] => isTrue rfl
  | (k, x) :: r, (l, y) :: t =>
    if hk : k = l then
      match Json.decEq x y, Json.decEqMembers r t with
      | isTrue h, isTrue h' => isTrue (by rw [hk, h, h'])
      | isFalse h, _ => isFalse (by simp [h])
      | _, isFalse h => isFalse (by simp [h])
    else isFalse (by simp [hk])
  | [], _ :: _ | _ :: _, [] => isFalse (by simp)
end
instance : DecidableEq Json := Json.decEq

/-! ### printing -/

/-- lower-case hexadecimal digit, `n < 16` -/
def hexLower (n : Nat) : Char := if n < 10 then Char.ofNat (48 + n) else Char.ofNat (87 + n)

/-- `'\\u{0:04x}'.format(n)` -/
def uEscape (n : Nat) : Str :=
  ['\\', 'u', hexLower (n / 4096 % 16), hexLower (n / 256 % 16), hexLower (n / 16 % 16), hexLower (n % 16)]

/-- `py_encode_basestring_ascii`, one character. -/
def jsonEscape (c : Char) : Str :=
  if c = '"' then ['\\', '"']
  else if c = '\\' then ['\\', '\\']
  else if c = '\n' then ['\\', 'n']
  else if c = '\r' then ['\\', 'r']
  else if c = '\t' then ['\\', 't']
  else if c.toNat = 12 then ['\\', 'f']
  else if c.toNat = 8 then ['\\', 'b']
  else if 32 ≤ c.toNat ∧ c.toNat ≤ 126 then [c]
  else if c.toNat < 0x10000 then uEscape c.toNat
  else uEscape (0xD800 + (c.toNat - 0x10000) / 1024) ++ uEscape (0xDC00 + (c.toNat - 0x10000) % 1024)

def dumpsStr (s : Str) : Str := ['"'] ++ s.flatMap jsonEscape ++ ['"']

mutual
/-- `json.dumps(v)` -/
def dumps : Json → Str
  | .null => pys! "null"
  | .bool true => pys! "true"
  | .bool false => pys! "false"
  | .int i => intStr i
  | .flt raw => raw
  | .str s => dumpsStr s
  | .arr [] => pys! "[]"
  | .arr (x :: r) => ['['] ++ dumps x ++ dumpsElems r ++ [']']
  | .obj [] => pys! "{}"
  | .obj ((k, x) :: r) => ['{'] ++ dumpsStr k ++ [':', ' '] ++ dumps x ++ dumpsMembers r ++ ['}']
/-- the elements after the first -/
def dumpsElems : List Json → Str
  | [] => []
  | x :: r => [',', ' '] ++ dumps x ++ dumpsElems r
/-- the members after the first -/
def dumpsMembers : List (Str × Json) → Str
  | [] => []
  | (k, x) :: r => [',', ' '] ++ dumpsStr k ++ [':', ' '] ++ dumps x ++ dumpsMembers r
end

/-! ### parsing -/

def jsonSpace (c : Char) : Bool := c == ' ' || c == '\t' || c == '\n' || c == '\r'

def skipWs (s : Str) : Str := s.dropWhile jsonSpace

/-- four hexadecimal digits -/
def hex4 : Str → Option Nat
  | a :: b :: c :: d :: _ =>
    match hexVal a.toNat, hexVal b.toNat, hexVal c.toNat, hexVal d.toNat with
    | some a, some b, some c, some d => some (a * 4096 + b * 256 + c * 16 + d)
    | _, _, _, _ => none
  | _ => none

/-- the escape after a backslash: the character and the number of characters used -/
def jsonUnescape : Str → Option (Char × Nat)
  | [] => none
  | e :: r =>
    if e = '"' then some ('"', 1)
    else if e = '\\' then some ('\\', 1)
    else if e = '/' then some ('/', 1)
    else if e = 'b' then some (Char.ofNat 8, 1)
    else if e = 'f' then some (Char.ofNat 12, 1)
    else if e = 'n' then some ('\n', 1)
    else if e = 'r' then some ('\r', 1)
    else if e = 't' then some ('\t', 1)
    else if e = 'u' then
      match hex4 r with
      | none => none
      | some u =>
        if 0xD800 ≤ u ∧ u < 0xDC00 then
          match r.drop 4 with
          | '\\' :: 'u' :: r2 =>
            match hex4 r2 with
            | none => none
            | some v =>
              if 0xDC00 ≤ v ∧ v < 0xE000 then
                some (Char.ofNat (0x10000 + (u - 0xD800) * 1024 + (v - 0xDC00)), 11)
              else none
          | _ => none
        else if 0xDC00 ≤ u ∧ u < 0xE000 then none
        else some (Char.ofNat u, 5)
    else none

/-- the rest of a string literal after its opening quote; `skip` characters belong to the previous escape -/
def parseStr : Nat → Str → Option (Str × Str)
  | _, [] => none
  | k + 1, _ :: r => parseStr k r
  | 0, c :: r =>
    if c = '"' then some ([], r)
    else if c = '\\' then
      match jsonUnescape r with
      | none => none
      | some (ch, n) => (parseStr n r).map fun p => (ch :: p.1, p.2)
    else if c.toNat < 32 then none
    else (parseStr 0 r).map fun p => (c :: p.1, p.2)

def isDigitC (c : Char) : Bool := 48 ≤ c.toNat && c.toNat ≤ 57

def decimalOf (ds : Str) : Nat := ds.foldl (fun n c => 10 * n + (c.toNat - 48)) 0

/-- integer part: `0` or a non-zero digit and further digits -/
def intPart : Str → Option (Str × Str)
  | [] => none
  | c :: r =>
    if c = '0' then some (['0'], r)
    else if isDigitC c then some (c :: r.takeWhile isDigitC, r.dropWhile isDigitC)
    else none

/-- optional fraction -/
def fracPart : Str → Str × Str
  | '.' :: c :: r =>
    if isDigitC c then ('.' :: c :: r.takeWhile isDigitC, r.dropWhile isDigitC) else ([], '.' :: c :: r)
  | s => ([], s)

/-- optional exponent -/
def expPart : Str → Str × Str
  | e :: r =>
    if e = 'e' ∨ e = 'E' then
      match r with
      | c :: r' =>
        if isDigitC c then (e :: c :: r'.takeWhile isDigitC, r'.dropWhile isDigitC)
        else if c = '+' ∨ c = '-' then
          match r' with
          | d :: r'' =>
            if isDigitC d then (e :: c :: d :: r''.takeWhile isDigitC, r''.dropWhile isDigitC) else ([], e :: r)
          | [] => ([], e :: r)
        else ([], e :: r)
      | [] => ([], e :: r)
    else ([], e :: r)
  | [] => ([], [])

/-- a number; `neg` tells that a minus sign was read -/
def parseNumber (neg : Bool) (s : Str) : Option (Json × Str) :=
  match intPart s with
  | none => none
  | some (ds, r) =>
    let f := fracPart r
    let e := expPart f.2
    if f.1.isEmpty && e.1.isEmpty then
      some (.int (if neg then - (decimalOf ds : Int) else (decimalOf ds : Int)), e.2)
    else some (.flt ((if neg then ['-'] else []) ++ ds ++ f.1 ++ e.1), e.2)

mutual
/-- a value; leading white space has been skipped.  `fuel` bounds the recursion; the input length is enough. -/
def parseValue : Nat → Str → Option (Json × Str)
  | 0, _ => none
  | fuel + 1, s =>
    match s with
    | [] => none
    | c :: r =>
      if c = '"' then (parseStr 0 r).map fun p => (.str p.1, p.2)
      else if c = '{' then
        match skipWs r with
        | [] => none
        | '}' :: r' => some (.obj [], r')
        | r' => (parseMembers fuel r').map fun p => (.obj (Dict.ofList p.1), p.2)
      else if c = '[' then
        match skipWs r with
        | [] => none
        | ']' :: r' => some (.arr [], r')
        | r' => (parseElems fuel r').map fun p => (.arr p.1, p.2)
      else if c = '-' then
        if startsWith (pys! "Infinity") r then some (.flt (pys! "-Infinity"), r.drop 8) else parseNumber true r
      else if startsWith (pys! "null") (c :: r) then some (.null, r.drop 3)
      else if startsWith (pys! "true") (c :: r) then some (.bool true, r.drop 3)
      else if startsWith (pys! "false") (c :: r) then some (.bool false, r.drop 4)
      else if startsWith (pys! "NaN") (c :: r) then some (.flt (pys! "NaN"), r.drop 2)
      else if startsWith (pys! "Infinity") (c :: r) then some (.flt (pys! "Infinity"), r.drop 7)
      else parseNumber false (c :: r)
/-- array elements up to and including the closing bracket -/
def parseElems : Nat → Str → Option (List Json × Str)
  | 0, _ => none
  | fuel + 1, s =>
    match parseValue fuel s with
    | none => none
    | some (v, r) =>
      match skipWs r with
      | ']' :: r' => some ([v], r')
      | ',' :: r' => (parseElems fuel (skipWs r')).map fun p => (v :: p.1, p.2)
      | _ => none
/-- object members up to and including the closing brace -/
def parseMembers : Nat → Str → Option (List (Str × Json) × Str)
  | 0, _ => none
  | fuel + 1, s =>
    match s with
    | '"' :: r =>
      match parseStr 0 r with
      | none => none
      | some (k, r) =>
        match skipWs r with
        | ':' :: r =>
          match parseValue fuel (skipWs r) with
          | none => none
          | some (v, r) =>
            match skipWs r with
            | '}' :: r' => some ([(k, v)], r')
            | ',' :: r' => (parseMembers fuel (skipWs r')).map fun p => ((k, v) :: p.1, p.2)
            | _ => none
        | _ => none
    | _ => none
end

/-- `json.loads(s)`; `none` = `ValueError`. -/
def loads (s : Str) : Option Json :=
  match parseValue (2 * s.length + 1) (skipWs s) with
  | none => none
  | some (v, r) => if (skipWs r).isEmpty then some v else none

/-- `json.loads(b)` for bytes. -/
def loadsBytes (b : Bytes) : Option Json :=
  match utf8Decode b with
  | none => none
  | some s => loads s

/-- Python truthiness of a JSON value (`flt` is approximated: only `0.0` and `-0.0` are false). -/
def Json.truthy : Json → Bool
  | .null => false
  | .bool b => b
  | .int i => i != 0
  | .flt raw => raw != pys! "0.0" && raw != pys! "-0.0"
  | .str s => !s.isEmpty
  | .arr l => !l.isEmpty
  | .obj l => !l.isEmpty

/-- Text of a non-integer number as `float.__repr__` produces it: digits, a fraction or an exponent or both. -/
def FloatText (raw : Str) : Prop :=
  ∃ (neg : Bool) (ds f e : Str), raw = (if neg then ['-'] else []) ++ ds ++ f ++ e ∧
    (ds = ['0'] ∨ ∃ c r, ds = c :: r ∧ c ≠ '0' ∧ isDigitC c ∧ r.all isDigitC) ∧
    (f = [] ∨ ∃ c r, f = '.' :: c :: r ∧ isDigitC c ∧ r.all isDigitC) ∧
    (e = [] ∨ ∃ s c r, e = 'e' :: s :: c :: r ∧ (s = '+' ∨ s = '-') ∧ isDigitC c ∧ r.all isDigitC) ∧
    (f ≠ [] ∨ e ≠ [])

mutual
/-- Values without repeated keys and with regular number texts: what the library itself prints. -/
def Json.WF : Json → Prop
  | .flt raw => FloatText raw
  | .arr l => Json.WFElems l
  | .obj l => (l.map (·.1)).Nodup ∧ Json.WFMembers l
  | _ => True
def Json.WFElems : List Json → Prop
  | [] => True
  | x :: r => x.WF ∧ Json.WFElems r
def Json.WFMembers : List (Str × Json) → Prop
  | [] => True
  | (_, x) :: r => x.WF ∧ Json.WFMembers r
end

end Py
