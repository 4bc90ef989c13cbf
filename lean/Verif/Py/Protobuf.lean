import Verif.Model.EndStream
/-
The protobuf wire format of `google.rpc.Status` (the message that `_protocol_grpc.py` puts in
`grpc-status-details-bin`).  The protobuf library is not part of /repo; this concrete codec shows that the law assumed
of it (`StatusCodec.Lawful`) is met by the format itself.
-/
namespace Conn
open Py

/-- base-128 varint -/
def varint (n : Nat) : Bytes :=
  if n < 128 then [UInt8.ofNat n] else UInt8.ofNat (n % 128 + 128) :: varint (n / 128)
termination_by n
decreasing_by omega

/-- reads a varint of at most `fuel` bytes -/
def readVarint : Nat → Bytes → Option (Nat × Bytes)
  | 0, _ => none
  | _, [] => none
  | fuel + 1, b :: r =>
    if b.toNat < 128 then some (b.toNat, r)
    else match readVarint fuel r with
      | none => none
      | some (n, r') => some (b.toNat - 128 + 128 * n, r')

/-- a parsed field -/
inductive WireVal where
  | varint (n : Nat)
  | fixed64 (b : Bytes)
  | len (b : Bytes)
  | fixed32 (b : Bytes)
deriving DecidableEq

/-- one field: tag and value -/
def readField (b : Bytes) : Option ((Nat × WireVal) × Bytes) :=
  match readVarint 10 b with
  | none => none
  | some (tag, r) =>
    if tag % 8 = 0 then (readVarint 10 r).map fun p => ((tag / 8, .varint p.1), p.2)
    else if tag % 8 = 1 then (if r.length < 8 then none else some ((tag / 8, .fixed64 (r.take 8)), r.drop 8))
    else if tag % 8 = 2 then
      match readVarint 10 r with
      | none => none
      | some (n, r') => if r'.length < n then none else some ((tag / 8, .len (r'.take n)), r'.drop n)
    else if tag % 8 = 5 then (if r.length < 4 then none else some ((tag / 8, .fixed32 (r.take 4)), r.drop 4))
    else none

/-- all fields of a message; `fuel` bounds the number of fields (one per byte suffices) -/
def readFields : Nat → Bytes → Option (List (Nat × WireVal))
  | _, [] => some []
  | 0, _ :: _ => none
  | fuel + 1, b :: r =>
    match readField (b :: r) with
    | none => none
    | some (f, r') => (readFields fuel r').map (f :: ·)

/-- a length-delimited field with a one-byte tag -/
def lenField (tag : UInt8) (b : Bytes) : Bytes := tag :: varint b.length ++ b

/-- `google.protobuf.Any`: `string type_url = 1; bytes value = 2` -/
def encodeAny (p : Str × Bytes) : Bytes :=
  (if p.1 = [] then [] else lenField 10 (utf8Encode p.1)) ++ (if p.2 = [] then [] else lenField 18 p.2)

/-- `google.rpc.Status`: `int32 code = 1; string message = 2; repeated Any details = 3` -/
def encodeStatus (s : Status) : Bytes :=
  (if s.code = 0 then [] else 8 :: varint (s.code % 2 ^ 64).toNat) ++
  (if s.message = [] then [] else lenField 18 (utf8Encode s.message)) ++
  s.details.flatMap fun d => lenField 26 (encodeAny d)

def anyField (acc : Option (Str × Bytes)) (f : Nat × WireVal) : Option (Str × Bytes) :=
  match acc, f with
  | none, _ => none
  | some a, (1, .len b) => (utf8Decode b).map fun u => (u, a.2)
  | some a, (2, .len b) => some (a.1, b)
  | some a, _ => some a

def decodeAny (b : Bytes) : Option (Str × Bytes) :=
  match readFields b.length b with
  | none => none
  | some fs => fs.foldl anyField (some ([], []))

/-- low 32 bits, signed -/
def toInt32 (n : Nat) : Int :=
  let m : Nat := n % 2 ^ 32
  if m < 2 ^ 31 then (m : Int) else (m : Int) - 2 ^ 32

def statusField (acc : Option Status) (f : Nat × WireVal) : Option Status :=
  match acc, f with
  | none, _ => none
  | some s, (1, .varint n) => some { s with code := toInt32 n }
  | some s, (2, .len b) => (utf8Decode b).map fun m => { s with message := m }
  | some s, (3, .len b) => (decodeAny b).map fun d => { s with details := s.details ++ [d] }
  | some s, _ => some s

def decodeStatus (b : Bytes) : Except Exc Status :=
  match (match readFields b.length b with
    | none => none
    | some fs => fs.foldl statusField (some ⟨0, [], []⟩)) with
  | none => .error (.other .valueError (pys! "DecodeError"))
  | some s => .ok s

/-- protobuf's codec for `google.rpc.Status` -/
def protobufStatus : StatusCodec := ⟨encodeStatus, decodeStatus⟩

end Conn
