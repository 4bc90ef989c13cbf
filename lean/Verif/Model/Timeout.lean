import Verif.Model.Base
/-
Model of the gRPC timeout functions in `src/connectrpc/_protocol_grpc.py`.
-/
namespace Conn
open Py

/-- `_protocol_grpc.py:402-421` `_serialize_timeout`.  The thresholds `1e8`, `1e8 * 1000`, `1e8 * 60 * 1000` are exact
doubles, and Python compares `int` with `float` exactly, so they are integers here. -/
def serializeTimeout (t : Int) : Str :=
  if t ≤ 0 then pys! "0n"
  else if t < 100000000 then intStr (t / 1) ++ pys! "m"
  else if t < 100000000000 then intStr (t / 1000) ++ pys! "S"
  else if t < 6000000000000 then intStr (t / 60000) ++ pys! "M"
  else intStr (t / 3600000) ++ pys! "H"

/-- The factor returned by `_lookup_timeout_unit` (`_protocol_grpc.py:141-157`): an integer, or a double given as
`cm * 2^-k`. -/
inductive UnitFactor where
  | int (n : Nat)
  | double (cm k : Nat)
deriving DecidableEq

/-- `1 / 1000` as a double. -/
def milliDouble : UnitFactor := .double 4611686018427388 62
/-- `1 / 1000 / 1000` as a double. -/
def microDouble : UnitFactor := .double 4722366482869645 72

/-- The two constants are the correctly rounded quotients (ties to even; both quotients need 53 bits). -/
example : (2 ^ 62 / 1000, 2 * (2 ^ 62 % 1000) > 1000) = (4611686018427387, True) := by
  simp
example : (4611686018427388 * 2 ^ 10 / 1000, 2 * (4611686018427388 * 2 ^ 10 % 1000) < 1000) = (4722366482869645, True) := by
  simp
example : 2 ^ 52 ≤ 4611686018427388 ∧ 4611686018427388 < 2 ^ 53 ∧ 2 ^ 52 ≤ 4722366482869645 ∧ 4722366482869645 < 2 ^ 53 := by
  decide

/-- `_protocol_grpc.py:141-157` `_lookup_timeout_unit`. -/
def lookupTimeoutUnit (unit : Char) : Except Exc UnitFactor :=
  if unit = 'H' then .ok (.int 3600000)
  else if unit = 'M' then .ok (.int 60000)
  else if unit = 'S' then .ok (.int 1000)
  else if unit = 'm' then .ok (.int 1)
  else if unit = 'u' then .ok milliDouble
  else if unit = 'n' then .ok microDouble
  else .error (.other .valueError (pys! "protocol error: timeout has invalid unit '" ++ [unit] ++ pys! "'"))

/-- `int(value * value_to_ms)` — `_protocol_grpc.py:138`. -/
def UnitFactor.scale (v : Int) : UnitFactor → Int
  | .int n => v * n
  | .double cm k => if v < 0 then - (mulDoubleTrunc v.natAbs cm k : Int) else (mulDoubleTrunc v.natAbs cm k : Int)

/-- `_protocol_grpc.py:124-138` `_parse_timeout`.  The empty string (`IndexError` in the code) is excluded by the
caller (`if timeout_header`), line 64. -/
def parseTimeout (timeout : Str) : Except Exc Int :=
  match timeout.reverse with
  | [] => .error (.other (.custom 0) (pys! "string index out of range"))
  | u :: revDigits =>
    match lookupTimeoutUnit u with
    | .error e => .error e
    | .ok f =>
      match parseInt revDigits.reverse with
      | none => .error (.other .valueError (pys! "protocol error: invalid timeout '" ++ timeout ++ pys! "'"))
      | some v =>
        if v > 99999999 then
          .error (.other .valueError (pys! "protocol error: timeout '" ++ timeout ++ pys! "' is too long"))
        else .ok (f.scale v)

end Conn
