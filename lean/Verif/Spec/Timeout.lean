import Verif.Py.Str
/-
Specification of timeout headers (C09–C12).
-/
namespace Spec

/-- An ASCII decimal digit. -/
def IsDigit (c : Char) : Prop := c ∈ pys! "0123456789"

instance (c : Char) : Decidable (IsDigit c) := by unfold IsDigit; infer_instance

/-- The number a string of decimal digits denotes. -/
def decimal (ds : List Char) : Nat := ds.foldl (fun n c => 10 * n + (c.toNat - '0'.toNat)) 0

/-- gRPC timeout units, in nanoseconds (gRPC over HTTP/2, "TimeoutUnit"). -/
def unitNanos : List (Char × Nat) :=
  [('H', 3600000000000), ('M', 60000000000), ('S', 1000000000), ('m', 1000000), ('u', 1000), ('n', 1)]

/-- "TimeoutValue TimeoutUnit": one to eight digits and one unit letter. -/
def LegalGrpcTimeout (s : List Char) : Prop :=
  ∃ ds u, s = ds ++ [u] ∧ 1 ≤ ds.length ∧ ds.length ≤ 8 ∧ (∀ c ∈ ds, IsDigit c) ∧ u ∈ unitNanos.map (·.1)

end Spec
