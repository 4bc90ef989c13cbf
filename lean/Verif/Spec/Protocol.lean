import Verif.Model.Base
import Verif.Spec.Timeout
/-
Specification of the fixed tables of the Connect and gRPC protocols (C15, C17, C20) and of addresses (C55).
-/
namespace Spec
open Conn Py

/-- gRPC status numbers (https://grpc.io/docs/guides/status-codes). -/
def grpcNumber : Code → Nat
  | .canceled => 1 | .unknown => 2 | .invalidArgument => 3 | .deadlineExceeded => 4 | .notFound => 5
  | .alreadyExists => 6 | .permissionDenied => 7 | .resourceExhausted => 8 | .failedPrecondition => 9 | .aborted => 10
  | .outOfRange => 11 | .unimplemented => 12 | .internal => 13 | .unavailable => 14 | .dataLoss => 15
  | .unauthenticated => 16

/-- HTTP status of an error code (Connect protocol, "Error Codes"). -/
def connectHttpStatus : Code → Nat
  | .canceled => 499 | .unknown => 500 | .invalidArgument => 400 | .deadlineExceeded => 504 | .notFound => 404
  | .alreadyExists => 409 | .permissionDenied => 403 | .resourceExhausted => 429 | .failedPrecondition => 400
  | .aborted => 409 | .outOfRange => 400 | .unimplemented => 501 | .internal => 500 | .unavailable => 503
  | .dataLoss => 500 | .unauthenticated => 401

/-- Error code of an HTTP status without a recognisable error body (Connect protocol, "HTTP to Error Code"). -/
def codeOfStatus (n : Int) : Code :=
  if n = 400 then .internal
  else if n = 401 then .unauthenticated
  else if n = 403 then .permissionDenied
  else if n = 404 then .unimplemented
  else if n ∈ [429, 502, 503, 504] then .unavailable
  else .unknown

/-- The name of a code on the wire. -/
def codeName : Code → List Char
  | .canceled => pys! "canceled" | .unknown => pys! "unknown" | .invalidArgument => pys! "invalid_argument"
  | .deadlineExceeded => pys! "deadline_exceeded" | .notFound => pys! "not_found"
  | .alreadyExists => pys! "already_exists" | .permissionDenied => pys! "permission_denied"
  | .resourceExhausted => pys! "resource_exhausted" | .failedPrecondition => pys! "failed_precondition"
  | .aborted => pys! "aborted" | .outOfRange => pys! "out_of_range" | .unimplemented => pys! "unimplemented"
  | .internal => pys! "internal" | .unavailable => pys! "unavailable" | .dataLoss => pys! "data_loss"
  | .unauthenticated => pys! "unauthenticated"

/-- `address:port`: a non-empty address without slash, whose colons (if any) are inside brackets, and a port number. -/
def HostPort (s : List Char) : Prop :=
  ∃ a p, s = a ++ [':'] ++ p ∧ a ≠ [] ∧ '/' ∉ a ∧ p ≠ [] ∧ (∀ c ∈ p, IsDigit c) ∧
    (':' ∉ a ∨ ∃ x, a = ['['] ++ x ++ [']'])

/-- An address without port as it occurs in a Host header or URL: not empty, no slash, no colon. -/
def PlainHost (a : List Char) : Prop := a ≠ [] ∧ '/' ∉ a ∧ ':' ∉ a

/-- The server address that belongs to a Host header (or to that part of a URL): an `address:port` as it is, and the default port of the
scheme for an address without port. -/
def ServerAddress (scheme : List Char) (host address : Option (List Char)) : Prop :=
  (host = none → address = none) ∧ ∀ h, host = some h →
    (HostPort h → address = some h) ∧
    (PlainHost h → (scheme = pys! "http" → address = some (h ++ pys! ":80")) ∧ (scheme = pys! "https" → address = some (h ++ pys! ":443")))

end Spec
