import Verif.Model.Client
import Verif.Spec.Fields
/-
Specification for the client properties (C13, C14, C33, C44, C45, C46, C50, C51).
-/
namespace Spec
open Conn Py

/-- A call only ever sends requests satisfying `P`: its result depends on the HTTP client's answers to such requests only. -/
def SendsOnly {α : Type} (P : HttpRequest → Prop) (call : HttpClient → α) : Prop :=
  ∀ h h' : HttpClient, (∀ r, P r → h.full r = h'.full r ∧ h.stream r = h'.stream r) → call h = call h'

/-- The request announces a deadline `t` milliseconds away (for gRPC: in milliseconds, the exact format below 10^8) and runs under that
timeout. -/
def Announces (p : Proto) (t : Int) (r : HttpRequest) : Prop :=
  r.timeoutMs = some t ∧
  match p with
  | .connect => fieldValues r.headers (pys! "Connect-Timeout-Ms") = [intStr t]
  | _ => fieldValues r.headers (pys! "Grpc-Timeout") = [intStr t ++ pys! "m"]

/-- The media type of a content-type value: the part before `;`, without surrounding blanks, in lower case. -/
def mediaType (v : List Char) : List Char := lower (strip (v.takeWhile (· != ';')))

/-- Code of an HTTP/2 stream reset (gRPC over HTTP/2, "Errors"): `late` tells that the deadline has passed. -/
def codeOfReset (late : Bool) : ResetCode → Code
  | .noError | .protocolError | .internalError | .flowControlError | .settingsTimeout | .frameSizeError
  | .compressionError | .connectError => .internal
  | .refusedStream => .unavailable
  | .cancel => if late then .deadlineExceeded else .canceled
  | .enhanceYourCalm => .resourceExhausted
  | .inadequateSecurity => .permissionDenied
  | .streamClosed | .http11Required => .unavailable

/-- The library's error type. -/
def IsConnectError (e : Exc) : Prop := ∃ ce : ConnectErr, e = .connect ce

end Spec
