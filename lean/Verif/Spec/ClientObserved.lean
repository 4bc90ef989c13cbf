import Verif.Model.ClientObserved
import Verif.Spec.Observed
/-
Specification for C103: what tracing reports of a call is what the caller got.
-/
namespace Spec
open Conn Py

section
variable {C Req Res : Type}

/-- what tracing did in the course of a call -/
def tracedIn (es : List (ClientEvent C)) : List (Telemetered C) := es.filterMap fun
  | .traced t => some t
  | _ => none

/-- everything else -/
def untracedIn (es : List (ClientEvent C)) : List (ClientEvent C) := es.filterMap fun
  | .traced _ => none
  | e => some e

/-- The address a client is made with can be traced (see C57): a scheme and `address`, or `address:port`. -/
def TraceableClient (address : List Char) : Prop :=
  ∃ scheme host, (scheme = pys! "http" ∨ scheme = pys! "https") ∧ (PlainHost host ∨ HostPort host) ∧ address = scheme ++ pys! "://" ++ host

/-- The status of a call as the caller learns it: success, the code of the `ConnectError`, or "unknown" for any other `Exception`. -/
inductive CallStatus : Option Exc → Option (List Char) → Prop where
  | success : CallStatus none none
  | error (e : ConnectErr) : CallStatus (some (.connect e)) (some (codeName e.code))
  | http (s : Nat) (hs : List (List Char × List Char)) : CallStatus (some (.http s hs)) (some (pys! "unknown"))
  | other (cls : Cls) (msg : List Char) : CallStatus (some (.other cls msg)) (some (pys! "unknown"))

/-- The context of a call with the current span in its headers. -/
def withSpan (o : OtelInterceptor C) (current : Option C) (ctx : RequestContext) : RequestContext :=
  { ctx with requestHeaders := o.telemetry.inject current ctx.requestHeaders }

/-- What a call does apart from tracing: the requests it sends, and the metadata it leaves. -/
def visible (notes : List Note) (sink : Sink) : List (ClientEvent C) :=
  (notes.filterMap fun
    | .sent r => some (ClientEvent.sent r)
    | .told .. => none) ++ [.metadata sink]

end

end Spec
