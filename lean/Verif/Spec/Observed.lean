import Verif.Model.Observed
import Verif.Spec.Otel
import Verif.Spec.UnaryResponse
/-
Specification for C93: what tracing reports of a request is what was answered.
-/
namespace Spec
open Conn Py

section
variable {C Req Res : Type}

/-- One span was started and ended and one duration recorded, and they report the status `status` (`none`: success). -/
inductive Reports : List (Telemetered C) → Option (List Char) → Prop where
  | success {name : List Char} {client : Bool} {attrs shared : Dict (List Char) AttrValue} {parent : Option C}
      (h : Dict.get? shared (pys! "rpc.response.status_code") = none) :
      Reports [.started name client attrs parent, .recorded shared, .ended none] none
  | failure {name : List Char} {client : Bool} {attrs span shared : Dict (List Char) AttrValue} {parent : Option C} {status : List Char} {e : Exc}
      (hspan : Dict.get? span (pys! "rpc.response.status_code") = some (.str status))
      (h : Dict.get? shared (pys! "rpc.response.status_code") = some (.str status)) :
      Reports [.started name client attrs parent, .attributes span, .recorded shared, .ended (some e)] (some status)

/-- What tracing reports while the requests `calls` are handled: for each of them what the interceptor does. -/
def telemetryOf (o : OtelInterceptor C) (flavor : Bool) (current : Option C) (f : Req → RequestContext → Call Res) (calls : List (Called Req)) : List (Telemetered C) :=
  calls.flatMap fun c => match c.req with
    | some req => telemetryIn (o.watch flavor current f req c.ctx).effects
    | none => []

/-- … when the handler is a generator that was asked for `n` messages, and closed if it had not ended by then. -/
def telemetryOfStream (o : OtelInterceptor C) (flavor : Bool) (current : Option C) (f : Req → RequestContext → Script Res) (n : Nat) (calls : List (Called Req)) :
    List (Telemetered C) :=
  calls.flatMap fun c => match c.req with
    | some req => telemetryIn (((o.watchGen flavor current f req c.ctx).use n).effects ++ ((o.watchGen flavor current f req c.ctx).use n).later)
    | none => []

/-- The status of a response as the client understands it: success, or the code of an error. -/
inductive ToldStatus : Response → Option (List Char) → Prop where
  | success {r : Response} (h : r.status = 200) : ToldStatus r none
  | failure {r : Response} {e : ConnectErr} (h : ErrorResponse r e) : ToldStatus r (some (codeName e.code))

/-- The addresses the tracing interceptor looks at can be parsed (see C57): the Host header is absent, `address:port`, or an address; the address of the client, if known, has a port. -/
def TraceableRequest (scheme : List Char) (host client : Option (List Char)) : Prop :=
  (host = none ∨ ∃ h, host = some h ∧ (HostPort h ∨ (PlainHost h ∧ (scheme = pys! "http" ∨ scheme = pys! "https")))) ∧ Traceable client

end

end Spec
