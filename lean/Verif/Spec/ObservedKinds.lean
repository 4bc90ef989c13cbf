import Verif.Model.ObservedKinds
import Verif.Spec.Observed
/-
Specification for C93, for methods of every kind.
-/
namespace Spec
open Conn Py

section
variable {C Req Res : Type}

/-- What tracing reports while the functions of `calls` run: a function that takes a stream reads `s`; a generator is asked for `n` messages, and closed if it had not ended by then. -/
def telemetryOfKind (o : OtelInterceptor C) (flavor : Bool) (current : Option C) (s : ReqStream Req) (n : Nat) (handler : Handler Req Res) (calls : List (Called Req)) :
    List (Telemetered C) :=
  match handler with
  | .unary f => telemetryOf o flavor current f calls
  | .serverStream f => telemetryOfStream o flavor current f n calls
  | .clientStream f => calls.flatMap fun c => telemetryIn (o.watch flavor current (fun s ctx => (f s ctx).on s) s c.ctx).effects
  | .bidi f => calls.flatMap fun c =>
      let u := (o.watchGen flavor current (fun s ctx => (f s ctx).on s) s c.ctx).use n
      telemetryIn (u.effects ++ u.later)

end

end Spec
