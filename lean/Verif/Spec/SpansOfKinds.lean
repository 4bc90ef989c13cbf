import Verif.Spec.Client
import Verif.Spec.ClientObserved
/-
Specification of the requests of calls made within a span (C67).
-/
namespace Spec
open Conn Py
variable {C Req Res : Type}

/-- `rq` is the request of traced calls made within the span `within` with the messages `reqs`: of streams (for which `stream` is true), and of unary calls other than by Connect. -/
structure TracedSends (c : Client Req Res) (sc : StatusCodec) (sink : Sink) (cs : Circumstances) (left : Option Exc) (o : OtelInterceptor C) (within : Option C) (reqs : List Req) (m : MethodInfo)
    (user : UserHeaders) (t : Option Int) (verb : List Char) (stream : Bool) (rq : HttpRequest) : Prop where
  bidi : stream = true → verb = pys! "POST" → SendsOnly (· = rq) fun http => c.observedBidiStream sc http sink cs left o within reqs none m user t
  clientStream : stream = true → verb = pys! "POST" → SendsOnly (· = rq) fun http => c.observedClientStream sc http sink cs o within reqs none m user t
  serverStream : stream = true → verb = pys! "POST" → ∀ req, reqs = [req] → SendsOnly (· = rq) fun http => c.observedServerStream sc http sink cs left o within req m user t
  unary : c.proto ≠ .connect → stream = false → ∀ useGet, verb = (if useGet then pys! "GET" else pys! "POST") → ∀ req, reqs = [req] →
    SendsOnly (· = rq) fun http => c.observedUnary sc http sink cs o within req m user t useGet

end Spec
