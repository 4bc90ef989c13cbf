import Verif.Spec.Stream
import Verif.Spec.IntText
/-
Specification for C98: requests for which no function has been called.
-/
namespace Spec
open Conn Py

variable {Req Res : Type}

/-- What a WSGI client can observe of a request that has failed: an HTTP error response; a stream in the protocol of the request that ends with an
error and carries no message; or nothing, the exception going to the application server.  When the report of an error cannot be written (it is too long
for an envelope), the stream that has been started is started again as an HTTP error response. -/
inductive WsgiFailed (app : App Req Res) (sc : StatusCodec) (env : Environ) (o : WsgiOut Req) : Prop where
  | refused (r : Response) (h : WsgiGave o r) (hs : 400 ≤ r.status)
  | ended (p : Proto) (hp : Speaks p ((wsgiHeaders env.vars).getD (pys! "content-type") [])) (codec : ServerCodec Req Res) (comp : Compression)
      (hc : ∃ n, Dict.get? app.codecs n = some codec) (e : Exc) (out : EndOut) (ho : EndsWith (writerOf codec comp) p sc Headers.empty (some e) out)
      (h : o.events = .start 200 (streamFields p codec comp ⟨Headers.empty, Headers.empty⟩) :: wsgiEnding out) (hx : o.escaped = none)
  | raised (e : Exc) (h : o.events = []) (hx : o.escaped = some e)
  | restarted (fields : List (List Char × List Char)) (r : Response) (chunks : List (List UInt8)) (hs : 400 ≤ r.status)
      (h : o.events = .start 200 fields :: .start r.status r.fields :: chunks.map .chunk) (hb : chunks.flatten = r.body) (hx : o.escaped = none)

/-- … an ASGI client. -/
inductive AsgiFailed (app : App Req Res) (sc : StatusCodec) (scope : Scope) (o : AsgiOut Req) : Prop where
  | refused (r : Response) (h : AsgiGave o r) (hs : 400 ≤ r.status)
  | ended (headers : Headers) (hd : asgiHeaders scope.headers Headers.empty = .ok headers) (p : Proto)
      (hp : Speaks p (headers.getD (pys! "content-type") [])) (codec : ServerCodec Req Res) (comp : Compression)
      (hc : ∃ n, Dict.get? app.codecs n = some codec) (e : Exc) (out : EndOut) (ho : EndsWith (writerOf codec comp) p sc Headers.empty (some e) out)
      (h : o.sends = (Sent.start 200 (streamFields p codec comp ⟨Headers.empty, Headers.empty⟩) (decide (p = .grpc)) :: asgiEnding out).map (·, none))
      (hx : o.escaped = reraised (some e))
  | raised (e : Exc) (h : o.sends = []) (hx : o.escaped = some e)

/-- A value of the gRPC timeout header that is none: the unit is unknown, or what is before it is not a number or is too large. -/
def BadGrpcTimeout (v : List Char) : Prop :=
  ∃ s u, v = s ++ [u] ∧ (u ∉ unitNanos.map (·.1) ∨ (∀ n, ¬ IntText s n) ∨ ∃ n : Int, IntText s n ∧ 99999999 < n)

end Spec
