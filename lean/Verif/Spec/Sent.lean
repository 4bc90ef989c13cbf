import Verif.Spec.Response
/-
Specification for C74: the requests a client sends. The published formats are those of `Spec/Request`; a server of any implementation that knows the
client's codec and compression is represented by what it can read (`app`, `codec`).
-/
namespace Spec
open Conn Py

section
variable {Req Res : Type}

/-- The timeout of the call can be announced in the notation of the protocol: at most ten digits by Connect, eight digits and a unit by gRPC. (Without a
timeout, the caller sets no timeout header of their own.) -/
def TimeoutLegal (c : Client Req Res) (user : UserHeaders) (t : Option Int) : Prop :=
  match callTimeout t c.timeoutMs with
  | some ms => (match c.proto with
    | .connect => 0 ≤ ms ∧ ms < 10000000000
    | .grpc | .grpcWeb => ms < 360000000000000)
  | none => given user (timeoutName c.proto) = []

/-- The call sends exactly one request, a unary request of the Connect protocol, of version 1, with the message and the timeout of the call; it says
which compressions the client accepts. -/
def SendsUnary (c : Client Req Res) (app : App Req Res) (codec : ServerCodec Req Res) (m : MethodInfo) (t : Option Int) (method : List Char)
    (req : Req) {α : Type} (call : HttpClient → α) : Prop :=
  ∃ rq told, SendsOnly (· = rq) call ∧ rq.method = method ∧ UnaryRequest app codec c.address (methodPath m) rq req told ∧
    TimeoutTold t c.timeoutMs told ∧ AcceptsUnary c rq ∧
    fieldValues rq.headers (pys! "connect-protocol-version") = [['1']] ∧
    ∀ params, Queried app codec c.address (methodPath m) params rq req → TextMessage params

/-- The call sends exactly one request, a streamed request of the protocol of the client, with the messages and the timeout of the call; it says which
compressions the client accepts; by Connect it is of version 1, by gRPC it asks for trailers. -/
def SendsStream (c : Client Req Res) (app : App Req Res) (codec : ServerCodec Req Res) (m : MethodInfo) (t : Option Int) (reqs : List Req)
    {α : Type} (call : HttpClient → α) : Prop :=
  ∃ rq meant told, SendsOnly (· = rq) call ∧ StreamedRequest app codec c.address (methodPath m) c.proto rq reqs told ∧ rq.bodyErr = none ∧
    TimeoutTold t c.timeoutMs meant ∧ StreamTimeoutTold c.proto meant told ∧
    (∃ text, fieldValues rq.headers (acceptHeader c.proto) = [text] ∧ AcceptList c text) ∧
    (c.proto = .connect → fieldValues rq.headers (pys! "connect-protocol-version") = [['1']]) ∧
    (c.proto = .grpc → fieldValues rq.headers (pys! "te") = [pys! "trailers"])

end

end Spec
