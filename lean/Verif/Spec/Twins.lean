import Verif.Model.Attempts
import Verif.Spec.Client
import Verif.Spec.StreamContext
/-
Specification for C91: the synchronous and the asynchronous client with the same options.
-/
namespace Spec
open Conn Py

section
variable {Req Res : Type}

/-- The client with these options, of either kind; and a streaming call of it. -/
def clientOf (f : Flavor) (c : Client Req Res) : Client Req Res := { c with flavor := f }
def callOf (f : Flavor) (k : StreamCall Req Res) : StreamCall Req Res := { k with c := clientOf f k.c }

/-- Codec, compressions and the status message raise nothing but `Exception`s. -/
structure Decent (c : Client Req Res) (sc : StatusCodec) : Prop where
  encode : ∀ m e, c.codec.encode m = .error e → e.isException
  decode : ∀ b e, c.resCodec.decode b = .error e → e.isException
  comps : ∀ p ∈ c.comps, ∀ b e, p.2.decompress b = .error e → e.isException
  status : ∀ b e, sc.fromBinary b = .error e → e.isException

/-- `ConnectError` or `TimeoutError`. -/
def Definite (e : Exc) : Prop := IsConnectError e ∨ ∃ msg, e = .other .timeoutError msg

/-- What comes of a streaming request: neither opening the stream nor reading the body is cancelled, and leaving the response raises at most a definite error. -/
structure Steady (r : Except Exc StreamResponse) : Prop where
  opened : ∀ e, r = .error e → e.isException
  body : ∀ resp e, r = .ok resp → resp.bodyErr = some e → e.isException
  exit : ∀ resp e, r = .ok resp → resp.exitErr = some e → Definite e

/-- The same for all requests, unary ones included. -/
structure SteadyHttp (http : HttpClient) : Prop where
  full : ∀ r e, http.full r = .error e → e.isException
  stream : ∀ r, Steady (http.stream r)

/-- The deadline has not passed when the response ends, and the task is not cancelled between messages. -/
def InTime (cs : Circumstances) : Prop := cs.expiredAtEnd = false ∧ cs.cancelAfter = none

/-- The task is not cancelled between messages. -/
def NotCancelled (us : List Use) : Prop := ∀ u ∈ us, u ≠ .next true

end
end Spec
