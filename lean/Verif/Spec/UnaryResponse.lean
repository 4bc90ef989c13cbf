import Verif.Spec.Server
/-
Specification for C63: the response to a unary Connect request carries what the handler returned or raised.
-/
namespace Spec
open Conn Py

variable {Req Res : Type}

/-- The request is acceptable, its codec is `codec` and its message is `req` (WSGI; see `WsgiAcceptable`). -/
def WsgiCarries (app : App Req Res) (env : Environ) (m : MethodInfo) (httpMethod : List Char) (codec : ServerCodec Req Res)
    (req : Req) : Prop :=
  ConnectHeaders (wsgiHeaders env.vars) ∧
  ((httpMethod = pys! "POST" ∧ ∃ name raw data, UnaryCodecName ((wsgiHeaders env.vars).getD (pys! "content-type") []) name ∧
      Dict.get? app.codecs name = some codec ∧ WsgiBody env raw ∧
      Uncompressed app (wsgiEncoding env) raw data ∧ WithinLimit app data ∧ codec.req.decode data = .ok req) ∨
   (httpMethod = pys! "GET" ∧ m.idempotency = .noSideEffects ∧ QueryCodec app (wsgiParams env) codec ∧
    ∃ raw data, MessageParam (wsgiParams env) raw ∧
      ((∀ v, ¬ Param (wsgiParams env) (pys! "compression") v) ∧ data = raw ∨
        ∃ v c, Param (wsgiParams env) (pys! "compression") v ∧ Dict.get? app.comps v = some c ∧ c.decompress raw = .ok data) ∧
      codec.req.decode data = .ok req))

/-- … (ASGI; see `AsgiAcceptable`). -/
def AsgiCarries (app : App Req Res) (scope : Scope) (env : Env) (headers : Headers) (m : MethodInfo) (codec : ServerCodec Req Res)
    (req : Req) : Prop :=
  ConnectHeaders headers ∧
  ((scope.method = pys! "POST" ∧ ∃ name raw data, UnaryCodecName (headers.getD (pys! "content-type") []) name ∧
      Dict.get? app.codecs name = some codec ∧ AsgiBody env.receive raw ∧
      AsgiUncompressed app (lower (headers.getD (pys! "content-encoding") (pys! "identity"))) raw data ∧
      WithinLimit app data ∧ codec.req.decode data = .ok req) ∨
   (scope.method = pys! "GET" ∧ m.idempotency = .noSideEffects ∧ ∃ q, utf8Decode scope.query = some q ∧
    QueryCodec app (parseQs q) codec ∧ ∃ raw data enc, MessageParam (parseQs q) raw ∧
      (Param (parseQs q) (pys! "compression") enc ∨ (enc = pys! "identity" ∧ ∀ v, ¬ Param (parseQs q) (pys! "compression") v)) ∧
      AsgiUncompressed app enc raw data ∧ codec.req.decode data = .ok req))

/-- The response metadata a handler has set when it ends: its updates, in order, of an empty metadata object. -/
def metadataOf (steps : List Step) : Meta :=
  steps.foldl (fun m s => match s with
    | .update f => f m
    | .recv _ => m) ⟨Headers.empty, Headers.empty⟩

/-- How response metadata is sent: all headers, then all trailers under names that begin with `trailer-`; all values, in order. -/
def metadataFields (m : Meta) : List (List Char × List Char) :=
  m.headers.allitems ++ m.trailers.allitems.map fun p => (pys! "trailer-" ++ p.1, p.2)

/-- The call fails: the handler raises, or its response cannot be encoded. -/
def Fails (codec : ServerCodec Req Res) (run : Call Res) (e : Exc) : Prop :=
  run.result = .error e ∨ ∃ r, run.result = .ok r ∧ codec.res.encode r = .error e

/-- The response that tells how the run of a unary handler ended, with its response metadata: status 200 and the encoded, compressed
response; or a Connect error response. (`HTTPException` is internal to the library; a handler that raises it chooses the
status.) -/
inductive Answers (codec : ServerCodec Req Res) (comp : Compression) (run : Call Res) : Response → Prop where
  | success {r : Res} {data : List UInt8} (hr : run.result = .ok r) (he : codec.res.encode r = .ok data) :
      Answers codec comp run ⟨200, [(pys! "content-type", pys! "application/" ++ codec.name),
        (pys! "content-encoding", comp.name), (pys! "vary", pys! "Accept-Encoding")] ++ metadataFields (metadataOf run.steps),
        comp.compress data⟩
  | failure {e : Exc} {r : Response} (hf : Fails codec run e) (hh : ∀ s hs, e ≠ .http s hs)
      (hr : ErrorResponse r (errorOf e))
      (hm : ∃ ct, lower ct = pys! "content-type" ∧ r.fields = (ct, pys! "application/json") :: metadataFields (metadataOf run.steps)) : Answers codec comp run r
  | http {status : Nat} {fields : List (List Char × List Char)} (hf : Fails codec run (.http status fields)) :
      Answers codec comp run ⟨status, fields ++ metadataFields (metadataOf run.steps), []⟩

end Spec
