import Verif.Model.ClientCalls
/-
Specification for C94: what the interceptors of a client are told of a call is what is sent.
-/
namespace Spec
open Conn Py

section
variable {Req Res : Type}

/-- The context of a call: the method, the HTTP method, the timeout of the call or else the client's, and no address of the client. (The server's address: C55.) -/
structure ContextOf (c : Client Req Res) (method : MethodInfo) (get : Bool) (timeoutMs : Option Int) (ctx : RequestContext) : Prop where
  method : ctx.method = method
  httpMethod : ctx.httpMethod = if get then pys! "GET" else pys! "POST"
  given : ∀ t, timeoutMs = some t → t ≠ 0 → ctx.timeoutMs = some t
  default : timeoutMs = none → ctx.timeoutMs = c.timeoutMs
  client : ctx.clientAddress = none

/-- The request is the one the context describes: its HTTP method, its headers — on GET without the two that describe a body, which it does not have — and its timeout, and
the URL of its method. -/
structure SentAs (address : List Char) (ctx : RequestContext) (r : HttpRequest) : Prop where
  method : r.method = ctx.httpMethod
  path : ctx.httpMethod ≠ pys! "GET" → r.url = address ++ pys! "/" ++ ctx.method.serviceName ++ pys! "/" ++ ctx.method.name
  query : ctx.httpMethod = pys! "GET" → ∃ q, r.url = address ++ pys! "/" ++ ctx.method.serviceName ++ pys! "/" ++ ctx.method.name ++ pys! "?" ++ q
  headers : r.headers = if ctx.httpMethod = pys! "GET" then ctx.requestHeaders.allitems.filter fun p => p.1 != pys! "content-type" && p.1 != pys! "content-encoding"
    else ctx.requestHeaders.allitems
  timeout : r.timeoutMs = ctx.timeoutMs

/-- does the interceptor take part in calls of this kind? -/
def TakesPart (e : Editor) (k : Kind) : Prop := e.callbacks = true ∨ e.kinds k = true

/-- The context on its way through the interceptors of the list, in order: each that takes part is told the context as the one before it left it. -/
inductive Passed (k : Kind) : List Editor → RequestContext → List Note → RequestContext → Prop where
  | nil (ctx : RequestContext) : Passed k [] ctx [] ctx
  | skip {e : Editor} {es : List Editor} {ctx ctx' : RequestContext} {notes : List Note} (h : ¬ TakesPart e k) (hr : Passed k es ctx notes ctx') : Passed k (e :: es) ctx notes ctx'
  | told {e : Editor} {es : List Editor} {ctx ctx' : RequestContext} {notes : List Note} (h : TakesPart e k)
      (hr : Passed k es { ctx with requestHeaders := e.edit ctx.requestHeaders } notes ctx') : Passed k (e :: es) ctx (.told e.who ctx :: notes) ctx'

end
end Spec
