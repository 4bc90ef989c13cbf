import Verif.Model.Attempts
/-
Calls of all kinds through the interceptors of a client: `_client_sync.py:125-173`, `192-350`, `_client_async.py:132-174`, `193-357`.
-/
namespace Conn
open Py

/-- what can be seen of a call: an interceptor is given a context; a request is handed to the HTTP client -/
inductive Note where
  | told (who : Nat) (ctx : RequestContext)
  | sent (r : HttpRequest)

/-- the argument of a call: a message, or the messages of the caller's iterator and the exception after them -/
abbrev CallArg (Req : Type) : Kind → Type
  | .unary => Req
  | .serverStream => Req
  | .clientStream => List Req × Option Exc
  | .bidi => List Req × Option Exc

/-- what comes of a call -/
abbrev CallRes (Res : Type) : Kind → Type
  | .unary => Sink × Except Exc Res
  | .clientStream => Sink × Except Exc Res
  | .serverStream => StreamResult Res
  | .bidi => StreamResult Res

/-- What a call goes through. Simplification: a stream of responses is iterated to its end where it is made. -/
abbrev CallOf (Req Res : Type) (k : Kind) : Type := CallArg Req k → RequestContext → List Note × CallRes Res k

section
variable {Req Res : Type}

/-- the request of a stream — `_client_sync.py:355-375`, `_client_async.py:362-381` -/
def Client.streamHttp (c : Client Req Res) (ctx : RequestContext) (reqs : List Req) (srcErr : Option Exc) : HttpRequest :=
  let content := streamingContent ⟨c.codec, some c.send⟩ reqs srcErr
  { method := pys! "POST", url := c.url ctx.method, headers := ctx.requestHeaders.allitems, timeoutMs := ctx.timeoutMs, body := content.1, bodyErr := content.2 }

/-- `_send_request_unary`, `_send_request_client_stream`, `_send_request_server_stream`, `_send_request_bidi_stream` — `_client_sync.py:277-436`, `_client_async.py:278-427`. -/
def Client.sendRequest (c : Client Req Res) (sc : StatusCodec) (http : HttpClient) (sink : Sink) (cs : Circumstances) : (k : Kind) → CallOf Req Res k
  | .unary => fun req ctx => ((c.unaryHttp ctx req).toList.map .sent, c.sendUnary sc http sink cs ctx req)
  | .clientStream => fun a ctx => ([.sent (c.streamHttp ctx a.1 a.2)], Client.single (c.bidi sc http.stream sink cs ctx a.1 a.2))
  | .serverStream => fun req ctx => ([.sent (c.streamHttp ctx [req] none)], c.bidi sc http.stream sink cs ctx [req] none)
  | .bidi => fun a ctx => ([.sent (c.streamHttp ctx a.1 a.2)], c.bidi sc http.stream sink cs ctx a.1 a.2)

/-- An interceptor that looks at the context, changes the headers of the request in some way, and calls on: either with methods for some kinds of call, or with
`on_start` and `on_end`. -/
structure Editor where
  who : Nat
  kinds : Kind → Bool
  callbacks : Bool
  edit : Headers → Headers

/-- its effect: `ctx.request_headers` is changed, then `call_next(request, ctx)` -/
def Editor.around (e : Editor) (k : Kind) (next : CallOf Req Res k) : CallOf Req Res k := fun a ctx =>
  let r := next a { ctx with requestHeaders := e.edit ctx.requestHeaders }
  (.told e.who ctx :: r.1, r.2)

/-- the object -/
def Editor.interceptor (e : Editor) : Interceptor (CallOf Req Res) Editor :=
  { method := fun k => if e.kinds k then some (e.around k) else none, callbacks := if e.callbacks then some e else none }

/-- `execute_unary`, `execute_client_stream`, `execute_server_stream`, `execute_bidi_stream` of a client with these interceptors — `_client_sync.py:192-275`, `133-173`,
`_client_async.py:193-276`, `140-174`; `use_get` is an argument of `execute_unary` only. -/
def Client.executeWith (c : Client Req Res) (sc : StatusCodec) (http : HttpClient) (sink : Sink) (cs : Circumstances) (is : List Editor) (k : Kind) (arg : CallArg Req k)
    (method : MethodInfo) (user : UserHeaders) (timeoutMs : Option Int) (useGet : Bool) : List Note × CallRes Res k :=
  let ctx := match k with
    | .unary => c.context method (if useGet then pys! "GET" else pys! "POST") user timeoutMs false
    | .clientStream => c.context method (pys! "POST") user timeoutMs true
    | .serverStream => c.context method (pys! "POST") user timeoutMs true
    | .bidi => c.context method (pys! "POST") user timeoutMs true
  clientExecutor (F := CallOf Req Res) (fun (e : Editor) k => e.around k) (is.map Editor.interceptor) (c.sendRequest sc http sink cs) k arg ctx

end
end Conn
