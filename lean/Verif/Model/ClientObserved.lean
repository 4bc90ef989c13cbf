import Verif.Model.ClientCalls
import Verif.Model.Otel
/-
The OpenTelemetry interceptor around the calls of a client: `connectrpc-otel/connectrpc_otel/_interceptor.py` applied by `_interceptor_sync.py` and `_interceptor_async.py` to the calls of
`_client_sync.py` and `_client_async.py`.
-/
namespace Conn
open Py

/-- What can be seen of a traced call: what tracing does, the request that is handed to the HTTP client, and the metadata of the response, as the call leaves it. -/
inductive ClientEvent (C : Type) where
  | traced (t : Telemetered C)
  | sent (r : HttpRequest)
  | metadata (s : Sink)

section
variable {C Req Res : Type}

/-- the requests of a call as events -/
def sentEvents (ns : List Note) : List (ClientEvent C) := ns.filterMap fun
  | .sent r => some (.sent r)
  | .told .. => none

/-- The generator of a stream of responses, from what iterating it to its end comes to: `left` is what closing it before its end raises (see `Model/Iteration` for that).
Simplification: the request is sent before the first message, and the metadata is seen after the last. -/
def streamGen (last : List (ClientEvent C)) (exc left : Option Exc) : List Res → Gen (ClientEvent C) Res
  | [] => .fin last exc
  | m :: ms => .yield [] m (streamGen last exc left ms) ⟨[], left, []⟩

/-- `_send_request_unary` and the others — `_client_sync.py:277-436`, `_client_async.py:278-427` — as interceptors see them. -/
def Client.callFn (c : Client Req Res) (sc : StatusCodec) (http : HttpClient) (sink : Sink) (cs : Circumstances) (left : Option Exc) :
    (k : Kind) → TraceFn (ClientEvent C) Res Req (List Req × Option Exc) k
  | .unary => fun req ctx =>
    let r := c.sendRequest sc http sink cs .unary req ctx
    ⟨sentEvents r.1 ++ [.metadata r.2.1], r.2.2⟩
  | .clientStream => fun a ctx =>
    let r := c.sendRequest sc http sink cs .clientStream a ctx
    ⟨sentEvents r.1 ++ [.metadata r.2.1], r.2.2⟩
  | .serverStream => fun req ctx =>
    let r := c.sendRequest sc http sink cs .serverStream req ctx
    (streamGen [.metadata r.2.sink] r.2.exc left r.2.messages).pre (sentEvents r.1)
  | .bidi => fun a ctx =>
    let r := c.sendRequest sc http sink cs .bidi a ctx
    (streamGen [.metadata r.2.sink] r.2.exc left r.2.messages).pre (sentEvents r.1)

/-- The calls of a client with the tracing interceptor — `_client_sync.py:125-173` with `_interceptor_sync.py:156-224`, `_client_async.py:132-174` with `_interceptor_async.py:156-226`. -/
def Client.observedFn (c : Client Req Res) (sc : StatusCodec) (http : HttpClient) (sink : Sink) (cs : Circumstances) (left : Option Exc) (o : OtelInterceptor C) (current : Option C) (k : Kind) :
    TraceFn (ClientEvent C) Res Req (List Req × Option Exc) k :=
  match c.flavor with
  | .sync => o.aroundSync .traced current k (c.callFn sc http sink cs left k)
  | .async => o.aroundAsync .traced current k (c.callFn sc http sink cs left k)

/-- `execute_unary` of a traced client — `_client_sync.py:192-212`, `_client_async.py:193-213`. -/
def Client.observedUnary (c : Client Req Res) (sc : StatusCodec) (http : HttpClient) (sink : Sink) (cs : Circumstances) (o : OtelInterceptor C) (current : Option C) (req : Req)
    (method : MethodInfo) (user : UserHeaders) (timeoutMs : Option Int) (useGet : Bool) : Ran (ClientEvent C) Res :=
  c.observedFn sc http sink cs none o current .unary req (c.context method (if useGet then pys! "GET" else pys! "POST") user timeoutMs false)

/-- `execute_client_stream` — `_client_sync.py:214-233`, `_client_async.py:215-234`. -/
def Client.observedClientStream (c : Client Req Res) (sc : StatusCodec) (http : HttpClient) (sink : Sink) (cs : Circumstances) (o : OtelInterceptor C) (current : Option C) (reqs : List Req)
    (srcErr : Option Exc) (method : MethodInfo) (user : UserHeaders) (timeoutMs : Option Int) : Ran (ClientEvent C) Res :=
  c.observedFn sc http sink cs none o current .clientStream (reqs, srcErr) (c.context method (pys! "POST") user timeoutMs true)

/-- `execute_server_stream` — `_client_sync.py:235-254`, `_client_async.py:236-255`. -/
def Client.observedServerStream (c : Client Req Res) (sc : StatusCodec) (http : HttpClient) (sink : Sink) (cs : Circumstances) (left : Option Exc) (o : OtelInterceptor C) (current : Option C)
    (req : Req) (method : MethodInfo) (user : UserHeaders) (timeoutMs : Option Int) : Gen (ClientEvent C) Res :=
  c.observedFn sc http sink cs left o current .serverStream req (c.context method (pys! "POST") user timeoutMs true)

/-- `execute_bidi_stream` — `_client_sync.py:256-275`, `_client_async.py:257-276`. -/
def Client.observedBidiStream (c : Client Req Res) (sc : StatusCodec) (http : HttpClient) (sink : Sink) (cs : Circumstances) (left : Option Exc) (o : OtelInterceptor C) (current : Option C)
    (reqs : List Req) (srcErr : Option Exc) (method : MethodInfo) (user : UserHeaders) (timeoutMs : Option Int) : Gen (ClientEvent C) Res :=
  c.observedFn sc http sink cs left o current .bidi (reqs, srcErr) (c.context method (pys! "POST") user timeoutMs true)

end

end Conn
