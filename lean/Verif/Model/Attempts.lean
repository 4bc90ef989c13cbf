import Verif.Model.Client
import Verif.Model.Interceptor
/-
Model of unary calls of clients with interceptors that use `call_next` as they please: `_client_sync.py:133-150`, `192-212`, `277-340`,
`_client_async.py:140-153`, `193-213`, `278-345`, with the clock of `request.py`.
-/
namespace Conn
open Py

/-- What a unary interceptor does (`_interceptor_sync.py:15-38`, `_interceptor_async.py:15-38`: any program): it returns or raises; it calls
`call_next` with a message and goes on with what that returned or raised; it changes `ctx.request_headers`; time passes; it reads
`ctx.timeout_ms`. Simplification: the call is made with the interceptor's own `ctx`, and other parts of `ctx` cannot be changed
(there are no setters). -/
inductive Plan (Req Res : Type) where
  | result (r : Except Exc Res)
  | next (req : Req) (k : Except Exc Res → Plan Req Res)
  | edit (f : Headers → Headers) (k : Plan Req Res)
  | wait (d : Rat) (k : Plan Req Res)
  | look (k : Option Rat → Plan Req Res)

/-- The state of a call: its context object, whose deadline is `end_` (`request.py:48-51`); the time; the active `ResponseMetadata` object; the
requests handed to the HTTP client so far, each with its `timeout=`, in seconds. -/
structure CallState where
  ctx : RequestContext
  end_ : Option Rat
  now : Rat
  sink : Sink
  sent : List (HttpRequest × Option Rat)

/-- The HTTP client and the network: what comes of a request, and how long that takes, may depend on the requests before. -/
structure Network where
  http : List HttpRequest → HttpClient
  cs : List HttpRequest → Circumstances
  took : List HttpRequest → Rat

/-- time does not go back -/
def later (now d : Rat) : Rat := if 0 ≤ d then now + d else now

section
variable {Req Res : Type}

/-- The request that `_send_request_unary` hands to the HTTP client — `_client_sync.py:294-311`, `357-375`: none if the message cannot be encoded
(Connect; for gRPC the body of the request ends early). The headers are a copy of those of the context (`_client_sync.py:283`, `355`). -/
def Client.unaryHttp (c : Client Req Res) (ctx : RequestContext) (req : Req) : Option HttpRequest :=
  match c.proto with
  | .connect => match c.codec.encode req with
    | .error _ => none
    | .ok data => some (c.unaryRequest ctx (c.send.compress data))
  | .grpc | .grpcWeb =>
    let content := streamingContent ⟨c.codec, some c.send⟩ [req] none
    some { method := pys! "POST", url := c.url ctx.method, headers := ctx.requestHeaders.allitems, timeoutMs := ctx.timeoutMs
           body := content.1, bodyErr := content.2 }

/-- `_send_request_unary` — `_client_sync.py:277-340`, `_client_async.py:278-345`. -/
def Client.sendUnary (c : Client Req Res) (sc : StatusCodec) (http : HttpClient) (sink : Sink) (cs : Circumstances)
    (ctx : RequestContext) (req : Req) : Sink × Except Exc Res :=
  match c.proto with
  | .connect => c.connectUnary http.full sink ctx req
  | .grpc | .grpcWeb => Client.single (c.bidi sc http.stream sink cs ctx [req] none)

/-- `timeout_s` — `_client_sync.py:285-288`, `357-360`, `_client_async.py:288-291`, `365-368`. -/
def timeoutSeconds (rd : Rat → Rat) (end_ : Option Rat) (now : Rat) : Option Rat :=
  (remainingMs rd end_ now).map fun t => rd (t / 1000)

/-- One run of `_send_request_unary(request, ctx)`: the context is left as it is. -/
def Client.attempt (c : Client Req Res) (rd : Rat → Rat) (sc : StatusCodec) (net : Network) (req : Req) (s : CallState) :
    CallState × Except Exc Res :=
  let before := s.sent.map (·.1)
  let r := c.sendUnary sc (net.http before) s.sink (net.cs before) s.ctx req
  ({ s with now := later s.now (net.took before), sink := r.1
            sent := s.sent ++ (c.unaryHttp s.ctx req).toList.map fun q => (q, timeoutSeconds rd s.end_ s.now) }, r.2)

/-- What a call goes through: `_send_request_unary`, or an interceptor around it. -/
abbrev CallFn (Req Res : Type) : Type := Req → CallState → CallState × Except Exc Res

/-- An interceptor run with this `call_next`. -/
def Plan.run (rd : Rat → Rat) (next : CallFn Req Res) : Plan Req Res → CallState → CallState × Except Exc Res
  | .result r, s => (s, r)
  | .next req k, s => (k (next req s).2).run rd next (next req s).1
  | .edit f k, s => k.run rd next { s with ctx := { s.ctx with requestHeaders := f s.ctx.requestHeaders } }
  | .wait d k, s => k.run rd next { s with now := later s.now d }
  | .look k, s => (k (remainingMs rd s.end_ s.now)).run rd next s

/-- an object with `intercept_unary` only -/
def Plan.interceptor (rd : Rat → Rat) (p : Req → Plan Req Res) : Interceptor (fun _ => CallFn Req Res) Empty :=
  { method := fun k => if k = .unary then some fun next req => (p req).run rd next else none, callbacks := none }

/-- `execute_unary` of a client with these interceptors — `_client_sync.py:192-212`, `133-150`. -/
def Client.executeThrough (c : Client Req Res) (rd : Rat → Rat) (sc : StatusCodec) (net : Network) (interceptors : List (Req → Plan Req Res))
    (sink : Sink) (now : Rat) (req : Req) (method : MethodInfo) (user : UserHeaders) (timeoutMs : Option Int) (useGet : Bool) :
    CallState × Except Exc Res :=
  let ctx := c.context method (if useGet then pys! "GET" else pys! "POST") user timeoutMs false
  clientExecutor (F := fun _ => CallFn Req Res) (M := Empty) (fun m => nomatch m) (interceptors.map (Plan.interceptor rd))
    (fun _ => c.attempt rd sc net) .unary req ⟨ctx, endTime rd ctx.timeoutMs now, now, sink, []⟩

end
end Conn
