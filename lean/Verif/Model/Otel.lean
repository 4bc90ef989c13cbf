import Verif.Model.Interceptor
/-
Model of the OpenTelemetry package: `connectrpc-otel/connectrpc_otel/_interceptor.py` and `_instrumentor.py`. The tracer, the meter and the
propagator are OpenTelemetry's, not code of this library; they are parameters.
-/
namespace Conn
open Py

/-! ### the instrumentor -/

/-- `ConnectInstrumentor._init_wrapper` — `_instrumentor.py:72-103`: the keyword argument `interceptors` the wrapped `__init__` is called with, for
the one the caller passed (`none`: none, or `None`). `isOtel` is `isinstance(i, OpenTelemetryInterceptor)`, `otel` the new interceptor. Iterating
over the argument may use it up. -/
def initWrapper {I : Type} (isOtel : I → Bool) (otel : I) (interceptors : Option (Iterable I)) : Option (Iterable I) :=
  let (xs, after) : List I × Option (Iterable I) := match interceptors with
    | none => ([], none)
    | some it => (it.iterate.1, some it.iterate.2)
  if xs.any isOtel then after else some (.coll (otel :: xs))

/-- The interceptors `__init__` sees — the default is `()`, `_client_async.py:99`, `_client_sync.py:92`, `_server_async.py:91`,
`_server_sync.py:157`; each of them iterates over the argument. -/
def interceptorsSeen {I : Type} : Option (Iterable I) → List I
  | none => []
  | some it => it.iterate.1

/-! ### the interceptor -/

/-- `s.rsplit(sep, 1)` -/
def rsplit1 (sep : Char) (s : Str) : List Str :=
  if sep ∈ s then [((s.reverse.dropWhile (· != sep)).drop 1).reverse, (s.reverse.takeWhile (· != sep)).reverse] else [s]

/-- `addr, port = address.rsplit(":", 1)` and `int(port)` — `_interceptor.py:112-114`, `165-167`. -/
def addrPort (address : Str) : Except Exc (Str × Int) :=
  match rsplit1 ':' address with
  | [addr, port] =>
    match parseInt port with
    | some n => .ok (addr, n)
    | none => .error (.other .valueError (pys! "invalid literal for int() with base 10: " ++ port))
  | _ => .error (.other .valueError (pys! "not enough values to unpack (expected 2, got 1)"))

/-- `AttributeValue` -/
inductive AttrValue where
  | str (s : Str)
  | int (n : Int)
deriving DecidableEq, Repr

/-- `attrs[address key] = addr; attrs[port key] = int(port)` if there is an address — `_interceptor.py:111-114`, `164-167`. -/
def addressAttrs (addressKey portKey : Str) (address : Option Str) (attrs : Dict Str AttrValue) : Except Exc (Dict Str AttrValue) :=
  match address with
  | none => .ok attrs
  | some a =>
    if a.isEmpty then .ok attrs
    else match addrPort a with
      | .error e => .error e
      | .ok (addr, n) => .ok ((attrs.set addressKey (.str addr)).set portKey (.int n))

/-- OpenTelemetry, as far as the interceptor uses it: `C` is the type of (valid) span contexts. `inject current` writes the current span context,
if there is one, into headers; `extract` finds the one in headers, if there is one. -/
structure Telemetry (C : Type) where
  inject : Option C → Headers → Headers
  extract : Headers → Option C

/-- What an observer of the tracer and the meter sees: a span with its parent is started, becomes current and is ended; a duration is recorded. -/
inductive Telemetered (C : Type) where
  | started (name : Str) (client : Bool) (attrs : Dict Str AttrValue) (parent : Option C)
  | attributes (attrs : Dict Str AttrValue)
  | recorded (attrs : Dict Str AttrValue)
  | ended (error : Option Exc)
deriving DecidableEq

/-- The interceptor object: `client`, and the class names of exceptions (`type(error).__qualname__`). -/
structure OtelInterceptor (C : Type) where
  telemetry : Telemetry C
  client : Bool
  qualname : Exc → Str

section
variable {C E : Type} (o : OtelInterceptor C)

/-- `rpc_method` — `_interceptor.py:105`. -/
def rpcMethod (ctx : RequestContext) : Str := ctx.method.serviceName ++ ['/'] ++ ctx.method.name

/-- `shared_attrs` — `_interceptor.py:106-114`. -/
def sharedAttrs (ctx : RequestContext) : Except Exc (Dict Str AttrValue) :=
  addressAttrs (pys! "server.address") (pys! "server.port") ctx.serverAddress
    [(pys! "rpc.system.name", .str (pys! "connectrpc")), (pys! "rpc.method", .str (rpcMethod ctx))]

/-- The parent of the span — `_interceptor.py:150-160`, `169-171`: for a client the current span; for a server the current span if there is one,
or else what the request headers say. -/
def OtelInterceptor.parent (current : Option C) (ctx : RequestContext) : Option C :=
  if o.client then current
  else match current with
    | some c => some c
    | none => o.telemetry.extract ctx.requestHeaders

/-- The context after `on_start`: a client's interceptor has injected the current span — not the one it is about to start — into the request
headers (`_interceptor.py:151-154`), if it got that far. -/
def OtelInterceptor.touch (current : Option C) (ctx : RequestContext) : RequestContext :=
  if o.client ∧ (sharedAttrs ctx).isOk then { ctx with requestHeaders := o.telemetry.inject current ctx.requestHeaders } else ctx

/-- `on_start_sync` — `_interceptor.py:102-118`, with `_start_span` `143-172`. Of the token only `shared_attrs` is kept: the clock is not modelled. -/
def OtelInterceptor.onStart (emit : Telemetered C → E) (current : Option C) (ctx : RequestContext) :
    List E × Except Exc (Dict Str AttrValue) :=
  match sharedAttrs ctx with
  | .error e => ([], .error e)
  | .ok shared =>
    match addressAttrs (pys! "client.address") (pys! "client.port") ctx.clientAddress shared with
    | .error e => ([], .error e)
    | .ok attrs => ([emit (.started (rpcMethod ctx) o.client attrs (o.parent current ctx))], .ok shared)

/-- `_get_error_attributes` — `_interceptor.py:174-185`. -/
def OtelInterceptor.errorAttrs : Option Exc → Option (Dict Str AttrValue)
  | none => none
  | some e => some [(pys! "error.type", .str (o.qualname e)), (pys! "rpc.response.status_code", .str (match e with
      | .connect c => c.code.value
      | _ => pys! "unknown"))]

/-- `on_end_sync` — `_interceptor.py:125-141`. Simplification: `if error` is taken to hold for every exception (one may define `__bool__`). It raises nothing: the context manager of the span re-raises the error it is given, which
`contextmanager` takes as not handled. -/
def OtelInterceptor.onEnd (emit : Telemetered C → E) (shared : Dict Str AttrValue) (_ : RequestContext) (error : Option Exc) :
    List E × Option Exc :=
  match o.errorAttrs error with
  | none => ([emit (.recorded shared), emit (.ended error)], none)
  | some a =>
    ([emit (.attributes a), emit (.recorded (a.foldl (fun d p => d.set p.1 p.2) shared)), emit (.ended error)], none)

/-- The interceptor as a metadata interceptor (`on_start`, `on_end` and their `_sync` forms are the same). -/
def OtelInterceptor.callbacks (emit : Telemetered C → E) (current : Option C) : MetaCallbacks E (Dict Str AttrValue) :=
  ⟨o.onStart emit current, o.onEnd emit⟩

/-- What is inside the interceptor runs after `on_start`. Simplification: contexts are values here, so the change that `on_start` makes to the
headers of the context object is made where the rest of the call gets the context (`_interceptor_sync.py:156-224`, `_interceptor_async.py:156-226`
pass the same object on). -/
def OtelInterceptor.inner {R A S : Type} (current : Option C) : (k : Kind) → TraceFn E R A S k → TraceFn E R A S k
  | .unary => fun f a ctx => f a (o.touch current ctx)
  | .clientStream => fun f a ctx => f a (o.touch current ctx)
  | .serverStream => fun f a ctx => f a (o.touch current ctx)
  | .bidi => fun f a ctx => f a (o.touch current ctx)

/-- The interceptor around the function of an RPC, of a synchronous client or a WSGI application. -/
def OtelInterceptor.aroundSync {R A S : Type} (emit : Telemetered C → E) (current : Option C) (k : Kind) (f : TraceFn E R A S k) :
    TraceFn E R A S k :=
  invokerSync (o.callbacks emit current) k (o.inner current k f)

/-- … of an asynchronous client or an ASGI application. -/
def OtelInterceptor.aroundAsync {R A S : Type} (emit : Telemetered C → E) (current : Option C) (k : Kind) (f : TraceFn E R A S k) :
    TraceFn E R A S k :=
  invokerAsync (o.callbacks emit current) k (o.inner current k f)

end

end Conn
