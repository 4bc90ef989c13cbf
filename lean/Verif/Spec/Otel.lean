import Verif.Model.Otel
import Verif.Spec.Interceptor
import Verif.Spec.Protocol
import Verif.Spec.IntText
/-
Specification for tracing (C56, C57, C67).
-/
namespace Spec
open Conn Py

/-- The items of an optional argument. -/
def argItems {α : Type} : Option (Iterable α) → List α
  | none => []
  | some it => items it

/-- The user's interceptors `xs` with tracing: as they are if tracing is among them, and otherwise with `otel` before them. -/
inductive Instrumented {I : Type} (isOtel : I → Bool) (otel : I) (xs : List I) : List I → Prop where
  | own (h : ∃ i ∈ xs, isOtel i = true) : Instrumented isOtel otel xs xs
  | added (h : ∀ i ∈ xs, isOtel i = false) : Instrumented isOtel otel xs (otel :: xs)

/-- `address:port`, with any text of an integer after the last colon (the address may have colons, as the IPv6 addresses of clients do). -/
def AddressPort (s address : List Char) (port : Int) : Prop :=
  ∃ p, s = address ++ ':' :: p ∧ ':' ∉ p ∧ IntText p port

/-- There is no address, or it is `address:port`. -/
def Traceable (a : Option (List Char)) : Prop := a = none ∨ a = some [] ∨ ∃ s address port, a = some s ∧ AddressPort s address port

/-- The attributes name the RPC and the server. -/
structure Describes (ctx : RequestContext) (attrs : Dict (List Char) AttrValue) : Prop where
  system : Dict.get? attrs (pys! "rpc.system.name") = some (.str (pys! "connectrpc"))
  method : Dict.get? attrs (pys! "rpc.method") = some (.str (ctx.method.serviceName ++ pys! "/" ++ ctx.method.name))
  server : ∀ s address port, ctx.serverAddress = some s → AddressPort s address port →
    Dict.get? attrs (pys! "server.address") = some (.str address) ∧ Dict.get? attrs (pys! "server.port") = some (.int port)

/-- … and the client. -/
def DescribesClient (ctx : RequestContext) (attrs : Dict (List Char) AttrValue) : Prop :=
  ∀ s address port, ctx.clientAddress = some s → AddressPort s address port →
    Dict.get? attrs (pys! "client.address") = some (.str address) ∧ Dict.get? attrs (pys! "client.port") = some (.int port)

/-- The status code reported for an exception. -/
def statusOf : Exc → List Char
  | .connect c => codeName c.code
  | _ => pys! "unknown"

/-- The attributes name the error, if there is one. -/
def DescribesError (qualname : Exc → List Char) (error : Option Exc) (attrs : Dict (List Char) AttrValue) : Prop :=
  Dict.get? attrs (pys! "rpc.response.status_code") = error.map (fun e => .str (statusOf e)) ∧
  Dict.get? attrs (pys! "error.type") = error.map (fun e => .str (qualname e))

/-- What tracing observes of a call: before it one span is started, and after it one duration is recorded and the span is ended. -/
structure Traced {C E : Type} (o : OtelInterceptor C) (emit : Telemetered C → E) (parent : Option C) (ctx : RequestContext)
    (error : Option Exc) (before after : List E) : Prop where
  start : ∃ attrs, before = [emit (.started (ctx.method.serviceName ++ pys! "/" ++ ctx.method.name) o.client attrs parent)] ∧
    Describes ctx attrs ∧ DescribesClient ctx attrs
  stop : ∃ attrs, Describes ctx attrs ∧ DescribesError o.qualname error attrs ∧
    ((error = none ∧ after = [emit (.recorded attrs), emit (.ended none)]) ∨
     (∃ e span, error = some e ∧ DescribesError o.qualname error span ∧
      after = [emit (.attributes span), emit (.recorded attrs), emit (.ended (some e))]))

/-- The context the rest of the call has: a client's has the current span in its headers. -/
def seenContext {C : Type} (o : OtelInterceptor C) (current : Option C) (ctx : RequestContext) : RequestContext :=
  if o.client = true then { ctx with requestHeaders := o.telemetry.inject current ctx.requestHeaders } else ctx

/-- The parent of a span: the current span; and on a server that has none, the one in the headers of the request. -/
def parentOf {C : Type} (o : OtelInterceptor C) (current : Option C) (ctx : RequestContext) : Option C :=
  if o.client = true then current else current.or (o.telemetry.extract ctx.requestHeaders)

/-- Exceptions that are not instances of `Exception` are not reported. -/
def reported (e : Option Exc) : Option Exc := e.filter (·.isException)

/-- The parents of the spans that are started, in order. -/
def startedParents {C : Type} (es : List (Telemetered C)) : List (Option C) := es.filterMap fun
  | .started _ _ _ parent => some parent
  | _ => none

/-- The propagator gets back from headers the span it put there, and puts nothing there if there is none. -/
structure Propagates {C : Type} (t : Telemetry C) : Prop where
  roundTrip : ∀ c h, t.extract (t.inject (some c) h) = some c
  nothing : ∀ h, t.inject none h = h

/-- How a request gets to a server in another process: what is sent has the headers the propagator looks for, and the address of
the server can be traced. -/
structure TraceArrives {C : Type} (t : Telemetry C) (arrival : RequestContext → RequestContext) : Prop where
  headers : ∀ ctx, t.extract (arrival ctx).requestHeaders = t.extract ctx.requestHeaders
  server : ∀ ctx, Traceable (arrival ctx).serverAddress
  client : ∀ ctx, Traceable (arrival ctx).clientAddress

end Spec
