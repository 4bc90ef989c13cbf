import Verif.Model.Otel
/-
The OpenTelemetry interceptor around the handlers of a server: `connectrpc-otel/connectrpc_otel/_interceptor.py` applied by `_interceptor_sync.py` and `_interceptor_async.py` to handlers as
`Model/Server` represents them.
-/
namespace Conn
open Py

section
variable {C Res A : Type}

/-- What can be seen while a handler runs: what tracing does, and what the handler does. -/
abbrev Happening (C : Type) := Telemetered C ⊕ Step

/-- what tracing did -/
def telemetryIn (es : List (Happening C)) : List (Telemetered C) := es.filterMap fun
  | .inl t => some t
  | .inr _ => none

/-- what the handler did -/
def stepsIn (es : List (Happening C)) : List Step := es.filterMap fun
  | .inl _ => none
  | .inr s => some s

/-- a handler that returns one response, as interceptors see it -/
def ranOf (f : A → RequestContext → Call Res) (a : A) (ctx : RequestContext) : Ran (Happening C) Res :=
  ⟨(f a ctx).steps.map .inr, (f a ctx).result⟩

/-- `functools.partial(interceptor.intercept_unary…, function)` for the tracing interceptor — `_server_sync.py:621-652` with `_interceptor_sync.py:162-192`, `_server_async.py:634-665` with
`_interceptor_async.py:162-192`; `intercept_client_stream` is the same on another argument. What is seen of a run. -/
def OtelInterceptor.watch (o : OtelInterceptor C) (flavor : Bool) (current : Option C) (f : A → RequestContext → Call Res) (a : A) (ctx : RequestContext) :
    Ran (Happening C) Res :=
  if flavor then o.aroundAsync (S := A) .inl current .unary (ranOf f) a ctx else o.aroundSync (S := A) .inl current .unary (ranOf f) a ctx

/-- The handler with the interceptor around it. -/
def OtelInterceptor.watched (o : OtelInterceptor C) (flavor : Bool) (current : Option C) (f : A → RequestContext → Call Res) (a : A) (ctx : RequestContext) : Call Res :=
  let r := o.watch flavor current f a ctx
  ⟨stepsIn r.effects, r.result⟩

/-- a handler that is a generator, as interceptors see it; `es` is what it does before the first `yield` -/
def genOf (es : List (Happening C)) (closeErr outcome : Option Exc) : List (Act Res) → Gen (Happening C) Res
  | [] => .fin es outcome
  | .step s :: acts => genOf (es ++ [.inr s]) closeErr outcome acts
  | .emit m :: acts => .yield es m (genOf [] closeErr outcome acts) ⟨[], closeErr, []⟩

/-- … `_interceptor_sync.py:194-224`, `_interceptor_async.py:194-226`. -/
def OtelInterceptor.watchGen (o : OtelInterceptor C) (flavor : Bool) (current : Option C) (f : A → RequestContext → Script Res) (a : A) (ctx : RequestContext) :
    Gen (Happening C) Res :=
  let g : A → RequestContext → Gen (Happening C) Res := fun a ctx => genOf [] (f a ctx).closeErr (f a ctx).outcome (f a ctx).acts
  if flavor then o.aroundAsync (S := A) .inl current .serverStream g a ctx else o.aroundSync (S := A) .inl current .serverStream g a ctx

/-- the actions of a generator, and how it ends -/
def actsOf : Gen (Happening C) Res → List (Act Res) × Option Exc
  | .fin es o => ((stepsIn es).map .step, o)
  | .yield es m r _ => ((stepsIn es).map .step ++ .emit m :: (actsOf r).1, (actsOf r).2)

/-- what closing the generator at its first `yield` raises (`Model/Server` has one value for all of them) -/
def closeErrOf : Gen (Happening C) Res → Option Exc
  | .fin _ _ => none
  | .yield _ _ _ c => c.exc

/-- The handler with the interceptor around it. -/
def OtelInterceptor.watchedGen (o : OtelInterceptor C) (flavor : Bool) (current : Option C) (f : A → RequestContext → Script Res) (a : A) (ctx : RequestContext) : Script Res :=
  let g := o.watchGen flavor current f a ctx
  ⟨(actsOf g).1, (actsOf g).2, closeErrOf g⟩

end

end Conn
