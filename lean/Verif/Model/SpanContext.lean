import Verif.Model.Otel
import Verif.Model.RespContext
/-
Tracing and the current span: `connectrpc-otel/connectrpc_otel/_interceptor.py` with the part of OpenTelemetry that keeps the current span.

`tracer.start_as_current_span` (`_interceptor.py:169-172`) is OpenTelemetry's. On entering it sets OpenTelemetry's context variable to the new span, in the context (thread,
task) it is entered in, and keeps the token; on leaving it resets the variable with that token, and a failure to do so is logged and not raised. That is what `ResponseMetadata`
does with its own variable, so the machine of `Model/RespContext.lean` is used: `CtxWorld.enter c i` sets the variable to span `i`, `CtxWorld.exit c i` resets it.

Simplification: spans are numbers, and what a generator left to the event loop does later (`Closing.later`) is left out, as it happens in a context of its own.
-/
namespace Conn
open Py

/-- What a traced call does, as far as current spans go. -/
inductive SpanEff where
  /-- `cm.__enter__()` — `_interceptor.py:117`. -/
  | starts (span : Nat)
  /-- `cm.__exit__(…)` — `_interceptor.py:138-141`. -/
  | ends (span : Nat)
  /-- attributes and durations are reported — `_interceptor.py:131-137`. -/
  | reports
  /-- what the call does itself: its handler, or the HTTP client, may use spans of its own -/
  | does (o : CtxOp)

/-- The effects of the interceptor's callbacks (`Model/Otel.lean`) whose span is number `span`. -/
def SpanEff.of {C : Type} (span : Nat) : Telemetered C → SpanEff
  | .started _ _ _ _ => .starts span
  | .ended _ => .ends span
  | .attributes _ => .reports
  | .recorded _ => .reports

/-- What an effect does to the current spans, when it happens in context `c`. -/
def SpanEff.ops (c : Nat) : SpanEff → List CtxOp
  | .starts i => [.enter c i]
  | .ends i => [.exit c i]
  | .reports => []
  | .does o => [o]

/-- Effects one after the other in context `c`. -/
def performAll (c : Nat) (w : CtxWorld) (es : List SpanEff) : CtxWorld := w.run (es.flatMap (SpanEff.ops c))

/-- A generator object: not started yet (what it does depends on the span that is current when it starts); waiting at a `yield`; exhausted or closed. -/
inductive SpanStream (R : Type) where
  | fresh (make : Option Nat → Gen SpanEff R)
  | paused (resume : Gen SpanEff R) (close : Closing SpanEff)
  | over

section
variable {R A : Type}

/-- The generator runs to its next `yield`, or to its end. -/
def SpanStream.after : Gen SpanEff R → List SpanEff × SpanStream R
  | .fin es _ => (es, .over)
  | .yield es _ r c => (es, .paused r c)

/-- What `next(stream)` / `anext(stream)` does where `current` is the current span. -/
def SpanStream.next (current : Option Nat) : SpanStream R → List SpanEff × SpanStream R
  | .fresh make => SpanStream.after (make current)
  | .paused r _ => SpanStream.after r
  | .over => ([], .over)

/-- What `stream.close()` / `stream.aclose()` does. -/
def SpanStream.close : SpanStream R → List SpanEff
  | .fresh _ => []
  | .paused _ c => c.now
  | .over => []

/-- A traced call with one response (unary or client stream), made in context `c`: `_interceptor_sync.py:162-192`, `_interceptor_async.py:162-192` around `f`, with
`on_start` and `on_end` of `_interceptor.py:102-141`. Its span is number `span`. -/
def OtelInterceptor.callIn (o : OtelInterceptor Nat) (async : Bool) (c span : Nat) (f : A → RequestContext → Ran SpanEff R) (a : A) (ctx : RequestContext)
    (w : CtxWorld) : CtxWorld × Except Exc R :=
  let r : Ran SpanEff R := if async then o.aroundAsync (S := A) (SpanEff.of span) (w.var c) .unary f a ctx else o.aroundSync (S := A) (SpanEff.of span) (w.var c) .unary f a ctx
  (performAll c w r.effects, r.result)

/-- A traced call with a stream of responses (server stream or bidirectional): `_interceptor_sync.py:194-224`, `_interceptor_async.py:194-226`. -/
def OtelInterceptor.streamOf (o : OtelInterceptor Nat) (async : Bool) (span : Nat) (f : A → RequestContext → Gen SpanEff R) (a : A) (ctx : RequestContext) : SpanStream R :=
  .fresh fun current => if async then o.aroundAsync (S := A) (SpanEff.of span) current .serverStream f a ctx
    else o.aroundSync (S := A) (SpanEff.of span) current .serverStream f a ctx

/-- Contexts and streams; streams are numbered. -/
structure TracedWorld (R : Type) where
  spans : CtxWorld
  streams : Nat → SpanStream R

/-- What happens: a stream is asked for a message or closed, in context `c`; or anything else with spans and contexts. -/
inductive TracedOp where
  | next (c s : Nat)
  | close (c s : Nat)
  | other (o : CtxOp)

def TracedWorld.step (t : TracedWorld R) : TracedOp → TracedWorld R
  | .next c s =>
    let r := (t.streams s).next (t.spans.var c)
    ⟨performAll c t.spans r.1, setAt t.streams s r.2⟩
  | .close c s => ⟨performAll c t.spans (t.streams s).close, setAt t.streams s .over⟩
  | .other o => ⟨t.spans.step o, t.streams⟩

/-- the operations one after the other -/
def TracedWorld.run : TracedWorld R → List TracedOp → TracedWorld R
  | t, [] => t
  | t, o :: os => run (t.step o) os

end
end Conn
