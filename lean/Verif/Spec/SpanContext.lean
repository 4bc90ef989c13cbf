import Verif.Model.SpanContext
import Verif.Spec.RespContext
/-
Specification for C85: tracing and the current span.
-/
namespace Spec
open Conn Py

/-- The current span of a context. -/
def currentSpan (w : CtxWorld) (c : Nat) : Option Nat := w.var c

/-- An operation that neither makes span `i` current nor ends that. -/
def NotSpan (i : Nat) : CtxOp → Prop
  | .enter _ j => j ≠ i
  | .exit _ j => j ≠ i
  | .copy _ _ => True
  | .record _ _ => True

/-- … of a call. -/
def NotSpanEff (i : Nat) : SpanEff → Prop
  | .starts j => j ≠ i
  | .ends j => j ≠ i
  | .reports => True
  | .does o => NotSpan i o

/-- All that a generator does, however it is used, is `P`. -/
def GenDoes {E R : Type} (P : E → Prop) : Gen E R → Prop
  | .fin es _ => ∀ e ∈ es, P e
  | .yield es _ r c => (∀ e ∈ es, P e) ∧ (∀ e ∈ c.now, P e) ∧ GenDoes P r

/-- … and that a stream does. -/
def StreamDoes {R : Type} (P : SpanEff → Prop) : SpanStream R → Prop
  | .fresh make => ∀ current, GenDoes P (make current)
  | .paused r c => (∀ e ∈ c.now, P e) ∧ GenDoes P r
  | .over => True

/-- The operations of a history on spans and contexts, latest last: what each use of a stream comes to. -/
def spanHistory {R : Type} : TracedWorld R → List TracedOp → List CtxOp
  | _, [] => []
  | t, .next c s :: os => ((t.streams s).next (t.spans.var c)).1.flatMap (SpanEff.ops c) ++ spanHistory (t.step (.next c s)) os
  | t, .close c s :: os => (t.streams s).close.flatMap (SpanEff.ops c) ++ spanHistory (t.step (.close c s)) os
  | t, .other o :: os => o :: spanHistory (t.step (.other o)) os

/-- The spans made current in context `c` (or where it was copied from) and not ended since, innermost first. -/
def openSpans (history : List CtxOp) (c : Nat) : List Nat := scope history.reverse c

end Spec
