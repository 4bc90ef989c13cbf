import Verif.Proofs.SpanContext
import Verif.Props.RespContext
import Verif.Props.Otel
/-
C85: tracing and the current span.
-/
namespace Props
open Conn Py Spec Proofs.SpanContext

section
variable {R A : Type} (o : OtelInterceptor Nat)

/-- **C85, calls with one response.** However a traced call ends (also if tracing refuses it), whatever it does with other spans, and whatever happened before: the span
that was current where it was called is current again. -/
theorem C85_call (history : List CtxOp) (async : Bool) (c span : Nat) (f : A → RequestContext → Ran SpanEff R) (a : A) (ctx : RequestContext)
    (hf : ∀ x, ∀ e ∈ (f a x).effects, NotSpanEff span e) :
    let before := CtxWorld.new.run history
    currentSpan (o.callIn async c span f a ctx before).1 c = currentSpan before c := by
  intro before
  have ht : Tidy before := tidy_run tidy_new history
  have key : (performAll c before (invokeCall (o.callbacks (SpanEff.of span) (before.var c)) (fun a ctx => f a (o.touch (before.var c) ctx)) a ctx).effects).var c =
      before.var c := by
    unfold invokeCall
    rcases onStart_first o span (before.var c) ctx with ⟨e, h⟩ | ⟨sh, h⟩
    · rw [show (o.callbacks (SpanEff.of span) (before.var c)).onStart ctx = _ from h]
      rfl
    · rw [show (o.callbacks (SpanEff.of span) (before.var c)).onStart ctx = _ from h]
      dsimp only
      rw [List.append_assoc, performAll_append]
      exact endsLast_held (performAll_tidy ht _ _) (starts_held ht c span) (endsLast_append (hf _) (onEnd_last o span _ ctx _).1)
  cases async <;> exact key

/-- **C85, inside a call.** What the call does is done with its span as the current one (unless tracing refuses the call). -/
theorem C85_inside (async : Bool) (c span : Nat) (f : A → RequestContext → Ran SpanEff R) (a : A) (ctx : RequestContext) (w : CtxWorld)
    (hs : Traceable ctx.serverAddress) (hc : Traceable ctx.clientAddress) :
    ∃ pre post : List SpanEff, currentSpan (performAll c w pre) c = some span ∧
      (o.callIn async c span f a ctx w) =
        (performAll c w (pre ++ (f a (seenContext o (currentSpan w c) ctx)).effects ++ post), (f a (seenContext o (currentSpan w c) ctx)).result) := by
  obtain ⟨before, after, ht, e1, e2, _⟩ := C57_call_partial (S := A) o (SpanEff.of span) (w.var c) f a ctx hs hc
  refine ⟨before, after, ?_, ?_⟩
  · obtain ⟨⟨attrs, rfl, _⟩, _⟩ := ht
    exact setAt_same _ _ _
  · unfold OtelInterceptor.callIn
    cases async with
    | false => rw [if_neg (by decide), e1]; rfl
    | true => rw [if_pos rfl, e2]; rfl

/-- **C85, streams** (partial: read in one context). When a traced stream comes to its end, fails or is closed, the span that was current when it was first asked for a
message is current again: whatever happened before, whatever other streams, calls and spans there were meanwhile, in that context or in others. Missing: streams that are
read in several contexts (`C85_violation_elsewhere`); and what was current then need not be what should be current now (`C85_violation_interleaved`). -/
theorem C85_stream_partial (history : List CtxOp) (streams : Nat → SpanStream R) (async : Bool) (c s : Nat) (f : A → RequestContext → Gen SpanEff R) (a : A)
    (ctx : RequestContext) (hs : streams s = o.streamOf async s f a ctx) (hf : ∀ x, GenDoes (NotSpanEff s) (f a x))
    (hothers : ∀ k, k ≠ s → StreamDoes (NotSpanEff s) (streams k)) (mid : List TracedOp) (last : TracedOp)
    (hc : ∀ u ∈ mid ++ [last], match u with
      | .next d k => k = s → d = c
      | .close d k => k = s → d = c
      | .other x => NotSpan s x) :
    let start : TracedWorld R := ⟨CtxWorld.new.run history, streams⟩
    let before := start.run (.next c s :: mid)
    let after := start.run (.next c s :: mid ++ [last])
    before.streams s ≠ .over → after.streams s = .over → currentSpan after.spans c = currentSpan start.spans c := by
  intro start before after h1 h2
  have hfirst := (followed_first o async f a ctx (c := c) (t := start) (tidy_run tidy_new history) hs hf hothers).1
  have hallowed : ∀ u ∈ mid ++ [last], Allowed c s u := by
    intro u hu
    have := hc u hu
    cases u <;> exact this
  have hmid : Followed c s (start.spans.var c) before := followed_run hfirst (fun u hu => hallowed u (List.mem_append_left _ hu))
  have e : after = before.step last := tracedRun_append start (.next c s :: mid) [last]
  rw [e] at h2 ⊢
  exact (followed_step hmid (hallowed last (by simp))).2 h1 h2

/-- **C85, streams without messages.** The same for a stream that ends, or fails, at its first use. -/
theorem C85_stream_empty (history : List CtxOp) (streams : Nat → SpanStream R) (async : Bool) (c s : Nat) (f : A → RequestContext → Gen SpanEff R) (a : A)
    (ctx : RequestContext) (hs : streams s = o.streamOf async s f a ctx) (hf : ∀ x, GenDoes (NotSpanEff s) (f a x))
    (hothers : ∀ k, k ≠ s → StreamDoes (NotSpanEff s) (streams k)) :
    let start : TracedWorld R := ⟨CtxWorld.new.run history, streams⟩
    let after := start.step (.next c s)
    after.streams s = .over → currentSpan after.spans c = currentSpan start.spans c :=
  (followed_first o async f a ctx (c := c) (t := ⟨CtxWorld.new.run history, streams⟩) (tidy_run tidy_new history) hs hf hothers).2

/-- **C85, nested histories** (partial). If spans are ended in the context they were started in, the innermost first, the current span of every context is its innermost
open span: none, when none is open. -/
theorem C85_nested_partial (history : List CtxOp) (streams : Nat → SpanStream R) (ops : List TracedOp) (c : Nat) :
    let start : TracedWorld R := ⟨CtxWorld.new.run history, streams⟩
    let all := history ++ spanHistory start ops
    WellNested all.reverse → currentSpan (start.run ops).spans c = (openSpans all c).head? := by
  intro start all hw
  unfold currentSpan
  rw [run_spans, ← ctxRun_append]
  have := C49_innermost_partial all.reverse hw c
  rw [List.reverse_reverse] at this
  exact this

/-- C85 is false between the messages of a stream: once it has given a message its span is the current one of whoever reads it, whatever was current before. -/
theorem C85_violation_between (history : List CtxOp) (streams : Nat → SpanStream R) (async : Bool) (c s : Nat) (f : A → RequestContext → Gen SpanEff R) (a : A)
    (ctx : RequestContext) (hs : streams s = o.streamOf async s f a ctx) (hsrv : Traceable ctx.serverAddress) (hcl : Traceable ctx.clientAddress)
    (hf : ∀ x, ∃ m r cl, f a x = .yield [] m r cl) :
    let start : TracedWorld R := ⟨CtxWorld.new.run history, streams⟩
    currentSpan (start.step (.next c s)).spans c = some s := by
  intro start
  obtain ⟨before, shared, h1, h2⟩ := Proofs.Otel.onStart_ok o (SpanEff.of s) (start.spans.var c) hsrv hcl
  obtain ⟨attrs, rfl, _⟩ := (h2 ctx none).2.1
  show (performAll c start.spans ((streams s).next (start.spans.var c)).1).var c = some s
  have key : ∃ cl r, (streams s).next (start.spans.var c) = ([.starts s], .paused r cl) := by
    rw [hs]
    cases async with
    | false =>
      show ∃ cl r, SpanStream.after (invokeGenSync (o.callbacks (SpanEff.of s) (start.spans.var c)) (fun a ctx => f a (o.touch (start.spans.var c) ctx)) a ctx) = _
      unfold invokeGenSync
      rw [show (o.callbacks (SpanEff.of s) (start.spans.var c)).onStart ctx = _ from h1]
      obtain ⟨m, r, cl, e⟩ := hf (o.touch (start.spans.var c) ctx)
      dsimp only
      rw [e]
      exact ⟨_, _, rfl⟩
    | true =>
      show ∃ cl r, SpanStream.after (invokeGenAsync (o.callbacks (SpanEff.of s) (start.spans.var c)) (fun a ctx => f a (o.touch (start.spans.var c) ctx)) a ctx) = _
      unfold invokeGenAsync
      rw [show (o.callbacks (SpanEff.of s) (start.spans.var c)).onStart ctx = _ from h1]
      obtain ⟨m, r, cl, e⟩ := hf (o.touch (start.spans.var c) ctx)
      dsimp only
      rw [e]
      exact ⟨_, _, rfl⟩
  obtain ⟨cl, r, e⟩ := key
  rw [e]
  exact setAt_same _ _ _

end

/-- a stream of one message -/
def oneMessage : Nat → RequestContext → Gen SpanEff Nat := fun n _ => .yield [] n (.fin [] none) ⟨[], none, []⟩

/-- two traced streams of an instrumented client -/
def twoStreams (async : Bool) : Nat → SpanStream Nat := fun s =>
  (OtelInterceptor.mk ⟨fun _ h => h, fun _ => none⟩ true (fun _ => [])).streamOf async s oneMessage s tracedContext

/-- C85 is false of streams that are read in turns: the first is started, then the second; the first ends, then the second. Nothing is open any more, and the current
span is that of the first stream: spans that are started now become its children. -/
theorem C85_violation_interleaved (async : Bool) :
    let start : TracedWorld Nat := ⟨CtxWorld.new, twoStreams async⟩
    let after := start.run [.next 0 1, .next 0 2, .next 0 1, .next 0 2]
    (∃ r c, (start.run [.next 0 1, .next 0 2]).streams 1 = .paused r c) ∧ after.streams 1 = .over ∧ after.streams 2 = .over ∧
    currentSpan start.spans 0 = none ∧ currentSpan after.spans 0 = some 1 := by
  cases async <;> exact ⟨⟨_, _, rfl⟩, rfl, rfl, rfl, rfl⟩

/-- C85 is false of a stream that is started in one task (or thread) and closed in another: it stays the current span of the first for good. -/
theorem C85_violation_elsewhere (async : Bool) :
    let start : TracedWorld Nat := ⟨CtxWorld.new, twoStreams async⟩
    let after := start.run [.next 0 1, .close 7 1]
    after.streams 1 = .over ∧ currentSpan start.spans 0 = none ∧ currentSpan after.spans 0 = some 1 := by
  cases async <;> exact ⟨rfl, rfl, rfl⟩

/-- a call around another traced call of the same context, and a span of the handler that is left open -/
example : ∀ x : RequestContext, ∀ e ∈ ((fun (_ : Nat) (_ : RequestContext) => (⟨[.starts 5, .does (.enter 0 9), .ends 5], .ok 3⟩ : Ran SpanEff Nat)) 4 x).effects,
    NotSpanEff 1 e := by
  intro x e he
  simp only [List.mem_cons, List.not_mem_nil, or_false] at he
  rcases he with rfl | rfl | rfl <;> simp [NotSpanEff, NotSpan]

theorem twoStreams_others (async : Bool) (k : Nat) (hk : k ≠ 1) : StreamDoes (NotSpanEff 1) (twoStreams async k) := by
  intro current
  cases async
  · exact ⟨by simp [SpanEff.of, NotSpanEff, hk], by simp [OtelInterceptor.callbacks, OtelInterceptor.onEnd, OtelInterceptor.errorAttrs, caughtError, SpanEff.of, NotSpanEff, hk],
      by simp [Conn.aroundSync, GenDoes, OtelInterceptor.callbacks, OtelInterceptor.onEnd, OtelInterceptor.errorAttrs, caughtError, SpanEff.of, NotSpanEff, hk]⟩
  · exact ⟨by simp [SpanEff.of, NotSpanEff, hk], by simp [OtelInterceptor.callbacks, OtelInterceptor.onEnd, OtelInterceptor.errorAttrs, SpanEff.of, NotSpanEff, hk],
      by simp [Conn.aroundAsync, GenDoes, OtelInterceptor.callbacks, OtelInterceptor.onEnd, OtelInterceptor.errorAttrs, caughtError, SpanEff.of, NotSpanEff, hk]⟩

/-- stream 1 is read while stream 2 is, and closed: the span that was current at first (number 8) is current again -/
example (async : Bool) : currentSpan ((⟨CtxWorld.new.run [.enter 0 8], twoStreams async⟩ : TracedWorld Nat).run
    (.next 0 1 :: [.next 0 2, .other (.enter 0 4)] ++ [.close 0 1])).spans 0 = some 8 :=
  C85_stream_partial _ [.enter 0 8] (twoStreams async) async 0 1 oneMessage 1 tracedContext rfl
    (fun _ => ⟨by simp, by simp, by simp [GenDoes]⟩) (twoStreams_others async) [.next 0 2, .other (.enter 0 4)] (.close 0 1)
    (by intro u hu; simp at hu; rcases hu with rfl | rfl | rfl <;> simp [NotSpan])
    (by cases async <;> (intro h; cases h)) rfl

/-- a nested history: a stream read inside another -/
example (async : Bool) : WellNested (spanHistory (⟨CtxWorld.new, twoStreams async⟩ : TracedWorld Nat) [.next 0 1, .next 0 2, .next 0 2, .close 0 1]).reverse := by
  have e : (spanHistory (⟨CtxWorld.new, twoStreams async⟩ : TracedWorld Nat) [.next 0 1, .next 0 2, .next 0 2, .close 0 1]).reverse =
      [.exit 0 1, .exit 0 2, .enter 0 2, .enter 0 1] := by cases async <;> rfl
  rw [e]
  simp [WellNested, own]

end Props
