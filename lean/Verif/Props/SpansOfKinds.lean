import Verif.Props.TracedSpanStreams
import Verif.Spec.SpansOfKinds
/-
C67 over the transport, of calls of all kinds.
-/
namespace Props
open Conn Py Spec

section
variable {C Req Res A : Type}

/-- a handler reports nothing by itself -/
theorem genOf_silent (closeErr outcome : Option Exc) (acts : List (Act Res)) (es : List (Happening C)) (hes : telemetryIn es = []) (n : Nat) :
    telemetryIn ((genOf es closeErr outcome acts).use n).effects = [] ∧ ((genOf es closeErr outcome acts).use n).later = [] := by
  induction acts generalizing es n with
  | nil => cases n with
    | zero => exact ⟨rfl, rfl⟩
    | succ n => exact ⟨hes, rfl⟩
  | cons a acts ih =>
    cases a with
    | step s =>
      refine ih _ ?_ n
      rw [telemetryIn_append, hes]
      rfl
    | emit m =>
      match n with
      | 0 => exact ⟨rfl, rfl⟩
      | 1 =>
        refine ⟨?_, rfl⟩
        show telemetryIn (es ++ []) = _
        rw [List.append_nil, hes]
      | n + 2 =>
        obtain ⟨h1, h2⟩ := ih [] rfl (n + 1)
        refine ⟨?_, h2⟩
        show telemetryIn (es ++ _) = _
        rw [telemetryIn_append, hes, h1]
        rfl

/-- no more messages than are asked for -/
theorem use_at_most {E : Type} (n : Nat) (g : Gen E Res) : (g.use n).messages.length ≤ n := by
  induction n generalizing g with
  | zero => exact Nat.le_refl 0
  | succ n ih =>
    cases g with
    | fin => exact Nat.zero_le _
    | yield es m r c =>
      cases n with
      | zero => exact Nat.le_refl 1
      | succ n => exact Nat.succ_le_succ (ih r)

/-- the parent of a span -/
theorem traced_parent {o : OtelInterceptor C} {parent : Option C} {ctx : RequestContext} {error : Option Exc} {before after : List (Happening C)}
    (h : Traced o .inl parent ctx error before after) (es later : List (Happening C)) (hes : telemetryIn es = []) (hl : telemetryIn later = []) :
    startedParents (telemetryIn (before ++ es ++ after ++ later)) = [parent] := by
  obtain ⟨⟨attrs, rfl, _⟩, ⟨attrs', _, _, hs⟩⟩ := h
  rw [telemetryIn_append, telemetryIn_append, telemetryIn_append, hes, hl, List.append_nil, List.append_nil]
  rcases hs with ⟨_, rfl⟩ | ⟨e, sp, _, _, rfl⟩ <;> rfl

/-- the parent of the span of a handler that is a generator, on a server without a current span -/
theorem watchGen_parent {o : OtelInterceptor C} (ho : o.client = false) (flavor : Bool) (f : A → RequestContext → Script Res) (a : A) {ctx : RequestContext}
    (hs : Traceable ctx.serverAddress) (hc : Traceable ctx.clientAddress) (n : Nat) :
    let v := (o.watchGen flavor none f a ctx).use (n + 1)
    startedParents (telemetryIn (v.effects ++ v.later)) = [o.telemetry.extract ctx.requestHeaders] := by
  intro v
  have hseen : seenContext o none ctx = ctx := by
    unfold seenContext
    rw [ho, if_neg (by decide)]
  have hpar : parentOf o none ctx = o.telemetry.extract ctx.requestHeaders := by
    unfold parentOf
    rw [ho, if_neg (by decide)]
    rfl
  obtain ⟨hq, hlate⟩ := genOf_silent (C := C) (f a ctx).closeErr (f a ctx).outcome (f a ctx).acts [] rfl (n + 1)
  rw [← hpar]
  cases flavor with
  | false =>
    obtain ⟨before, after, ht, h1, _⟩ := C57_stream_sync_partial (S := A) o (Sum.inl : Telemetered C → Happening C) none
      (fun a ctx => genOf [] (f a ctx).closeErr (f a ctx).outcome (f a ctx).acts) a ctx hs hc n
    rw [hseen] at ht h1
    have hv : v = ⟨before ++ _ ++ after, _, _, _⟩ := h1
    rw [hv]
    dsimp only
    exact traced_parent ht _ _ hq (by rw [hlate]; rfl)
  | true =>
    obtain ⟨k1, k2, k3⟩ := C57_stream_async_partial (S := A) o (Sum.inl : Telemetered C → Happening C) none
      (fun a ctx => genOf [] (f a ctx).closeErr (f a ctx).outcome (f a ctx).acts) a ctx hs hc n _ (.inl rfl)
    rw [hseen] at k2 k3
    rcases Nat.lt_or_ge ((genOf (C := C) [] (f a ctx).closeErr (f a ctx).outcome (f a ctx).acts).use (n + 1)).messages.length (n + 1) with hl | hl
    · obtain ⟨_, e2, before, after, ht, e3⟩ := k2 hl
      have e2 : v.later = _ := e2
      have e3 : v.effects = _ := e3
      rw [e2, e3]
      exact traced_parent ht _ _ hq (by rw [hlate]; rfl)
    · obtain ⟨_, before, mid, after, ht, e3, e4⟩ := k3 (Nat.le_antisymm (use_at_most _ _) hl)
      have e3 : v.effects = before ++ mid ++ after := e3
      have e4 : mid ++ v.later = _ := e4
      have hz : telemetryIn mid = [] ∧ telemetryIn v.later = [] := by
        have := congrArg telemetryIn e4
        rw [telemetryIn_append, telemetryIn_append, hlate, hq] at this
        exact List.append_eq_nil_iff.1 this
      rw [e3]
      exact traced_parent ht _ _ hz.1 hz.2

/-- … of any handler -/
theorem kind_parent {o : OtelInterceptor C} (ho : o.client = false) (flavor : Bool) (s : ReqStream Req) (handler : Handler Req Res) (key : List Char) {ctx : RequestContext}
    (hs : Traceable ctx.serverAddress) (hc : Traceable ctx.clientAddress) (n : Nat) {req : Option Req} {h0 : HState Req} {script : Script Res}
    (hst : Starts s ctx (o.handler flavor none handler) req h0 script) :
    startedParents (telemetryOfKind o flavor none s (n + 1) handler [⟨key, ctx, req⟩]) = [o.telemetry.extract ctx.requestHeaders] := by
  cases handler with
  | unary f =>
    cases hst
    exact watch_parent ho flavor f _ key hs hc
  | clientStream f =>
    cases hst
    exact watch_parent ho flavor (fun s ctx => (f s ctx).on s) s key hs hc
  | serverStream f =>
    cases hst
    show startedParents (_ ++ []) = _
    rw [List.append_nil]
    exact watchGen_parent ho flavor f _ hs hc n
  | bidi f =>
    cases hst
    show startedParents (_ ++ []) = _
    rw [List.append_nil]
    exact watchGen_parent ho flavor (fun s ctx => (f s ctx).on s) s hs hc n

/-- the calls that are made of `Client.bidi` -/
theorem calls_are_streams (c : Client Req Res) (sc : StatusCodec) (http : HttpClient) (sink : Sink) (cs : Circumstances) (ctx : RequestContext) (req : Req) (reqs : List Req) :
    (c.sendRequest sc http sink cs .serverStream req ctx).2 = c.bidi sc http.stream sink cs ctx [req] none ∧
    (c.sendRequest sc http sink cs .bidi (reqs, none) ctx).2 = c.bidi sc http.stream sink cs ctx reqs none ∧
    (c.sendRequest sc http sink cs .clientStream (reqs, none) ctx).2 = Client.single (c.bidi sc http.stream sink cs ctx reqs none) ∧
    (c.proto ≠ .connect → c.sendUnary sc http sink cs ctx req = Client.single (c.bidi sc http.stream sink cs ctx [req] none)) := by
  refine ⟨rfl, rfl, rfl, fun hp => ?_⟩
  unfold Client.sendUnary
  cases hc : c.proto with
  | connect => exact absurd hc hp
  | _ => rfl

theorem invokeCall_congr {E R Tok : Type} (m : MetaCallbacks E Tok) {f g : A → RequestContext → Ran E R} {a : A} {ctx : RequestContext} (h : f a ctx = g a ctx) :
    invokeCall m f a ctx = invokeCall m g a ctx := by
  unfold invokeCall
  rw [h]

theorem invokeGenSync_congr {E R Tok : Type} (m : MetaCallbacks E Tok) {f g : A → RequestContext → Gen E R} {a : A} {ctx : RequestContext} (h : f a ctx = g a ctx) :
    invokeGenSync m f a ctx = invokeGenSync m g a ctx := by
  unfold invokeGenSync
  rw [h]

theorem invokeGenAsync_congr {E R Tok : Type} (m : MetaCallbacks E Tok) {f g : A → RequestContext → Gen E R} {a : A} {ctx : RequestContext} (h : f a ctx = g a ctx) :
    invokeGenAsync m f a ctx = invokeGenAsync m g a ctx := by
  unfold invokeGenAsync
  rw [h]

/-- the request of traced calls -/
theorem traced_sends (c : Client Req Res) (ha : TraceableClient c.address) (sc : StatusCodec) (sink : Sink) (cs : Circumstances) (left : Option Exc) (o : OtelInterceptor C) (ho : o.client = true)
    (within : Option C) (reqs : List Req) (m : MethodInfo) (user : UserHeaders) (t : Option Int) (verb : List Char) (stream : Bool) :
    TracedSends c sc sink cs left o within reqs m user t verb stream (streamRequest c (withSpan o within (c.context m verb user t stream)) reqs) := by
  have htouch : o.touch within (c.context m verb user t stream) = withSpan o within (c.context m verb user t stream) := by
    rw [Proofs.Otel.touch_eq o within (client_traceable ha m verb user t stream).1]
    unfold seenContext
    rw [if_pos ho]
    rfl
  have hone : ∀ a b : HttpClient, (∀ r, r = streamRequest c (withSpan o within (c.context m verb user t stream)) reqs → a.full r = b.full r ∧ a.stream r = b.stream r) →
      c.bidi sc a.stream sink cs (o.touch within (c.context m verb user t stream)) reqs none = c.bidi sc b.stream sink cs (o.touch within (c.context m verb user t stream)) reqs none := fun a b hab => by
    rw [htouch]
    exact bidi_sends_one c sc sink cs _ reqs a b hab
  constructor
  · rintro rfl rfl a b hab
    have h : c.callFn (C := C) sc a sink cs left .bidi (reqs, none) (o.touch within (c.context m (pys! "POST") user t true)) =
        c.callFn (C := C) sc b sink cs left .bidi (reqs, none) (o.touch within (c.context m (pys! "POST") user t true)) := by
      simp only [Client.callFn, Client.sendRequest]
      rw [hone a b hab]
    dsimp only [Client.observedBidiStream, Client.observedFn]
    cases c.flavor with
    | sync => exact invokeGenSync_congr _ h
    | async => exact invokeGenAsync_congr _ h
  · rintro rfl rfl a b hab
    have h : c.callFn (C := C) sc a sink cs none .clientStream (reqs, none) (o.touch within (c.context m (pys! "POST") user t true)) =
        c.callFn (C := C) sc b sink cs none .clientStream (reqs, none) (o.touch within (c.context m (pys! "POST") user t true)) := by
      simp only [Client.callFn, Client.sendRequest]
      rw [hone a b hab]
    dsimp only [Client.observedClientStream, Client.observedFn]
    cases c.flavor with
    | sync => exact invokeCall_congr _ h
    | async => exact invokeCall_congr _ h
  · rintro rfl rfl req rfl a b hab
    have h : c.callFn (C := C) sc a sink cs left .serverStream req (o.touch within (c.context m (pys! "POST") user t true)) =
        c.callFn (C := C) sc b sink cs left .serverStream req (o.touch within (c.context m (pys! "POST") user t true)) := by
      simp only [Client.callFn, Client.sendRequest]
      rw [hone a b hab]
    dsimp only [Client.observedServerStream, Client.observedFn]
    cases c.flavor with
    | sync => exact invokeGenSync_congr _ h
    | async => exact invokeGenAsync_congr _ h
  · rintro hp rfl useGet rfl req rfl a b hab
    have h : c.callFn (C := C) sc a sink cs none .unary req (o.touch within (c.context m (if useGet then pys! "GET" else pys! "POST") user t false)) =
        c.callFn (C := C) sc b sink cs none .unary req (o.touch within (c.context m (if useGet then pys! "GET" else pys! "POST") user t false)) := by
      simp only [Client.callFn, Client.sendRequest]
      rw [(calls_are_streams c sc a sink cs _ req []).2.2.2 hp, (calls_are_streams c sc b sink cs _ req []).2.2.2 hp, hone a b hab]
    dsimp only [Client.observedUnary, Client.observedFn]
    cases c.flavor with
    | sync => exact invokeCall_congr _ h
    | async => exact invokeCall_congr _ h

/-- **C67, calls of all kinds, WSGI server**: a stream, or a unary call by gRPC or gRPC-Web, made within the span `caller`, to a traced handler of any kind that runs with no current span: the parent of the
span of the server is `caller`, however many (`n + 1`) messages the server asks the handler for. Missing: the span of the
client is not (`C67_violation_siblings`). -/
theorem C67_kinds_wsgi_partial (c : Client Req Res) (ha : TraceableClient c.address) (app : App Req Res) (codec : ServerCodec Req Res) (m ms : MethodInfo)
    (oc os : OtelInterceptor C) (hoc : oc.client = true) (hos : os.client = false) (htel : os.telemetry = oc.telemetry) (names : List (List Char)) (hp : Propagates oc.telemetry)
    (caller : C) (handler : Handler Req Res) (reqs : List Req) (user : UserHeaders) (t : Option Int)
    (h : StreamCall c app codec m ms (os.handler false none handler) reqs user t) (sc : StatusCodec) (sink : Sink) (cs : Circumstances) (left : Option Exc)
    (verb : List Char) (stream : Bool) (hst : c.proto = .connect → stream = true)
    (hadd : AddsFields oc.telemetry (some caller) (c.context m verb user t stream).requestHeaders)
    (hu : UsesFields oc.telemetry names (c.context m verb user t stream).requestHeaders) :
    ∃ rq, TracedSends c sc sink cs left oc (some caller) reqs m user t verb stream rq ∧
    ∀ env, WsgiSees c.address rq env → (c.proto = .grpc → env.sendTrailers = true) →
    TraceableRequest (wsgiScheme env.vars) ((wsgiHeaders env.vars).get (pys! "host")) (wsgiClient env.vars) →
    ∃ ctx, ∀ req h0 script, Starts ⟨reqs, none⟩ ctx (os.handler false none handler) req h0 script →
    ∀ i out h' e, Runs (writerOf codec (responseComp c app)).write none h0 script.acts script.outcome i out h' e →
    RegularStream c codec sc (responseComp c app) i.headers out h'.info.trailers e →
    ∀ n, startedParents (telemetryOfKind os false none ⟨reqs, none⟩ (n + 1) handler (app.wsgi sc env).calls) = [some caller] := by
  refine ⟨streamRequest c (withSpan oc (some caller) (c.context m verb user t stream)) reqs, traced_sends c ha sc sink cs left oc hoc (some caller) reqs m user t verb stream, fun env hs' htr ht => ?_⟩
  have hi' : Headers.Inv (withSpan oc (some caller) (c.context m verb user t stream)).requestHeaders := hadd.built.inv
  have hs : WsgiSees c.address (theStream c m verb user t stream reqs) env := wsgiSees_fewer hs' rfl rfl rfl (spanStream c oc (some caller) _ (context_inv ..) hadd reqs)
  obtain ⟨k, h1, h2, h3, h4, h5⟩ := wsgi_streamed h hst verb hs htr
  obtain ⟨hm', ctx, h6, h7, h8⟩ := C35_wsgi app sc env _ _ _ codec k (responseComp c app) h1 hs.pieces _ h2
  have hspan : SpanArrives oc.telemetry (some caller) (c.context m verb user t stream).requestHeaders joined ctx.requestHeaders := by
    intro n hn hpn hne
    have hv : fieldValues (streamRequest c (withSpan oc (some caller) (c.context m verb user t stream)) reqs).headers n =
        (oc.telemetry.inject (some caller) (c.context m verb user t stream).requestHeaders).getall n := fieldValues_allitems hi' n
    have hg := hs'.field n hn (by rw [hv]; exact hne)
    rw [hv] at hg
    rw [h7.headers, wsgiHeaders_getall _ hs'.distinct]
    exact values_one hs'.distinct (headerOfVar_cgiVar hn.2) hg
  have hts : Traceable ctx.serverAddress := traceable_server ht (by rw [← h7.headers]; exact h7.server)
  have htc : Traceable ctx.clientAddress := by rw [h7.client]; exact ht.2
  refine ⟨ctx, fun req h0 script hstart i out h' e hrun hreg n => ?_⟩
  obtain ⟨eo, heo⟩ := hreg.ends
  obtain ⟨bs, _, hbs, hev⟩ := h8 req h0 script hstart i out h' e hrun hreg.caught eo heo
  rw [hev]
  exact (kind_parent hos false _ handler _ hts htc n hstart).trans (by rw [htel, span_arrived hp hu (fun _ => rfl) hspan])

/-- **C67, calls of all kinds, ASGI server**: as on WSGI, while the client stays connected. -/
theorem C67_kinds_asgi_partial (c : Client Req Res) (ha : TraceableClient c.address) (app : App Req Res) (codec : ServerCodec Req Res) (m ms : MethodInfo)
    (oc os : OtelInterceptor C) (hoc : oc.client = true) (hos : os.client = false) (htel : os.telemetry = oc.telemetry) (names : List (List Char)) (hp : Propagates oc.telemetry)
    (caller : C) (handler : Handler Req Res) (reqs : List Req) (user : UserHeaders) (t : Option Int)
    (h : StreamCall c app codec m ms (os.handler true none handler) reqs user t) (ho : Spec.Ordinary app) (sc : StatusCodec) (sink : Sink) (cs : Circumstances) (left : Option Exc)
    (verb : List Char) (stream : Bool) (hst : c.proto = .connect → stream = true)
    (hadd : AddsFields oc.telemetry (some caller) (c.context m verb user t stream).requestHeaders)
    (hu : UsesFields oc.telemetry names (c.context m verb user t stream).requestHeaders) :
    ∃ rq, TracedSends c sc sink cs left oc (some caller) reqs m user t verb stream rq ∧
    ∀ scope env, AsgiSees c.address rq scope env → (c.proto = .grpc → scope.trailers = true) → Reliable env → env.cancelAfter = none →
      env.disconnectAt = none → (scope.rootPath = [] ∨ Dict.get? app.endpoints (scope.rootPath ++ methodPath m) = none) →
    ∃ ctx headers, asgiHeaders scope.headers Headers.empty = .ok headers ∧
    (TraceableRequest (asgiScheme scope) (headers.get (pys! "host")) (scope.client.map fun ca => ca.1 ++ pys! ":" ++ ca.2) →
    ∀ req h0 script, Starts ⟨reqs, none⟩ ctx (os.handler true none handler) req h0 script →
    ∀ i out h' e, Runs (writerOf codec (responseComp c app)).write script.closeErr h0 script.acts script.outcome i out h' e →
    RegularStream c codec sc (responseComp c app) i.headers out h'.info.trailers e →
    ∀ n, startedParents (telemetryOfKind os true none ⟨reqs, none⟩ (n + 1) handler (app.asgi sc scope env).calls) = [some caller]) := by
  refine ⟨streamRequest c (withSpan oc (some caller) (c.context m verb user t stream)) reqs, traced_sends c ha sc sink cs left oc hoc (some caller) reqs m user t verb stream, fun scope env hs' htr hrel hcan hdis hroot => ?_⟩
  have hi' : Headers.Inv (withSpan oc (some caller) (c.context m verb user t stream)).requestHeaders := hadd.built.inv
  have hs : AsgiSees c.address (theStream c m verb user t stream reqs) scope env := asgiSees_fewer hs' rfl rfl rfl (spanStream c oc (some caller) _ (context_inv ..) hadd reqs)
  obtain ⟨k, headers, hh, h1, h2, h3, h4, h5⟩ := asgi_streamed h hst verb hs htr hroot
  obtain ⟨ctx, s, h7, h6, h8⟩ := C35_asgi_partial app sc scope env headers _ _ _ codec k (responseComp c app) h1 hrel
  have := h2 s (h6 hcan ho)
  subst this
  have hspan : SpanArrives oc.telemetry (some caller) (c.context m verb user t stream).requestHeaders id ctx.requestHeaders := by
    intro n hn hpn hne
    have hv : fieldValues (streamRequest c (withSpan oc (some caller) (c.context m verb user t stream)) reqs).headers n =
        (oc.telemetry.inject (some caller) (c.context m verb user t stream).requestHeaders).getall n := fieldValues_allitems hi' n
    obtain ⟨headers', e1, _, e2⟩ := asgi_arrived hs'
    rw [hh] at e1
    cases e1
    rw [h7.headers, e2 n hn (by rw [hv]; exact hne), hv]
    rfl
  refine ⟨ctx, headers, hh, fun ht req h0 script hstart i out h' e hrun hreg n => ?_⟩
  have hts : Traceable ctx.serverAddress := traceable_server ht (by rw [← h7.headers]; exact h7.server)
  have htc : Traceable ctx.clientAddress := by rw [h7.client]; exact ht.2
  obtain ⟨eo, heo⟩ := hreg.ends
  obtain ⟨bs, hbs, hev⟩ := h8 req h0 script hstart i out h' e hrun (fun _ k hk => by rw [hdis] at hk; cases hk)
    (by rintro rfl; exact absurd (hreg.caught _ rfl) (by decide)) eo heo
  rw [hev]
  exact (kind_parent hos true _ handler _ hts htc n hstart).trans (by rw [htel, span_arrived hp hu (fun _ => rfl) hspan])

end

/-! ### the hypotheses are met -/

/-- A stream in both directions, by any protocol, within the span `s`: the call, and what the propagator does. (The run is the one shown in `TracedKinds`.) -/
example (p : Proto) (flavor : Bool) :
    StreamCall (chatClient p) (chatAppOf (watchInterceptor.handler flavor none (.bidi chatScript))) chatCodec echoInfo echoInfo (watchInterceptor.handler flavor none (.bidi chatScript))
      [[4, 5], [6]] pairUser (some 1500) ∧ TraceableClient (chatClient p).address ∧ tracingClient.client = true ∧ watchInterceptor.client = false ∧
    watchInterceptor.telemetry = tracingClient.telemetry ∧ Propagates tracingClient.telemetry ∧
    (let hs := ((chatClient p).context echoInfo (pys! "POST") pairUser (some 1500) true).requestHeaders
     AddsFields tracingClient.telemetry (some (pys! "s")) hs ∧ UsesFields tracingClient.telemetry [pys! "traceparent"] hs) :=
  ⟨chat_call p _ (fun _ => rfl) _ (by simp), ⟨pys! "http", pys! "h", .inl rfl, .inl (by unfold PlainHost; decide), rfl⟩, rfl, rfl, rfl, ⟨fun c h => by show (h.store.set _ c).get? _ = some c; rw [Dict.get?_set, if_pos rfl], fun _ => rfl⟩, demo_adds (chat_span_built p true fun _ => rfl) (by cases p <;> decide +kernel) _,
    demo_uses (chat_span_built p true fun _ => rfl)⟩

/-- … and a server that is given the request of a stream within the span `s`: the parent of its span is `s`, by every protocol -/
example (p : Proto) : let c := chatClient p
    let handler : Handler Bytes Bytes := .bidi chatScript
    let rq := streamRequest c (withSpan tracingClient (some (pys! "s")) (c.context echoInfo (pys! "POST") pairUser (some 1500) true)) [[4, 5], [6]]
    startedParents (telemetryOfKind watchInterceptor false none ⟨[[4, 5], [6]], none⟩ 3 handler
      ((chatAppOf (watchInterceptor.handler false none handler)).wsgi protobufStatus
        { environOf (pys! "POST") (pys! "/a.S/Echo") [] rq.headers rq.body with sendTrailers := true }).calls) = [some (pys! "s")] := by
  cases p <;> decide +kernel

end Props
