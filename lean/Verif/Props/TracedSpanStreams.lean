import Verif.Props.TracedSpans
/-
C104, streams and gRPC calls from within a span.
-/
namespace Props
open Conn Py Spec

section
variable {C D Req Res : Type}

section
variable {c : Client Req Res} {app : App Req Res} {codec : ServerCodec Req Res} {m ms : MethodInfo} {handler : Handler Req Res} {reqs : List Req} {user : UserHeaders} {t : Option Int}

theorem spanStream (c : Client Req Res) (oc : OtelInterceptor C) (within : Option C) (ctx : RequestContext) (hi : Headers.Inv ctx.requestHeaders)
    (ha : AddsFields oc.telemetry within ctx.requestHeaders) (reqs : List Req) (n : List Char) (hn : fieldValues (streamRequest c ctx reqs).headers n ≠ [] ∨ n ∈ protocolNames) :
    fieldValues (streamRequest c (withSpan oc within ctx) reqs).headers n = fieldValues (streamRequest c ctx reqs).headers n := by
  have hi' : Headers.Inv (withSpan oc within ctx).requestHeaders := ha.built.inv
  have hplow : ∀ n ∈ protocolNames, lower n ∈ protocolNames := by decide +kernel
  have e1 : fieldValues (streamRequest c ctx reqs).headers n = ctx.requestHeaders.getall n := fieldValues_allitems hi n
  have e2 : fieldValues (streamRequest c (withSpan oc within ctx) reqs).headers n = (withSpan oc within ctx).requestHeaders.getall n := fieldValues_allitems hi' n
  rw [e1] at hn ⊢
  rw [e2]
  rcases hn with h | h
  · exact ha.kept n h
  · exact ha.protocol n (hplow n h)

/-- a streaming call within a span is served like one without -/
theorem served_span_wsgi (h : StreamCall c app codec m ms handler reqs user t) (sc : StatusCodec) (sink : Sink)
    (hsink : ∀ r, sink = some r → Built r.getTrailers) (cs : Circumstances) (hcs : Calm cs) (hm : Str) (stream : Bool)
    (hst : c.proto = .connect → stream = true) {α : Type} (g : StreamResult Res → α)
    {gets : RequestContext → Headers → List Res → Headers → Option Exc → α → Prop}
    (hg : ∀ ctx req h0 script, Starts ⟨reqs, none⟩ ctx handler req h0 script → ∀ close i out h' e,
      (close = none ∨ close = script.closeErr) →
      Runs (writerOf codec (responseComp c app)).write close h0 script.acts script.outcome i out h' e →
      ∀ res, StreamGets c.proto sink i.headers out h'.info.trailers e res → gets ctx i.headers out h'.info.trailers e (g res)) (oc : OtelInterceptor C) (within : Option C)
    (hadd : AddsFields oc.telemetry within (c.context m hm user t stream).requestHeaders) :
    ServedByWsgi c app codec m ms handler reqs user t sc
      (fun http => g (c.bidi sc http.stream sink cs (withSpan oc within (c.context m hm user t stream)) reqs none)) gets := by
  refine ⟨streamRequest c (withSpan oc within (c.context m hm user t stream)) reqs, .inl (theStream_url c m hm user t stream reqs), ?_, ?_⟩
  · intro a b hab
    exact congrArg g (bidi_sends_one c sc sink cs _ reqs a b hab)
  intro env hs htr
  have hs : WsgiSees c.address (theStream c m hm user t stream reqs) env := wsgiSees_fewer hs rfl rfl rfl (spanStream c oc within _ (context_inv ..) hadd reqs)
  obtain ⟨k, h1, h2, h3, h4, h5⟩ := wsgi_streamed h hst hm hs htr
  obtain ⟨hm', ctx, h6, h7, h8⟩ := C35_wsgi app sc env _ _ _ codec k (responseComp c app) h1 hs.pieces _ h2
  rw [h5] at h6
  cases h6
  refine ⟨ctx, ⟨h7, h4, _, timeoutTold_pick _ _, h3 _ ?_⟩, ?_⟩
  · have := h7.timeout
    rwa [h7.headers] at this
  intro req h0 script hstart i out h' e hrun hreg
  obtain ⟨eo, heo⟩ := hreg.ends
  obtain ⟨bs, _, hbs, hev⟩ := h8 req h0 script hstart i out h' e hrun hreg.caught eo heo
  rw [hev]
  refine ⟨rfl, rfl, ?_⟩
  have hfin : ∀ r, Wrote c.proto codec sc (responseComp c app) i out h'.info.trailers e bs r → ∀ resp, ReceivedStream r resp →
      ∀ http : HttpClient, http.stream (streamRequest c (withSpan oc within (c.context m hm user t stream)) reqs) = .ok resp →
      gets ctx i.headers out h'.info.trailers e (g (c.bidi sc http.stream sink cs (withSpan oc within (c.context m hm user t stream)) reqs none)) := by
    intro r hw resp hrec http hh
    obtain ⟨a1, a2, a3⟩ := bidi_reads h.codec h.comps hreg hw hrec hsink hcs (http := http) hh
    exact hg ctx req h0 script hstart _ i out h' e (.inl rfl) hrun _ ⟨a1, a2, a3⟩
  cases eo with
  | body b =>
    refine ⟨⟨200, streamFields c.proto codec (responseComp c app) i, bs.flatten ++ b, []⟩, ⟨rfl, bs ++ [b], by simp, .inl ⟨?_, rfl⟩⟩,
      hfin _ ⟨hbs, rfl, rfl, _, heo, rfl, rfl⟩⟩
    simp [wsgiEnding]
  | trailers th =>
    exact ⟨⟨200, streamFields c.proto codec (responseComp c app) i, bs.flatten, th.allitems⟩, ⟨rfl, bs, rfl, .inr rfl⟩,
      hfin _ ⟨hbs, rfl, rfl, _, heo, rfl, rfl⟩⟩

/-- … on the ASGI server -/
theorem served_span_asgi (h : StreamCall c app codec m ms handler reqs user t) (ho : Spec.Ordinary app) (sc : StatusCodec) (sink : Sink)
    (hsink : ∀ r, sink = some r → Built r.getTrailers) (cs : Circumstances) (hcs : Calm cs) (hm : Str) (stream : Bool)
    (hst : c.proto = .connect → stream = true) {α : Type} (g : StreamResult Res → α)
    {gets : RequestContext → Headers → List Res → Headers → Option Exc → α → Prop}
    (hg : ∀ ctx req h0 script, Starts ⟨reqs, none⟩ ctx handler req h0 script → ∀ close i out h' e,
      (close = none ∨ close = script.closeErr) →
      Runs (writerOf codec (responseComp c app)).write close h0 script.acts script.outcome i out h' e →
      ∀ res, StreamGets c.proto sink i.headers out h'.info.trailers e res → gets ctx i.headers out h'.info.trailers e (g res)) (oc : OtelInterceptor C) (within : Option C)
    (hadd : AddsFields oc.telemetry within (c.context m hm user t stream).requestHeaders) :
    ServedByAsgi c app codec m ms handler reqs user t sc
      (fun http => g (c.bidi sc http.stream sink cs (withSpan oc within (c.context m hm user t stream)) reqs none)) gets := by
  refine ⟨streamRequest c (withSpan oc within (c.context m hm user t stream)) reqs, .inl (theStream_url c m hm user t stream reqs), ?_, ?_⟩
  · intro a b hab
    exact congrArg g (bidi_sends_one c sc sink cs _ reqs a b hab)
  intro scope env hs htr hrel hcan hdis hroot
  have hs : AsgiSees c.address (theStream c m hm user t stream reqs) scope env := asgiSees_fewer hs rfl rfl rfl (spanStream c oc within _ (context_inv ..) hadd reqs)
  obtain ⟨k, headers, hh, h1, h2, h3, h4, h5⟩ := asgi_streamed h hst hm hs htr hroot
  obtain ⟨ctx, s, h7, h6, h8⟩ := C35_asgi_partial app sc scope env headers _ _ _ codec k (responseComp c app) h1 hrel
  have := h2 s (h6 hcan ho)
  subst this
  rw [h5] at h7
  refine ⟨ctx, headers, hh, ⟨h7, h4, _, timeoutTold_pick _ _, h3 _ ?_⟩, ?_⟩
  · have := h7.timeout
    rwa [h7.headers] at this
  intro req h0 script hstart i out h' e hrun hreg
  obtain ⟨eo, heo⟩ := hreg.ends
  obtain ⟨bs, hbs, hev⟩ := h8 req h0 script hstart i out h' e hrun (fun _ k hk => by rw [hdis] at hk; cases hk)
    (by rintro rfl; exact absurd (hreg.caught _ rfl) (by decide)) eo heo
  rw [hev]
  refine ⟨rfl, rfl, ?_⟩
  have hfin : ∀ r, Wrote c.proto codec sc (responseComp c app) i out h'.info.trailers e bs r → ∀ resp, ReceivedStream r resp →
      ∀ http : HttpClient, http.stream (streamRequest c (withSpan oc within (c.context m hm user t stream)) reqs) = .ok resp →
      gets ctx i.headers out h'.info.trailers e (g (c.bidi sc http.stream sink cs (withSpan oc within (c.context m hm user t stream)) reqs none)) := by
    intro r hw resp hrec http hh
    obtain ⟨a1, a2, a3⟩ := bidi_reads h.codec h.comps hreg hw hrec hsink hcs (http := http) hh
    exact hg ctx req h0 script hstart _ i out h' e (.inr rfl) hrun _ ⟨a1, a2, a3⟩
  cases eo with
  | body b =>
    refine ⟨⟨200, streamFields c.proto codec (responseComp c app) i, bs.flatten ++ b, []⟩, ⟨bs, b, rfl, .inl ⟨?_, rfl⟩⟩,
      hfin _ ⟨hbs, rfl, rfl, _, heo, rfl, rfl⟩⟩
    have : decide (c.proto = .grpc) = false := by
      unfold EndsWith at heo
      cases hc : c.proto with
      | grpc => rw [hc] at heo; cases heo
      | _ => rfl
    rw [this]
    rfl
  | trailers th =>
    refine ⟨⟨200, streamFields c.proto codec (responseComp c app) i, bs.flatten, th.allitems⟩, ⟨bs, [], by simp, .inr ?_⟩,
      hfin _ ⟨hbs, rfl, rfl, _, heo, rfl, rfl⟩⟩
    have : decide (c.proto = .grpc) = true := by
      unfold EndsWith EnvelopeWriter.end' at heo
      cases hc : c.proto with
      | grpc => rfl
      | connect =>
        rw [hc] at heo
        dsimp only at heo
        cases hx : (writerOf codec (responseComp c app)).connectEnd h'.info.trailers (e.map errorOf) with
        | error x => rw [hx] at heo; cases heo
        | ok x => rw [hx] at heo; cases heo
      | grpcWeb =>
        rw [hc] at heo
        dsimp only at heo
        cases hx : (writerOf codec (responseComp c app)).grpcWebEnd sc h'.info.trailers (e.map errorOf) with
        | error x => rw [hx] at heo; cases heo
        | ok x => rw [hx] at heo; cases heo
    rw [this]
    rfl

end

/-- the two spans of a stream that was read to its end, given what the caller got of it -/
theorem both_report_stream_span (c : Client Req Res) (ha : TraceableClient c.address) (sc : StatusCodec) (http : HttpClient) (sink : Sink) (cs : Circumstances) (left : Option Exc)
    (oc : OtelInterceptor C) (hoc : oc.client = true) (within : Option C) (os : OtelInterceptor D) (hos : os.client = false) (flavor : Bool) (current : Option D)
    (m : MethodInfo) (f : Req → RequestContext → Script Res) (req : Req) (user : UserHeaders) (t : Option Int) (key : List Char) (ctx : RequestContext)
    (hs : Traceable ctx.serverAddress) (hc : Traceable ctx.clientAddress) {write : Res → Except Exc Bytes} {i : Meta} {out : List Res} {h' : HState Req} {e : Option Exc}
    (hr : Runs write none (ready (Req := Req) ⟨[], none⟩) (f req ctx).acts (f req ctx).outcome i out h' e) (hcaught : Caught e)
    (henc : ∀ x, .emit x ∈ (f req ctx).acts → ∃ b, write x = .ok b) {headers trailers : Headers}
    (hg : StreamGets c.proto sink headers out trailers e (c.sendRequest sc http sink cs .serverStream req (withSpan oc within (c.context m (pys! "POST") user t true))).2) :
    let v := (c.observedServerStream sc http sink cs left oc within req m user t).use (out.length + 1)
    v.messages = out ∧ Seen (e.map errorOf) v.exc ∧ ∃ status, CallStatus v.exc status ∧ Reports (tracedIn (v.effects ++ v.later)) status ∧
      Reports (telemetryOfStream os flavor current f (out.length + 1) [⟨key, ctx, some req⟩]) status := by
  intro v
  obtain ⟨h1, _, h3⟩ := C103_server_stream_partial c ha sc http sink cs left oc hoc within req m user t out.length
  rw [hg.messages] at h1
  obtain ⟨v1, v2, _⟩ := h1 (Nat.lt_succ_self _)
  have hseen : Seen (e.map errorOf) v.exc := by
    rw [show v.exc = _ from v2]
    exact hg.outcome
  obtain ⟨status, s1, s2⟩ := h3 (fun x hx => by
    have hx : v.exc = some x := hx
    rw [hx] at hseen
    cases e with
    | none => cases hseen
    | some y =>
      obtain ⟨e', h, _⟩ := hseen
      cases h
      rfl)
  refine ⟨v1, hseen, status, s1, s2, ?_⟩
  obtain ⟨e1, e2, e3, e4, e5⟩ := genOf_use (C := D) (close' := (f req ctx).closeErr) hr rfl rfl henc []
  have := (watchGen_reports hos flavor current f req hs hc e2 e5 e4).1 (Nat.lt_succ_self _)
  rw [e3, ← e1] at this
  show Reports (_ ++ []) _
  rw [List.append_nil]
  have hrep : (reported e).map statusOf = status := by
    have s1 : CallStatus v.exc status := s1
    generalize v.exc = ve at hseen s1
    cases e with
    | none =>
      have hseen : ve = none := hseen
      subst hseen
      cases s1
      rfl
    | some x =>
      rw [show reported (some x) = some x from by show (some x).filter _ = some x; rw [Option.filter_some, if_pos (hcaught x rfl)]]
      obtain ⟨e', h, h', _⟩ := hseen
      subst h
      cases s1
      have hcode : e'.code = (errorOf x).code := congrArg (·.1) h'
      rw [hcode]
      exact congrArg some (code_errorOf x)
  rw [hrep] at this
  exact this

/-- **C104, streams of responses within a span, WSGI server**: a stream of a traced client from a traced handler, by any protocol, from a place with or without a current span, that the caller reads to its end: the messages and
the outcome are the handler's, as without tracing (C59), and both spans and durations report the same status, the one the caller learns at the end. (The caller asks for one message more than there are, and
so does the server.) Missing: streams given up before their end (`C104_violation_early_wsgi_all`), messages that cannot be encoded. -/
theorem C104_stream_span_wsgi_partial (c : Client Req Res) (ha : TraceableClient c.address) (app : App Req Res) (codec : ServerCodec Req Res) (m ms : MethodInfo)
    (oc : OtelInterceptor C) (hoc : oc.client = true) (within : Option C) (os : OtelInterceptor D) (hos : os.client = false) (current : Option D)
    (f : Req → RequestContext → Script Res) (req : Req) (user : UserHeaders) (t : Option Int)
    (h : StreamCall c app codec m ms (.serverStream (os.watchedGen false current f)) [req] user t) (sc : StatusCodec) (sink : Sink)
    (hsink : ∀ r, sink = some r → Built r.getTrailers) (cs : Circumstances) (hcs : Calm cs) (left : Option Exc)
    (hadd : AddsFields oc.telemetry within (c.context m (pys! "POST") user t true).requestHeaders) :
    ∃ rq, SendsOnly (· = rq) (fun http => (c.sendRequest sc http sink cs .serverStream req (withSpan oc within (c.context m (pys! "POST") user t true))).2) ∧
    ∀ env, WsgiSees c.address rq env → (c.proto = .grpc → env.sendTrailers = true) →
    TraceableRequest (wsgiScheme env.vars) ((wsgiHeaders env.vars).get (pys! "host")) (wsgiClient env.vars) →
    ∃ ctx, ∀ i out h' e, Runs (writerOf codec (responseComp c app)).write none (ready (Req := Req) ⟨[], none⟩) (f req ctx).acts (f req ctx).outcome i out h' e →
    RegularStream c codec sc (responseComp c app) i.headers out h'.info.trailers e →
    (∀ x, .emit x ∈ (f req ctx).acts → ∃ b, (writerOf codec (responseComp c app)).write x = .ok b) →
    (app.wsgi sc env).calls = [⟨methodPath m, ctx, some req⟩] ∧
    ∃ r, WsgiStreamGave (app.wsgi sc env) r ∧
    ∀ resp, ReceivedStream r resp → ∀ http : HttpClient, http.stream rq = .ok resp →
      let v := (c.observedServerStream sc http sink cs left oc within req m user t).use (out.length + 1)
      v.messages = out ∧ Seen (e.map errorOf) v.exc ∧ ∃ status, CallStatus v.exc status ∧ Reports (tracedIn (v.effects ++ v.later)) status ∧
        Reports (telemetryOfStream os false current f (out.length + 1) (app.wsgi sc env).calls) status := by
  obtain ⟨rq, _, hsend, hall⟩ := served_span_wsgi h sc sink hsink cs hcs _ true (fun _ => rfl) id (gets := fun _ headers out trailers e res => StreamGets c.proto sink headers out trailers e res) (fun _ _ _ _ _ _ _ _ _ _ _ _ _ hg => hg) oc within hadd
  refine ⟨rq, hsend, fun env henv htr ht => ?_⟩
  obtain ⟨ctx, hthe, hrun⟩ := hall env henv htr
  have hctx := hthe.context
  have hs : Traceable ctx.serverAddress := traceable_server ht (by rw [← hctx.headers]; exact hctx.server)
  have hc : Traceable ctx.clientAddress := by rw [hctx.client]; exact ht.2
  obtain ⟨w1, w2, _⟩ := watchedGen_eq (Res := Res) hos false current f req hs hc
  refine ⟨ctx, fun i out h' e hr hreg henc => ?_⟩
  obtain ⟨hcalls, _, r, hgave, hget⟩ := hrun (some req) _ _ (.serverStream _ req rfl rfl) i out h' e (by rw [w1, w2]; exact hr) hreg
  refine ⟨hcalls, r, hgave, fun resp hrec http hh => ?_⟩
  rw [hcalls]
  exact both_report_stream_span c ha sc http sink cs left oc hoc within os hos false current m f req user t _ ctx hs hc hr hreg.caught henc (hget resp hrec http hh)

/-- **C104, streams of responses within a span, ASGI server**: as on WSGI, while the client stays connected. -/
theorem C104_stream_span_asgi_partial (c : Client Req Res) (ha : TraceableClient c.address) (app : App Req Res) (codec : ServerCodec Req Res) (m ms : MethodInfo)
    (oc : OtelInterceptor C) (hoc : oc.client = true) (within : Option C) (os : OtelInterceptor D) (hos : os.client = false) (current : Option D)
    (f : Req → RequestContext → Script Res) (req : Req) (user : UserHeaders) (t : Option Int)
    (h : StreamCall c app codec m ms (.serverStream (os.watchedGen true current f)) [req] user t) (ho : Spec.Ordinary app) (sc : StatusCodec) (sink : Sink)
    (hsink : ∀ r, sink = some r → Built r.getTrailers) (cs : Circumstances) (hcs : Calm cs) (left : Option Exc)
    (hadd : AddsFields oc.telemetry within (c.context m (pys! "POST") user t true).requestHeaders) :
    ∃ rq, SendsOnly (· = rq) (fun http => (c.sendRequest sc http sink cs .serverStream req (withSpan oc within (c.context m (pys! "POST") user t true))).2) ∧
    ∀ scope env, AsgiSees c.address rq scope env → (c.proto = .grpc → scope.trailers = true) → Reliable env → env.cancelAfter = none →
      env.disconnectAt = none → (scope.rootPath = [] ∨ Dict.get? app.endpoints (scope.rootPath ++ methodPath m) = none) →
    ∃ ctx headers, asgiHeaders scope.headers Headers.empty = .ok headers ∧
    (TraceableRequest (asgiScheme scope) (headers.get (pys! "host")) (scope.client.map fun ca => ca.1 ++ pys! ":" ++ ca.2) →
    ∀ i out h' e, Runs (writerOf codec (responseComp c app)).write none (ready (Req := Req) ⟨[], none⟩) (f req ctx).acts (f req ctx).outcome i out h' e →
    RegularStream c codec sc (responseComp c app) i.headers out h'.info.trailers e →
    (∀ x, .emit x ∈ (f req ctx).acts → ∃ b, (writerOf codec (responseComp c app)).write x = .ok b) →
    (app.asgi sc scope env).calls = [⟨methodPath m, ctx, some req⟩] ∧
    ∃ r, AsgiStreamGave (app.asgi sc scope env) r ∧
    ∀ resp, ReceivedStream r resp → ∀ http : HttpClient, http.stream rq = .ok resp →
      let v := (c.observedServerStream sc http sink cs left oc within req m user t).use (out.length + 1)
      v.messages = out ∧ Seen (e.map errorOf) v.exc ∧ ∃ status, CallStatus v.exc status ∧ Reports (tracedIn (v.effects ++ v.later)) status ∧
        Reports (telemetryOfStream os true current f (out.length + 1) (app.asgi sc scope env).calls) status) := by
  obtain ⟨rq, _, hsend, hall⟩ := served_span_asgi h ho sc sink hsink cs hcs _ true (fun _ => rfl) id (gets := fun _ headers out trailers e res => StreamGets c.proto sink headers out trailers e res) (fun _ _ _ _ _ _ _ _ _ _ _ _ _ hg => hg) oc within hadd
  refine ⟨rq, hsend, fun scope env henv htr hrel hca hdis hroot => ?_⟩
  obtain ⟨ctx, headers, hh0, hthe, hrun⟩ := hall scope env henv htr hrel hca hdis hroot
  refine ⟨ctx, headers, hh0, fun ht i out h' e hr hreg henc => ?_⟩
  have hctx := hthe.context
  have hs : Traceable ctx.serverAddress := traceable_server ht (by rw [← hctx.headers]; exact hctx.server)
  have hc : Traceable ctx.clientAddress := by rw [hctx.client]; exact ht.2
  obtain ⟨w1, w2, w3⟩ := watchedGen_eq (Res := Res) hos true current f req hs hc
  obtain ⟨hcalls, _, r, hgave, hget⟩ := hrun (some req) _ _ (.serverStream _ req rfl rfl) i out h' e (by rw [w1, w2, w3 rfl]; exact hr) hreg
  refine ⟨hcalls, r, hgave, fun resp hrec http hh => ?_⟩
  rw [hcalls]
  exact both_report_stream_span c ha sc http sink cs left oc hoc within os hos true current m f req user t _ ctx hs hc hr hreg.caught henc (hget resp hrec http hh)

/-- … of a call with a stream of requests -/
theorem both_report_client_span (c : Client Req Res) (ha : TraceableClient c.address) (sc : StatusCodec) (http : HttpClient) (sink : Sink) (cs : Circumstances) (oc : OtelInterceptor C)
    (hoc : oc.client = true) (within : Option C) (os : OtelInterceptor D) (hos : os.client = false) (flavor : Bool) (current : Option D)
    (codec : ServerCodec Req Res) (comp : Compression) (m : MethodInfo) (f : ReqStream Req → RequestContext → Call Res) (reqs : List Req) (user : UserHeaders) (t : Option Int) (n : Nat)
    (key : List Char) (ctx : RequestContext) (hs : Traceable ctx.serverAddress) (hc : Traceable ctx.clientAddress)
    (hg : (∀ r b, (f ⟨reqs, none⟩ ctx).result = .ok r → codec.res.encode r = .ok b → (comp.compress b).length < 2 ^ 32) →
      Gets codec (f ⟨reqs, none⟩ ctx) (c.sendRequest sc http sink cs .clientStream (reqs, none) (withSpan oc within (c.context m (pys! "POST") user t true))).2.2) :
    TracedGets codec comp (f ⟨reqs, none⟩ ctx) (c.observedClientStream sc http sink cs oc within reqs none m user t)
      (telemetryOfKind os flavor current ⟨reqs, none⟩ n (.clientStream f) [⟨key, ctx, none⟩]) := by
  intro herr henc
  have hg := hg fun x b hx hb => by
    obtain ⟨d, hd, hl⟩ := henc x hx
    rw [hd] at hb
    cases hb
    exact hl
  obtain ⟨hv, _, hst⟩ := C103_client_stream_partial c ha sc http sink cs oc hoc within reqs none m user t
  rw [← hv] at hg
  obtain ⟨status, h1, h2⟩ := hst (fun e he => by
    rw [he] at hg
    cases hg
    rfl)
  refine ⟨hg, status, h1, h2, ?_⟩
  obtain ⟨_, hr⟩ := watch_eq (Res := Res) hos flavor current (fun (s : ReqStream Req) ctx => (f s ctx).on s) ⟨reqs, none⟩ (ctx := ctx) hs hc
  rw [call_on_whole, same_status h1 herr (fun x hx => let ⟨d, hd, _⟩ := henc x hx; ⟨d, hd⟩) hg] at hr
  show Reports (_ ++ []) _
  rw [List.append_nil]
  exact hr

/-- **C104, streams of requests within a span, WSGI server**: a traced call with a stream of requests and one response, by any protocol: as for unary calls. -/
theorem C104_client_stream_span_wsgi_partial (c : Client Req Res) (ha : TraceableClient c.address) (app : App Req Res) (codec : ServerCodec Req Res) (m ms : MethodInfo)
    (oc : OtelInterceptor C) (hoc : oc.client = true) (within : Option C) (os : OtelInterceptor D) (hos : os.client = false) (current : Option D)
    (f : ReqStream Req → RequestContext → Call Res) (reqs : List Req) (user : UserHeaders) (t : Option Int)
    (h : StreamCall c app codec m ms (os.handler false current (.clientStream f)) reqs user t) (sc : StatusCodec) (sink : Sink)
    (hsink : ∀ r, sink = some r → Built r.getTrailers) (cs : Circumstances) (hcs : Calm cs)
    (hadd : AddsFields oc.telemetry within (c.context m (pys! "POST") user t true).requestHeaders) :
    ∃ rq, SendsOnly (· = rq) (fun http => (c.sendRequest sc http sink cs .clientStream (reqs, none) (withSpan oc within (c.context m (pys! "POST") user t true))).2) ∧
    ∀ env, WsgiSees c.address rq env → (c.proto = .grpc → env.sendTrailers = true) →
    TraceableRequest (wsgiScheme env.vars) ((wsgiHeaders env.vars).get (pys! "host")) (wsgiClient env.vars) →
    ∃ ctx, ∀ r0 h0 script, Starts ⟨reqs, none⟩ ctx (.clientStream f) r0 h0 script →
    ∀ i out h' e, Runs (writerOf codec (responseComp c app)).write none h0 script.acts script.outcome i out h' e →
    RegularStream c codec sc (responseComp c app) i.headers out h'.info.trailers e →
    (app.wsgi sc env).calls = [⟨methodPath m, ctx, none⟩] ∧
    ∃ r, WsgiStreamGave (app.wsgi sc env) r ∧
    ∀ resp, ReceivedStream r resp → ∀ http : HttpClient, http.stream rq = .ok resp →
      TracedGets codec (responseComp c app) (f ⟨reqs, none⟩ ctx) (c.observedClientStream sc http sink cs oc within reqs none m user t)
        (telemetryOfKind os false current ⟨reqs, none⟩ (out.length + 1) (.clientStream f) (app.wsgi sc env).calls) := by
  obtain ⟨rq, _, hsend, hall⟩ := served_span_wsgi h sc sink hsink cs hcs _ true (fun _ => rfl) Client.single (gets := fun ctx headers _ trailers _ res => SingleGets c.proto codec (responseComp c app) sink (os.watched false current (fun (s : ReqStream Req) ctx => (f s ctx).on s) ⟨reqs, none⟩ ctx) headers trailers res) (by
      intro ctx req h0 script hstart close i out h' e hc hrun res hg
      cases hstart with
      | clientStream _ hr => exact single_gets hr hc rfl hrun hg) oc within hadd
  refine ⟨rq, hsend, fun env henv htr ht => ?_⟩
  obtain ⟨ctx, hthe, hrun⟩ := hall env henv htr
  have hctx := hthe.context
  have hs : Traceable ctx.serverAddress := traceable_server ht (by rw [← hctx.headers]; exact hctx.server)
  have hc : Traceable ctx.clientAddress := by rw [hctx.client]; exact ht.2
  have hw : os.watched false current (fun (s : ReqStream Req) ctx => (f s ctx).on s) ⟨reqs, none⟩ ctx = f ⟨reqs, none⟩ ctx :=
    (watch_eq (Res := Res) hos false current (fun (s : ReqStream Req) ctx => (f s ctx).on s) ⟨reqs, none⟩ (ctx := ctx) hs hc).1.trans (call_on_whole ..)
  refine ⟨ctx, fun r0 h0 script hst i out h' e hr hreg => ?_⟩
  cases hst with
  | clientStream _ hresp =>
    obtain ⟨hcalls, _, r, hgave, hget⟩ := hrun none _ script (.clientStream _ (by rw [hw]; exact hresp)) i out h' e hr hreg
    refine ⟨hcalls, r, hgave, fun resp hrec http hh => ?_⟩
    have hg := hget resp hrec http hh
    dsimp only at hg
    rw [hw] at hg
    rw [hcalls]
    exact both_report_client_span c ha sc http sink cs oc hoc within os hos false current codec _ m f reqs user t _ _ ctx hs hc hg.result

/-- **C104, streams of requests within a span, ASGI server**. -/
theorem C104_client_stream_span_asgi_partial (c : Client Req Res) (ha : TraceableClient c.address) (app : App Req Res) (codec : ServerCodec Req Res) (m ms : MethodInfo)
    (oc : OtelInterceptor C) (hoc : oc.client = true) (within : Option C) (os : OtelInterceptor D) (hos : os.client = false) (current : Option D)
    (f : ReqStream Req → RequestContext → Call Res) (reqs : List Req) (user : UserHeaders) (t : Option Int)
    (h : StreamCall c app codec m ms (os.handler true current (.clientStream f)) reqs user t) (ho : Spec.Ordinary app) (sc : StatusCodec) (sink : Sink)
    (hsink : ∀ r, sink = some r → Built r.getTrailers) (cs : Circumstances) (hcs : Calm cs)
    (hadd : AddsFields oc.telemetry within (c.context m (pys! "POST") user t true).requestHeaders) :
    ∃ rq, SendsOnly (· = rq) (fun http => (c.sendRequest sc http sink cs .clientStream (reqs, none) (withSpan oc within (c.context m (pys! "POST") user t true))).2) ∧
    ∀ scope env, AsgiSees c.address rq scope env → (c.proto = .grpc → scope.trailers = true) → Reliable env → env.cancelAfter = none →
      env.disconnectAt = none → (scope.rootPath = [] ∨ Dict.get? app.endpoints (scope.rootPath ++ methodPath m) = none) →
    ∃ ctx headers, asgiHeaders scope.headers Headers.empty = .ok headers ∧
    (TraceableRequest (asgiScheme scope) (headers.get (pys! "host")) (scope.client.map fun ca => ca.1 ++ pys! ":" ++ ca.2) →
    ∀ r0 h0 script, Starts ⟨reqs, none⟩ ctx (.clientStream f) r0 h0 script →
    ∀ i out h' e, Runs (writerOf codec (responseComp c app)).write none h0 script.acts script.outcome i out h' e →
    RegularStream c codec sc (responseComp c app) i.headers out h'.info.trailers e →
    (app.asgi sc scope env).calls = [⟨methodPath m, ctx, none⟩] ∧
    ∃ r, AsgiStreamGave (app.asgi sc scope env) r ∧
    ∀ resp, ReceivedStream r resp → ∀ http : HttpClient, http.stream rq = .ok resp →
      TracedGets codec (responseComp c app) (f ⟨reqs, none⟩ ctx) (c.observedClientStream sc http sink cs oc within reqs none m user t)
        (telemetryOfKind os true current ⟨reqs, none⟩ (out.length + 1) (.clientStream f) (app.asgi sc scope env).calls)) := by
  obtain ⟨rq, _, hsend, hall⟩ := served_span_asgi h ho sc sink hsink cs hcs _ true (fun _ => rfl) Client.single (gets := fun ctx headers _ trailers _ res => SingleGets c.proto codec (responseComp c app) sink (os.watched true current (fun (s : ReqStream Req) ctx => (f s ctx).on s) ⟨reqs, none⟩ ctx) headers trailers res) (by
      intro ctx req h0 script hstart close i out h' e hc hrun res hg
      cases hstart with
      | clientStream _ hr => exact single_gets hr hc rfl hrun hg) oc within hadd
  refine ⟨rq, hsend, fun scope env henv htr hrel hca hdis hroot => ?_⟩
  obtain ⟨ctx, headers, hh0, hthe, hrun⟩ := hall scope env henv htr hrel hca hdis hroot
  refine ⟨ctx, headers, hh0, fun ht r0 h0 script hst i out h' e hr hreg => ?_⟩
  have hctx := hthe.context
  have hs : Traceable ctx.serverAddress := traceable_server ht (by rw [← hctx.headers]; exact hctx.server)
  have hc : Traceable ctx.clientAddress := by rw [hctx.client]; exact ht.2
  have hw : os.watched true current (fun (s : ReqStream Req) ctx => (f s ctx).on s) ⟨reqs, none⟩ ctx = f ⟨reqs, none⟩ ctx :=
    (watch_eq (Res := Res) hos true current (fun (s : ReqStream Req) ctx => (f s ctx).on s) ⟨reqs, none⟩ (ctx := ctx) hs hc).1.trans (call_on_whole ..)
  cases hst with
  | clientStream _ hresp =>
    obtain ⟨hcalls, _, r, hgave, hget⟩ := hrun none _ script (.clientStream _ (by rw [hw]; exact hresp)) i out h' e (by rw [responds_close hresp]; exact hr) hreg
    refine ⟨hcalls, r, hgave, fun resp hrec http hh => ?_⟩
    have hg := hget resp hrec http hh
    dsimp only at hg
    rw [hw] at hg
    rw [hcalls]
    exact both_report_client_span c ha sc http sink cs oc hoc within os hos true current codec _ m f reqs user t _ _ ctx hs hc hg.result

/-- the two spans of a stream in both directions that was read to its end -/
theorem both_report_bidi_span (c : Client Req Res) (ha : TraceableClient c.address) (sc : StatusCodec) (http : HttpClient) (sink : Sink) (cs : Circumstances) (left : Option Exc)
    (oc : OtelInterceptor C) (hoc : oc.client = true) (within : Option C) (m : MethodInfo) (reqs : List Req) (user : UserHeaders) (t : Option Int)
    {out : List Res} {e : Option Exc} {headers trailers : Headers}
    (hg : StreamGets c.proto sink headers out trailers e (c.sendRequest sc http sink cs .bidi (reqs, none) (withSpan oc within (c.context m (pys! "POST") user t true))).2) :
    let v := (c.observedBidiStream sc http sink cs left oc within reqs none m user t).use (out.length + 1)
    v.messages = out ∧ Seen (e.map errorOf) v.exc ∧ CallStatus v.exc (e.map fun x => codeName (errorOf x).code) ∧
      Reports (tracedIn (v.effects ++ v.later)) (e.map fun x => codeName (errorOf x).code) := by
  intro v
  obtain ⟨h1, _, h3⟩ := C103_bidi_stream_partial c ha sc http sink cs left oc hoc within reqs none m user t out.length
  rw [hg.messages] at h1
  obtain ⟨v1, v2, _⟩ := h1 (Nat.lt_succ_self _)
  have hseen : Seen (e.map errorOf) v.exc := by
    rw [show v.exc = _ from v2]
    exact hg.outcome
  obtain ⟨status, s1, s2⟩ := h3 (fun x hx => by
    have hx : v.exc = some x := hx
    rw [hx] at hseen
    cases e with
    | none => cases hseen
    | some y =>
      obtain ⟨e', h, _⟩ := hseen
      cases h
      rfl)
  have hstatus : status = e.map fun x => codeName (errorOf x).code := by
    have s1 : CallStatus v.exc status := s1
    generalize v.exc = ve at hseen s1
    cases e with
    | none =>
      have hseen : ve = none := hseen
      subst hseen
      cases s1
      rfl
    | some x =>
      obtain ⟨e', h, h', _⟩ := hseen
      subst h
      cases s1
      have hcode : e'.code = (errorOf x).code := congrArg (·.1) h'
      rw [hcode]
      rfl
  subst hstatus
  exact ⟨v1, hseen, s1, s2⟩

/-- **C104, streams in both directions within a span, WSGI server**: as for streams of responses. -/
theorem C104_bidi_span_wsgi_partial (c : Client Req Res) (ha : TraceableClient c.address) (app : App Req Res) (codec : ServerCodec Req Res) (m ms : MethodInfo)
    (oc : OtelInterceptor C) (hoc : oc.client = true) (within : Option C) (os : OtelInterceptor D) (hos : os.client = false) (current : Option D)
    (f : ReqStream Req → RequestContext → Script Res) (reqs : List Req) (user : UserHeaders) (t : Option Int)
    (h : StreamCall c app codec m ms (os.handler false current (.bidi f)) reqs user t) (sc : StatusCodec) (sink : Sink)
    (hsink : ∀ r, sink = some r → Built r.getTrailers) (cs : Circumstances) (hcs : Calm cs) (left : Option Exc)
    (hadd : AddsFields oc.telemetry within (c.context m (pys! "POST") user t true).requestHeaders) :
    ∃ rq, SendsOnly (· = rq) (fun http => (c.sendRequest sc http sink cs .bidi (reqs, none) (withSpan oc within (c.context m (pys! "POST") user t true))).2) ∧
    ∀ env, WsgiSees c.address rq env → (c.proto = .grpc → env.sendTrailers = true) →
    TraceableRequest (wsgiScheme env.vars) ((wsgiHeaders env.vars).get (pys! "host")) (wsgiClient env.vars) →
    ∃ ctx, ∀ i out h' e, Runs (writerOf codec (responseComp c app)).write none (ready (⟨reqs, none⟩ : ReqStream Req)) (f ⟨reqs, none⟩ ctx).acts (f ⟨reqs, none⟩ ctx).outcome i out h' e →
    RegularStream c codec sc (responseComp c app) i.headers out h'.info.trailers e →
    (∀ x, .emit x ∈ (f ⟨reqs, none⟩ ctx).acts → ∃ b, (writerOf codec (responseComp c app)).write x = .ok b) →
    (app.wsgi sc env).calls = [⟨methodPath m, ctx, none⟩] ∧
    ∃ r, WsgiStreamGave (app.wsgi sc env) r ∧
    ∀ resp, ReceivedStream r resp → ∀ http : HttpClient, http.stream rq = .ok resp →
      let v := (c.observedBidiStream sc http sink cs left oc within reqs none m user t).use (out.length + 1)
      v.messages = out ∧ Seen (e.map errorOf) v.exc ∧ ∃ status, CallStatus v.exc status ∧ Reports (tracedIn (v.effects ++ v.later)) status ∧
        Reports (telemetryOfKind os false current ⟨reqs, none⟩ (out.length + 1) (.bidi f) (app.wsgi sc env).calls) status := by
  obtain ⟨rq, _, hsend, hall⟩ := served_span_wsgi h sc sink hsink cs hcs _ true (fun _ => rfl) id (gets := fun _ headers out trailers e res => StreamGets c.proto sink headers out trailers e res) (fun _ _ _ _ _ _ _ _ _ _ _ _ _ hg => hg) oc within hadd
  refine ⟨rq, hsend, fun env henv htr ht => ?_⟩
  obtain ⟨ctx, hthe, hrun⟩ := hall env henv htr
  have hctx := hthe.context
  have hs : Traceable ctx.serverAddress := traceable_server ht (by rw [← hctx.headers]; exact hctx.server)
  have hc : Traceable ctx.clientAddress := by rw [hctx.client]; exact ht.2
  refine ⟨ctx, fun i out h' e hr hreg henc => ?_⟩
  obtain ⟨⟨script', hst', hr', _⟩, hrep⟩ := handler_watched (Res := Res) hos false current hs hc (.bidi f) henc hr hreg.caught (methodPath m)
  obtain ⟨hcalls, _, r, hgave, hget⟩ := hrun _ _ script' hst' i out h' e hr' hreg
  refine ⟨hcalls, r, hgave, fun resp hrec http hh => ?_⟩
  rw [hcalls]
  obtain ⟨b1, b2, b3, b4⟩ := both_report_bidi_span c ha sc http sink cs left oc hoc within m reqs user t (hget resp hrec http hh)
  exact ⟨b1, b2, _, b3, b4, hrep⟩

/-- **C104, streams in both directions within a span, ASGI server**. -/
theorem C104_bidi_span_asgi_partial (c : Client Req Res) (ha : TraceableClient c.address) (app : App Req Res) (codec : ServerCodec Req Res) (m ms : MethodInfo)
    (oc : OtelInterceptor C) (hoc : oc.client = true) (within : Option C) (os : OtelInterceptor D) (hos : os.client = false) (current : Option D)
    (f : ReqStream Req → RequestContext → Script Res) (reqs : List Req) (user : UserHeaders) (t : Option Int)
    (h : StreamCall c app codec m ms (os.handler true current (.bidi f)) reqs user t) (ho : Spec.Ordinary app) (sc : StatusCodec) (sink : Sink)
    (hsink : ∀ r, sink = some r → Built r.getTrailers) (cs : Circumstances) (hcs : Calm cs) (left : Option Exc)
    (hadd : AddsFields oc.telemetry within (c.context m (pys! "POST") user t true).requestHeaders) :
    ∃ rq, SendsOnly (· = rq) (fun http => (c.sendRequest sc http sink cs .bidi (reqs, none) (withSpan oc within (c.context m (pys! "POST") user t true))).2) ∧
    ∀ scope env, AsgiSees c.address rq scope env → (c.proto = .grpc → scope.trailers = true) → Reliable env → env.cancelAfter = none →
      env.disconnectAt = none → (scope.rootPath = [] ∨ Dict.get? app.endpoints (scope.rootPath ++ methodPath m) = none) →
    ∃ ctx headers, asgiHeaders scope.headers Headers.empty = .ok headers ∧
    (TraceableRequest (asgiScheme scope) (headers.get (pys! "host")) (scope.client.map fun ca => ca.1 ++ pys! ":" ++ ca.2) →
    ∀ i out h' e, Runs (writerOf codec (responseComp c app)).write none (ready (⟨reqs, none⟩ : ReqStream Req)) (f ⟨reqs, none⟩ ctx).acts (f ⟨reqs, none⟩ ctx).outcome i out h' e →
    RegularStream c codec sc (responseComp c app) i.headers out h'.info.trailers e →
    (∀ x, .emit x ∈ (f ⟨reqs, none⟩ ctx).acts → ∃ b, (writerOf codec (responseComp c app)).write x = .ok b) →
    (app.asgi sc scope env).calls = [⟨methodPath m, ctx, none⟩] ∧
    ∃ r, AsgiStreamGave (app.asgi sc scope env) r ∧
    ∀ resp, ReceivedStream r resp → ∀ http : HttpClient, http.stream rq = .ok resp →
      let v := (c.observedBidiStream sc http sink cs left oc within reqs none m user t).use (out.length + 1)
      v.messages = out ∧ Seen (e.map errorOf) v.exc ∧ ∃ status, CallStatus v.exc status ∧ Reports (tracedIn (v.effects ++ v.later)) status ∧
        Reports (telemetryOfKind os true current ⟨reqs, none⟩ (out.length + 1) (.bidi f) (app.asgi sc scope env).calls) status) := by
  obtain ⟨rq, _, hsend, hall⟩ := served_span_asgi h ho sc sink hsink cs hcs _ true (fun _ => rfl) id (gets := fun _ headers out trailers e res => StreamGets c.proto sink headers out trailers e res) (fun _ _ _ _ _ _ _ _ _ _ _ _ _ hg => hg) oc within hadd
  refine ⟨rq, hsend, fun scope env henv htr hrel hca hdis hroot => ?_⟩
  obtain ⟨ctx, headers, hh0, hthe, hrun⟩ := hall scope env henv htr hrel hca hdis hroot
  refine ⟨ctx, headers, hh0, fun ht i out h' e hr hreg henc => ?_⟩
  have hctx := hthe.context
  have hs : Traceable ctx.serverAddress := traceable_server ht (by rw [← hctx.headers]; exact hctx.server)
  have hc : Traceable ctx.clientAddress := by rw [hctx.client]; exact ht.2
  obtain ⟨⟨script', hst', hr', hcl'⟩, hrep⟩ := handler_watched (Res := Res) hos true current hs hc (.bidi f) henc hr hreg.caught (methodPath m)
  obtain ⟨hcalls, _, r, hgave, hget⟩ := hrun _ _ script' hst' i out h' e (by rw [hcl' rfl]; exact hr') hreg
  refine ⟨hcalls, r, hgave, fun resp hrec http hh => ?_⟩
  rw [hcalls]
  obtain ⟨b1, b2, b3, b4⟩ := both_report_bidi_span c ha sc http sink cs left oc hoc within m reqs user t (hget resp hrec http hh)
  exact ⟨b1, b2, _, b3, b4, hrep⟩

/-- **C104, gRPC and gRPC-Web within a span, WSGI server**: as by Connect. -/
theorem C104_grpc_span_wsgi_partial (c : Client Req Res) (hproto : c.proto ≠ .connect) (ha : TraceableClient c.address) (app : App Req Res) (codec : ServerCodec Req Res) (m ms : MethodInfo)
    (oc : OtelInterceptor C) (hoc : oc.client = true) (within : Option C) (os : OtelInterceptor D) (hos : os.client = false) (current : Option D)
    (f : Req → RequestContext → Call Res) (req : Req) (user : UserHeaders) (t : Option Int) (useGet : Bool)
    (h : StreamCall c app codec m ms (.unary (os.watched false current f)) [req] user t) (sc : StatusCodec) (sink : Sink)
    (hsink : ∀ r, sink = some r → Built r.getTrailers) (cs : Circumstances) (hcs : Calm cs)
    (hadd : AddsFields oc.telemetry within (c.context m (if useGet then pys! "GET" else pys! "POST") user t false).requestHeaders) :
    ∃ rq, SendsOnly (· = rq) (fun http => c.sendUnary sc http sink cs (withSpan oc within (c.context m (if useGet then pys! "GET" else pys! "POST") user t false)) req) ∧
    ∀ env, WsgiSees c.address rq env → (c.proto = .grpc → env.sendTrailers = true) →
    TraceableRequest (wsgiScheme env.vars) ((wsgiHeaders env.vars).get (pys! "host")) (wsgiClient env.vars) →
    ∃ ctx, ∀ r0 h0 script, Starts ⟨[req], none⟩ ctx (.unary f) r0 h0 script →
    ∀ i out h' e, Runs (writerOf codec (responseComp c app)).write none h0 script.acts script.outcome i out h' e →
    RegularStream c codec sc (responseComp c app) i.headers out h'.info.trailers e →
    (app.wsgi sc env).calls = [⟨methodPath m, ctx, some req⟩] ∧
    ∃ r, WsgiStreamGave (app.wsgi sc env) r ∧
    ∀ resp, ReceivedStream r resp → ∀ http : HttpClient, http.stream rq = .ok resp →
      TracedGets codec (responseComp c app) (f req ctx) (c.observedUnary sc http sink cs oc within req m user t useGet)
        (telemetryOf os false current f (app.wsgi sc env).calls) := by
  have he : (fun http : HttpClient => c.sendUnary sc http sink cs (withSpan oc within (c.context m (if useGet then pys! "GET" else pys! "POST") user t false)) req) = fun http =>
      Client.single (c.bidi sc http.stream sink cs (withSpan oc within (c.context m (if useGet then pys! "GET" else pys! "POST") user t false)) [req] none) := by
    funext http
    unfold Client.sendUnary
    cases hc : c.proto with
    | connect => exact absurd hc hproto
    | _ => rfl
  rw [he]
  have hres : ∀ http, (c.observedUnary sc http sink cs oc within req m user t useGet).result = (Client.single (c.bidi sc http.stream sink cs
      (withSpan oc within (c.context m (if useGet then pys! "GET" else pys! "POST") user t false)) [req] none)).2 := fun http =>
    ((C103_unary_partial c ha sc http sink cs oc hoc within req m user t useGet).1).trans (congrArg (·.2) (congrFun he http))
  obtain ⟨rq, _, hsend, hall⟩ := served_span_wsgi h sc sink hsink cs hcs _ false (fun hc => absurd hc hproto) Client.single
    (gets := fun ctx headers _ trailers _ res => SingleGets c.proto codec (responseComp c app) sink (os.watched false current f req ctx) headers trailers res) (by
      intro ctx req' h0 script hstart close i out h' e hc hrun res hg
      cases hstart with
      | unary _ m' hm' _ hr =>
        cases hm'
        exact single_gets hr hc rfl hrun hg) oc within hadd
  refine ⟨rq, hsend, fun env henv htr ht => ?_⟩
  obtain ⟨ctx, hthe, hrun⟩ := hall env henv htr
  have hctx := hthe.context
  have hs : Traceable ctx.serverAddress := traceable_server ht (by rw [← hctx.headers]; exact hctx.server)
  have hc : Traceable ctx.clientAddress := by rw [hctx.client]; exact ht.2
  have hw := (watch_eq (Res := Res) hos false current f req (ctx := ctx) hs hc).1
  refine ⟨ctx, fun r0 h0 script hst i out h' e hr hreg => ?_⟩
  obtain ⟨hst', rfl⟩ := starts_watched hw hst
  obtain ⟨hcalls, _, r, hgave, hget⟩ := hrun _ h0 script hst' i out h' e hr hreg
  refine ⟨hcalls, r, hgave, fun resp hrec http hh herr henc => ?_⟩
  have hg := hget resp hrec http hh
  dsimp only at hg
  rw [hw] at hg
  rw [hcalls]
  have hg : Gets codec (f req ctx) (c.observedUnary sc http sink cs oc within req m user t useGet).result := by
    rw [hres]
    exact hg.result fun x b hx hb => by
      obtain ⟨d, hd, hl⟩ := henc x hx
      rw [hd] at hb
      cases hb
      exact hl
  exact ⟨hg, both_report_span c ha sc http sink cs oc hoc within os hos false current codec m f req user t useGet _ ctx hs hc herr
    (fun x hx => let ⟨d, hd, _⟩ := henc x hx; ⟨d, hd⟩) hg⟩

/-- **C104, gRPC and gRPC-Web within a span, ASGI server**. -/
theorem C104_grpc_span_asgi_partial (c : Client Req Res) (hproto : c.proto ≠ .connect) (ha : TraceableClient c.address) (app : App Req Res) (codec : ServerCodec Req Res) (m ms : MethodInfo)
    (oc : OtelInterceptor C) (hoc : oc.client = true) (within : Option C) (os : OtelInterceptor D) (hos : os.client = false) (current : Option D)
    (f : Req → RequestContext → Call Res) (req : Req) (user : UserHeaders) (t : Option Int) (useGet : Bool)
    (h : StreamCall c app codec m ms (.unary (os.watched true current f)) [req] user t) (ho : Spec.Ordinary app) (sc : StatusCodec) (sink : Sink)
    (hsink : ∀ r, sink = some r → Built r.getTrailers) (cs : Circumstances) (hcs : Calm cs)
    (hadd : AddsFields oc.telemetry within (c.context m (if useGet then pys! "GET" else pys! "POST") user t false).requestHeaders) :
    ∃ rq, SendsOnly (· = rq) (fun http => c.sendUnary sc http sink cs (withSpan oc within (c.context m (if useGet then pys! "GET" else pys! "POST") user t false)) req) ∧
    ∀ scope env, AsgiSees c.address rq scope env → (c.proto = .grpc → scope.trailers = true) → Reliable env → env.cancelAfter = none →
      env.disconnectAt = none → (scope.rootPath = [] ∨ Dict.get? app.endpoints (scope.rootPath ++ methodPath m) = none) →
    ∃ ctx headers, asgiHeaders scope.headers Headers.empty = .ok headers ∧
    (TraceableRequest (asgiScheme scope) (headers.get (pys! "host")) (scope.client.map fun ca => ca.1 ++ pys! ":" ++ ca.2) →
    ∀ r0 h0 script, Starts ⟨[req], none⟩ ctx (.unary f) r0 h0 script →
    ∀ i out h' e, Runs (writerOf codec (responseComp c app)).write script.closeErr h0 script.acts script.outcome i out h' e →
    RegularStream c codec sc (responseComp c app) i.headers out h'.info.trailers e →
    (app.asgi sc scope env).calls = [⟨methodPath m, ctx, some req⟩] ∧
    ∃ r, AsgiStreamGave (app.asgi sc scope env) r ∧
    ∀ resp, ReceivedStream r resp → ∀ http : HttpClient, http.stream rq = .ok resp →
      TracedGets codec (responseComp c app) (f req ctx) (c.observedUnary sc http sink cs oc within req m user t useGet)
        (telemetryOf os true current f (app.asgi sc scope env).calls)) := by
  have he : (fun http : HttpClient => c.sendUnary sc http sink cs (withSpan oc within (c.context m (if useGet then pys! "GET" else pys! "POST") user t false)) req) = fun http =>
      Client.single (c.bidi sc http.stream sink cs (withSpan oc within (c.context m (if useGet then pys! "GET" else pys! "POST") user t false)) [req] none) := by
    funext http
    unfold Client.sendUnary
    cases hc : c.proto with
    | connect => exact absurd hc hproto
    | _ => rfl
  rw [he]
  have hres : ∀ http, (c.observedUnary sc http sink cs oc within req m user t useGet).result = (Client.single (c.bidi sc http.stream sink cs
      (withSpan oc within (c.context m (if useGet then pys! "GET" else pys! "POST") user t false)) [req] none)).2 := fun http =>
    ((C103_unary_partial c ha sc http sink cs oc hoc within req m user t useGet).1).trans (congrArg (·.2) (congrFun he http))
  obtain ⟨rq, _, hsend, hall⟩ := served_span_asgi h ho sc sink hsink cs hcs _ false (fun hc => absurd hc hproto) Client.single
    (gets := fun ctx headers _ trailers _ res => SingleGets c.proto codec (responseComp c app) sink (os.watched true current f req ctx) headers trailers res) (by
      intro ctx req' h0 script hstart close i out h' e hc hrun res hg
      cases hstart with
      | unary _ m' hm' _ hr =>
        cases hm'
        exact single_gets hr hc rfl hrun hg) oc within hadd
  refine ⟨rq, hsend, fun scope env henv htr hrel hca hdis hroot => ?_⟩
  obtain ⟨ctx, headers, hh0, hthe, hrun⟩ := hall scope env henv htr hrel hca hdis hroot
  refine ⟨ctx, headers, hh0, fun ht r0 h0 script hst i out h' e hr hreg => ?_⟩
  have hctx := hthe.context
  have hs : Traceable ctx.serverAddress := traceable_server ht (by rw [← hctx.headers]; exact hctx.server)
  have hc : Traceable ctx.clientAddress := by rw [hctx.client]; exact ht.2
  have hw := (watch_eq (Res := Res) hos true current f req (ctx := ctx) hs hc).1
  obtain ⟨hst', rfl⟩ := starts_watched hw hst
  obtain ⟨hcalls, _, r, hgave, hget⟩ := hrun _ h0 script hst' i out h' e hr hreg
  refine ⟨hcalls, r, hgave, fun resp hrec http hh herr henc => ?_⟩
  have hg := hget resp hrec http hh
  dsimp only at hg
  rw [hw] at hg
  rw [hcalls]
  have hg : Gets codec (f req ctx) (c.observedUnary sc http sink cs oc within req m user t useGet).result := by
    rw [hres]
    exact hg.result fun x b hx hb => by
      obtain ⟨d, hd, hl⟩ := henc x hx
      rw [hd] at hb
      cases hb
      exact hl
  exact ⟨hg, both_report_span c ha sc http sink cs oc hoc within os hos true current codec m f req user t useGet _ ctx hs hc herr
    (fun x hx => let ⟨d, hd, _⟩ := henc x hx; ⟨d, hd⟩) hg⟩

end

/-! ### the hypotheses are met -/

/-- the headers of the calls, as the client builds them -/
theorem chat_span_built (p : Proto) (stream : Bool) (h : p = .connect → stream = true) :
    Built ((chatClient p).context echoInfo (pys! "POST") pairUser (some 1500) stream).requestHeaders := by
  cases p with
  | connect =>
    cases h rfl
    exact ⟨[.add (pys! "x-a") (pys! "1"), .add (pys! "x-a") (pys! "2"), .setItem (pys! "user-agent") (pys! "ua"), .setItem (pys! "connect-protocol-version") (pys! "1"), .setItem (pys! "connect-accept-encoding") (pys! "gzip,identity"), .setItem (pys! "connect-content-encoding") (pys! "gzip"), .setItem (pys! "content-type") (pys! "application/connect+raw"), .setItem (pys! "connect-timeout-ms") (pys! "1500")], by decide +kernel⟩
  | grpc => exact ⟨[.add (pys! "x-a") (pys! "1"), .add (pys! "x-a") (pys! "2"), .setItem (pys! "te") (pys! "trailers"), .setItem (pys! "user-agent") (pys! "ua"), .setItem (pys! "grpc-accept-encoding") (pys! "gzip,identity"), .setItem (pys! "grpc-encoding") (pys! "gzip"), .setItem (pys! "content-type") (pys! "application/grpc+raw"), .setItem (pys! "grpc-timeout") (pys! "1500m")], by cases stream <;> decide +kernel⟩
  | grpcWeb => exact ⟨[.add (pys! "x-a") (pys! "1"), .add (pys! "x-a") (pys! "2"), .setItem (pys! "te") (pys! "trailers"), .setItem (pys! "user-agent") (pys! "ua"), .setItem (pys! "grpc-accept-encoding") (pys! "gzip,identity"), .setItem (pys! "grpc-encoding") (pys! "gzip"), .setItem (pys! "content-type") (pys! "application/grpc-web+raw"), .setItem (pys! "grpc-timeout") (pys! "1500m")], by cases stream <;> decide +kernel⟩

/-- Calls within the span `s`, of streams and by gRPC: the propagator adds a field to the headers of each. (The calls and the runs are those shown for calls outside a span, in `TracedPair`, `TracedStreams` and `TracedKinds`.) -/
example (p : Proto) (stream : Bool) (h : p = .connect → stream = true) :
    let hs := ((chatClient p).context echoInfo (pys! "POST") pairUser (some 1500) stream).requestHeaders
    AddsFields tracingClient.telemetry (some (pys! "s")) hs ∧ (tracingClient.telemetry.inject (some (pys! "s")) hs).getall (pys! "traceparent") = [pys! "s"] ∧
    hs.getall (pys! "traceparent") = [] := by
  intro hs
  have hb : Built hs := chat_span_built p stream h
  refine ⟨demo_adds hb ?_ _, ?_, ?_⟩ <;> (cases p <;> cases stream <;> decide +kernel)

end Props
