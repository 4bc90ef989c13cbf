import Verif.Spec.TracedSpans
import Verif.Props.TracedKinds
/-
C104, calls from within a span.
-/
namespace Props
open Conn Py Spec

section
variable {C D Req Res : Type}

/-- a server that is given a request is given every request with the same fields and fewer -/
theorem wsgiSees_fewer {address : List Char} {rq rq' : HttpRequest} {env : Environ} (h : WsgiSees address rq' env) (hm : rq'.method = rq.method) (hu : rq'.url = rq.url)
    (hb : rq'.body = rq.body) (hf : ∀ n, fieldValues rq.headers n ≠ [] ∨ n ∈ protocolNames → fieldValues rq'.headers n = fieldValues rq.headers n) : WsgiSees address rq env where
  method := hm ▸ h.method
  path p hp e := h.path p hp (hu.trans e)
  query p q hp e := h.query p q hp (hu.trans e)
  distinct := h.distinct
  field n hn e := by
    have := hf n (.inl e)
    rw [← this]
    exact h.field n hn (by rw [this]; exact e)
  unset n hn e := h.unset n hn (by rw [hf n (.inr hn)]; exact e)
  pieces := h.pieces
  body := hb ▸ h.body
  length := hb ▸ h.length

theorem asgiSees_fewer {address : List Char} {rq rq' : HttpRequest} {scope : Scope} {env : Env} (h : AsgiSees address rq' scope env) (hm : rq'.method = rq.method) (hu : rq'.url = rq.url)
    (hb : rq'.body = rq.body) (hf : ∀ n, fieldValues rq.headers n ≠ [] ∨ n ∈ protocolNames → fieldValues rq'.headers n = fieldValues rq.headers n) : AsgiSees address rq scope env where
  method := hm ▸ h.method
  path p hp e := h.path p hp (hu.trans e)
  query p q hp e := h.query p q hp (hu.trans e)
  fields := by
    obtain ⟨fs, h1, h2, h3⟩ := h.fields
    refine ⟨fs, h1, fun n hn e => ?_, fun n hn e => h3 n hn (by rw [hf n (.inr hn)]; exact e)⟩
    have := hf n (.inl e)
    rw [← this]
    exact h2 n hn (by rw [this]; exact e)
  body := hb ▸ h.body

/-- the request of a call within a span, and the one without -/
theorem spanRequest (c : Client Req Res) (oc : OtelInterceptor C) (current : Option C) (ctx : RequestContext) (hi : Headers.Inv ctx.requestHeaders)
    (ha : AddsFields oc.telemetry current ctx.requestHeaders) (data : Bytes) :
    let rq := c.unaryRequest ctx data
    let rq' := c.unaryRequest (withSpan oc current ctx) data
    rq'.method = rq.method ∧ rq'.url = rq.url ∧ rq'.body = rq.body ∧
      ∀ n, fieldValues rq.headers n ≠ [] ∨ n ∈ protocolNames → fieldValues rq'.headers n = fieldValues rq.headers n := by
  intro rq rq'
  have hi' : Headers.Inv (withSpan oc current ctx).requestHeaders := ha.built.inv
  have hlow := Headers.allitems_low hi
  have hlow' := Headers.allitems_low hi'
  have hsame : ∀ n, ctx.requestHeaders.getall n ≠ [] ∨ lower n ∈ protocolNames →
      fieldValues (withSpan oc current ctx).requestHeaders.allitems n = fieldValues ctx.requestHeaders.allitems n := by
    intro n h
    rw [fieldValues_allitems hi', fieldValues_allitems hi]
    rcases h with h | h
    · exact ha.kept n h
    · exact ha.protocol n h
  have hget : HTTPHeaders.get (withSpan oc current ctx).requestHeaders.allitems (pys! "content-encoding") = HTTPHeaders.get ctx.requestHeaders.allitems (pys! "content-encoding") := by
    rw [http_get_eq _ hlow', http_get_eq _ hlow, hsame _ (.inr (by decide +kernel))]
  have hplow : ∀ n ∈ protocolNames, lower n ∈ protocolNames := by decide +kernel
  by_cases hg : ctx.httpMethod = pys! "GET"
  · have e1 : rq = { method := pys! "GET", url := c.url ctx.method ++ pys! "?" ++ urlencode (prepareGetParams c.codec.name data ctx.requestHeaders.allitems).1
                     headers := (prepareGetParams c.codec.name data ctx.requestHeaders.allitems).2.drop' (pys! "content-type"), timeoutMs := ctx.timeoutMs, body := [] } := if_pos hg
    have e2 : rq' = { method := pys! "GET", url := c.url ctx.method ++ pys! "?" ++ urlencode (prepareGetParams c.codec.name data (withSpan oc current ctx).requestHeaders.allitems).1
                      headers := (prepareGetParams c.codec.name data (withSpan oc current ctx).requestHeaders.allitems).2.drop' (pys! "content-type")
                      timeoutMs := ctx.timeoutMs, body := [] } := if_pos hg
    have hurl : rq'.url = rq.url := by
      rw [e1, e2]
      dsimp only
      unfold prepareGetParams
      dsimp only
      rw [hget]
      cases HTTPHeaders.get ctx.requestHeaders.allitems (pys! "content-encoding") <;> rfl
    refine ⟨by rw [e1, e2], hurl, by rw [e1, e2], fun n hn => ?_⟩
    by_cases h1 : lower n = pys! "content-type"
    · rw [e1, e2]
      dsimp only
      have hd : ∀ (h : HTTPHeaders), (∀ p ∈ h, lower p.1 = p.1) → ∀ p ∈ (prepareGetParams c.codec.name data h).2, lower p.1 = p.1 := by
        intro h hl p hp
        unfold prepareGetParams at hp
        dsimp only at hp
        cases hh : h.get (pys! "content-encoding") with
        | none => rw [hh] at hp; exact hl p hp
        | some e => rw [hh] at hp; exact hl p (mem_drop hp)
      rw [fieldValues_dropped _ _ n (hd _ hlow) (by rw [h1]; decide +kernel), fieldValues_dropped _ _ n (hd _ hlow') (by rw [h1]; decide +kernel)]
    by_cases h2 : lower n = pys! "content-encoding"
    · have hne : lower n ≠ lower (pys! "content-type") := by rw [h2]; decide +kernel
      have hp : ctx.requestHeaders.getall n ≠ [] ∨ lower n ∈ protocolNames := .inr (by rw [h2]; decide +kernel)
      rw [e1, e2]
      dsimp only
      unfold prepareGetParams
      dsimp only
      rw [hget]
      cases HTTPHeaders.get ctx.requestHeaders.allitems (pys! "content-encoding") with
      | none =>
        dsimp only
        rw [fieldValues_drop _ _ _ hlow hne, fieldValues_drop _ _ _ hlow' hne, hsame n hp]
      | some e =>
        dsimp only
        rw [fieldValues_drop _ _ _ (fun p hp => hlow p (mem_drop hp)) hne, fieldValues_drop _ _ _ (fun p hp => hlow' p (mem_drop hp)) hne,
          fieldValues_dropped _ _ n hlow (by rw [h2]; decide +kernel), fieldValues_dropped _ _ n hlow' (by rw [h2]; decide +kernel)]
    · rw [unaryRequest_fields c _ hi' _ n h1 h2, unaryRequest_fields c _ hi _ n h1 h2]
      rw [unaryRequest_fields c _ hi _ n h1 h2] at hn
      rcases hn with h | h
      · exact ha.kept n h
      · exact ha.protocol n (hplow n h)
  · have e1 : rq = { method := pys! "POST", url := c.url ctx.method, headers := ctx.requestHeaders.allitems, timeoutMs := ctx.timeoutMs, body := [data] } := if_neg hg
    have e2 : rq' = { method := pys! "POST", url := c.url ctx.method, headers := (withSpan oc current ctx).requestHeaders.allitems, timeoutMs := ctx.timeoutMs, body := [data] } := if_neg hg
    refine ⟨by rw [e1, e2], by rw [e1, e2], by rw [e1, e2], fun n hn => ?_⟩
    rw [e1, e2]
    rw [e1] at hn
    dsimp only at hn ⊢
    refine hsame n (hn.imp (fun h => ?_) (hplow n))
    rwa [fieldValues_allitems hi] at h

/-- a unary call by Connect depends on the answer to its request only -/
theorem sendUnary_sends {c : Client Req Res} (hc : c.proto = .connect) (sc : StatusCodec) (http : HttpClient) (sink : Sink) (cs : Circumstances) (ctx : RequestContext)
    {req : Req} {data : Bytes} (hd : c.codec.encode req = .ok data) :
    c.sendUnary sc http sink cs ctx req =
      (match http.full (c.unaryRequest ctx (c.send.compress data)) with
        | .error e => (sink, .error (mapUnaryExc c.flavor e))
        | .ok resp => ((c.unaryResponse sink resp).1, match (c.unaryResponse sink resp).2 with
          | .ok m => .ok m
          | .error e => .error (mapUnaryExc c.flavor e))) := by
  unfold Client.sendUnary
  rw [hc]
  dsimp only
  unfold Client.connectUnary
  rw [hd]
  dsimp only
  cases http.full (c.unaryRequest ctx (c.send.compress data)) with
  | error e => rfl
  | ok resp =>
    dsimp only
    generalize c.unaryResponse sink resp = r
    obtain ⟨s, r⟩ := r
    cases r <;> rfl

/-- the two spans, given what the caller of the traced call got -/
theorem both_report_span (c : Client Req Res) (ha : TraceableClient c.address) (sc : StatusCodec) (http : HttpClient) (sink : Sink) (cs : Circumstances) (oc : OtelInterceptor C)
    (hoc : oc.client = true) (current : Option C) (os : OtelInterceptor D) (hos : os.client = false) (flavor : Bool) (scurrent : Option D)
    (codec : ServerCodec Req Res) (m : MethodInfo) (f : Req → RequestContext → Call Res) (req : Req) (user : UserHeaders) (t : Option Int) (useGet : Bool)
    (key : List Char) (ctx : RequestContext) (hs : Traceable ctx.serverAddress) (hc : Traceable ctx.clientAddress)
    (herr : ∀ e, (f req ctx).result = .error e → e.isException = true ∧ ∀ s hs, e ≠ .http s hs) (henc : ∀ x, (f req ctx).result = .ok x → ∃ d, codec.res.encode x = .ok d)
    (hg : Gets codec (f req ctx) (c.observedUnary sc http sink cs oc current req m user t useGet).result) :
    let v := c.observedUnary sc http sink cs oc current req m user t useGet
    ∃ status, CallStatus (errOf v.result) status ∧ Reports (tracedIn v.effects) status ∧ Reports (telemetryOf os flavor scurrent f [⟨key, ctx, some req⟩]) status := by
  intro v
  obtain ⟨_, _, hst⟩ := C103_unary_partial c ha sc http sink cs oc hoc current req m user t useGet
  obtain ⟨_, hr⟩ := watch_eq (Res := Res) hos flavor scurrent f req (ctx := ctx) hs hc
  obtain ⟨status, h1, h2⟩ := hst (fun e he => by
    rw [he] at hg
    cases hg
    rfl)
  refine ⟨status, h1, h2, ?_⟩
  show Reports (telemetryIn (os.watch flavor scurrent f req ctx).effects ++ []) _
  rw [List.append_nil, ← same_status h1 herr henc hg]
  exact hr

/-- **C104, calls from within a span, WSGI server**: a unary call by Connect, by POST or GET, of a traced client to a traced handler, from a place with or without a current span. If the propagator
only adds fields, the call goes as it does without tracing (C58), the fields of the propagator arrive, and the span and the duration of the client and those of the server report the same status, which is the one the
caller learns. Missing: responses that cannot be encoded (`C104_violation_encode_wsgi_all`). -/
theorem C104_span_wsgi_partial (c : Client Req Res) (ha : TraceableClient c.address) (app : App Req Res) (codec : ServerCodec Req Res) (m ms : MethodInfo)
    (oc : OtelInterceptor C) (hoc : oc.client = true) (current : Option C) (os : OtelInterceptor D) (hos : os.client = false) (scurrent : Option D)
    (f : Req → RequestContext → Call Res) (req : Req) (user : UserHeaders) (t : Option Int) (useGet : Bool)
    (h : UnaryCall c app codec m ms (os.watched false scurrent f) req user t useGet) (sc : StatusCodec) (sink : Sink) (cs : Circumstances)
    (hadd : AddsFields oc.telemetry current (c.context m (if useGet then pys! "GET" else pys! "POST") user t false).requestHeaders) :
    ∃ rq, SendsOnly (· = rq) (fun http => (c.observedUnary sc http sink cs oc current req m user t useGet).result) ∧
    ∀ env, WsgiSees c.address rq env → TraceableRequest (wsgiScheme env.vars) ((wsgiHeaders env.vars).get (pys! "host")) (wsgiClient env.vars) →
    ∃ ctx, CtxIs ctx ms (if useGet then pys! "GET" else pys! "POST") (wsgiScheme env.vars) (wsgiHeaders env.vars) (wsgiClient env.vars) ∧
      (app.wsgi sc env).calls = [⟨methodPath m, ctx, some req⟩] ∧ TimeoutTold t c.timeoutMs ctx.timeoutMs ∧ Passes user joined ctx.requestHeaders ∧
      SpanArrives oc.telemetry current (c.context m (if useGet then pys! "GET" else pys! "POST") user t false).requestHeaders joined ctx.requestHeaders ∧
      (Regular c codec (f req ctx) → (∀ x, (f req ctx).result = .ok x → ∃ d, codec.res.encode x = .ok d) →
        ∃ r, WsgiGave (app.wsgi sc env) r ∧
        ∀ undo resp, Undoes undo c app → Received undo r resp → ∀ http : HttpClient, http.full rq = .ok resp →
          let v := c.observedUnary sc http sink cs oc current req m user t useGet
          Gets codec (f req ctx) v.result ∧ ∃ status, CallStatus (errOf v.result) status ∧ Reports (tracedIn v.effects) status ∧
            Reports (telemetryOf os false scurrent f (app.wsgi sc env).calls) status) := by
  obtain ⟨data, hd, _⟩ := h.message
  have hres : ∀ http, (c.observedUnary sc http sink cs oc current req m user t useGet).result = (c.sendUnary sc http sink cs (withSpan oc current (c.context m (verb useGet) user t false)) req).2 :=
    fun http => (C103_unary_partial c ha sc http sink cs oc hoc current req m user t useGet).1
  have hi := context_inv c m (verb useGet) user t false
  have hi' : Headers.Inv (withSpan oc current (c.context m (verb useGet) user t false)).requestHeaders := hadd.built.inv
  obtain ⟨m1, m2, m3, m4⟩ := spanRequest c oc current _ hi hadd (c.send.compress data)
  refine ⟨c.unaryRequest (withSpan oc current (c.context m (verb useGet) user t false)) (c.send.compress data), fun a b hab => ?_, fun env hs' htr => ?_⟩
  · dsimp only
    rw [hres, hres, sendUnary_sends h.connect sc _ sink cs _ hd, sendUnary_sends h.connect sc _ sink cs _ hd, (hab _ rfl).1]
  have hs : WsgiSees c.address (theRequest c m user t useGet data) env := wsgiSees_fewer hs' m1 m2 m3 m4
  obtain ⟨h1, h2, h3, h4⟩ := wsgi_carries h hd hs
  obtain ⟨ctx, h5, h6, h7, _⟩ := C63_wsgi app sc env _ _ ms _ h1 hs.pieces codec req h2
  have ht : ctx.timeoutMs = pickTimeout t c.timeoutMs := by
    rw [h5.timeout.1 (by rw [h5.headers]; exact h1.connect), h5.headers, h4]
  have hp : Passes user joined (wsgiHeaders env.vars) := wsgi_passes hs (theRequest_user h.connect m user t useGet data)
  have hts : Traceable ctx.serverAddress := traceable_server htr (by rw [← h5.headers]; exact h5.server)
  have htc : Traceable ctx.clientAddress := by rw [h5.client]; exact htr.2
  rw [(watch_eq (Res := Res) hos false scurrent f req (ctx := ctx) hts htc).1] at h7
  refine ⟨ctx, by cases useGet <;> exact h5, h6, by rw [ht]; exact timeoutTold_pick _ _, by rw [h5.headers]; exact hp, fun n hn hpn hne => ?_, fun hr henc => ?_⟩
  · have hv : fieldValues (c.unaryRequest (withSpan oc current (c.context m (verb useGet) user t false)) (c.send.compress data)).headers n =
        (oc.telemetry.inject current (c.context m (verb useGet) user t false).requestHeaders).getall n :=
      unaryRequest_fields c _ hi' _ n (fun e => hpn (by rw [e]; decide +kernel)) (fun e => hpn (by rw [e]; decide +kernel))
    have hg := hs'.field n hn (by rw [hv]; exact hne)
    rw [hv] at hg
    rw [h5.headers, wsgiHeaders_getall _ hs'.distinct]
    exact values_one hs'.distinct (headerOfVar_cgiVar hn.2) hg
  obtain ⟨r, h8, h9⟩ := h7 fun e he => ⟨(hr.exceptions e he).1, (hr.exceptions e he).2.1⟩
  rw [h3] at h9
  refine ⟨r, h8, fun undo resp hu hrec http hh => ?_⟩
  obtain ⟨_, h11⟩ := client_reads h.codec h.comps rfl hr h9 hu hrec sink
  have hg : Gets codec (f req ctx) (c.observedUnary sc http sink cs oc current req m user t useGet).result := by
    rw [hres, sendUnary_sends h.connect sc http sink cs _ hd, hh]
    rcases h11 with ⟨x, data', e1, e2, e3⟩ | ⟨e, e', e1, e2, e3⟩
    · dsimp only; rw [e3]; exact .returned e1 e2
    · dsimp only; rw [e3]; exact .failed e1 e2.1 e2.2
  rw [h6]
  exact ⟨hg, both_report_span c ha sc http sink cs oc hoc current os hos false scurrent codec m f req user t useGet _ ctx hts htc
    (fun e he => ⟨(hr.exceptions e (.inl he)).1, (hr.exceptions e (.inl he)).2.2⟩) henc hg⟩

/-- **C104, calls from within a span, ASGI server**: as on WSGI. -/
theorem C104_span_asgi_partial (c : Client Req Res) (ha : TraceableClient c.address) (app : App Req Res) (codec : ServerCodec Req Res) (m ms : MethodInfo)
    (oc : OtelInterceptor C) (hoc : oc.client = true) (current : Option C) (os : OtelInterceptor D) (hos : os.client = false) (scurrent : Option D)
    (f : Req → RequestContext → Call Res) (req : Req) (user : UserHeaders) (t : Option Int) (useGet : Bool)
    (h : UnaryCall c app codec m ms (os.watched true scurrent f) req user t useGet) (sc : StatusCodec) (sink : Sink) (cs : Circumstances)
    (hadd : AddsFields oc.telemetry current (c.context m (if useGet then pys! "GET" else pys! "POST") user t false).requestHeaders) :
    ∃ rq, SendsOnly (· = rq) (fun http => (c.observedUnary sc http sink cs oc current req m user t useGet).result) ∧
    ∀ scope env, AsgiSees c.address rq scope env → Reliable env → (scope.rootPath = [] ∨ Dict.get? app.endpoints (scope.rootPath ++ methodPath m) = none) →
    ∃ ctx headers, asgiHeaders scope.headers Headers.empty = .ok headers ∧
      CtxIs ctx ms (if useGet then pys! "GET" else pys! "POST") (asgiScheme scope) headers (scope.client.map fun ca => ca.1 ++ pys! ":" ++ ca.2) ∧
      (app.asgi sc scope env).calls = [⟨methodPath m, ctx, some req⟩] ∧
      TimeoutTold t c.timeoutMs ctx.timeoutMs ∧ Passes user id ctx.requestHeaders ∧
      SpanArrives oc.telemetry current (c.context m (if useGet then pys! "GET" else pys! "POST") user t false).requestHeaders id ctx.requestHeaders ∧
      (TraceableRequest (asgiScheme scope) (headers.get (pys! "host")) (scope.client.map fun ca => ca.1 ++ pys! ":" ++ ca.2) →
        Regular c codec (f req ctx) → (∀ x, (f req ctx).result = .ok x → ∃ d, codec.res.encode x = .ok d) →
        ∃ r, AsgiGave (app.asgi sc scope env) r ∧
        ∀ undo resp, Undoes undo c app → Received undo r resp → ∀ http : HttpClient, http.full rq = .ok resp →
          let v := c.observedUnary sc http sink cs oc current req m user t useGet
          Gets codec (f req ctx) v.result ∧ ∃ status, CallStatus (errOf v.result) status ∧ Reports (tracedIn v.effects) status ∧
            Reports (telemetryOf os true scurrent f (app.asgi sc scope env).calls) status) := by
  obtain ⟨data, hd, _⟩ := h.message
  have hres : ∀ http, (c.observedUnary sc http sink cs oc current req m user t useGet).result = (c.sendUnary sc http sink cs (withSpan oc current (c.context m (verb useGet) user t false)) req).2 :=
    fun http => (C103_unary_partial c ha sc http sink cs oc hoc current req m user t useGet).1
  have hi := context_inv c m (verb useGet) user t false
  have hi' : Headers.Inv (withSpan oc current (c.context m (verb useGet) user t false)).requestHeaders := hadd.built.inv
  obtain ⟨m1, m2, m3, m4⟩ := spanRequest c oc current _ hi hadd (c.send.compress data)
  refine ⟨c.unaryRequest (withSpan oc current (c.context m (verb useGet) user t false)) (c.send.compress data), fun a b hab => ?_, fun scope env hs' hrel hroot => ?_⟩
  · dsimp only
    rw [hres, hres, sendUnary_sends h.connect sc _ sink cs _ hd, sendUnary_sends h.connect sc _ sink cs _ hd, (hab _ rfl).1]
  have hs : AsgiSees c.address (theRequest c m user t useGet data) scope env := asgiSees_fewer hs' m1 m2 m3 m4
  obtain ⟨h0, headers, hh0, h1, h2, h3, h4⟩ := asgi_carries h hd hs hroot
  obtain ⟨ctx, h5, h6, h7, _⟩ := C63_asgi app sc scope env headers _ ms _ h1 hrel codec req h2
  rw [h0] at h5
  have ht : ctx.timeoutMs = pickTimeout t c.timeoutMs := by
    rw [h5.timeout.1 (by rw [h5.headers]; exact h1.connect), h5.headers, h4]
  have hp : Passes user id headers := by
    obtain ⟨headers', e1, _, e2⟩ := asgi_arrived hs
    rw [hh0] at e1
    cases e1
    exact asgi_passes e2 (theRequest_user h.connect m user t useGet data)
  refine ⟨ctx, headers, hh0, by cases useGet <;> exact h5, h6, by rw [ht]; exact timeoutTold_pick _ _, by rw [h5.headers]; exact hp, fun n hn hpn hne => ?_, fun htr hr henc => ?_⟩
  · have hv : fieldValues (c.unaryRequest (withSpan oc current (c.context m (verb useGet) user t false)) (c.send.compress data)).headers n =
        (oc.telemetry.inject current (c.context m (verb useGet) user t false).requestHeaders).getall n :=
      unaryRequest_fields c _ hi' _ n (fun e => hpn (by rw [e]; decide +kernel)) (fun e => hpn (by rw [e]; decide +kernel))
    obtain ⟨headers', e1, _, e2⟩ := asgi_arrived hs'
    rw [hh0] at e1
    cases e1
    rw [h5.headers, e2 n hn (by rw [hv]; exact hne), hv]
    rfl
  have hts : Traceable ctx.serverAddress := traceable_server htr (by rw [← h5.headers]; exact h5.server)
  have htc : Traceable ctx.clientAddress := by rw [h5.client]; exact htr.2
  rw [(watch_eq (Res := Res) hos true scurrent f req (ctx := ctx) hts htc).1] at h7
  obtain ⟨r, h8, h9⟩ := h7 fun e he => ⟨(hr.exceptions e he).1, (hr.exceptions e he).2.1⟩
  rw [h3] at h9
  refine ⟨r, h8, fun undo resp hu hrec http hh => ?_⟩
  obtain ⟨_, h11⟩ := client_reads h.codec h.comps rfl hr h9 hu hrec sink
  have hg : Gets codec (f req ctx) (c.observedUnary sc http sink cs oc current req m user t useGet).result := by
    rw [hres, sendUnary_sends h.connect sc http sink cs _ hd, hh]
    rcases h11 with ⟨x, data', e1, e2, e3⟩ | ⟨e, e', e1, e2, e3⟩
    · dsimp only; rw [e3]; exact .returned e1 e2
    · dsimp only; rw [e3]; exact .failed e1 e2.1 e2.2
  rw [h6]
  exact ⟨hg, both_report_span c ha sc http sink cs oc hoc current os hos true scurrent codec m f req user t useGet _ ctx hts htc
    (fun e he => ⟨(hr.exceptions e (.inl he)).1, (hr.exceptions e (.inl he)).2.2⟩) henc hg⟩

/-- the span that has arrived -/
theorem span_arrived {t : Telemetry C} {names : List (List Char)} (hp : Propagates t) {h headers : Headers} (hu : UsesFields t names h) {caller : C} {seen : List (List Char) → List (List Char)}
    (hseen : ∀ v, seen [v] = [v]) (ha : SpanArrives t (some caller) h seen headers) : t.extract headers = some caller := by
  rw [← hp.roundTrip caller h]
  refine hu.reads _ _ fun n hn => ?_
  obtain ⟨hf, hpn⟩ := hu.forwarded n hn
  obtain ⟨v, hv⟩ := hu.writes caller n hn
  rw [ha n hf hpn (by rw [hv]; simp), hv, hseen]

/-- the parent of the span of a server without a current span -/
theorem watch_parent {o : OtelInterceptor C} (ho : o.client = false) (flavor : Bool) (f : Req → RequestContext → Call Res) (req : Req) (key : List Char) {ctx : RequestContext}
    (hs : Traceable ctx.serverAddress) (hc : Traceable ctx.clientAddress) :
    startedParents (telemetryOf o flavor none f [⟨key, ctx, some req⟩]) = [o.telemetry.extract ctx.requestHeaders] := by
  obtain ⟨before, after, ht, h1, h2, _⟩ := C57_call_partial (S := Req) o (Sum.inl : Telemetered C → Happening C) none (ranOf f) req ctx hs hc
  have hseen : seenContext o none ctx = ctx := by
    unfold seenContext
    rw [ho, if_neg (by decide)]
  have hpar : parentOf o none ctx = o.telemetry.extract ctx.requestHeaders := by
    unfold parentOf
    rw [ho, if_neg (by decide)]
    rfl
  rw [hseen] at ht h1 h2
  rw [hpar] at ht
  have hw : o.watch flavor none f req ctx = ⟨before ++ (f req ctx).steps.map .inr ++ after, (f req ctx).result⟩ := by
    unfold OtelInterceptor.watch
    cases flavor
    · exact h1
    · exact h2
  show startedParents (telemetryIn (o.watch flavor none f req ctx).effects ++ []) = _
  rw [List.append_nil, hw]
  have hstep : telemetryIn ((f req ctx).steps.map (Sum.inr : Step → Happening C)) = [] := telemetryIn_steps _
  obtain ⟨⟨attrs, rfl, _⟩, ⟨attrs', _, _, hst⟩⟩ := ht
  have happ : ∀ xs ys : List (Happening C), telemetryIn (xs ++ ys) = telemetryIn xs ++ telemetryIn ys := fun _ _ => List.filterMap_append
  dsimp only
  rw [happ, happ, hstep]
  rcases hst with ⟨_, rfl⟩ | ⟨e, sp, _, _, rfl⟩ <;> rfl

/-- **C67, over the transport, WSGI server**: a unary call by Connect, by POST or GET, made within the span `caller`, to a server whose handler runs with no current span: the parent of the span of the server is
`caller`. Missing: the span of the client is not (`C67_violation_siblings`). -/
theorem C67_wsgi_partial (c : Client Req Res) (ha : TraceableClient c.address) (app : App Req Res) (codec : ServerCodec Req Res) (m ms : MethodInfo)
    (oc os : OtelInterceptor C) (hoc : oc.client = true) (hos : os.client = false) (htel : os.telemetry = oc.telemetry) (names : List (List Char)) (hp : Propagates oc.telemetry)
    (caller : C) (f : Req → RequestContext → Call Res) (req : Req) (user : UserHeaders) (t : Option Int) (useGet : Bool)
    (h : UnaryCall c app codec m ms (os.watched false none f) req user t useGet) (sc : StatusCodec) (sink : Sink) (cs : Circumstances)
    (hadd : AddsFields oc.telemetry (some caller) (c.context m (if useGet then pys! "GET" else pys! "POST") user t false).requestHeaders)
    (hu : UsesFields oc.telemetry names (c.context m (if useGet then pys! "GET" else pys! "POST") user t false).requestHeaders) :
    ∃ rq, SendsOnly (· = rq) (fun http => (c.observedUnary sc http sink cs oc (some caller) req m user t useGet).result) ∧
    ∀ env, WsgiSees c.address rq env → TraceableRequest (wsgiScheme env.vars) ((wsgiHeaders env.vars).get (pys! "host")) (wsgiClient env.vars) →
      startedParents (telemetryOf os false none f (app.wsgi sc env).calls) = [some caller] := by
  obtain ⟨rq, hsend, hall⟩ := C104_span_wsgi_partial c ha app codec m ms oc hoc (some caller) os hos none f req user t useGet h sc sink cs hadd
  refine ⟨rq, hsend, fun env henv htr => ?_⟩
  obtain ⟨ctx, hctx, hcalls, _, _, hspan, _⟩ := hall env henv htr
  have hts : Traceable ctx.serverAddress := traceable_server htr (by rw [← hctx.headers]; exact hctx.server)
  have htc : Traceable ctx.clientAddress := by rw [hctx.client]; exact htr.2
  rw [hcalls, watch_parent hos false f req _ hts htc, htel, span_arrived hp hu (fun _ => rfl) hspan]

/-- **C67, over the transport, ASGI server**: as on WSGI. -/
theorem C67_asgi_partial (c : Client Req Res) (ha : TraceableClient c.address) (app : App Req Res) (codec : ServerCodec Req Res) (m ms : MethodInfo)
    (oc os : OtelInterceptor C) (hoc : oc.client = true) (hos : os.client = false) (htel : os.telemetry = oc.telemetry) (names : List (List Char)) (hp : Propagates oc.telemetry)
    (caller : C) (f : Req → RequestContext → Call Res) (req : Req) (user : UserHeaders) (t : Option Int) (useGet : Bool)
    (h : UnaryCall c app codec m ms (os.watched true none f) req user t useGet) (sc : StatusCodec) (sink : Sink) (cs : Circumstances)
    (hadd : AddsFields oc.telemetry (some caller) (c.context m (if useGet then pys! "GET" else pys! "POST") user t false).requestHeaders)
    (hu : UsesFields oc.telemetry names (c.context m (if useGet then pys! "GET" else pys! "POST") user t false).requestHeaders) :
    ∃ rq, SendsOnly (· = rq) (fun http => (c.observedUnary sc http sink cs oc (some caller) req m user t useGet).result) ∧
    ∀ scope env, AsgiSees c.address rq scope env → Reliable env → (scope.rootPath = [] ∨ Dict.get? app.endpoints (scope.rootPath ++ methodPath m) = none) →
    ∃ headers, asgiHeaders scope.headers Headers.empty = .ok headers ∧
      (TraceableRequest (asgiScheme scope) (headers.get (pys! "host")) (scope.client.map fun ca => ca.1 ++ pys! ":" ++ ca.2) →
        startedParents (telemetryOf os true none f (app.asgi sc scope env).calls) = [some caller]) := by
  obtain ⟨rq, hsend, hall⟩ := C104_span_asgi_partial c ha app codec m ms oc hoc (some caller) os hos none f req user t useGet h sc sink cs hadd
  refine ⟨rq, hsend, fun scope env henv hrel hroot => ?_⟩
  obtain ⟨ctx, headers, hh0, hctx, hcalls, _, _, hspan, _⟩ := hall scope env henv hrel hroot
  refine ⟨headers, hh0, fun htr => ?_⟩
  have hts : Traceable ctx.serverAddress := traceable_server htr (by rw [← hctx.headers]; exact hctx.server)
  have htc : Traceable ctx.clientAddress := by rw [hctx.client]; exact htr.2
  rw [hcalls, watch_parent hos true f req _ hts htc, htel, span_arrived hp hu (fun _ => rfl) hspan]

end

/-! ### the hypotheses are met -/

/-- a propagator with the header `traceparent`, on a call with none -/
theorem demo_adds {h : Headers} (hb : Built h) (hn : h.getall (pys! "traceparent") = []) (current : Option (List Char)) : AddsFields demoTelemetry current h := by
  cases current with
  | none => exact ⟨hb, fun _ _ => rfl, fun _ _ => rfl⟩
  | some c =>
    have hget : ∀ n, lower n ≠ pys! "traceparent" → (h.setItem (pys! "traceparent") c).getall n = h.getall n := by
      intro n hne
      rw [Headers.getall_setItem hb.inv, if_neg fun e => hne (by rw [← e]; decide +kernel)]
    refine ⟨?_, fun n hne => hget n fun e => hne ?_, fun n hp => hget n fun e => ?_⟩
    · obtain ⟨ops, rfl⟩ := hb
      exact ⟨ops ++ [.setItem (pys! "traceparent") c], by rw [headersAfter_append]; rfl⟩
    · rw [← hn]
      exact Headers.getall_congr (k' := pys! "traceparent") (by rw [e]; decide +kernel)
    · rw [e] at hp
      exact absurd hp (by decide +kernel)

theorem demo_uses {h : Headers} (hb : Built h) : UsesFields demoTelemetry [pys! "traceparent"] h where
  forwarded n hn := by
    cases List.mem_singleton.mp hn
    exact ⟨by unfold Forwarded; decide +kernel, by decide +kernel⟩
  writes c n hn := by
    cases List.mem_singleton.mp hn
    exact ⟨c, by
      show (h.setItem (pys! "traceparent") c).getall _ = _
      rw [Headers.getall_setItem hb.inv, if_pos rfl]⟩
  reads h h' e := by
    show h.getItem (pys! "traceparent") = h'.getItem (pys! "traceparent")
    rw [Headers.getItem_eq, Headers.getItem_eq, e _ (List.mem_singleton.mpr rfl)]

def spanHeaders (useGet : Bool) : Headers := (mutedClient.context echoInfo (if useGet then pys! "GET" else pys! "POST") pairUser (some 1500) false).requestHeaders

/-- the headers of the call, as the client builds them -/
theorem span_built (useGet : Bool) : Built (spanHeaders useGet) := by
  refine ⟨[.add (pys! "x-a") (pys! "1"), .add (pys! "x-a") (pys! "2"), .setItem (pys! "user-agent") (pys! "ua"), .setItem (pys! "connect-protocol-version") (pys! "1"),
    .setItem (pys! "accept-encoding") (pys! "gzip,identity"), .setItem (pys! "content-encoding") (pys! "gzip"), .setItem (pys! "content-type") (pys! "application/raw"),
    .setItem (pys! "connect-timeout-ms") (pys! "1500")], ?_⟩
  cases useGet <;> decide +kernel

/-- Calls within the span `s`, by POST and by GET: the propagator adds a field; the request, and a server that is given it. -/
example (flavor useGet : Bool) (ctx : RequestContext) :
    UnaryCall mutedClient (mutedApp flavor) mutedCodec echoInfo echoInfo (watchInterceptor.watched flavor none tellCall) [1, 2, 3] pairUser (some 1500) useGet ∧
    TraceableClient mutedClient.address ∧ Regular mutedClient mutedCodec (tellCall [1, 2, 3] ctx) ∧
    AddsFields tracingClient.telemetry (some (pys! "s")) (spanHeaders useGet) ∧ UsesFields tracingClient.telemetry [pys! "traceparent"] (spanHeaders useGet) ∧
    tracingClient.telemetry.inject (some (pys! "s")) (spanHeaders useGet) ≠ spanHeaders useGet :=
  ⟨muted_call .., muted_traceable, muted_regular _ (by decide) ctx, demo_adds (span_built useGet) (by cases useGet <;> decide +kernel) _, demo_uses (span_built useGet), by
    cases useGet <;> decide +kernel⟩

/-- … the request, and the server that is given it, whose span has the parent `s` -/
example : let rq := mutedClient.unaryRequest (withSpan tracingClient (some (pys! "s")) (mutedClient.context echoInfo (pys! "POST") pairUser (some 1500) false)) [3, 2, 1]
    startedParents (telemetryOf watchInterceptor false none tellCall
      ((mutedApp false).wsgi demoStatus (environOf (pys! "POST") (pys! "/a.S/Echo") [] rq.headers rq.body)).calls) = [some (pys! "s")] := by
  decide +kernel

end Props
