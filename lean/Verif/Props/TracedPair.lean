import Verif.Props.ClientObserved
import Verif.Props.Observed
import Verif.Props.StreamEndToEnd
/-
C104: the two sides of a traced call report the same status.
-/
namespace Props
open Conn Py Spec

section
variable {C D Req Res : Type}

/-- the two spans of a call, given what the caller got of the run of the handler -/
theorem both_report (c : Client Req Res) (ha : TraceableClient c.address) (sc : StatusCodec) (http : HttpClient) (sink : Sink) (cs : Circumstances) (oc : OtelInterceptor C)
    (hoc : oc.client = true) (hp : Propagates oc.telemetry) (os : OtelInterceptor D) (hos : os.client = false) (flavor : Bool) (current : Option D)
    (codec : ServerCodec Req Res) (m : MethodInfo) (f : Req → RequestContext → Call Res) (req : Req) (user : UserHeaders) (t : Option Int) (useGet : Bool)
    (key : List Char) (ctx : RequestContext) (hs : Traceable ctx.serverAddress) (hc : Traceable ctx.clientAddress)
    (herr : ∀ e, (f req ctx).result = .error e → e.isException = true ∧ ∀ s hs, e ≠ .http s hs) (henc : ∀ x, (f req ctx).result = .ok x → ∃ d, codec.res.encode x = .ok d)
    (hg : Gets codec (f req ctx) (c.executeUnary sc http sink cs req m user t useGet).2) :
    let v := c.observedUnary sc http sink cs oc none req m user t useGet
    Gets codec (f req ctx) v.result ∧ ∃ status, CallStatus (errOf v.result) status ∧ Reports (tracedIn v.effects) status ∧
      Reports (telemetryOf os flavor current f [⟨key, ctx, some req⟩]) status := by
  intro v
  obtain ⟨hv, _⟩ := C103_untouched c ha sc http sink cs oc hoc hp req m user t useGet
  obtain ⟨_, _, hst⟩ := C103_unary_partial c ha sc http sink cs oc hoc none req m user t useGet
  rw [← show v.result = _ from hv] at hg
  refine ⟨hg, ?_⟩
  obtain ⟨_, hr⟩ := watch_eq (Res := Res) hos flavor current f req (ctx := ctx) hs hc
  obtain ⟨status, h1, h2⟩ := hst (fun e he => by
    rw [show v.result = _ from he] at hg
    cases hg
    rfl)
  refine ⟨status, h1, h2, ?_⟩
  show Reports (telemetryIn (os.watch flavor current f req ctx).effects ++ []) _
  rw [List.append_nil]
  have hst : (reported (errOf (f req ctx).result)).map statusOf = status := by
    have h1 : CallStatus (errOf v.result) status := h1
    generalize v.result = res at hg h1
    cases hg with
    | returned hr he =>
      rw [hr]
      cases h1
      rfl
    | failed hf hrep hb =>
      rename_i e e'
      have hres : (f req ctx).result = .error e := by
        rcases hf with h | ⟨x, h, h'⟩
        · exact h
        · obtain ⟨d, hd⟩ := henc x h
          rw [hd] at h'
          cases h'
      obtain ⟨hx, hh⟩ := herr e hres
      have hcode : e'.code = (errorOf e).code := congrArg (·.1) hrep
      cases h1
      rw [hres]
      show ((some e).filter _).map statusOf = _
      rw [Option.filter_some, if_pos hx, hcode]
      cases e with
      | connect x => rfl
      | other cls msg => rfl
      | http s hs => exact absurd rfl (hh s hs)
      | cancelled => cases hx
  rw [← hst]
  exact hr

/-- **C104, WSGI server**: a unary call by Connect, by POST or GET, of a traced client to a traced handler, from a place with no current span: the call goes as it does without tracing (C58), and the
span and the duration of the client and those of the server report the same status, which is the one the caller learns. Missing: calls from within a span (whose headers have one more name), responses that cannot
be encoded (`C104_violation_encode_wsgi_all`), and streams (C93 and C103 have what each side reports there). The gRPC protocols are below. -/
theorem C104_wsgi_partial (c : Client Req Res) (ha : TraceableClient c.address) (app : App Req Res) (codec : ServerCodec Req Res) (m ms : MethodInfo)
    (oc : OtelInterceptor C) (hoc : oc.client = true) (hp : Propagates oc.telemetry) (os : OtelInterceptor D) (hos : os.client = false) (current : Option D)
    (f : Req → RequestContext → Call Res) (req : Req) (user : UserHeaders) (t : Option Int) (useGet : Bool)
    (h : UnaryCall c app codec m ms (os.watched false current f) req user t useGet) (sc : StatusCodec) (sink : Sink) (cs : Circumstances) :
    ∃ rq, SendsOnly (· = rq) (fun http => c.executeUnary sc http sink cs req m user t useGet) ∧
    ∀ env, WsgiSees c.address rq env → TraceableRequest (wsgiScheme env.vars) ((wsgiHeaders env.vars).get (pys! "host")) (wsgiClient env.vars) →
    ∃ ctx, (app.wsgi sc env).calls = [⟨methodPath m, ctx, some req⟩] ∧
      (Regular c codec (f req ctx) → (∀ x, (f req ctx).result = .ok x → ∃ d, codec.res.encode x = .ok d) →
        ∃ r, WsgiGave (app.wsgi sc env) r ∧
        ∀ undo resp, Undoes undo c app → Received undo r resp → ∀ http : HttpClient, http.full rq = .ok resp →
          let v := c.observedUnary sc http sink cs oc none req m user t useGet
          Gets codec (f req ctx) v.result ∧ ∃ status, CallStatus (errOf v.result) status ∧ Reports (tracedIn v.effects) status ∧
            Reports (telemetryOf os false current f (app.wsgi sc env).calls) status) := by
  obtain ⟨rq, _, hsend, hall⟩ := C58_connect_wsgi_partial c app codec m ms _ req user t useGet h sc sink cs
  refine ⟨rq, hsend, fun env henv ht => ?_⟩
  obtain ⟨ctx, hctx, _, _, hcalls, hgave⟩ := hall env henv
  have hs : Traceable ctx.serverAddress := traceable_server ht (by rw [← hctx.headers]; exact hctx.server)
  have hc : Traceable ctx.clientAddress := by rw [hctx.client]; exact ht.2
  rw [(watch_eq (Res := Res) hos false current f req (ctx := ctx) hs hc).1] at hgave
  refine ⟨ctx, hcalls, fun hreg henc => ?_⟩
  obtain ⟨r, hr, hget⟩ := hgave hreg
  refine ⟨r, hr, fun undo resp hu hrec http hh => ?_⟩
  rw [hcalls]
  exact both_report c ha sc http sink cs oc hoc hp os hos false current codec m f req user t useGet _ ctx hs hc (fun e he => ⟨(hreg.exceptions e (.inl he)).1, (hreg.exceptions e (.inl he)).2.2⟩) henc (hget undo resp hu hrec http hh).1

/-- **C104, ASGI server**: as on WSGI. -/
theorem C104_asgi_partial (c : Client Req Res) (ha : TraceableClient c.address) (app : App Req Res) (codec : ServerCodec Req Res) (m ms : MethodInfo)
    (oc : OtelInterceptor C) (hoc : oc.client = true) (hp : Propagates oc.telemetry) (os : OtelInterceptor D) (hos : os.client = false) (current : Option D)
    (f : Req → RequestContext → Call Res) (req : Req) (user : UserHeaders) (t : Option Int) (useGet : Bool)
    (h : UnaryCall c app codec m ms (os.watched true current f) req user t useGet) (sc : StatusCodec) (sink : Sink) (cs : Circumstances) :
    ∃ rq, SendsOnly (· = rq) (fun http => c.executeUnary sc http sink cs req m user t useGet) ∧
    ∀ scope env, AsgiSees c.address rq scope env → Reliable env → (scope.rootPath = [] ∨ Dict.get? app.endpoints (scope.rootPath ++ methodPath m) = none) →
    ∃ ctx headers, asgiHeaders scope.headers Headers.empty = .ok headers ∧ (app.asgi sc scope env).calls = [⟨methodPath m, ctx, some req⟩] ∧
      (TraceableRequest (asgiScheme scope) (headers.get (pys! "host")) (scope.client.map fun ca => ca.1 ++ pys! ":" ++ ca.2) →
        Regular c codec (f req ctx) → (∀ x, (f req ctx).result = .ok x → ∃ d, codec.res.encode x = .ok d) →
        ∃ r, AsgiGave (app.asgi sc scope env) r ∧
        ∀ undo resp, Undoes undo c app → Received undo r resp → ∀ http : HttpClient, http.full rq = .ok resp →
          let v := c.observedUnary sc http sink cs oc none req m user t useGet
          Gets codec (f req ctx) v.result ∧ ∃ status, CallStatus (errOf v.result) status ∧ Reports (tracedIn v.effects) status ∧
            Reports (telemetryOf os true current f (app.asgi sc scope env).calls) status) := by
  obtain ⟨rq, _, hsend, hall⟩ := C58_connect_asgi_partial c app codec m ms _ req user t useGet h sc sink cs
  refine ⟨rq, hsend, fun scope env henv hrel hroot => ?_⟩
  obtain ⟨ctx, headers, hh0, hctx, _, _, hcalls, hgave⟩ := hall scope env henv hrel hroot
  refine ⟨ctx, headers, hh0, hcalls, fun ht hreg henc => ?_⟩
  have hs : Traceable ctx.serverAddress := traceable_server ht (by rw [← hctx.headers]; exact hctx.server)
  have hc : Traceable ctx.clientAddress := by rw [hctx.client]; exact ht.2
  rw [(watch_eq (Res := Res) hos true current f req (ctx := ctx) hs hc).1] at hgave
  obtain ⟨r, hr, hget⟩ := hgave hreg
  refine ⟨r, hr, fun undo resp hu hrec http hh => ?_⟩
  rw [hcalls]
  exact both_report c ha sc http sink cs oc hoc hp os hos true current codec m f req user t useGet _ ctx hs hc (fun e he => ⟨(hreg.exceptions e (.inl he)).1, (hreg.exceptions e (.inl he)).2.2⟩) henc (hget undo resp hu hrec http hh).1

/-- what the caller of a traced call gets of the run `run` of the handler that took place in the context `ctx`: its outcome, and the same status in the spans of both sides -/
def TracedGets (codec : ServerCodec Req Res) (comp : Compression) (run : Call Res) (v : Ran (ClientEvent C) Res) (server : List (Telemetered D)) : Prop :=
  (∀ e, run.result = .error e → e.isException = true ∧ ∀ s hs, e ≠ .http s hs) →
  (∀ x, run.result = .ok x → ∃ d, codec.res.encode x = .ok d ∧ (comp.compress d).length < 2 ^ 32) →
  Gets codec run v.result ∧ ∃ status, CallStatus (errOf v.result) status ∧ Reports (tracedIn v.effects) status ∧ Reports server status

theorem starts_watched {os : OtelInterceptor D} {flavor : Bool} {current : Option D} {f : Req → RequestContext → Call Res} {req : Req} {ctx : RequestContext}
    (hw : os.watched flavor current f req ctx = f req ctx) {r : Option Req} {h0 : HState Req} {script : Script Res}
    (h : Starts ⟨[req], none⟩ ctx (.unary f) r h0 script) : Starts ⟨[req], none⟩ ctx (.unary (os.watched flavor current f)) r h0 script ∧ r = some req := by
  cases h with
  | unary _ m hm he hr =>
    cases hm
    exact ⟨.unary _ req rfl rfl (by rw [hw]; exact hr), rfl⟩

/-- **C104, gRPC and gRPC-Web, WSGI server**: as by Connect. -/
theorem C104_grpc_wsgi_partial (c : Client Req Res) (hproto : c.proto ≠ .connect) (ha : TraceableClient c.address) (app : App Req Res) (codec : ServerCodec Req Res) (m ms : MethodInfo)
    (oc : OtelInterceptor C) (hoc : oc.client = true) (hp : Propagates oc.telemetry) (os : OtelInterceptor D) (hos : os.client = false) (current : Option D)
    (f : Req → RequestContext → Call Res) (req : Req) (user : UserHeaders) (t : Option Int) (useGet : Bool)
    (h : StreamCall c app codec m ms (.unary (os.watched false current f)) [req] user t) (sc : StatusCodec) (sink : Sink)
    (hsink : ∀ r, sink = some r → Built r.getTrailers) (cs : Circumstances) (hcs : Calm cs) :
    ∃ rq, SendsOnly (· = rq) (fun http => c.executeUnary sc http sink cs req m user t useGet) ∧
    ∀ env, WsgiSees c.address rq env → (c.proto = .grpc → env.sendTrailers = true) →
    TraceableRequest (wsgiScheme env.vars) ((wsgiHeaders env.vars).get (pys! "host")) (wsgiClient env.vars) →
    ∃ ctx, ∀ r0 h0 script, Starts ⟨[req], none⟩ ctx (.unary f) r0 h0 script →
    ∀ i out h' e, Runs (writerOf codec (responseComp c app)).write none h0 script.acts script.outcome i out h' e →
    RegularStream c codec sc (responseComp c app) i.headers out h'.info.trailers e →
    (app.wsgi sc env).calls = [⟨methodPath m, ctx, some req⟩] ∧
    ∃ r, WsgiStreamGave (app.wsgi sc env) r ∧
    ∀ resp, ReceivedStream r resp → ∀ http : HttpClient, http.stream rq = .ok resp →
      TracedGets codec (responseComp c app) (f req ctx) (c.observedUnary sc http sink cs oc none req m user t useGet)
        (telemetryOf os false current f (app.wsgi sc env).calls) := by
  obtain ⟨rq, _, hsend, hall⟩ := C58_grpc_wsgi_partial c hproto app codec m ms _ req user t useGet h sc sink hsink cs hcs
  refine ⟨rq, hsend, fun env henv htr ht => ?_⟩
  obtain ⟨ctx, hthe, hrun⟩ := hall env henv htr
  have hctx := hthe.context
  have hs : Traceable ctx.serverAddress := traceable_server ht (by rw [← hctx.headers]; exact hctx.server)
  have hc : Traceable ctx.clientAddress := by rw [hctx.client]; exact ht.2
  have hw := (watch_eq (Res := Res) hos false current f req (ctx := ctx) hs hc).1
  refine ⟨ctx, fun r0 h0 script hst i out h' e hr hreg => ?_⟩
  obtain ⟨hst', rfl⟩ := starts_watched hw hst
  obtain ⟨hcalls, _, r, hgave, hget⟩ := hrun _ h0 script hst' i out h' e hr hreg
  refine ⟨hcalls, r, hgave, fun resp hrec http hh herr henc => ?_⟩
  have hg := hget resp hrec http hh
  dsimp only at hg
  rw [hw] at hg
  rw [hcalls]
  exact both_report c ha sc http sink cs oc hoc hp os hos false current codec m f req user t useGet _ ctx hs hc herr
    (fun x hx => let ⟨d, hd, _⟩ := henc x hx; ⟨d, hd⟩) (hg.result fun x b hx hb => by
      obtain ⟨d, hd, hl⟩ := henc x hx
      rw [hd] at hb
      cases hb
      exact hl)

/-- **C104, gRPC and gRPC-Web, ASGI server**. -/
theorem C104_grpc_asgi_partial (c : Client Req Res) (hproto : c.proto ≠ .connect) (ha : TraceableClient c.address) (app : App Req Res) (codec : ServerCodec Req Res) (m ms : MethodInfo)
    (oc : OtelInterceptor C) (hoc : oc.client = true) (hp : Propagates oc.telemetry) (os : OtelInterceptor D) (hos : os.client = false) (current : Option D)
    (f : Req → RequestContext → Call Res) (req : Req) (user : UserHeaders) (t : Option Int) (useGet : Bool)
    (h : StreamCall c app codec m ms (.unary (os.watched true current f)) [req] user t) (ho : Spec.Ordinary app) (sc : StatusCodec) (sink : Sink)
    (hsink : ∀ r, sink = some r → Built r.getTrailers) (cs : Circumstances) (hcs : Calm cs) :
    ∃ rq, SendsOnly (· = rq) (fun http => c.executeUnary sc http sink cs req m user t useGet) ∧
    ∀ scope env, AsgiSees c.address rq scope env → (c.proto = .grpc → scope.trailers = true) → Reliable env → env.cancelAfter = none →
      env.disconnectAt = none → (scope.rootPath = [] ∨ Dict.get? app.endpoints (scope.rootPath ++ methodPath m) = none) →
    ∃ ctx headers, asgiHeaders scope.headers Headers.empty = .ok headers ∧
    (TraceableRequest (asgiScheme scope) (headers.get (pys! "host")) (scope.client.map fun ca => ca.1 ++ pys! ":" ++ ca.2) →
    ∀ r0 h0 script, Starts ⟨[req], none⟩ ctx (.unary f) r0 h0 script →
    ∀ i out h' e, Runs (writerOf codec (responseComp c app)).write script.closeErr h0 script.acts script.outcome i out h' e →
    RegularStream c codec sc (responseComp c app) i.headers out h'.info.trailers e →
    (app.asgi sc scope env).calls = [⟨methodPath m, ctx, some req⟩] ∧
    ∃ r, AsgiStreamGave (app.asgi sc scope env) r ∧
    ∀ resp, ReceivedStream r resp → ∀ http : HttpClient, http.stream rq = .ok resp →
      TracedGets codec (responseComp c app) (f req ctx) (c.observedUnary sc http sink cs oc none req m user t useGet)
        (telemetryOf os true current f (app.asgi sc scope env).calls)) := by
  obtain ⟨rq, _, hsend, hall⟩ := C58_grpc_asgi_partial c hproto app codec m ms _ req user t useGet h ho sc sink hsink cs hcs
  refine ⟨rq, hsend, fun scope env henv htr hrel hca hdis hroot => ?_⟩
  obtain ⟨ctx, headers, hh0, hthe, hrun⟩ := hall scope env henv htr hrel hca hdis hroot
  refine ⟨ctx, headers, hh0, fun ht r0 h0 script hst i out h' e hr hreg => ?_⟩
  have hctx := hthe.context
  have hs : Traceable ctx.serverAddress := traceable_server ht (by rw [← hctx.headers]; exact hctx.server)
  have hc : Traceable ctx.clientAddress := by rw [hctx.client]; exact ht.2
  have hw := (watch_eq (Res := Res) hos true current f req (ctx := ctx) hs hc).1
  obtain ⟨hst', rfl⟩ := starts_watched hw hst
  obtain ⟨hcalls, _, r, hgave, hget⟩ := hrun _ h0 script hst' i out h' e hr hreg
  refine ⟨hcalls, r, hgave, fun resp hrec http hh herr henc => ?_⟩
  have hg := hget resp hrec http hh
  dsimp only at hg
  rw [hw] at hg
  rw [hcalls]
  exact both_report c ha sc http sink cs oc hoc hp os hos true current codec m f req user t useGet _ ctx hs hc herr
    (fun x hx => let ⟨d, hd, _⟩ := henc x hx; ⟨d, hd⟩) (hg.result fun x b hx hb => by
      obtain ⟨d, hd, hl⟩ := henc x hx
      rw [hd] at hb
      cases hb
      exact hl)

/-- the two spans of a call whose response cannot be encoded -/
theorem sides_differ (c : Client Req Res) (ha : TraceableClient c.address) (sc : StatusCodec) (http : HttpClient) (sink : Sink) (cs : Circumstances) (oc : OtelInterceptor C)
    (hoc : oc.client = true) (hp : Propagates oc.telemetry) (os : OtelInterceptor D) (hos : os.client = false) (flavor : Bool) (current : Option D)
    (codec : ServerCodec Req Res) (m : MethodInfo) (f : Req → RequestContext → Call Res) (req : Req) (user : UserHeaders) (t : Option Int) (useGet : Bool)
    (key : List Char) (ctx : RequestContext) (hs : Traceable ctx.serverAddress) (hc : Traceable ctx.clientAddress)
    (x : Res) (e : Exc) (hx : (f req ctx).result = .ok x) (he : codec.res.encode x = .error e)
    (hg : Gets codec (f req ctx) (c.executeUnary sc http sink cs req m user t useGet).2) :
    Reports (tracedIn (c.observedUnary sc http sink cs oc none req m user t useGet).effects) (some (codeName (errorOf e).code)) ∧
      Reports (telemetryOf os flavor current f [⟨key, ctx, some req⟩]) none := by
  obtain ⟨hv, _⟩ := C103_untouched c ha sc http sink cs oc hoc hp req m user t useGet
  obtain ⟨_, _, hst⟩ := C103_unary_partial c ha sc http sink cs oc hoc none req m user t useGet
  rw [← hv] at hg
  obtain ⟨status, h1, h2⟩ := hst (fun e he => by
    rw [he] at hg
    cases hg
    rfl)
  constructor
  · generalize (c.observedUnary sc http sink cs oc none req m user t useGet).result = res at hg h1
    cases hg with
    | returned hr he' =>
      rw [hx] at hr
      cases hr
      rw [he] at he'
      cases he'
    | failed hf hrep hb =>
      rename_i e1 e'
      have hee : e1 = e := by
        rcases hf with h | ⟨y, h, h'⟩
        · rw [hx] at h
          cases h
        · rw [hx] at h
          cases h
          rw [he] at h'
          cases h'
          rfl
      subst hee
      have hcode : e'.code = (errorOf e1).code := congrArg (·.1) hrep
      cases h1
      rw [← hcode]
      exact h2
  · obtain ⟨_, hr⟩ := watch_eq (Res := Res) hos flavor current f req (ctx := ctx) hs hc
    show Reports (telemetryIn (os.watch flavor current f req ctx).effects ++ []) _
    rw [List.append_nil]
    rw [hx] at hr
    exact hr

/-- C104 is false of every response that cannot be encoded: the client reports the error it was told, and the server success. WSGI … -/
theorem C104_violation_encode_wsgi_all (c : Client Req Res) (ha : TraceableClient c.address) (app : App Req Res) (codec : ServerCodec Req Res) (m ms : MethodInfo)
    (oc : OtelInterceptor C) (hoc : oc.client = true) (hp : Propagates oc.telemetry) (os : OtelInterceptor D) (hos : os.client = false) (current : Option D)
    (f : Req → RequestContext → Call Res) (req : Req) (user : UserHeaders) (t : Option Int) (useGet : Bool)
    (h : UnaryCall c app codec m ms (os.watched false current f) req user t useGet) (sc : StatusCodec) (sink : Sink) (cs : Circumstances) :
    ∃ rq, SendsOnly (· = rq) (fun http => c.executeUnary sc http sink cs req m user t useGet) ∧
    ∀ env, WsgiSees c.address rq env → TraceableRequest (wsgiScheme env.vars) ((wsgiHeaders env.vars).get (pys! "host")) (wsgiClient env.vars) →
    ∃ ctx, (app.wsgi sc env).calls = [⟨methodPath m, ctx, some req⟩] ∧
      (Regular c codec (f req ctx) → ∀ x e, (f req ctx).result = .ok x → codec.res.encode x = .error e →
        ∃ r, WsgiGave (app.wsgi sc env) r ∧
        ∀ undo resp, Undoes undo c app → Received undo r resp → ∀ http : HttpClient, http.full rq = .ok resp →
          Reports (tracedIn (c.observedUnary sc http sink cs oc none req m user t useGet).effects) (some (codeName (errorOf e).code)) ∧
          Reports (telemetryOf os false current f (app.wsgi sc env).calls) none) := by
  obtain ⟨rq, _, hsend, hall⟩ := C58_connect_wsgi_partial c app codec m ms _ req user t useGet h sc sink cs
  refine ⟨rq, hsend, fun env henv ht => ?_⟩
  obtain ⟨ctx, hctx, _, _, hcalls, hgave⟩ := hall env henv
  have hs : Traceable ctx.serverAddress := traceable_server ht (by rw [← hctx.headers]; exact hctx.server)
  have hc : Traceable ctx.clientAddress := by rw [hctx.client]; exact ht.2
  rw [(watch_eq (Res := Res) hos false current f req (ctx := ctx) hs hc).1] at hgave
  refine ⟨ctx, hcalls, fun hreg x e hx he => ?_⟩
  obtain ⟨r, hr, hget⟩ := hgave hreg
  refine ⟨r, hr, fun undo resp hu hrec http hh => ?_⟩
  rw [hcalls]
  exact sides_differ c ha sc http sink cs oc hoc hp os hos false current codec m f req user t useGet _ ctx hs hc x e hx he (hget undo resp hu hrec http hh).1

/-- … and ASGI. -/
theorem C104_violation_encode_asgi_all (c : Client Req Res) (ha : TraceableClient c.address) (app : App Req Res) (codec : ServerCodec Req Res) (m ms : MethodInfo)
    (oc : OtelInterceptor C) (hoc : oc.client = true) (hp : Propagates oc.telemetry) (os : OtelInterceptor D) (hos : os.client = false) (current : Option D)
    (f : Req → RequestContext → Call Res) (req : Req) (user : UserHeaders) (t : Option Int) (useGet : Bool)
    (h : UnaryCall c app codec m ms (os.watched true current f) req user t useGet) (sc : StatusCodec) (sink : Sink) (cs : Circumstances) :
    ∃ rq, SendsOnly (· = rq) (fun http => c.executeUnary sc http sink cs req m user t useGet) ∧
    ∀ scope env, AsgiSees c.address rq scope env → Reliable env → (scope.rootPath = [] ∨ Dict.get? app.endpoints (scope.rootPath ++ methodPath m) = none) →
    ∃ ctx headers, asgiHeaders scope.headers Headers.empty = .ok headers ∧ (app.asgi sc scope env).calls = [⟨methodPath m, ctx, some req⟩] ∧
      (TraceableRequest (asgiScheme scope) (headers.get (pys! "host")) (scope.client.map fun ca => ca.1 ++ pys! ":" ++ ca.2) →
        Regular c codec (f req ctx) → ∀ x e, (f req ctx).result = .ok x → codec.res.encode x = .error e →
        ∃ r, AsgiGave (app.asgi sc scope env) r ∧
        ∀ undo resp, Undoes undo c app → Received undo r resp → ∀ http : HttpClient, http.full rq = .ok resp →
          Reports (tracedIn (c.observedUnary sc http sink cs oc none req m user t useGet).effects) (some (codeName (errorOf e).code)) ∧
          Reports (telemetryOf os true current f (app.asgi sc scope env).calls) none) := by
  obtain ⟨rq, _, hsend, hall⟩ := C58_connect_asgi_partial c app codec m ms _ req user t useGet h sc sink cs
  refine ⟨rq, hsend, fun scope env henv hrel hroot => ?_⟩
  obtain ⟨ctx, headers, hh0, hctx, _, _, hcalls, hgave⟩ := hall scope env henv hrel hroot
  refine ⟨ctx, headers, hh0, hcalls, fun ht hreg x e hx he => ?_⟩
  have hs : Traceable ctx.serverAddress := traceable_server ht (by rw [← hctx.headers]; exact hctx.server)
  have hc : Traceable ctx.clientAddress := by rw [hctx.client]; exact ht.2
  rw [(watch_eq (Res := Res) hos true current f req (ctx := ctx) hs hc).1] at hgave
  obtain ⟨r, hr, hget⟩ := hgave hreg
  refine ⟨r, hr, fun undo resp hu hrec http hh => ?_⟩
  rw [hcalls]
  exact sides_differ c ha sc http sink cs oc hoc hp os hos true current codec m f req user t useGet _ ctx hs hc x e hx he (hget undo resp hu hrec http hh).1

end

/-! ### the hypotheses are met -/

/-- a codec that cannot encode the response [7] -/
def mutedCodec : ServerCodec Bytes Bytes := ⟨pys! "raw", rawCodec, { rawCodec with encode := fun b => if b = [7] then .error (.other default (pys! "no")) else .ok b }⟩
def mutedClient : Client Bytes Bytes :=
  .new .sync (pys! "http://h") rawCodec mutedCodec.res .connect revGzip none (some revGzip) (some 5000) none (pys! "ua")
def mutedApp (flavor : Bool) : App Bytes Bytes :=
  .new [(pys! "/a.S/Echo", ⟨echoInfo, .unary (watchInterceptor.watched flavor none tellCall)⟩)] (pys! "/a.S") revGzip none none [mutedCodec]

theorem muted_traceable : TraceableClient mutedClient.address :=
  ⟨pys! "http", pys! "h", .inl rfl, .inl (by unfold PlainHost; decide), rfl⟩

theorem muted_call (flavor : Bool) (req : Bytes) (useGet : Bool) :
    UnaryCall mutedClient (mutedApp flavor) mutedCodec echoInfo echoInfo (watchInterceptor.watched flavor none tellCall) req pairUser (some 1500) useGet where
  connect := rfl
  codec := ⟨rfl, rfl, by decide +kernel, by decide +kernel, by intro m b h; cases h; rfl, by
    intro m b h
    change (if m = [7] then _ else _) = _ at h
    split at h
    · cases h
    · cases h; rfl⟩
  comps := by
    refine C58_configured _ _ _ _ _ _ _ rfl _ _ _ _ _ _ _ _ _ _ ?_ ?_
    · intro n h
      have h1 : n ∈ Dict.keys (resolveCompressions revGzip none) := (keys_available ..).2 h
      have h2 : ∀ n ∈ Dict.keys (resolveCompressions revGzip none), PlainName n := by decide +kernel
      exact h2 n h1
    · intro k h
      cases h
      refine ⟨by decide +kernel, ?_, revGzip, rfl, ?_⟩
      · intro b h; simpa [revGzip, Compression.compress] using h
      · intro b; simp [revGzip, Compression.compress, Compression.decompress]
  path := ⟨⟨_, rfl⟩, by decide +kernel⟩
  endpoint := rfl
  get _ := rfl
  message := ⟨req, rfl, by intro _ n h; cases h⟩
  timeout := by
    show (intStr 1500).length ≤ 10
    decide +kernel

theorem muted_regular (req : Bytes) (h9 : req ≠ [9]) (ctx : RequestContext) : Regular mutedClient mutedCodec (tellCall req ctx) where
  exceptions e he := by
    rcases he with he | ⟨r, _, he⟩
    · unfold tellCall at he
      dsimp only at he
      by_cases h : req = []
      · rw [if_pos h] at he
        cases he
        exact ⟨rfl, (by intro d hd; cases hd), (by intro s hs h; cases h)⟩
      · rw [if_neg h, if_neg h9] at he
        cases he
    · change (if r = [7] then _ else _) = _ at he
      split at he
      · cases he
        exact ⟨by decide, (by intro d hd; cases hd), (by intro s hs h; cases h)⟩
      · cases he
  encoding := by
    show fieldValues (metadataFields (Spec.metadataOf (tellCall [] default).steps)) _ = []
    decide +kernel
  limit r b _ _ n h := by cases h

/-- A traced call that succeeds ([1, 2, 3]), one that fails ([]), and one whose response cannot be encoded ([7]). -/
example (flavor useGet : Bool) (ctx : RequestContext) :
    UnaryCall mutedClient (mutedApp flavor) mutedCodec echoInfo echoInfo (watchInterceptor.watched flavor none tellCall) [1, 2, 3] pairUser (some 1500) useGet ∧
    TraceableClient mutedClient.address ∧ tracingClient.client = true ∧ watchInterceptor.client = false ∧
    Regular mutedClient mutedCodec (tellCall [1, 2, 3] ctx) ∧ Regular mutedClient mutedCodec (tellCall [] ctx) ∧ Regular mutedClient mutedCodec (tellCall [7] ctx) ∧
    (∃ d, mutedCodec.res.encode [1, 2, 3] = .ok d) ∧ (∃ x e, (tellCall [7] ctx).result = .ok x ∧ mutedCodec.res.encode x = .error e) ∧
    (∃ q, WsgiSees mutedClient.address (theRequest mutedClient echoInfo pairUser (some 1500) useGet [7])
      (environOf (theRequest mutedClient echoInfo pairUser (some 1500) useGet [7]).method (pys! "/a.S/Echo") q (theRequest mutedClient echoInfo pairUser (some 1500) useGet [7]).headers
        (theRequest mutedClient echoInfo pairUser (some 1500) useGet [7]).body)) := by
  obtain ⟨q, hq⟩ := hasTarget_of (muted_call flavor [7] useGet).path (theRequest_addressed (c := mutedClient) rfl echoInfo pairUser (some 1500) useGet [7])
  exact ⟨muted_call .., muted_traceable, rfl, rfl, muted_regular _ (by decide) ctx, muted_regular _ (by decide) ctx, muted_regular _ (by decide) ctx,
    ⟨_, rfl⟩, ⟨_, _, rfl, rfl⟩, q, wsgiSees_environOf hq⟩

def mutedRun (req : Bytes) : List (Telemetered (List Char)) := telemetryOf watchInterceptor false none tellCall ((mutedApp false).wsgi demoStatus
  (environOf (pys! "POST") (pys! "/a.S/Echo") [] (theRequest mutedClient echoInfo pairUser (some 1500) false req).headers [req.reverse])).calls

/-- … on the server: the spans of the three -/
example : (mutedRun [1, 2, 3]).length = 3 ∧ (mutedRun []).length = 4 ∧ (mutedRun [7]).length = 3 := by
  decide +kernel

/-- A traced call by gRPC or gRPC-Web: the call, and its handler on a request (whose run is the one shown for C58). -/
example (p : Proto) (h : p ≠ .connect) (flavor : Bool) (ctx : RequestContext) :
    StreamCall (chatClient p) (chatAppOf (.unary (watchInterceptor.watched flavor none tellCall))) chatCodec echoInfo echoInfo (.unary (watchInterceptor.watched flavor none tellCall))
      [[6]] pairUser (some 1500) ∧ TraceableClient (chatClient p).address ∧
    (∃ h0 script, Starts ⟨[[6]], none⟩ ctx (.unary tellCall) (some [6]) h0 script) ∧ (tellCall [6] ctx).result = .ok [6] ∧ chatCodec.res.encode [6] = .ok [6] := by
  refine ⟨chat_call p _ (fun h' => absurd h' h) _ (by simp), ?_, ⟨_, _, .unary tellCall [6] rfl rfl (.returned _ _)⟩, rfl, rfl⟩
  exact ⟨pys! "http", pys! "h", .inl rfl, .inl (by unfold PlainHost; decide), rfl⟩

end Props
