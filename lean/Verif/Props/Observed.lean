import Verif.Proofs.Observed
/-
C93: what tracing reports of a request is what was answered.
-/
namespace Props
open Conn Py Spec

variable {C Req Res : Type}

/-- **C93, WSGI**: a traced handler of a unary Connect method gives the answer it gives without tracing; one span is started and ended and one duration recorded, and they report the status the
client is told. Missing: responses that cannot be encoded, exceptions that are not instances of `Exception`, requests that are refused before they reach the handler, and addresses that cannot be
parsed (`C93_violation_encode`, `C93_violation_cancelled`, `C93_violation_refused`, C57). -/
theorem C93_wsgi_partial (app : App Req Res) (sc : StatusCodec) (env : Environ) (key httpMethod : List Char) (m : MethodInfo)
    (o : OtelInterceptor C) (ho : o.client = false) (current : Option C) (f : Req → RequestContext → Call Res)
    (h : WsgiConnectUnary app env key m (o.watched false current f) httpMethod) (hp : Pieces env.input)
    (ht : TraceableRequest (wsgiScheme env.vars) ((wsgiHeaders env.vars).get (pys! "host")) (wsgiClient env.vars))
    (codec : ServerCodec Req Res) (req : Req) (hacc : WsgiCarries app env m httpMethod codec req)
    (herr : ∀ ctx e, (f req ctx).result = .error e → e.isException = true ∧ (∀ s hs, e ≠ .http s hs) ∧ DebugOk (errorOf e))
    (henc : ∀ ctx x, (f req ctx).result = .ok x → ∃ d, codec.res.encode x = .ok d) :
    ∃ ctx r status, (app.wsgi sc env).calls = [⟨key, ctx, some req⟩] ∧ WsgiGave (app.wsgi sc env) r ∧ Answers codec (negotiateCompression
        ((wsgiHeaders env.vars).getD (pys! "accept-encoding") (pys! "identity")) app.comps) (f req ctx) r ∧
      ToldStatus r status ∧ Reports (telemetryOf o false current f (app.wsgi sc env).calls) status := by
  obtain ⟨ctx, hctx, hcalls, hgave, _⟩ := C63_wsgi app sc env key httpMethod m _ h hp codec req hacc
  obtain ⟨hw, hr⟩ := watch_eq (Res := Res) ho false current f req (ctx := ctx) (traceable_server ht (by rw [← hctx.headers]; exact hctx.server))
    (by rw [hctx.client]; exact ht.2)
  rw [hw] at hgave
  obtain ⟨r, hg, ha⟩ := hgave (by
    rintro e (hf | ⟨x, h1, h2⟩)
    · exact ⟨(herr ctx e hf).1, (herr ctx e hf).2.2⟩
    · obtain ⟨d, hd⟩ := henc ctx x h1
      rw [hd] at h2
      cases h2)
  refine ⟨ctx, r, _, hcalls, hg, ha, answers_told ha (fun e he => (herr ctx e he).2.1) (henc ctx), ?_⟩
  rw [hcalls]
  show Reports (telemetryIn (o.watch false current f req ctx).effects ++ []) _
  rw [List.append_nil]
  have : reported (errOf (f req ctx).result) = errOf (f req ctx).result := by
    cases hres : (f req ctx).result with
    | ok x => rfl
    | error e =>
      show (some e).filter _ = some e
      rw [Option.filter_some, if_pos (herr ctx e hres).1]
  rw [this] at hr
  exact hr

/-- **C93, ASGI**: as on WSGI. -/
theorem C93_asgi_partial (app : App Req Res) (sc : StatusCodec) (scope : Scope) (env : Env) (headers : Headers) (key : List Char) (m : MethodInfo)
    (o : OtelInterceptor C) (ho : o.client = false) (current : Option C) (f : Req → RequestContext → Call Res)
    (h : AsgiConnectUnary app scope headers key m (o.watched true current f)) (hrel : Reliable env)
    (ht : TraceableRequest (asgiScheme scope) (headers.get (pys! "host")) (scope.client.map fun ca => ca.1 ++ pys! ":" ++ ca.2))
    (codec : ServerCodec Req Res) (req : Req) (hacc : AsgiCarries app scope env headers m codec req)
    (herr : ∀ ctx e, (f req ctx).result = .error e → e.isException = true ∧ (∀ s hs, e ≠ .http s hs) ∧ DebugOk (errorOf e))
    (henc : ∀ ctx x, (f req ctx).result = .ok x → ∃ d, codec.res.encode x = .ok d) :
    ∃ ctx r status, (app.asgi sc scope env).calls = [⟨key, ctx, some req⟩] ∧ AsgiGave (app.asgi sc scope env) r ∧ Answers codec (negotiateCompression
        (headers.getD (pys! "accept-encoding") []) app.comps) (f req ctx) r ∧
      ToldStatus r status ∧ Reports (telemetryOf o true current f (app.asgi sc scope env).calls) status := by
  obtain ⟨ctx, hctx, hcalls, hgave, _⟩ := C63_asgi app sc scope env headers key m _ h hrel codec req hacc
  obtain ⟨hw, hr⟩ := watch_eq (Res := Res) ho true current f req (ctx := ctx) (traceable_server ht (by rw [← hctx.headers]; exact hctx.server))
    (by rw [hctx.client]; exact ht.2)
  rw [hw] at hgave
  obtain ⟨r, hg, ha⟩ := hgave (by
    rintro e (hf | ⟨x, h1, h2⟩)
    · exact ⟨(herr ctx e hf).1, (herr ctx e hf).2.2⟩
    · obtain ⟨d, hd⟩ := henc ctx x h1
      rw [hd] at h2
      cases h2)
  refine ⟨ctx, r, _, hcalls, hg, ha, answers_told ha (fun e he => (herr ctx e he).2.1) (henc ctx), ?_⟩
  rw [hcalls]
  show Reports (telemetryIn (o.watch true current f req ctx).effects ++ []) _
  rw [List.append_nil]
  have : reported (errOf (f req ctx).result) = errOf (f req ctx).result := by
    cases hres : (f req ctx).result with
    | ok x => rfl
    | error e =>
      show (some e).filter _ = some e
      rw [Option.filter_some, if_pos (herr ctx e hres).1]
  rw [this] at hr
  exact hr

/-- **C93, streams on WSGI**: of a traced handler that produces a stream of responses, by any protocol: the response is the handler's messages and its outcome, as without tracing, and what tracing
reports is the outcome at the end of the response. (It is asked for one message more than it produces.) -/
theorem C93_wsgi_stream_partial (app : App Req Res) (sc : StatusCodec) (env : Environ) (key : List Char) (m : MethodInfo) (p : Proto)
    (o : OtelInterceptor C) (ho : o.client = false) (current : Option C) (f : Req → RequestContext → Script Res)
    (codec : ServerCodec Req Res) (reqComp resComp : Compression)
    (h : WsgiStreamed app env key ⟨m, .serverStream (o.watchedGen false current f)⟩ p codec reqComp resComp)
    (hp : Pieces env.input) (req : Req) (hs : WsgiMessages app env codec reqComp ⟨[req], none⟩)
    (ht : TraceableRequest (wsgiScheme env.vars) ((wsgiHeaders env.vars).get (pys! "host")) (wsgiClient env.vars))
    (henc : ∀ ctx x, .emit x ∈ (f req ctx).acts → ∃ b, (writerOf codec resComp).write x = .ok b) :
    ∃ ctx, ∀ i ms h' e, Runs (writerOf codec resComp).write none (ready (Req := Req) ⟨[], none⟩) (f req ctx).acts (f req ctx).outcome i ms h' e → Caught e →
      ∀ out, EndsWith (writerOf codec resComp) p sc h'.info.trailers e out →
      (app.wsgi sc env).calls = [⟨key, ctx, some req⟩] ∧
      (∃ bs : List (List UInt8), ms.map (writerOf codec resComp).write = bs.map .ok ∧
        (app.wsgi sc env).events = .start 200 (streamFields p codec resComp i) :: bs.map .chunk ++ wsgiEnding out) ∧
      Reports (telemetryOfStream o false current f (ms.length + 1) (app.wsgi sc env).calls) (e.map fun x => codeName (errorOf x).code) := by
  obtain ⟨hm, ctx, _, hctx, hrun⟩ := C35_wsgi app sc env key _ p codec reqComp resComp h hp _ hs
  have hsv : Traceable ctx.serverAddress := traceable_server ht (by rw [← hctx.headers]; exact hctx.server)
  have hcl : Traceable ctx.clientAddress := by rw [hctx.client]; exact ht.2
  obtain ⟨w1, w2, _⟩ := watchedGen_eq (Res := Res) ho false current f req hsv hcl
  refine ⟨ctx, fun i ms h' e hr hc out hout => ?_⟩
  obtain ⟨e1, e2, e3, e4, e5⟩ := genOf_use (C := C) (close' := (f req ctx).closeErr) hr rfl rfl (henc ctx) []
  obtain ⟨bs, logged, hbs, hall⟩ := hrun (some req) _ _ (.serverStream _ req rfl rfl) i ms h' e (by rw [w1, w2]; exact hr) hc out hout
  rw [hall]
  refine ⟨rfl, ⟨bs, hbs, rfl⟩, ?_⟩
  have := (watchGen_reports ho false current f req hsv hcl e2 e5 e4).1 (Nat.lt_succ_self _)
  rw [e3, ← e1] at this
  show Reports (_ ++ []) _
  rw [List.append_nil]
  have hrep : (reported e).map statusOf = e.map fun x => codeName (errorOf x).code := by
    cases e with
    | none => rfl
    | some x =>
      rw [show reported (some x) = some x from by show (some x).filter _ = some x; rw [Option.filter_some, if_pos (hc x rfl)]]
      exact congrArg some (code_errorOf x)
  rw [hrep] at this
  exact this

/-- **C93, streams on ASGI**: as on WSGI, unless the client disconnects before the response is complete or the handler is cancelled. -/
theorem C93_asgi_stream_partial (app : App Req Res) (sc : StatusCodec) (scope : Scope) (env : Env) (headers : Headers) (key : List Char) (m : MethodInfo) (p : Proto)
    (o : OtelInterceptor C) (ho : o.client = false) (current : Option C) (f : Req → RequestContext → Script Res)
    (codec : ServerCodec Req Res) (reqComp resComp : Compression)
    (h : AsgiStreamed app scope headers key ⟨m, .serverStream (o.watchedGen true current f)⟩ p codec reqComp resComp) (hrel : Reliable env)
    (hnc : env.cancelAfter = none) (hord : Spec.Ordinary app) (hdis : env.disconnectAt = none) (req : Req) (hs : AsgiMessages app env codec reqComp ⟨[req], none⟩)
    (ht : TraceableRequest (asgiScheme scope) (headers.get (pys! "host")) (scope.client.map fun ca => ca.1 ++ pys! ":" ++ ca.2))
    (henc : ∀ ctx x, .emit x ∈ (f req ctx).acts → ∃ b, (writerOf codec resComp).write x = .ok b) :
    ∃ ctx, ∀ i ms h' e, Runs (writerOf codec resComp).write none (ready (Req := Req) ⟨[], none⟩) (f req ctx).acts (f req ctx).outcome i ms h' e → Caught e →
      ∀ out, EndsWith (writerOf codec resComp) p sc h'.info.trailers e out →
      (app.asgi sc scope env).calls = [⟨key, ctx, some req⟩] ∧
      (∃ bs : List (List UInt8), ms.map (writerOf codec resComp).write = bs.map .ok ∧
        (app.asgi sc scope env).sends = (.start 200 (streamFields p codec resComp i) (decide (p = .grpc)) :: bs.map (Sent.body · true) ++
              asgiEnding out).map (·, none)) ∧
      Reports (telemetryOfStream o true current f (ms.length + 1) (app.asgi sc scope env).calls) (e.map fun x => codeName (errorOf x).code) := by
  obtain ⟨ctx, s, hctx, hmsgs, hrun⟩ := C35_asgi_partial app sc scope env headers key _ p codec reqComp resComp h hrel
  have hsv : Traceable ctx.serverAddress := traceable_server ht (by rw [← hctx.headers]; exact hctx.server)
  have hcl : Traceable ctx.clientAddress := by rw [hctx.client]; exact ht.2
  obtain ⟨w1, w2, w3⟩ := watchedGen_eq (Res := Res) ho true current f req hsv hcl
  obtain ⟨name, hn, hcodec⟩ := h.codec
  have hseq : s = ⟨[req], none⟩ := by
    have a1 := (asgiMessages_iff hnc hord ⟨name, hcodec⟩ (requestCompression_known h.reqComp)).1 (hmsgs hnc hord)
    have a2 := (asgiMessages_iff hnc hord ⟨name, hcodec⟩ (requestCompression_known h.reqComp)).1 hs
    exact a1.symm.trans a2
  subst hseq
  refine ⟨ctx, fun i ms h' e hr hc out hout => ?_⟩
  obtain ⟨e1, e2, e3, e4, e5⟩ := genOf_use (C := C) (close' := (f req ctx).closeErr) hr rfl rfl (henc ctx) []
  obtain ⟨bs, hbs, hall⟩ := hrun (some req) _ _ (.serverStream _ req rfl rfl) i ms h' e (by rw [w1, w2, w3 rfl]; exact hr)
    (fun _ k hk => by rw [hdis] at hk; cases hk) (fun hx => by subst hx; exact absurd (hc _ rfl) (by decide)) out hout
  rw [hall]
  refine ⟨rfl, ⟨bs, hbs, rfl⟩, ?_⟩
  have := (watchGen_reports ho true current f req hsv hcl e2 e5 e4).1 (Nat.lt_succ_self _)
  rw [e3, ← e1] at this
  show Reports (_ ++ []) _
  rw [List.append_nil]
  have hrep : (reported e).map statusOf = e.map fun x => codeName (errorOf x).code := by
    cases e with
    | none => rfl
    | some x =>
      rw [show reported (some x) = some x from by show (some x).filter _ = some x; rw [Option.filter_some, if_pos (hc x rfl)]]
      exact congrArg some (code_errorOf x)
  rw [hrep] at this
  exact this

/-! ### what is reported otherwise -/

/-- **C93 is false when the response cannot be encoded**: the client is told that the call failed, and a success is reported. -/
theorem C93_violation_encode (app : App Req Res) (sc : StatusCodec) (env : Environ) (key httpMethod : List Char) (m : MethodInfo)
    (o : OtelInterceptor C) (ho : o.client = false) (current : Option C) (f : Req → RequestContext → Call Res)
    (h : WsgiConnectUnary app env key m (o.watched false current f) httpMethod) (hp : Pieces env.input)
    (ht : TraceableRequest (wsgiScheme env.vars) ((wsgiHeaders env.vars).get (pys! "host")) (wsgiClient env.vars))
    (codec : ServerCodec Req Res) (req : Req) (hacc : WsgiCarries app env m httpMethod codec req)
    (henc : ∀ ctx, ∃ x cls msg, (f req ctx).result = .ok x ∧ codec.res.encode x = .error (.other cls msg)) :
    (∃ r, WsgiGave (app.wsgi sc env) r ∧ ToldStatus r (some (pys! "unknown"))) ∧ Reports (telemetryOf o false current f (app.wsgi sc env).calls) none := by
  obtain ⟨ctx, hctx, hcalls, hgave, _⟩ := C63_wsgi app sc env key httpMethod m _ h hp codec req hacc
  obtain ⟨hw, hr⟩ := watch_eq (Res := Res) ho false current f req (ctx := ctx) (traceable_server ht (by rw [← hctx.headers]; exact hctx.server))
    (by rw [hctx.client]; exact ht.2)
  obtain ⟨x, cls, msg, hx, hxe⟩ := henc ctx
  have hf : Fails codec (f req ctx) (.other cls msg) := .inr ⟨x, hx, hxe⟩
  rw [hw] at hgave
  obtain ⟨r, hg, ha⟩ := hgave fun e he => by
    cases fails_unique hf he
    exact ⟨rfl, fun d hd => (by cases hd)⟩
  refine ⟨⟨r, hg, ?_⟩, ?_⟩
  · cases ha with
    | success h1 h2 => rw [hx] at h1; cases h1; rw [hxe] at h2; cases h2
    | failure h1 h2 h3 h4 =>
      cases fails_unique hf h1
      exact .failure h3
    | http h1 => cases fails_unique hf h1
  · rw [hcalls]
    show Reports (telemetryIn (o.watch false current f req ctx).effects ++ []) _
    rw [List.append_nil]
    rw [hx] at hr
    exact hr

/-- **… nor in streams**: a message that cannot be encoded ends the stream with an error; what is reported is a success. -/
theorem C93_violation_stream_encode (app : App Req Res) (sc : StatusCodec) (env : Environ) (key : List Char) (m : MethodInfo) (p : Proto)
    (o : OtelInterceptor C) (ho : o.client = false) (current : Option C) (f : Req → RequestContext → Script Res)
    (codec : ServerCodec Req Res) (reqComp resComp : Compression)
    (h : WsgiStreamed app env key ⟨m, .serverStream (o.watchedGen false current f)⟩ p codec reqComp resComp)
    (hp : Pieces env.input) (req : Req) (hs : WsgiMessages app env codec reqComp ⟨[req], none⟩)
    (ht : TraceableRequest (wsgiScheme env.vars) ((wsgiHeaders env.vars).get (pys! "host")) (wsgiClient env.vars)) :
    ∃ ctx, ∀ pre x post y, (f req ctx).acts = pre ++ .emit x :: post → (f req ctx).closeErr = none → (writerOf codec resComp).write x = .error y → y.isException = true →
      ∀ i ms h', Runs (writerOf codec resComp).write none (ready (Req := Req) ⟨[], none⟩) pre none i ms h' none →
      ∀ out, EndsWith (writerOf codec resComp) p sc h'.info.trailers (some y) out →
      (∃ before, (app.wsgi sc env).events = before ++ wsgiEnding out) ∧
      Reports (telemetryOfStream o false current f (ms.length + 1) (app.wsgi sc env).calls) none := by
  obtain ⟨hm, ctx, _, hctx, hrun⟩ := C35_wsgi app sc env key _ p codec reqComp resComp h hp _ hs
  have hsv : Traceable ctx.serverAddress := traceable_server ht (by rw [← hctx.headers]; exact hctx.server)
  have hcl : Traceable ctx.clientAddress := by rw [hctx.client]; exact ht.2
  obtain ⟨w1, w2, _⟩ := watchedGen_eq (Res := Res) ho false current f req hsv hcl
  refine ⟨ctx, fun pre x post y hacts hclose hx hy i ms h' hr out hout => ?_⟩
  obtain ⟨i', hr'⟩ := runs_unwritable (post := post) (outcome := (f req ctx).outcome) hr rfl hx
  obtain ⟨bs, logged, hbs, hall⟩ := hrun (some req) _ _ (.serverStream _ req rfl rfl) i' ms h' (some y) (by rw [w1, w2, hacts]; exact hr')
    (fun z hz => by cases hz; exact hy) out hout
  obtain ⟨e2, e3, e4, e5⟩ := genOf_use_more (C := C) (close' := (f req ctx).closeErr) (outcome := (f req ctx).outcome) (m := x) (post := post) hr rfl []
  rw [← hacts] at e2 e3 e4 e5
  rw [hall]
  refine ⟨⟨_ :: _, rfl⟩, ?_⟩
  have := (watchGen_reports ho false current f req hsv hcl e2 e5 e4).2 (by rw [List.length_append]; rfl)
  rw [e3, hclose] at this
  show Reports (_ ++ []) _
  rw [List.append_nil]
  exact this

/-- **C93 is false of handlers that are cancelled**: nothing is answered, and a success is reported. -/
theorem C93_violation_cancelled (app : App Req Res) (sc : StatusCodec) (scope : Scope) (env : Env) (headers : Headers) (key : List Char) (m : MethodInfo)
    (o : OtelInterceptor C) (ho : o.client = false) (current : Option C) (f : Req → RequestContext → Call Res)
    (h : AsgiConnectUnary app scope headers key m (o.watched true current f)) (hrel : Reliable env)
    (ht : TraceableRequest (asgiScheme scope) (headers.get (pys! "host")) (scope.client.map fun ca => ca.1 ++ pys! ":" ++ ca.2))
    (codec : ServerCodec Req Res) (req : Req) (hacc : AsgiCarries app scope env headers m codec req)
    (hcan : ∀ ctx, (f req ctx).result = .error .cancelled) :
    (app.asgi sc scope env).sends = [] ∧ (app.asgi sc scope env).escaped = some .cancelled ∧
    Reports (telemetryOf o true current f (app.asgi sc scope env).calls) none := by
  obtain ⟨ctx, hctx, hcalls, _, hesc⟩ := C63_asgi app sc scope env headers key m _ h hrel codec req hacc
  obtain ⟨hw, hr⟩ := watch_eq (Res := Res) ho true current f req (ctx := ctx) (traceable_server ht (by rw [← hctx.headers]; exact hctx.server))
    (by rw [hctx.client]; exact ht.2)
  rw [hw] at hesc
  obtain ⟨h1, h2⟩ := hesc .cancelled (.inl (hcan ctx)) rfl
  refine ⟨h1, h2, ?_⟩
  rw [hcalls]
  show Reports (telemetryIn (o.watch true current f req ctx).effects ++ []) _
  rw [List.append_nil]
  rw [hcan ctx] at hr
  exact hr

/-- **C93 is false when the client disconnects**: the stream ends as CANCELED, and a success is reported. -/
theorem C93_violation_disconnect (app : App Req Res) (sc : StatusCodec) (scope : Scope) (env : Env) (headers : Headers) (key : List Char) (m : MethodInfo) (p : Proto)
    (o : OtelInterceptor C) (ho : o.client = false) (current : Option C) (f : Req → RequestContext → Script Res)
    (codec : ServerCodec Req Res) (reqComp resComp : Compression)
    (h : AsgiStreamed app scope headers key ⟨m, .serverStream (o.watchedGen true current f)⟩ p codec reqComp resComp) (hrel : Reliable env)
    (hnc : env.cancelAfter = none) (hord : Spec.Ordinary app) (req : Req) (hs : AsgiMessages app env codec reqComp ⟨[req], none⟩)
    (ht : TraceableRequest (asgiScheme scope) (headers.get (pys! "host")) (scope.client.map fun ca => ca.1 ++ pys! ":" ++ ca.2)) :
    ∃ ctx, ∀ pre x post, (f req ctx).acts = pre ++ .emit x :: post →
      ∀ i ms h', Runs (writerOf codec resComp).write none (ready (Req := Req) ⟨[], none⟩) pre none i ms h' none → env.disconnectAt = some ms.length →
      ∃ msg, ∀ out, EndsWith (writerOf codec resComp) p sc h'.info.trailers (some (.mk .canceled msg)) out →
      (∃ before, (app.asgi sc scope env).sends = before ++ (asgiEnding out).map (·, none)) ∧
      Reports (telemetryOfStream o true current f (ms.length + 1) (app.asgi sc scope env).calls) none := by
  obtain ⟨ctx, s, hctx, hmsgs, hrun⟩ := C36_asgi_canceled_partial app sc scope env headers key _ p codec reqComp resComp h hrel ⟨_, rfl⟩
  have hsv : Traceable ctx.serverAddress := traceable_server ht (by rw [← hctx.headers]; exact hctx.server)
  have hcl : Traceable ctx.clientAddress := by rw [hctx.client]; exact ht.2
  obtain ⟨w1, w2, w3⟩ := watchedGen_eq (Res := Res) ho true current f req hsv hcl
  obtain ⟨name, hn, hcodec⟩ := h.codec
  have hseq : s = ⟨[req], none⟩ := by
    have a1 := (asgiMessages_iff hnc hord ⟨name, hcodec⟩ (requestCompression_known h.reqComp)).1 (hmsgs hnc hord)
    have a2 := (asgiMessages_iff hnc hord ⟨name, hcodec⟩ (requestCompression_known h.reqComp)).1 hs
    exact a1.symm.trans a2
  subst hseq
  refine ⟨ctx, fun pre x post hacts i ms h' hr hd => ?_⟩
  obtain ⟨msg, hend⟩ := hrun (some req) _ _ (.serverStream _ req rfl rfl) (w3 rfl) pre x post (w1.trans hacts) i ms h' hr hd
  refine ⟨msg, fun out hout => ?_⟩
  obtain ⟨bs, hbs, hall⟩ := hend out hout
  obtain ⟨e2, e3, e4, e5⟩ := genOf_use_more (C := C) (close' := (f req ctx).closeErr) (outcome := (f req ctx).outcome) (m := x) (post := post) hr rfl []
  rw [← hacts] at e2 e3 e4 e5
  rw [hall]
  refine ⟨⟨_, List.map_append⟩, ?_⟩
  have := (watchGen_reports ho true current f req hsv hcl e2 e5 e4).2 (by rw [List.length_append]; rfl)
  show Reports (_ ++ []) _
  rw [List.append_nil]
  exact this

/-- **C93 is false of requests that are refused before they reach the handler**: the client is told that the call failed, and nothing is reported. -/
theorem C93_violation_refused (app : App Req Res) (hord : Spec.Ordinary app) (sc : StatusCodec) (env : Environ) (key httpMethod : List Char) (m : MethodInfo)
    (o : OtelInterceptor C) (current : Option C) (f : Req → RequestContext → Call Res)
    (h : WsgiConnectUnary app env key m (o.watched false current f) httpMethod) (hp : Pieces env.input) (hno : ∀ req, ¬ WsgiAcceptable app env m httpMethod req) :
    (∃ r, WsgiGave (app.wsgi sc env) r ∧ CompleteRefusal r) ∧ telemetryOf o false current f (app.wsgi sc env).calls = [] := by
  obtain ⟨h1, h2⟩ := C34_wsgi_rejected app hord sc env key httpMethod m _ h hp hno
  refine ⟨h2, ?_⟩
  rw [h1]
  rfl

/-! ### the hypotheses are met -/

def watchInterceptor : OtelInterceptor (List Char) := ⟨demoTelemetry, false, fun _ => pys! "Error"⟩
/-- cannot encode `[7]` -/
def fussyCodec : ServerCodec Bytes Bytes :=
  ⟨pys! "proto", pickyCodec, ⟨pys! "raw", fun b => if b = [7] then .error (.other .valueError (pys! "unencodable")) else .ok b, .ok⟩⟩
def watchApp (flavor : Bool) : App Bytes Bytes :=
  .new [(pys! "/a.S/Echo", ⟨echoInfo, .unary (watchInterceptor.watched flavor none tellCall)⟩),
    (pys! "/a.S/List", ⟨listInfo, .serverStream (watchInterceptor.watchedGen flavor none listRun)⟩)] (pys! "/a.S") flipComp none none [fussyCodec]
/-- with a Host and the address of the client -/
def watchEnviron (path ct : Str) (input : List Bytes) : Environ :=
  flowEnviron path ct [(pys! "HTTP_HOST", pys! "a.example"), (pys! "REMOTE_ADDR", pys! "::1"), (pys! "REMOTE_PORT", pys! "50000")] input
def watchScope (path ct : Str) : Scope := { flowScope path ct [(utf8Encode (pys! "host"), utf8Encode (pys! "a.example"))] with client := some (pys! "::1", pys! "50000") }
def watchHeaders (ct : Str) : Headers := flowHeaders ct [(pys! "host", pys! "a.example")]

theorem watch_wsgi_traceable (path ct : Str) (hct : ct = pys! "application/proto" ∨ ct = pys! "application/grpc") (input : List Bytes) :
    TraceableRequest (wsgiScheme (watchEnviron path ct input).vars) ((wsgiHeaders (watchEnviron path ct input).vars).get (pys! "host"))
      (wsgiClient (watchEnviron path ct input).vars) :=
  ⟨.inr ⟨pys! "a.example", by rcases hct with rfl | rfl <;> rfl, .inr ⟨by unfold PlainHost; decide, .inl rfl⟩⟩,
    .inr (.inr ⟨pys! "::1:50000", pys! "::1", 50000, rfl, Proofs.Otel.addressPort_digits (a := pys! "::1") (p := pys! "50000") (by decide) (by decide)⟩)⟩

theorem watch_asgi_traceable (path ct : Str) (hct : ct = pys! "application/proto" ∨ ct = pys! "application/grpc") :
    TraceableRequest (asgiScheme (watchScope path ct)) ((watchHeaders ct).get (pys! "host")) ((watchScope path ct).client.map fun ca => ca.1 ++ pys! ":" ++ ca.2) :=
  ⟨.inr ⟨pys! "a.example", by rcases hct with rfl | rfl <;> decide +kernel, .inr ⟨by unfold PlainHost; decide, .inl rfl⟩⟩,
    .inr (.inr ⟨pys! "::1:50000", pys! "::1", 50000, rfl, Proofs.Otel.addressPort_digits (a := pys! "::1") (p := pys! "50000") (by decide) (by decide)⟩)⟩

theorem watch_wsgi (input : List Bytes) : WsgiConnectUnary (watchApp false) (watchEnviron (pys! "/a.S/Echo") (pys! "application/proto") input) (pys! "/a.S/Echo") echoInfo
    (watchInterceptor.watched false none tellCall) (pys! "POST") :=
  ⟨wsgiLookup_ok.1 rfl, rfl, (negotiate_connect _).1 (by
    show negotiateServerProtocol ((wsgiHeaders (watchEnviron (pys! "/a.S/Echo") (pys! "application/proto") []).vars).getD (pys! "content-type") []) = .connect
    decide +kernel)⟩

theorem watch_carries (input : List Bytes) (h : pickyCodec.decode input.flatten = .ok input.flatten) :
    WsgiCarries (watchApp false) (watchEnviron (pys! "/a.S/Echo") (pys! "application/proto") input) echoInfo (pys! "POST") fussyCodec input.flatten :=
  ⟨connectHeaders_of (by rfl) (by rfl),
   .inl ⟨rfl, pys! "proto", _, _, (unaryCodecName_iff ..).2 (by
      show connectCodecName ((wsgiHeaders (watchEnviron (pys! "/a.S/Echo") (pys! "application/proto") []).vars).getD _ _) false = _
      decide +kernel), rfl, .whole (fun s hs => by cases hs),
    .inl ⟨by show wsgiEncoding (watchEnviron (pys! "/a.S/Echo") (pys! "application/proto") []) = _; decide +kernel, rfl⟩, (by intro n h; cases h), h⟩⟩

/-- WSGI: a success, a failure; and an answer that cannot be encoded (`C93_violation_encode`) and a refused request (`C93_violation_refused`) -/
example : WsgiConnectUnary (watchApp false) (watchEnviron (pys! "/a.S/Echo") (pys! "application/proto") [[1], [2]]) (pys! "/a.S/Echo") echoInfo
      (watchInterceptor.watched false none tellCall) (pys! "POST") ∧
    WsgiCarries (watchApp false) (watchEnviron (pys! "/a.S/Echo") (pys! "application/proto") [[1], [2]]) echoInfo (pys! "POST") fussyCodec [1, 2] ∧
    WsgiCarries (watchApp false) (watchEnviron (pys! "/a.S/Echo") (pys! "application/proto") []) echoInfo (pys! "POST") fussyCodec [] ∧
    WsgiCarries (watchApp false) (watchEnviron (pys! "/a.S/Echo") (pys! "application/proto") [[7]]) echoInfo (pys! "POST") fussyCodec [7] ∧
    TraceableRequest (wsgiScheme (watchEnviron (pys! "/a.S/Echo") (pys! "application/proto") []).vars)
      ((wsgiHeaders (watchEnviron (pys! "/a.S/Echo") (pys! "application/proto") []).vars).get (pys! "host"))
      (wsgiClient (watchEnviron (pys! "/a.S/Echo") (pys! "application/proto") []).vars) ∧
    (∀ ctx, ∃ x cls msg, (tellCall [7] ctx).result = .ok x ∧ fussyCodec.res.encode x = .error (.other cls msg)) ∧
    (telemetryOf watchInterceptor false none tellCall
      ((watchApp false).wsgi demoStatus (watchEnviron (pys! "/a.S/Echo") (pys! "application/proto") [[1], [2]])).calls).length = 3 ∧
    (telemetryOf watchInterceptor false none tellCall
      ((watchApp false).wsgi demoStatus (watchEnviron (pys! "/a.S/Echo") (pys! "application/proto") [])).calls).length = 4 ∧
    (telemetryOf watchInterceptor false none tellCall
      ((watchApp false).wsgi demoStatus (watchEnviron (pys! "/a.S/Echo") (pys! "application/proto") [[255]])).calls).length = 0 :=
  ⟨watch_wsgi _, watch_carries [[1], [2]] rfl, watch_carries [] rfl, watch_carries [[7]] rfl, watch_wsgi_traceable _ _ (.inl rfl) _,
    fun _ => ⟨_, _, _, rfl, rfl⟩, by decide +kernel, by decide +kernel, by decide +kernel⟩

/-- ASGI, with a handler that is cancelled (`C93_violation_cancelled`) -/
example : AsgiConnectUnary (watchApp true) (watchScope (pys! "/a.S/Echo") (pys! "application/proto")) (watchHeaders (pys! "application/proto")) (pys! "/a.S/Echo") echoInfo
      (watchInterceptor.watched true none tellCall) ∧
    AsgiCarries (watchApp true) (watchScope (pys! "/a.S/Echo") (pys! "application/proto")) (demoEnv [.request [9] false]) (watchHeaders (pys! "application/proto")) echoInfo
      fussyCodec [9] ∧ Reliable (demoEnv [.request [9] false]) ∧ (∀ ctx, (tellCall [9] ctx).result = .error .cancelled) ∧
    TraceableRequest (asgiScheme (watchScope (pys! "/a.S/Echo") (pys! "application/proto"))) ((watchHeaders (pys! "application/proto")).get (pys! "host"))
      ((watchScope (pys! "/a.S/Echo") (pys! "application/proto")).client.map fun ca => ca.1 ++ pys! ":" ++ ca.2) ∧
    (telemetryOf watchInterceptor true none tellCall
      ((watchApp true).asgi demoStatus (watchScope (pys! "/a.S/Echo") (pys! "application/proto")) (demoEnv [.request [9] false])).calls).length = 3 :=
  ⟨⟨asgiLookup_ok.1 rfl, by decide +kernel, (negotiate_connect _).1 (by decide +kernel)⟩,
   ⟨connectHeaders_of (by decide +kernel) (by decide +kernel),
    .inl ⟨rfl, pys! "proto", _, _, (unaryCodecName_iff ..).2 (by decide +kernel), rfl, .last [9] [],
      ⟨.identity, by
        rw [show lower ((watchHeaders (pys! "application/proto")).getD (pys! "content-encoding") (pys! "identity")) = pys! "identity" by decide +kernel]
        rfl, .inr ⟨by decide, rfl⟩⟩, (by intro n h; cases h), rfl⟩⟩, fun _ => rfl, fun _ => rfl, watch_asgi_traceable _ _ (.inl rfl), by decide +kernel⟩

/-- gRPC streams on WSGI: two messages and an error; a message that cannot be encoded (`C93_violation_stream_encode`) -/
theorem watch_list (input : List Bytes) : WsgiStreamed (watchApp false) (watchEnviron (pys! "/a.S/List") (pys! "application/grpc") input)
    (pys! "/a.S/List") ⟨listInfo, .serverStream (watchInterceptor.watchedGen false none listRun)⟩ .grpc fussyCodec .identity .identity :=
  ⟨⟨wsgiLookup_ok.1 rfl, ⟨pys! "POST", rfl, .inl rfl⟩, (speaks_iff ..).2 (by
        show negotiateServerProtocol ((wsgiHeaders (watchEnviron (pys! "/a.S/List") (pys! "application/grpc") []).vars).getD
          (pys! "content-type") []) = .grpc
        decide +kernel), fun _ => rfl, fun v hv => (by cases hv), fun h => (by cases h)⟩,
    ⟨pys! "proto", (streamCodecName_iff ..).2 (by
        show Proto.codecNameFromContentType .grpc ((wsgiHeaders (watchEnviron (pys! "/a.S/List") (pys! "application/grpc") []).vars).getD (pys! "content-type") []) true = pys! "proto"
        decide +kernel), rfl⟩, .inl rfl, responseCompression_iff.1 rfl⟩

example : WsgiMessages (watchApp false) (watchEnviron (pys! "/a.S/List") (pys! "application/grpc") [[0, 0, 0, 0, 1, 2]]) fussyCodec .identity ⟨[[2]], none⟩ ∧
    WsgiMessages (watchApp false) (watchEnviron (pys! "/a.S/List") (pys! "application/grpc") [[0, 0, 0, 0, 1, 7]]) fussyCodec .identity ⟨[[7]], none⟩ ∧
    (∀ ctx x, .emit x ∈ (listRun [2] ctx).acts → ∃ b, (writerOf fussyCodec .identity).write x = .ok b) ∧
    (writerOf fussyCodec .identity).write [7] = .error (.other .valueError (pys! "unencodable")) ∧
    (telemetryOfStream watchInterceptor false none listRun 3
      ((watchApp false).wsgi demoStatus (watchEnviron (pys! "/a.S/List") (pys! "application/grpc") [[0, 0, 0, 0, 1, 2]])).calls).length = 4 ∧
    (telemetryOfStream watchInterceptor false none listRun 1
      ((watchApp false).wsgi demoStatus (watchEnviron (pys! "/a.S/List") (pys! "application/grpc") [[0, 0, 0, 0, 1, 7]])).calls).length = 3 ∧
    ((watchApp false).wsgi demoStatus (watchEnviron (pys! "/a.S/List") (pys! "application/grpc") [[0, 0, 0, 0, 1, 7]])).events.getLast? =
      some (.chunk []) :=
  ⟨(wsgiMessages_iff (by intro s hs; rw [show s = [0, 0, 0, 0, 1, 2] from List.mem_singleton.1 hs]; simp)).2 (by decide +kernel),
    (wsgiMessages_iff (by intro s hs; rw [show s = [0, 0, 0, 0, 1, 7] from List.mem_singleton.1 hs]; simp)).2 (by decide +kernel),
    fun ctx x hx => (by
      simp [listRun] at hx
      subst hx
      exact ⟨_, rfl⟩), rfl, by decide +kernel, by decide +kernel, by decide +kernel⟩

theorem watch_ordinary (flavor : Bool) : Spec.Ordinary (watchApp flavor) := by
  constructor
  · intro n c hc b e he
    have hm : (n, c) ∈ [(pys! "proto", fussyCodec)] := Dict.get?_some_mem hc
    rw [List.mem_singleton] at hm
    cases hm
    dsimp only [fussyCodec, pickyCodec] at he
    split at he
    · cases he; exact ⟨_, _, rfl⟩
    · cases he
  · intro n c hc b e he
    have hm : (n, c) ∈ [(pys! "gzip", flipComp), (pys! "identity", .identity)] := Dict.get?_some_mem hc
    rcases List.mem_cons.1 hm with h | h
    · cases h; cases he
    · rw [List.mem_singleton] at h
      cases h
      cases he

/-- … and on ASGI, where the client disconnects after the first message (`C93_violation_disconnect`) -/
example : AsgiStreamed (watchApp true) (watchScope (pys! "/a.S/List") (pys! "application/grpc")) (watchHeaders (pys! "application/grpc")) (pys! "/a.S/List")
      ⟨listInfo, .serverStream (watchInterceptor.watchedGen true none listRun)⟩ .grpc fussyCodec .identity .identity ∧
    AsgiMessages (watchApp true) { demoEnv [.request [0, 0, 0, 0, 1, 2] false] with disconnectAt := some 1 } fussyCodec .identity ⟨[[2]], none⟩ ∧
    (∃ pre post : List (Act Bytes), ∀ ctx, (listRun [2] ctx).acts = pre ++ .emit [2] :: post ∧ ∃ i h',
      Runs (Req := Bytes) (writerOf fussyCodec .identity).write none (ready ⟨[], none⟩) pre none i [[2]] h' none) ∧
    (telemetryOfStream watchInterceptor true none listRun 2 ((watchApp true).asgi demoStatus (watchScope (pys! "/a.S/List") (pys! "application/grpc"))
      { demoEnv [.request [0, 0, 0, 0, 1, 2] false] with disconnectAt := some 1 }).calls).length = 3 ∧
    (telemetryOfStream watchInterceptor true none listRun 3 ((watchApp true).asgi demoStatus (watchScope (pys! "/a.S/List") (pys! "application/grpc"))
      (demoEnv [.request [0, 0, 0, 0, 1, 2] false])).calls).length = 4 :=
  ⟨⟨⟨asgiLookup_ok.1 rfl, by decide +kernel, .inl rfl, (speaks_iff ..).2 (by decide +kernel), fun _ => rfl,
      fun v hv => (by cases hv), fun h => (by cases h)⟩,
    ⟨pys! "proto", .inl ⟨by decide, (streamCodecName_iff ..).2 (by decide +kernel)⟩, rfl⟩, .inl rfl, responseCompression_iff.1 rfl⟩,
    (asgiMessages_iff rfl (watch_ordinary true) ⟨pys! "proto", rfl⟩ (.inl rfl)).2 (by decide +kernel),
    ⟨[.step (.update fun m => ⟨m.headers.add (pys! "x-h") (pys! "1"), m.trailers.add (pys! "x-t") (pys! "2")⟩), .emit [2]], [],
      fun _ => ⟨rfl, _, _, .step (does_iff.1 rfl) (.emit (b := [0, 0, 0, 0, 1, 2]) rfl (.done ..))⟩⟩,
    by decide +kernel, by decide +kernel⟩

end Props
