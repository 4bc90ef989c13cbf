import Verif.Props.TracedStreams
import Verif.Props.ObservedKinds
/-
C104, streams of requests.
-/
namespace Props
open Conn Py Spec

section
variable {C D Req Res : Type}

theorem stepsOn_whole (n : Nat) (ss : List Step) : stepsOn n none ss = (ss, none) := by
  induction ss generalizing n with
  | nil => rfl
  | cons s ss ih =>
    cases s with
    | update f =>
      show (Step.update f :: (stepsOn n none ss).1, (stepsOn n none ss).2) = _
      rw [ih]
    | recv c =>
      cases n with
      | zero =>
        show (Step.recv c :: (stepsOn 0 none ss).1, (stepsOn 0 none ss).2) = _
        rw [ih]
      | succ n =>
        show (Step.recv c :: (stepsOn n none ss).1, (stepsOn n none ss).2) = _
        rw [ih]

theorem call_on_whole (c : Call Res) (ms : List Req) : c.on (⟨ms, none⟩ : ReqStream Req) = c := by
  unfold Call.on
  rw [show stepsOn ms.length none c.steps = _ from stepsOn_whole ..]

/-- the two spans of a call with one response -/
theorem same_status {codec : ServerCodec Req Res} {run : Call Res} {res : Except Exc Res} {status : Option (List Char)} (h : CallStatus (errOf res) status)
    (herr : ∀ e, run.result = .error e → e.isException = true ∧ ∀ s hs, e ≠ .http s hs) (henc : ∀ x, run.result = .ok x → ∃ d, codec.res.encode x = .ok d)
    (hg : Gets codec run res) : (reported (errOf run.result)).map statusOf = status := by
  cases hg with
  | returned hr he =>
    rw [hr]
    cases h
    rfl
  | failed hf hrep hb =>
    rename_i e e'
    have hres : run.result = .error e := by
      rcases hf with h | ⟨x, h, h'⟩
      · exact h
      · obtain ⟨d, hd⟩ := henc x h
        rw [hd] at h'
        cases h'
    obtain ⟨hx, hh⟩ := herr e hres
    have hcode : e'.code = (errorOf e).code := congrArg (·.1) hrep
    cases h
    rw [hres]
    show ((some e).filter _).map statusOf = _
    rw [Option.filter_some, if_pos hx, hcode]
    cases e with
    | connect x => rfl
    | other cls msg => rfl
    | http s hs => exact absurd rfl (hh s hs)
    | cancelled => cases hx

/-- … of a call with a stream of requests -/
theorem both_report_client (c : Client Req Res) (ha : TraceableClient c.address) (sc : StatusCodec) (http : HttpClient) (sink : Sink) (cs : Circumstances) (oc : OtelInterceptor C)
    (hoc : oc.client = true) (hp : Propagates oc.telemetry) (os : OtelInterceptor D) (hos : os.client = false) (flavor : Bool) (current : Option D)
    (codec : ServerCodec Req Res) (comp : Compression) (m : MethodInfo) (f : ReqStream Req → RequestContext → Call Res) (reqs : List Req) (user : UserHeaders) (t : Option Int) (n : Nat)
    (key : List Char) (ctx : RequestContext) (hs : Traceable ctx.serverAddress) (hc : Traceable ctx.clientAddress)
    (hg : (∀ r b, (f ⟨reqs, none⟩ ctx).result = .ok r → codec.res.encode r = .ok b → (comp.compress b).length < 2 ^ 32) →
      Gets codec (f ⟨reqs, none⟩ ctx) (c.executeClientStream sc http sink cs reqs none m user t).2) :
    TracedGets codec comp (f ⟨reqs, none⟩ ctx) (c.observedClientStream sc http sink cs oc none reqs none m user t)
      (telemetryOfKind os flavor current ⟨reqs, none⟩ n (.clientStream f) [⟨key, ctx, none⟩]) := by
  intro herr henc
  have hg := hg fun x b hx hb => by
    obtain ⟨d, hd, hl⟩ := henc x hx
    rw [hd] at hb
    cases hb
    exact hl
  obtain ⟨hv, _, hst⟩ := C103_client_stream_partial c ha sc http sink cs oc hoc none reqs none m user t
  have hspan : ∀ ctx, withSpan oc none ctx = ctx := fun ctx => by
    unfold withSpan
    rw [hp.nothing]
  rw [hspan] at hv
  have he : (c.sendRequest sc http sink cs .clientStream (reqs, none) (c.context m (pys! "POST") user t true)).2 = c.executeClientStream sc http sink cs reqs none m user t := rfl
  rw [he] at hv
  rw [← hv] at hg
  obtain ⟨status, h1, h2⟩ := hst (fun e he => by
    rw [he] at hg
    cases hg
    rfl)
  refine ⟨hg, status, h1, h2, ?_⟩
  obtain ⟨_, hr⟩ := watch_eq (Res := Res) hos flavor current (fun (s : ReqStream Req) ctx => (f s ctx).on s) ⟨reqs, none⟩ (ctx := ctx) hs hc
  rw [call_on_whole, same_status h1 herr (fun x hx => let ⟨d, hd, _⟩ := henc x hx; ⟨d, hd⟩) hg] at hr
  show Reports (_ ++ []) _
  rw [List.append_nil]
  exact hr

/-- **C104, streams of requests, WSGI server**: a traced call with a stream of requests and one response, by any protocol: as for unary calls. -/
theorem C104_client_stream_wsgi_partial (c : Client Req Res) (ha : TraceableClient c.address) (app : App Req Res) (codec : ServerCodec Req Res) (m ms : MethodInfo)
    (oc : OtelInterceptor C) (hoc : oc.client = true) (hp : Propagates oc.telemetry) (os : OtelInterceptor D) (hos : os.client = false) (current : Option D)
    (f : ReqStream Req → RequestContext → Call Res) (reqs : List Req) (user : UserHeaders) (t : Option Int)
    (h : StreamCall c app codec m ms (os.handler false current (.clientStream f)) reqs user t) (sc : StatusCodec) (sink : Sink)
    (hsink : ∀ r, sink = some r → Built r.getTrailers) (cs : Circumstances) (hcs : Calm cs) :
    ∃ rq, SendsOnly (· = rq) (fun http => c.executeClientStream sc http sink cs reqs none m user t) ∧
    ∀ env, WsgiSees c.address rq env → (c.proto = .grpc → env.sendTrailers = true) →
    TraceableRequest (wsgiScheme env.vars) ((wsgiHeaders env.vars).get (pys! "host")) (wsgiClient env.vars) →
    ∃ ctx, ∀ r0 h0 script, Starts ⟨reqs, none⟩ ctx (.clientStream f) r0 h0 script →
    ∀ i out h' e, Runs (writerOf codec (responseComp c app)).write none h0 script.acts script.outcome i out h' e →
    RegularStream c codec sc (responseComp c app) i.headers out h'.info.trailers e →
    (app.wsgi sc env).calls = [⟨methodPath m, ctx, none⟩] ∧
    ∃ r, WsgiStreamGave (app.wsgi sc env) r ∧
    ∀ resp, ReceivedStream r resp → ∀ http : HttpClient, http.stream rq = .ok resp →
      TracedGets codec (responseComp c app) (f ⟨reqs, none⟩ ctx) (c.observedClientStream sc http sink cs oc none reqs none m user t)
        (telemetryOfKind os false current ⟨reqs, none⟩ (out.length + 1) (.clientStream f) (app.wsgi sc env).calls) := by
  obtain ⟨rq, _, hsend, hall⟩ := C59_client_stream_wsgi_partial c app codec m ms _ reqs user t h sc sink hsink cs hcs
  refine ⟨rq, hsend, fun env henv htr ht => ?_⟩
  obtain ⟨ctx, hthe, hrun⟩ := hall env henv htr
  have hctx := hthe.context
  have hs : Traceable ctx.serverAddress := traceable_server ht (by rw [← hctx.headers]; exact hctx.server)
  have hc : Traceable ctx.clientAddress := by rw [hctx.client]; exact ht.2
  have hw : os.watched false current (fun (s : ReqStream Req) ctx => (f s ctx).on s) ⟨reqs, none⟩ ctx = f ⟨reqs, none⟩ ctx :=
    (watch_eq (Res := Res) hos false current (fun (s : ReqStream Req) ctx => (f s ctx).on s) ⟨reqs, none⟩ (ctx := ctx) hs hc).1.trans (call_on_whole ..)
  refine ⟨ctx, fun r0 h0 script hst i out h' e hr hreg => ?_⟩
  cases hst with
  | clientStream _ hresp =>
    obtain ⟨hcalls, _, r, hgave, hget⟩ := hrun none _ script (.clientStream _ (by rw [hw]; exact hresp)) i out h' e hr hreg
    refine ⟨hcalls, r, hgave, fun resp hrec http hh => ?_⟩
    have hg := hget resp hrec http hh
    dsimp only at hg
    rw [hw] at hg
    rw [hcalls]
    exact both_report_client c ha sc http sink cs oc hoc hp os hos false current codec _ m f reqs user t _ _ ctx hs hc hg.result

/-- **C104, streams of requests, ASGI server**. -/
theorem C104_client_stream_asgi_partial (c : Client Req Res) (ha : TraceableClient c.address) (app : App Req Res) (codec : ServerCodec Req Res) (m ms : MethodInfo)
    (oc : OtelInterceptor C) (hoc : oc.client = true) (hp : Propagates oc.telemetry) (os : OtelInterceptor D) (hos : os.client = false) (current : Option D)
    (f : ReqStream Req → RequestContext → Call Res) (reqs : List Req) (user : UserHeaders) (t : Option Int)
    (h : StreamCall c app codec m ms (os.handler true current (.clientStream f)) reqs user t) (ho : Spec.Ordinary app) (sc : StatusCodec) (sink : Sink)
    (hsink : ∀ r, sink = some r → Built r.getTrailers) (cs : Circumstances) (hcs : Calm cs) :
    ∃ rq, SendsOnly (· = rq) (fun http => c.executeClientStream sc http sink cs reqs none m user t) ∧
    ∀ scope env, AsgiSees c.address rq scope env → (c.proto = .grpc → scope.trailers = true) → Reliable env → env.cancelAfter = none →
      env.disconnectAt = none → (scope.rootPath = [] ∨ Dict.get? app.endpoints (scope.rootPath ++ methodPath m) = none) →
    ∃ ctx headers, asgiHeaders scope.headers Headers.empty = .ok headers ∧
    (TraceableRequest (asgiScheme scope) (headers.get (pys! "host")) (scope.client.map fun ca => ca.1 ++ pys! ":" ++ ca.2) →
    ∀ r0 h0 script, Starts ⟨reqs, none⟩ ctx (.clientStream f) r0 h0 script →
    ∀ i out h' e, Runs (writerOf codec (responseComp c app)).write none h0 script.acts script.outcome i out h' e →
    RegularStream c codec sc (responseComp c app) i.headers out h'.info.trailers e →
    (app.asgi sc scope env).calls = [⟨methodPath m, ctx, none⟩] ∧
    ∃ r, AsgiStreamGave (app.asgi sc scope env) r ∧
    ∀ resp, ReceivedStream r resp → ∀ http : HttpClient, http.stream rq = .ok resp →
      TracedGets codec (responseComp c app) (f ⟨reqs, none⟩ ctx) (c.observedClientStream sc http sink cs oc none reqs none m user t)
        (telemetryOfKind os true current ⟨reqs, none⟩ (out.length + 1) (.clientStream f) (app.asgi sc scope env).calls)) := by
  obtain ⟨rq, _, hsend, hall⟩ := C59_client_stream_asgi_partial c app codec m ms _ reqs user t h ho sc sink hsink cs hcs
  refine ⟨rq, hsend, fun scope env henv htr hrel hca hdis hroot => ?_⟩
  obtain ⟨ctx, headers, hh0, hthe, hrun⟩ := hall scope env henv htr hrel hca hdis hroot
  refine ⟨ctx, headers, hh0, fun ht r0 h0 script hst i out h' e hr hreg => ?_⟩
  have hctx := hthe.context
  have hs : Traceable ctx.serverAddress := traceable_server ht (by rw [← hctx.headers]; exact hctx.server)
  have hc : Traceable ctx.clientAddress := by rw [hctx.client]; exact ht.2
  have hw : os.watched true current (fun (s : ReqStream Req) ctx => (f s ctx).on s) ⟨reqs, none⟩ ctx = f ⟨reqs, none⟩ ctx :=
    (watch_eq (Res := Res) hos true current (fun (s : ReqStream Req) ctx => (f s ctx).on s) ⟨reqs, none⟩ (ctx := ctx) hs hc).1.trans (call_on_whole ..)
  cases hst with
  | clientStream _ hresp =>
    obtain ⟨hcalls, _, r, hgave, hget⟩ := hrun none _ script (.clientStream _ (by rw [hw]; exact hresp)) i out h' e (by rw [responds_close hresp]; exact hr) hreg
    refine ⟨hcalls, r, hgave, fun resp hrec http hh => ?_⟩
    have hg := hget resp hrec http hh
    dsimp only at hg
    rw [hw] at hg
    rw [hcalls]
    exact both_report_client c ha sc http sink cs oc hoc hp os hos true current codec _ m f reqs user t _ _ ctx hs hc hg.result

/-- the two spans of a stream in both directions that was read to its end -/
theorem both_report_bidi (c : Client Req Res) (ha : TraceableClient c.address) (sc : StatusCodec) (http : HttpClient) (sink : Sink) (cs : Circumstances) (left : Option Exc)
    (oc : OtelInterceptor C) (hoc : oc.client = true) (hp : Propagates oc.telemetry) (m : MethodInfo) (reqs : List Req) (user : UserHeaders) (t : Option Int)
    {out : List Res} {e : Option Exc} {headers trailers : Headers}
    (hg : StreamGets c.proto sink headers out trailers e (c.executeBidiStream sc http sink cs reqs none m user t)) :
    let v := (c.observedBidiStream sc http sink cs left oc none reqs none m user t).use (out.length + 1)
    v.messages = out ∧ Seen (e.map errorOf) v.exc ∧ CallStatus v.exc (e.map fun x => codeName (errorOf x).code) ∧
      Reports (tracedIn (v.effects ++ v.later)) (e.map fun x => codeName (errorOf x).code) := by
  intro v
  obtain ⟨h1, _, h3⟩ := C103_bidi_stream_partial c ha sc http sink cs left oc hoc none reqs none m user t out.length
  have hspan : ∀ ctx, withSpan oc none ctx = ctx := fun ctx => by
    unfold withSpan
    rw [hp.nothing]
  rw [hspan] at h1
  have he : (c.sendRequest sc http sink cs .bidi (reqs, none) (c.context m (pys! "POST") user t true)).2 = c.executeBidiStream sc http sink cs reqs none m user t := rfl
  rw [he, hg.messages] at h1
  obtain ⟨v1, v2, _⟩ := h1 (Nat.lt_succ_self _)
  have hseen : Seen (e.map errorOf) v.exc := by
    rw [show v.exc = _ from v2]
    exact hg.outcome
  obtain ⟨status, s1, s2⟩ := h3 (fun x hx => by
    have hx : v.exc = some x := hx
    rw [hx] at hseen
    cases e with
    | none => cases hseen
    | some y =>
      obtain ⟨e', h, _⟩ := hseen
      cases h
      rfl)
  have hstatus : status = e.map fun x => codeName (errorOf x).code := by
    have s1 : CallStatus v.exc status := s1
    generalize v.exc = ve at hseen s1
    cases e with
    | none =>
      have hseen : ve = none := hseen
      subst hseen
      cases s1
      rfl
    | some x =>
      obtain ⟨e', h, h', _⟩ := hseen
      subst h
      cases s1
      have hcode : e'.code = (errorOf x).code := congrArg (·.1) h'
      rw [hcode]
      rfl
  subst hstatus
  exact ⟨v1, hseen, s1, s2⟩

/-- **C104, streams in both directions, WSGI server**: as for streams of responses. -/
theorem C104_bidi_wsgi_partial (c : Client Req Res) (ha : TraceableClient c.address) (app : App Req Res) (codec : ServerCodec Req Res) (m ms : MethodInfo)
    (oc : OtelInterceptor C) (hoc : oc.client = true) (hp : Propagates oc.telemetry) (os : OtelInterceptor D) (hos : os.client = false) (current : Option D)
    (f : ReqStream Req → RequestContext → Script Res) (reqs : List Req) (user : UserHeaders) (t : Option Int)
    (h : StreamCall c app codec m ms (os.handler false current (.bidi f)) reqs user t) (sc : StatusCodec) (sink : Sink)
    (hsink : ∀ r, sink = some r → Built r.getTrailers) (cs : Circumstances) (hcs : Calm cs) (left : Option Exc) :
    ∃ rq, SendsOnly (· = rq) (fun http => c.executeBidiStream sc http sink cs reqs none m user t) ∧
    ∀ env, WsgiSees c.address rq env → (c.proto = .grpc → env.sendTrailers = true) →
    TraceableRequest (wsgiScheme env.vars) ((wsgiHeaders env.vars).get (pys! "host")) (wsgiClient env.vars) →
    ∃ ctx, ∀ i out h' e, Runs (writerOf codec (responseComp c app)).write none (ready (⟨reqs, none⟩ : ReqStream Req)) (f ⟨reqs, none⟩ ctx).acts (f ⟨reqs, none⟩ ctx).outcome i out h' e →
    RegularStream c codec sc (responseComp c app) i.headers out h'.info.trailers e →
    (∀ x, .emit x ∈ (f ⟨reqs, none⟩ ctx).acts → ∃ b, (writerOf codec (responseComp c app)).write x = .ok b) →
    (app.wsgi sc env).calls = [⟨methodPath m, ctx, none⟩] ∧
    ∃ r, WsgiStreamGave (app.wsgi sc env) r ∧
    ∀ resp, ReceivedStream r resp → ∀ http : HttpClient, http.stream rq = .ok resp →
      let v := (c.observedBidiStream sc http sink cs left oc none reqs none m user t).use (out.length + 1)
      v.messages = out ∧ Seen (e.map errorOf) v.exc ∧ ∃ status, CallStatus v.exc status ∧ Reports (tracedIn (v.effects ++ v.later)) status ∧
        Reports (telemetryOfKind os false current ⟨reqs, none⟩ (out.length + 1) (.bidi f) (app.wsgi sc env).calls) status := by
  obtain ⟨rq, _, hsend, hall⟩ := C59_bidi_wsgi_partial c app codec m ms _ reqs user t h sc sink hsink cs hcs
  refine ⟨rq, hsend, fun env henv htr ht => ?_⟩
  obtain ⟨ctx, hthe, hrun⟩ := hall env henv htr
  have hctx := hthe.context
  have hs : Traceable ctx.serverAddress := traceable_server ht (by rw [← hctx.headers]; exact hctx.server)
  have hc : Traceable ctx.clientAddress := by rw [hctx.client]; exact ht.2
  refine ⟨ctx, fun i out h' e hr hreg henc => ?_⟩
  obtain ⟨⟨script', hst', hr', _⟩, hrep⟩ := handler_watched (Res := Res) hos false current hs hc (.bidi f) henc hr hreg.caught (methodPath m)
  obtain ⟨hcalls, _, r, hgave, hget⟩ := hrun _ _ script' hst' i out h' e hr' hreg
  refine ⟨hcalls, r, hgave, fun resp hrec http hh => ?_⟩
  rw [hcalls]
  obtain ⟨b1, b2, b3, b4⟩ := both_report_bidi c ha sc http sink cs left oc hoc hp m reqs user t (hget resp hrec http hh)
  exact ⟨b1, b2, _, b3, b4, hrep⟩

/-- **C104, streams in both directions, ASGI server**. -/
theorem C104_bidi_asgi_partial (c : Client Req Res) (ha : TraceableClient c.address) (app : App Req Res) (codec : ServerCodec Req Res) (m ms : MethodInfo)
    (oc : OtelInterceptor C) (hoc : oc.client = true) (hp : Propagates oc.telemetry) (os : OtelInterceptor D) (hos : os.client = false) (current : Option D)
    (f : ReqStream Req → RequestContext → Script Res) (reqs : List Req) (user : UserHeaders) (t : Option Int)
    (h : StreamCall c app codec m ms (os.handler true current (.bidi f)) reqs user t) (ho : Spec.Ordinary app) (sc : StatusCodec) (sink : Sink)
    (hsink : ∀ r, sink = some r → Built r.getTrailers) (cs : Circumstances) (hcs : Calm cs) (left : Option Exc) :
    ∃ rq, SendsOnly (· = rq) (fun http => c.executeBidiStream sc http sink cs reqs none m user t) ∧
    ∀ scope env, AsgiSees c.address rq scope env → (c.proto = .grpc → scope.trailers = true) → Reliable env → env.cancelAfter = none →
      env.disconnectAt = none → (scope.rootPath = [] ∨ Dict.get? app.endpoints (scope.rootPath ++ methodPath m) = none) →
    ∃ ctx headers, asgiHeaders scope.headers Headers.empty = .ok headers ∧
    (TraceableRequest (asgiScheme scope) (headers.get (pys! "host")) (scope.client.map fun ca => ca.1 ++ pys! ":" ++ ca.2) →
    ∀ i out h' e, Runs (writerOf codec (responseComp c app)).write none (ready (⟨reqs, none⟩ : ReqStream Req)) (f ⟨reqs, none⟩ ctx).acts (f ⟨reqs, none⟩ ctx).outcome i out h' e →
    RegularStream c codec sc (responseComp c app) i.headers out h'.info.trailers e →
    (∀ x, .emit x ∈ (f ⟨reqs, none⟩ ctx).acts → ∃ b, (writerOf codec (responseComp c app)).write x = .ok b) →
    (app.asgi sc scope env).calls = [⟨methodPath m, ctx, none⟩] ∧
    ∃ r, AsgiStreamGave (app.asgi sc scope env) r ∧
    ∀ resp, ReceivedStream r resp → ∀ http : HttpClient, http.stream rq = .ok resp →
      let v := (c.observedBidiStream sc http sink cs left oc none reqs none m user t).use (out.length + 1)
      v.messages = out ∧ Seen (e.map errorOf) v.exc ∧ ∃ status, CallStatus v.exc status ∧ Reports (tracedIn (v.effects ++ v.later)) status ∧
        Reports (telemetryOfKind os true current ⟨reqs, none⟩ (out.length + 1) (.bidi f) (app.asgi sc scope env).calls) status) := by
  obtain ⟨rq, _, hsend, hall⟩ := C59_bidi_asgi_partial c app codec m ms _ reqs user t h ho sc sink hsink cs hcs
  refine ⟨rq, hsend, fun scope env henv htr hrel hca hdis hroot => ?_⟩
  obtain ⟨ctx, headers, hh0, hthe, hrun⟩ := hall scope env henv htr hrel hca hdis hroot
  refine ⟨ctx, headers, hh0, fun ht i out h' e hr hreg henc => ?_⟩
  have hctx := hthe.context
  have hs : Traceable ctx.serverAddress := traceable_server ht (by rw [← hctx.headers]; exact hctx.server)
  have hc : Traceable ctx.clientAddress := by rw [hctx.client]; exact ht.2
  obtain ⟨⟨script', hst', hr', hcl'⟩, hrep⟩ := handler_watched (Res := Res) hos true current hs hc (.bidi f) henc hr hreg.caught (methodPath m)
  obtain ⟨hcalls, _, r, hgave, hget⟩ := hrun _ _ script' hst' i out h' e (by rw [hcl' rfl]; exact hr') hreg
  refine ⟨hcalls, r, hgave, fun resp hrec http hh => ?_⟩
  rw [hcalls]
  obtain ⟨b1, b2, b3, b4⟩ := both_report_bidi c ha sc http sink cs left oc hoc hp m reqs user t (hget resp hrec http hh)
  exact ⟨b1, b2, _, b3, b4, hrep⟩

end

/-! ### the hypotheses are met -/

/-- Traced calls with a stream of requests, by all protocols: the call, and how the handler is started; the runs are those shown for C58 and C59. -/
example (p : Proto) (flavor : Bool) (ctx : RequestContext) :
    (let f := fun (s : ReqStream Bytes) (c : RequestContext) => tellCall s.messages.flatten c
     StreamCall (chatClient p) (chatAppOf (watchInterceptor.handler flavor none (.clientStream f))) chatCodec echoInfo echoInfo (watchInterceptor.handler flavor none (.clientStream f))
      [[4, 5], [6], [6]] pairUser (some 1500) ∧
     (∃ h0 script, Starts ⟨[[4, 5], [6], [6]], none⟩ ctx (.clientStream f) none h0 script) ∧ (f ⟨[[4, 5], [6], [6]], none⟩ ctx).result = .ok [4, 5, 6, 6]) ∧
    StreamCall (chatClient p) (chatAppOf (watchInterceptor.handler flavor none (.bidi chatScript))) chatCodec echoInfo echoInfo (watchInterceptor.handler flavor none (.bidi chatScript))
      [[4, 5], [6]] pairUser (some 1500) := by
  refine ⟨⟨chat_call p _ (fun _ => rfl) _ (by simp), ⟨_, _, .clientStream _ (.returned _ _)⟩, rfl⟩, chat_call p _ (fun _ => rfl) _ (by simp)⟩

/-- … the run of the stream in both directions, which ends with an error -/
example (p : Proto) (ctx : RequestContext) :
    Runs (writerOf chatCodec revGzip).write none (ready chatStream) (chatScript chatStream ctx).acts (chatScript chatStream ctx).outcome ⟨chatHeaders, Headers.empty⟩ [[1, 2], [3]] chatState
      (some (.connect demoError)) ∧
    RegularStream (chatClient p) chatCodec protobufStatus revGzip chatHeaders [[1, 2], [3]] chatState.info.trailers (some (.connect demoError)) ∧
    (∀ x, .emit x ∈ (chatScript chatStream ctx).acts → ∃ b, (writerOf chatCodec revGzip).write x = .ok b) := by
  refine ⟨chat_runs ctx, chat_regular p, fun x hx => ?_⟩
  have : x = [1, 2] ∨ x = [3] := by
    simpa [chatScript] using hx
  rcases this with rfl | rfl <;> exact ⟨_, rfl⟩

end Props
