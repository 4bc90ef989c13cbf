import Verif.Props.TracedPair
/-
C104, streams of responses.
-/
namespace Props
open Conn Py Spec

section
variable {C D Req Res : Type}

/-- the two spans of a stream that was read to its end, given what the caller got of it -/
theorem both_report_stream (c : Client Req Res) (ha : TraceableClient c.address) (sc : StatusCodec) (http : HttpClient) (sink : Sink) (cs : Circumstances) (left : Option Exc)
    (oc : OtelInterceptor C) (hoc : oc.client = true) (hp : Propagates oc.telemetry) (os : OtelInterceptor D) (hos : os.client = false) (flavor : Bool) (current : Option D)
    (m : MethodInfo) (f : Req → RequestContext → Script Res) (req : Req) (user : UserHeaders) (t : Option Int) (key : List Char) (ctx : RequestContext)
    (hs : Traceable ctx.serverAddress) (hc : Traceable ctx.clientAddress) {write : Res → Except Exc Bytes} {i : Meta} {out : List Res} {h' : HState Req} {e : Option Exc}
    (hr : Runs write none (ready (Req := Req) ⟨[], none⟩) (f req ctx).acts (f req ctx).outcome i out h' e) (hcaught : Caught e)
    (henc : ∀ x, .emit x ∈ (f req ctx).acts → ∃ b, write x = .ok b) {headers trailers : Headers}
    (hg : StreamGets c.proto sink headers out trailers e (c.executeServerStream sc http sink cs req m user t)) :
    let v := (c.observedServerStream sc http sink cs left oc none req m user t).use (out.length + 1)
    v.messages = out ∧ Seen (e.map errorOf) v.exc ∧ ∃ status, CallStatus v.exc status ∧ Reports (tracedIn (v.effects ++ v.later)) status ∧
      Reports (telemetryOfStream os flavor current f (out.length + 1) [⟨key, ctx, some req⟩]) status := by
  intro v
  obtain ⟨h1, _, h3⟩ := C103_server_stream_partial c ha sc http sink cs left oc hoc none req m user t out.length
  have hspan : ∀ ctx, withSpan oc none ctx = ctx := fun ctx => by
    unfold withSpan
    rw [hp.nothing]
  rw [hspan] at h1
  have he : (c.sendRequest sc http sink cs .serverStream req (c.context m (pys! "POST") user t true)).2 = c.executeServerStream sc http sink cs req m user t := rfl
  rw [he, hg.messages] at h1
  obtain ⟨v1, v2, _⟩ := h1 (Nat.lt_succ_self _)
  have hseen : Seen (e.map errorOf) v.exc := by
    rw [show v.exc = _ from v2]
    exact hg.outcome
  obtain ⟨status, s1, s2⟩ := h3 (fun x hx => by
    have hx : v.exc = some x := hx
    rw [hx] at hseen
    cases e with
    | none => cases hseen
    | some y =>
      obtain ⟨e', h, _⟩ := hseen
      cases h
      rfl)
  refine ⟨v1, hseen, status, s1, s2, ?_⟩
  obtain ⟨e1, e2, e3, e4, e5⟩ := genOf_use (C := D) (close' := (f req ctx).closeErr) hr rfl rfl henc []
  have := (watchGen_reports hos flavor current f req hs hc e2 e5 e4).1 (Nat.lt_succ_self _)
  rw [e3, ← e1] at this
  show Reports (_ ++ []) _
  rw [List.append_nil]
  have hrep : (reported e).map statusOf = status := by
    have s1 : CallStatus v.exc status := s1
    generalize v.exc = ve at hseen s1
    cases e with
    | none =>
      have hseen : ve = none := hseen
      subst hseen
      cases s1
      rfl
    | some x =>
      rw [show reported (some x) = some x from by show (some x).filter _ = some x; rw [Option.filter_some, if_pos (hcaught x rfl)]]
      obtain ⟨e', h, h', _⟩ := hseen
      subst h
      cases s1
      have hcode : e'.code = (errorOf x).code := congrArg (·.1) h'
      rw [hcode]
      exact congrArg some (code_errorOf x)
  rw [hrep] at this
  exact this
/-- **C104, streams of responses, WSGI server**: a stream of a traced client from a traced handler, by any protocol, from a place with no current span, that the caller reads to its end: the messages and
the outcome are the handler's, as without tracing (C59), and both spans and durations report the same status, the one the caller learns at the end. (The caller asks for one message more than there are, and
so does the server.) Missing: calls from within a span, streams given up before their end (C103 and C93 have what each side reports), messages that cannot be encoded. -/
theorem C104_stream_wsgi_partial (c : Client Req Res) (ha : TraceableClient c.address) (app : App Req Res) (codec : ServerCodec Req Res) (m ms : MethodInfo)
    (oc : OtelInterceptor C) (hoc : oc.client = true) (hp : Propagates oc.telemetry) (os : OtelInterceptor D) (hos : os.client = false) (current : Option D)
    (f : Req → RequestContext → Script Res) (req : Req) (user : UserHeaders) (t : Option Int)
    (h : StreamCall c app codec m ms (.serverStream (os.watchedGen false current f)) [req] user t) (sc : StatusCodec) (sink : Sink)
    (hsink : ∀ r, sink = some r → Built r.getTrailers) (cs : Circumstances) (hcs : Calm cs) (left : Option Exc) :
    ∃ rq, SendsOnly (· = rq) (fun http => c.executeServerStream sc http sink cs req m user t) ∧
    ∀ env, WsgiSees c.address rq env → (c.proto = .grpc → env.sendTrailers = true) →
    TraceableRequest (wsgiScheme env.vars) ((wsgiHeaders env.vars).get (pys! "host")) (wsgiClient env.vars) →
    ∃ ctx, ∀ i out h' e, Runs (writerOf codec (responseComp c app)).write none (ready (Req := Req) ⟨[], none⟩) (f req ctx).acts (f req ctx).outcome i out h' e →
    RegularStream c codec sc (responseComp c app) i.headers out h'.info.trailers e →
    (∀ x, .emit x ∈ (f req ctx).acts → ∃ b, (writerOf codec (responseComp c app)).write x = .ok b) →
    (app.wsgi sc env).calls = [⟨methodPath m, ctx, some req⟩] ∧
    ∃ r, WsgiStreamGave (app.wsgi sc env) r ∧
    ∀ resp, ReceivedStream r resp → ∀ http : HttpClient, http.stream rq = .ok resp →
      let v := (c.observedServerStream sc http sink cs left oc none req m user t).use (out.length + 1)
      v.messages = out ∧ Seen (e.map errorOf) v.exc ∧ ∃ status, CallStatus v.exc status ∧ Reports (tracedIn (v.effects ++ v.later)) status ∧
        Reports (telemetryOfStream os false current f (out.length + 1) (app.wsgi sc env).calls) status := by
  obtain ⟨rq, _, hsend, hall⟩ := C59_server_stream_wsgi_partial c app codec m ms _ req user t h sc sink hsink cs hcs
  refine ⟨rq, hsend, fun env henv htr ht => ?_⟩
  obtain ⟨ctx, hthe, hrun⟩ := hall env henv htr
  have hctx := hthe.context
  have hs : Traceable ctx.serverAddress := traceable_server ht (by rw [← hctx.headers]; exact hctx.server)
  have hc : Traceable ctx.clientAddress := by rw [hctx.client]; exact ht.2
  obtain ⟨w1, w2, _⟩ := watchedGen_eq (Res := Res) hos false current f req hs hc
  refine ⟨ctx, fun i out h' e hr hreg henc => ?_⟩
  obtain ⟨hcalls, _, r, hgave, hget⟩ := hrun (some req) _ _ (.serverStream _ req rfl rfl) i out h' e (by rw [w1, w2]; exact hr) hreg
  refine ⟨hcalls, r, hgave, fun resp hrec http hh => ?_⟩
  rw [hcalls]
  exact both_report_stream c ha sc http sink cs left oc hoc hp os hos false current m f req user t _ ctx hs hc hr hreg.caught henc (hget resp hrec http hh)

/-- **C104, streams of responses, ASGI server**: as on WSGI, while the client stays connected. -/
theorem C104_stream_asgi_partial (c : Client Req Res) (ha : TraceableClient c.address) (app : App Req Res) (codec : ServerCodec Req Res) (m ms : MethodInfo)
    (oc : OtelInterceptor C) (hoc : oc.client = true) (hp : Propagates oc.telemetry) (os : OtelInterceptor D) (hos : os.client = false) (current : Option D)
    (f : Req → RequestContext → Script Res) (req : Req) (user : UserHeaders) (t : Option Int)
    (h : StreamCall c app codec m ms (.serverStream (os.watchedGen true current f)) [req] user t) (ho : Spec.Ordinary app) (sc : StatusCodec) (sink : Sink)
    (hsink : ∀ r, sink = some r → Built r.getTrailers) (cs : Circumstances) (hcs : Calm cs) (left : Option Exc) :
    ∃ rq, SendsOnly (· = rq) (fun http => c.executeServerStream sc http sink cs req m user t) ∧
    ∀ scope env, AsgiSees c.address rq scope env → (c.proto = .grpc → scope.trailers = true) → Reliable env → env.cancelAfter = none →
      env.disconnectAt = none → (scope.rootPath = [] ∨ Dict.get? app.endpoints (scope.rootPath ++ methodPath m) = none) →
    ∃ ctx headers, asgiHeaders scope.headers Headers.empty = .ok headers ∧
    (TraceableRequest (asgiScheme scope) (headers.get (pys! "host")) (scope.client.map fun ca => ca.1 ++ pys! ":" ++ ca.2) →
    ∀ i out h' e, Runs (writerOf codec (responseComp c app)).write none (ready (Req := Req) ⟨[], none⟩) (f req ctx).acts (f req ctx).outcome i out h' e →
    RegularStream c codec sc (responseComp c app) i.headers out h'.info.trailers e →
    (∀ x, .emit x ∈ (f req ctx).acts → ∃ b, (writerOf codec (responseComp c app)).write x = .ok b) →
    (app.asgi sc scope env).calls = [⟨methodPath m, ctx, some req⟩] ∧
    ∃ r, AsgiStreamGave (app.asgi sc scope env) r ∧
    ∀ resp, ReceivedStream r resp → ∀ http : HttpClient, http.stream rq = .ok resp →
      let v := (c.observedServerStream sc http sink cs left oc none req m user t).use (out.length + 1)
      v.messages = out ∧ Seen (e.map errorOf) v.exc ∧ ∃ status, CallStatus v.exc status ∧ Reports (tracedIn (v.effects ++ v.later)) status ∧
        Reports (telemetryOfStream os true current f (out.length + 1) (app.asgi sc scope env).calls) status) := by
  obtain ⟨rq, _, hsend, hall⟩ := C59_server_stream_asgi_partial c app codec m ms _ req user t h ho sc sink hsink cs hcs
  refine ⟨rq, hsend, fun scope env henv htr hrel hca hdis hroot => ?_⟩
  obtain ⟨ctx, headers, hh0, hthe, hrun⟩ := hall scope env henv htr hrel hca hdis hroot
  refine ⟨ctx, headers, hh0, fun ht i out h' e hr hreg henc => ?_⟩
  have hctx := hthe.context
  have hs : Traceable ctx.serverAddress := traceable_server ht (by rw [← hctx.headers]; exact hctx.server)
  have hc : Traceable ctx.clientAddress := by rw [hctx.client]; exact ht.2
  obtain ⟨w1, w2, w3⟩ := watchedGen_eq (Res := Res) hos true current f req hs hc
  obtain ⟨hcalls, _, r, hgave, hget⟩ := hrun (some req) _ _ (.serverStream _ req rfl rfl) i out h' e (by rw [w1, w2, w3 rfl]; exact hr) hreg
  refine ⟨hcalls, r, hgave, fun resp hrec http hh => ?_⟩
  rw [hcalls]
  exact both_report_stream c ha sc http sink cs left oc hoc hp os hos true current m f req user t _ ctx hs hc hr hreg.caught henc (hget resp hrec http hh)

end

/-! ### the hypotheses are met -/

/-- a handler that sends its request back twice -/
def twiceRun (r : Bytes) (_ : RequestContext) : Script Bytes := { acts := [.emit r, .emit r], outcome := none, closeErr := none }

/-- A traced stream of two messages, by all protocols: the call, and the run of its handler. -/
example (p : Proto) (flavor : Bool) (ctx : RequestContext) :
    StreamCall (chatClient p) (chatAppOf (.serverStream (watchInterceptor.watchedGen flavor none twiceRun))) chatCodec echoInfo echoInfo
      (.serverStream (watchInterceptor.watchedGen flavor none twiceRun)) [[6]] pairUser (some 1500) ∧ TraceableClient (chatClient p).address ∧ Calm calm ∧
    (∃ i h' e, Runs (writerOf chatCodec revGzip).write none (ready (Req := Bytes) ⟨[], none⟩) (twiceRun [6] ctx).acts (twiceRun [6] ctx).outcome i [[6], [6]] h' e ∧
      RegularStream (chatClient p) chatCodec protobufStatus revGzip i.headers [[6], [6]] h'.info.trailers e) ∧
    (∀ x, .emit x ∈ (twiceRun [6] ctx).acts → ∃ b, (writerOf chatCodec revGzip).write x = .ok b) := by
  refine ⟨chat_call p _ (fun _ => rfl) _ (by simp), ⟨pys! "http", pys! "h", .inl rfl, .inl (by unfold PlainHost; decide), rfl⟩, ⟨rfl, rfl⟩,
    ⟨Meta.empty, ready ⟨[], none⟩, none, .emit rfl (.emit rfl (.done _ _)), ?_⟩, ?_⟩
  · exact {
      caught := by intro x h; cases h
      built := ⟨[], rfl⟩
      encoding := by decide +kernel
      limit := by
        intro n hn
        cases hn
        refine ⟨?_, by cases p <;> decide +kernel⟩
        intro m hm d hd
        cases hd
        simp only [List.mem_cons, List.not_mem_nil, or_false, or_self] at hm
        subst hm
        decide
      ends := by cases p <;> exact ⟨_, rfl⟩
      debug := by intro _ x h; cases h
      status := fun _ => protobufStatus_lawful
      error := by intro _ x h; cases h
      legal := by intro _ q hq; cases hq }
  · intro x hx
    simp only [twiceRun, List.mem_cons, List.not_mem_nil, or_false, or_self] at hx
    cases hx
    exact ⟨_, rfl⟩

end Props
