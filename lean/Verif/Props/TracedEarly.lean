import Verif.Props.TracedSpanStreams
/-
C104, of streams that the caller leaves before their end.
-/
namespace Props
open Conn Py Spec

section
variable {C D Req Res : Type}

/-- the two spans of a stream that the caller leaves after `n + 1` messages, given what there is of it -/
theorem both_report_early (c : Client Req Res) (ha : TraceableClient c.address) (sc : StatusCodec) (http : HttpClient) (sink : Sink) (cs : Circumstances) (left : Option Exc)
    (oc : OtelInterceptor C) (hoc : oc.client = true) (within : Option C) (os : OtelInterceptor D) (hos : os.client = false) (flavor : Bool) (current : Option D)
    (m : MethodInfo) (f : Req → RequestContext → Script Res) (req : Req) (user : UserHeaders) (t : Option Int) (key : List Char) (ctx : RequestContext)
    (hs : Traceable ctx.serverAddress) (hc : Traceable ctx.clientAddress) {write : Res → Except Exc Bytes} {i : Meta} {out : List Res} {h' : HState Req} {e : Option Exc}
    (hr : Runs write none (ready (Req := Req) ⟨[], none⟩) (f req ctx).acts (f req ctx).outcome i out h' e) (hcaught : Caught e)
    (henc : ∀ x, .emit x ∈ (f req ctx).acts → ∃ b, write x = .ok b) {headers trailers : Headers}
    (hg : StreamGets c.proto sink headers out trailers e (c.sendRequest sc http sink cs .serverStream req (withSpan oc within (c.context m (pys! "POST") user t true))).2)
    (n : Nat) (hn : n + 1 ≤ out.length) (hleft : c.flavor = .sync → left = none) :
    let v := (c.observedServerStream sc http sink cs left oc within req m user t).use (n + 1)
    v.messages = out.take (n + 1) ∧ v.exc = none ∧ Reports (tracedIn (v.effects ++ v.later)) none ∧
      Reports (telemetryOfStream os flavor current f (out.length + 1) [⟨key, ctx, some req⟩]) (e.map statusOf) := by
  intro v
  obtain ⟨_, h2, h3⟩ := C103_server_stream_partial c ha sc http sink cs left oc hoc within req m user t n
  rw [hg.messages] at h2
  obtain ⟨v1, v2, _⟩ := h2 hn
  have hv : v.exc = none := by
    rw [show v.exc = _ from v2]
    split
    · exact hleft (by assumption)
    · rfl
  obtain ⟨status, s1, s2⟩ := h3 (fun x hx => by
    have hx : v.exc = some x := hx
    rw [hv] at hx
    cases hx)
  have s1 : CallStatus v.exc status := s1
  rw [hv] at s1
  cases s1
  refine ⟨v1, hv, s2, ?_⟩
  obtain ⟨e1, e2, e3, e4, e5⟩ := genOf_use (C := D) (close' := (f req ctx).closeErr) hr rfl rfl henc []
  have := (watchGen_reports hos flavor current f req hs hc e2 e5 e4).1 (Nat.lt_succ_self _)
  rw [e3, ← e1] at this
  have hrep : reported e = e := by
    cases e with
    | none => rfl
    | some x =>
      show (some x).filter _ = some x
      rw [Option.filter_some, if_pos (hcaught x rfl)]
  rw [hrep] at this
  show Reports (_ ++ []) _
  rw [List.append_nil]
  exact this

/-- C104 is false of every stream of responses that ends with an error (`e`) and that the caller leaves before: the caller has the first `n + 1` messages and no error, and the client reports a success, while the
server, which has sent everything, reports the error. WSGI server; by any protocol, from within a span or not. (If the stream ends well, both report a success.) -/
theorem C104_violation_early_wsgi_all (c : Client Req Res) (ha : TraceableClient c.address) (app : App Req Res) (codec : ServerCodec Req Res) (m ms : MethodInfo)
    (oc : OtelInterceptor C) (hoc : oc.client = true) (within : Option C) (os : OtelInterceptor D) (hos : os.client = false) (current : Option D)
    (f : Req → RequestContext → Script Res) (req : Req) (user : UserHeaders) (t : Option Int)
    (h : StreamCall c app codec m ms (.serverStream (os.watchedGen false current f)) [req] user t) (sc : StatusCodec) (sink : Sink)
    (hsink : ∀ r, sink = some r → Built r.getTrailers) (cs : Circumstances) (hcs : Calm cs) (left : Option Exc)
    (hadd : AddsFields oc.telemetry within (c.context m (pys! "POST") user t true).requestHeaders) :
    ∃ rq, SendsOnly (· = rq) (fun http => (c.sendRequest sc http sink cs .serverStream req (withSpan oc within (c.context m (pys! "POST") user t true))).2) ∧
    ∀ env, WsgiSees c.address rq env → (c.proto = .grpc → env.sendTrailers = true) →
    TraceableRequest (wsgiScheme env.vars) ((wsgiHeaders env.vars).get (pys! "host")) (wsgiClient env.vars) →
    ∃ ctx, ∀ i out h' e, Runs (writerOf codec (responseComp c app)).write none (ready (Req := Req) ⟨[], none⟩) (f req ctx).acts (f req ctx).outcome i out h' e →
    RegularStream c codec sc (responseComp c app) i.headers out h'.info.trailers e →
    (∀ x, .emit x ∈ (f req ctx).acts → ∃ b, (writerOf codec (responseComp c app)).write x = .ok b) →
    (app.wsgi sc env).calls = [⟨methodPath m, ctx, some req⟩] ∧
    ∃ r, WsgiStreamGave (app.wsgi sc env) r ∧
    ∀ resp, ReceivedStream r resp → ∀ http : HttpClient, http.stream rq = .ok resp →
      ∀ n, n + 1 ≤ out.length → (c.flavor = .sync → left = none) →
      let v := (c.observedServerStream sc http sink cs left oc within req m user t).use (n + 1)
      v.messages = out.take (n + 1) ∧ v.exc = none ∧ Reports (tracedIn (v.effects ++ v.later)) none ∧
        Reports (telemetryOfStream os false current f (out.length + 1) (app.wsgi sc env).calls) (e.map statusOf) := by
  obtain ⟨rq, _, hsend, hall⟩ := served_span_wsgi h sc sink hsink cs hcs _ true (fun _ => rfl) id (gets := fun _ headers out trailers e res => StreamGets c.proto sink headers out trailers e res) (fun _ _ _ _ _ _ _ _ _ _ _ _ _ hg => hg) oc within hadd
  refine ⟨rq, hsend, fun env henv htr ht => ?_⟩
  obtain ⟨ctx, hthe, hrun⟩ := hall env henv htr
  have hctx := hthe.context
  have hs : Traceable ctx.serverAddress := traceable_server ht (by rw [← hctx.headers]; exact hctx.server)
  have hc : Traceable ctx.clientAddress := by rw [hctx.client]; exact ht.2
  obtain ⟨w1, w2, _⟩ := watchedGen_eq (Res := Res) hos false current f req hs hc
  refine ⟨ctx, fun i out h' e hr hreg henc => ?_⟩
  obtain ⟨hcalls, _, r, hgave, hget⟩ := hrun (some req) _ _ (.serverStream _ req rfl rfl) i out h' e (by rw [w1, w2]; exact hr) hreg
  refine ⟨hcalls, r, hgave, fun resp hrec http hh n hn hleft => ?_⟩
  rw [hcalls]
  exact both_report_early c ha sc http sink cs left oc hoc within os hos false current m f req user t _ ctx hs hc hr hreg.caught henc (hget resp hrec http hh) n hn hleft

/-- … ASGI server. -/
theorem C104_violation_early_asgi_all (c : Client Req Res) (ha : TraceableClient c.address) (app : App Req Res) (codec : ServerCodec Req Res) (m ms : MethodInfo)
    (oc : OtelInterceptor C) (hoc : oc.client = true) (within : Option C) (os : OtelInterceptor D) (hos : os.client = false) (current : Option D)
    (f : Req → RequestContext → Script Res) (req : Req) (user : UserHeaders) (t : Option Int)
    (h : StreamCall c app codec m ms (.serverStream (os.watchedGen true current f)) [req] user t) (ho : Spec.Ordinary app) (sc : StatusCodec) (sink : Sink)
    (hsink : ∀ r, sink = some r → Built r.getTrailers) (cs : Circumstances) (hcs : Calm cs) (left : Option Exc)
    (hadd : AddsFields oc.telemetry within (c.context m (pys! "POST") user t true).requestHeaders) :
    ∃ rq, SendsOnly (· = rq) (fun http => (c.sendRequest sc http sink cs .serverStream req (withSpan oc within (c.context m (pys! "POST") user t true))).2) ∧
    ∀ scope env, AsgiSees c.address rq scope env → (c.proto = .grpc → scope.trailers = true) → Reliable env → env.cancelAfter = none →
      env.disconnectAt = none → (scope.rootPath = [] ∨ Dict.get? app.endpoints (scope.rootPath ++ methodPath m) = none) →
    ∃ ctx headers, asgiHeaders scope.headers Headers.empty = .ok headers ∧
    (TraceableRequest (asgiScheme scope) (headers.get (pys! "host")) (scope.client.map fun ca => ca.1 ++ pys! ":" ++ ca.2) →
    ∀ i out h' e, Runs (writerOf codec (responseComp c app)).write none (ready (Req := Req) ⟨[], none⟩) (f req ctx).acts (f req ctx).outcome i out h' e →
    RegularStream c codec sc (responseComp c app) i.headers out h'.info.trailers e →
    (∀ x, .emit x ∈ (f req ctx).acts → ∃ b, (writerOf codec (responseComp c app)).write x = .ok b) →
    (app.asgi sc scope env).calls = [⟨methodPath m, ctx, some req⟩] ∧
    ∃ r, AsgiStreamGave (app.asgi sc scope env) r ∧
    ∀ resp, ReceivedStream r resp → ∀ http : HttpClient, http.stream rq = .ok resp →
      ∀ n, n + 1 ≤ out.length → (c.flavor = .sync → left = none) →
      let v := (c.observedServerStream sc http sink cs left oc within req m user t).use (n + 1)
      v.messages = out.take (n + 1) ∧ v.exc = none ∧ Reports (tracedIn (v.effects ++ v.later)) none ∧
        Reports (telemetryOfStream os true current f (out.length + 1) (app.asgi sc scope env).calls) (e.map statusOf)) := by
  obtain ⟨rq, _, hsend, hall⟩ := served_span_asgi h ho sc sink hsink cs hcs _ true (fun _ => rfl) id (gets := fun _ headers out trailers e res => StreamGets c.proto sink headers out trailers e res) (fun _ _ _ _ _ _ _ _ _ _ _ _ _ hg => hg) oc within hadd
  refine ⟨rq, hsend, fun scope env henv htr hrel hca hdis hroot => ?_⟩
  obtain ⟨ctx, headers, hh0, hthe, hrun⟩ := hall scope env henv htr hrel hca hdis hroot
  refine ⟨ctx, headers, hh0, fun ht i out h' e hr hreg henc => ?_⟩
  have hctx := hthe.context
  have hs : Traceable ctx.serverAddress := traceable_server ht (by rw [← hctx.headers]; exact hctx.server)
  have hc : Traceable ctx.clientAddress := by rw [hctx.client]; exact ht.2
  obtain ⟨w1, w2, w3⟩ := watchedGen_eq (Res := Res) hos true current f req hs hc
  obtain ⟨hcalls, _, r, hgave, hget⟩ := hrun (some req) _ _ (.serverStream _ req rfl rfl) i out h' e (by rw [w1, w2, w3 rfl]; exact hr) hreg
  refine ⟨hcalls, r, hgave, fun resp hrec http hh n hn hleft => ?_⟩
  rw [hcalls]
  exact both_report_early c ha sc http sink cs left oc hoc within os hos true current m f req user t _ ctx hs hc hr hreg.caught henc (hget resp hrec http hh) n hn hleft

end

/-! ### the hypotheses are met -/

/-- a stream of two messages that ends with an error -/
def brokenRun : Bytes → RequestContext → Script Bytes := fun b _ => ⟨[.emit b, .emit b], some (.connect demoError), none⟩

/-- A stream of two messages that ends with an error, of which the caller takes one: the call, and the run of its handler. -/
example (p : Proto) (flavor : Bool) (ctx : RequestContext) :
    StreamCall (chatClient p) (chatAppOf (.serverStream (watchInterceptor.watchedGen flavor none brokenRun))) chatCodec echoInfo echoInfo
      (.serverStream (watchInterceptor.watchedGen flavor none brokenRun)) [[6]] pairUser (some 1500) ∧
    (∃ i h', Runs (writerOf chatCodec revGzip).write none (ready (Req := Bytes) ⟨[], none⟩) (brokenRun [6] ctx).acts (brokenRun [6] ctx).outcome i [[6], [6]] h' (some (.connect demoError)) ∧
      RegularStream (chatClient p) chatCodec protobufStatus revGzip i.headers [[6], [6]] h'.info.trailers (some (.connect demoError))) ∧
    (∀ x, .emit x ∈ (brokenRun [6] ctx).acts → ∃ b, (writerOf chatCodec revGzip).write x = .ok b) := by
  refine ⟨chat_call p _ (fun _ => rfl) _ (by simp), ⟨Meta.empty, ready ⟨[], none⟩, .emit rfl (.emit rfl (.done _ _)), ?_⟩, fun x hx => ?_⟩
  · exact {
      caught := by intro x h; cases h; rfl
      built := ⟨[], rfl⟩
      encoding := by decide +kernel
      limit := by
        intro n hn
        cases hn
        refine ⟨?_, by cases p <;> decide +kernel⟩
        intro m hm d hd
        cases hd
        simp only [List.mem_cons, List.not_mem_nil, or_false, or_self] at hm
        subst hm
        decide
      ends := by
        unfold EndsWith
        cases h : (writerOf chatCodec revGzip).end' (chatClient p).proto protobufStatus Headers.empty ((some (Exc.connect demoError)).map errorOf) with
        | ok out => exact ⟨out, rfl⟩
        | error x =>
          exfalso
          have h2 : ((writerOf chatCodec revGzip).end' (chatClient p).proto protobufStatus Headers.empty ((some (Exc.connect demoError)).map errorOf)).toOption.isSome = true := by
            cases p <;> decide +kernel
          rw [h] at h2
          cases h2
      debug := by intro _ x h; cases h; exact demoError_debug
      status := fun _ => protobufStatus_lawful
      error := by intro _ x h; cases h; exact ⟨demoError_fits, by intro h; cases h⟩
      legal := by intro _ q hq; cases hq }
  have : x = [6] := by simpa [brokenRun] using hx
  subst this
  exact ⟨_, rfl⟩

end Props
