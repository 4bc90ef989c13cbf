import Verif.Proofs.ObservedKinds
import Verif.Props.Observed
import Verif.Props.BadRequest
/-
C93 for methods of every kind, in the protocols that send messages in envelopes.
-/
namespace Props
open Conn Spec Py Proofs

section
variable {C Req Res : Type}

/-- **C93, every kind of method on WSGI**: a function that takes one message or reads a stream, and returns one message or produces many, is traced: one span, with the status the client is told —
also when the request's stream breaks off or is refused while the function reads it, and whether or not the function handles that. -/
theorem C93_wsgi_kinds_partial (app : App Req Res) (sc : StatusCodec) (env : Environ) (key : List Char) (m : MethodInfo) (p : Proto)
    (o : OtelInterceptor C) (ho : o.client = false) (current : Option C) (handler : Handler Req Res)
    (codec : ServerCodec Req Res) (reqComp resComp : Compression)
    (h : WsgiStreamed app env key ⟨m, o.handler false current handler⟩ p codec reqComp resComp)
    (hp : Pieces env.input) (s : ReqStream Req) (hs : WsgiMessages app env codec reqComp s)
    (ht : TraceableRequest (wsgiScheme env.vars) ((wsgiHeaders env.vars).get (pys! "host")) (wsgiClient env.vars)) :
    ∃ ctx, ∀ req h0 script, Starts s ctx handler req h0 script → (∀ x, .emit x ∈ script.acts → ∃ b, (writerOf codec resComp).write x = .ok b) →
      ∀ i ms h' e, Runs (writerOf codec resComp).write none h0 script.acts script.outcome i ms h' e → Caught e →
      ∀ out, EndsWith (writerOf codec resComp) p sc h'.info.trailers e out →
      (app.wsgi sc env).calls = [⟨key, ctx, req⟩] ∧
      (∃ bs : List (List UInt8), ms.map (writerOf codec resComp).write = bs.map .ok ∧
        (app.wsgi sc env).events = .start 200 (streamFields p codec resComp i) :: bs.map .chunk ++ wsgiEnding out) ∧
      Reports (telemetryOfKind o false current s (ms.length + 1) handler (app.wsgi sc env).calls) (e.map fun x => codeName (errorOf x).code) := by
  obtain ⟨hm, ctx, _, hctx, hrun⟩ := C35_wsgi app sc env key _ p codec reqComp resComp h hp _ hs
  have hsv : Traceable ctx.serverAddress := traceable_server ht (by rw [← hctx.headers]; exact hctx.server)
  have hcl : Traceable ctx.clientAddress := by rw [hctx.client]; exact ht.2
  refine ⟨ctx, fun req h0 script hst hw i ms h' e hr hc out hout => ?_⟩
  obtain ⟨⟨script', hst', hr', _⟩, hrep⟩ := handler_watched (Res := Res) ho false current hsv hcl hst hw hr hc key
  obtain ⟨bs, logged, hbs, hall⟩ := hrun req h0 script' hst' i ms h' e hr' hc out hout
  rw [hall]
  exact ⟨rfl, ⟨bs, hbs, rfl⟩, hrep⟩

/-- **C93, every kind of method on ASGI**: as on WSGI, unless the client disconnects from a stream of responses before it is complete or the handler is cancelled. -/
theorem C93_asgi_kinds_partial (app : App Req Res) (sc : StatusCodec) (scope : Scope) (env : Env) (headers : Headers) (key : List Char) (m : MethodInfo) (p : Proto)
    (o : OtelInterceptor C) (ho : o.client = false) (current : Option C) (handler : Handler Req Res)
    (codec : ServerCodec Req Res) (reqComp resComp : Compression)
    (h : AsgiStreamed app scope headers key ⟨m, o.handler true current handler⟩ p codec reqComp resComp) (hrel : Reliable env)
    (hnc : env.cancelAfter = none) (hord : Spec.Ordinary app) (hdis : env.disconnectAt = none) (s : ReqStream Req) (hs : AsgiMessages app env codec reqComp s)
    (ht : TraceableRequest (asgiScheme scope) (headers.get (pys! "host")) (scope.client.map fun ca => ca.1 ++ pys! ":" ++ ca.2)) :
    ∃ ctx, ∀ req h0 script, Starts s ctx handler req h0 script → (∀ x, .emit x ∈ script.acts → ∃ b, (writerOf codec resComp).write x = .ok b) →
      ∀ i ms h' e, Runs (writerOf codec resComp).write none h0 script.acts script.outcome i ms h' e → Caught e →
      ∀ out, EndsWith (writerOf codec resComp) p sc h'.info.trailers e out →
      (app.asgi sc scope env).calls = [⟨key, ctx, req⟩] ∧
      (∃ bs : List (List UInt8), ms.map (writerOf codec resComp).write = bs.map .ok ∧
        (app.asgi sc scope env).sends = (.start 200 (streamFields p codec resComp i) (decide (p = .grpc)) :: bs.map (Sent.body · true) ++
              asgiEnding out).map (·, none)) ∧
      Reports (telemetryOfKind o true current s (ms.length + 1) handler (app.asgi sc scope env).calls) (e.map fun x => codeName (errorOf x).code) := by
  obtain ⟨ctx, s', hctx, hmsgs, hrun⟩ := C35_asgi_partial app sc scope env headers key _ p codec reqComp resComp h hrel
  have hsv : Traceable ctx.serverAddress := traceable_server ht (by rw [← hctx.headers]; exact hctx.server)
  have hcl : Traceable ctx.clientAddress := by rw [hctx.client]; exact ht.2
  obtain ⟨name, hn, hcodec⟩ := h.codec
  have hseq : s' = s := by
    have a1 := (asgiMessages_iff hnc hord ⟨name, hcodec⟩ (requestCompression_known h.reqComp)).1 (hmsgs hnc hord)
    have a2 := (asgiMessages_iff hnc hord ⟨name, hcodec⟩ (requestCompression_known h.reqComp)).1 hs
    exact a1.symm.trans a2
  subst hseq
  refine ⟨ctx, fun req h0 script hst hw i ms h' e hr hc out hout => ?_⟩
  obtain ⟨⟨script', hst', hr', hcl'⟩, hrep⟩ := handler_watched (Res := Res) ho true current hsv hcl hst hw hr hc key
  obtain ⟨bs, hbs, hall⟩ := hrun req h0 script' hst' i ms h' e (by rw [hcl' rfl]; exact hr')
    (fun _ k hk => by rw [hdis] at hk; cases hk) (fun hx => by subst hx; exact absurd (hc _ rfl) (by decide)) out hout
  rw [hall]
  exact ⟨rfl, ⟨bs, hbs, rfl⟩, hrep⟩

/-- **C93 is false of every refused stream**: a request for a function that takes one message, and does not carry exactly one that can be read, is answered with an error and not reported. -/
theorem C93_violation_refused_stream (app : App Req Res) (sc : StatusCodec) (env : Environ) (key : List Char) (m : MethodInfo) (p : Proto)
    (o : OtelInterceptor C) (current : Option C) (handler : Handler Req Res) (codec : ServerCodec Req Res) (reqComp resComp : Compression)
    (h : WsgiStreamed app env key ⟨m, o.handler false current handler⟩ p codec reqComp resComp)
    (hp : Pieces env.input) (s : ReqStream Req) (hs : WsgiMessages app env codec reqComp s) (ht : TakesOne handler) (hno : ¬ ∃ m, s = ⟨[m], none⟩) :
    ∃ e, Refuses s e ∧ (e.isException = true → ∀ out, EndsWith (writerOf codec resComp) p sc Headers.empty (some e) out →
      (app.wsgi sc env).events = .start 200 (streamFields p codec resComp .empty) :: wsgiEnding out ∧
      ∀ n, telemetryOfKind o false current s n handler (app.wsgi sc env).calls = []) := by
  obtain ⟨e, he, hall⟩ := C33_wsgi_refused app sc env key _ p codec reqComp resComp h hp s hs (by cases handler <;> exact ht) hno
  refine ⟨e, he, fun hx out hout => ?_⟩
  obtain ⟨logged, hrun⟩ := hall hx out hout
  rw [hrun]
  exact ⟨rfl, fun n => by cases handler <;> rfl⟩

end

/-! ### the hypotheses are met -/

/-- reads two messages and answers -/
def readTwo (_ : ReqStream Bytes) (_ : RequestContext) : Call Bytes := ⟨[.recv false, .recv false], .ok [3]⟩
/-- answers each message, and catches what goes wrong while it reads the second -/
def talkTwo (_ : ReqStream Bytes) (_ : RequestContext) : Script Bytes := ⟨[.step (.recv false), .emit [1], .step (.recv true), .emit [2]], none, none⟩
def kindsApp (flavor : Bool) : App Bytes Bytes :=
  .new [(pys! "/a.S/Put", ⟨listInfo, watchInterceptor.handler flavor none (.clientStream readTwo)⟩),
    (pys! "/a.S/Talk", ⟨listInfo, watchInterceptor.handler flavor none (.bidi talkTwo)⟩)] (pys! "/a.S") flipComp none none [fussyCodec]

theorem kinds_put (input : List Bytes) : WsgiStreamed (kindsApp false) (watchEnviron (pys! "/a.S/Put") (pys! "application/grpc") input)
    (pys! "/a.S/Put") ⟨listInfo, watchInterceptor.handler false none (.clientStream readTwo)⟩ .grpc fussyCodec .identity .identity :=
  ⟨⟨wsgiLookup_ok.1 rfl, ⟨pys! "POST", rfl, .inl rfl⟩, (speaks_iff ..).2 (by
        show negotiateServerProtocol ((wsgiHeaders (watchEnviron (pys! "/a.S/Put") (pys! "application/grpc") []).vars).getD
          (pys! "content-type") []) = .grpc
        decide +kernel), fun _ => rfl, fun v hv => (by cases hv), fun h => (by cases h)⟩,
    ⟨pys! "proto", (streamCodecName_iff ..).2 (by
        show Proto.codecNameFromContentType .grpc ((wsgiHeaders (watchEnviron (pys! "/a.S/Put") (pys! "application/grpc") []).vars).getD (pys! "content-type") []) true = pys! "proto"
        decide +kernel), rfl⟩, .inl rfl, responseCompression_iff.1 rfl⟩

theorem kinds_ordinary (flavor : Bool) : Spec.Ordinary (kindsApp flavor) :=
  ⟨(watch_ordinary flavor).decode, (watch_ordinary flavor).decompress⟩

/-- a stream of requests whose second message cannot be decoded: the function ends with that, and so does the trace -/
example : ∃ e, e.isException = true ∧
    WsgiMessages (kindsApp false) (watchEnviron (pys! "/a.S/Put") (pys! "application/grpc") [[0, 0, 0, 0, 1, 2, 0, 0, 0, 0, 1, 255]]) fussyCodec .identity ⟨[[2]], some e⟩ ∧
    (∀ ctx, ∃ script h', Starts (⟨[[2]], some e⟩ : ReqStream Bytes) ctx (.clientStream readTwo) none (ready ⟨[[2]], some e⟩) script ∧
      Runs (writerOf fussyCodec .identity).write none (ready ⟨[[2]], some e⟩) script.acts script.outcome .empty [] h' (some e) ∧
      ∀ x, .emit x ∈ script.acts → ∃ b, (writerOf fussyCodec .identity).write x = .ok b) ∧
    (telemetryOfKind watchInterceptor false none ⟨[[2]], some e⟩ 1 (.clientStream readTwo)
      ((kindsApp false).wsgi demoStatus (watchEnviron (pys! "/a.S/Put") (pys! "application/grpc") [[0, 0, 0, 0, 1, 2, 0, 0, 0, 0, 1, 255]])).calls).length = 4 := by
  refine ⟨.other .valueError (pys! "bad message"), rfl, (wsgiMessages_iff (by intro s hs; rw [List.mem_singleton.1 hs]; simp)).2 (by decide +kernel), fun ctx => ⟨_, _, .clientStream _ (.returned ..), .step (.message ..) (.raised (.failed ..)), ?_⟩, by decide +kernel⟩
  intro x hx
  simp at hx
  subst hx
  exact ⟨_, rfl⟩

/-- … a function that handles it: the stream of responses ends with success, and so does the trace -/
example : ∃ e, e.isException = true ∧
    AsgiMessages (kindsApp true) (demoEnv [.request [0, 0, 0, 0, 1, 2, 0, 0, 0, 0, 1, 255] false]) fussyCodec .identity ⟨[[2]], some e⟩ ∧
    (∀ ctx, ∃ h', Starts (⟨[[2]], some e⟩ : ReqStream Bytes) ctx (.bidi talkTwo) none (ready ⟨[[2]], some e⟩) (talkTwo ⟨[[2]], some e⟩ ctx) ∧
      Runs (writerOf fussyCodec .identity).write none (ready ⟨[[2]], some e⟩) (talkTwo ⟨[[2]], some e⟩ ctx).acts none .empty [[1], [2]] h' none) ∧
    AsgiStreamed (kindsApp true) (watchScope (pys! "/a.S/Talk") (pys! "application/grpc")) (watchHeaders (pys! "application/grpc")) (pys! "/a.S/Talk")
      ⟨listInfo, watchInterceptor.handler true none (.bidi talkTwo)⟩ .grpc fussyCodec .identity .identity ∧ Reliable (demoEnv [.request [0, 0, 0, 0, 1, 2, 0, 0, 0, 0, 1, 255] false]) ∧
    (telemetryOfKind watchInterceptor true none ⟨[[2]], some e⟩ 3 (.bidi talkTwo)
      ((kindsApp true).asgi demoStatus (watchScope (pys! "/a.S/Talk") (pys! "application/grpc")) (demoEnv [.request [0, 0, 0, 0, 1, 2, 0, 0, 0, 0, 1, 255] false])).calls).length = 3 := by
  refine ⟨.other .valueError (pys! "bad message"), rfl, (asgiMessages_iff (app := kindsApp true) rfl (kinds_ordinary true) ⟨pys! "proto", rfl⟩ (.inl rfl)).2 (by decide +kernel), fun ctx => ⟨_, .bidi _,
      .step (.message ..) (.emit (b := [0, 0, 0, 0, 1, 1]) rfl (.step (.handled ..) (.emit (b := [0, 0, 0, 0, 1, 2]) rfl (.done ..))))⟩,
    ⟨⟨asgiLookup_ok.1 rfl, by decide +kernel, .inl rfl, (speaks_iff ..).2 (by decide +kernel), fun _ => rfl,
      fun v hv => (by cases hv), fun h => (by cases h)⟩,
    ⟨pys! "proto", .inl ⟨by decide, (streamCodecName_iff ..).2 (by decide +kernel)⟩, rfl⟩, .inl rfl, responseCompression_iff.1 rfl⟩, fun _ => rfl, by decide +kernel⟩

/-- two messages for a function that takes one (`C93_violation_refused_stream`) -/
example : WsgiStreamed (watchApp false) (watchEnviron (pys! "/a.S/List") (pys! "application/grpc") [[0, 0, 0, 0, 1, 2], [0, 0, 0, 0, 0]])
      (pys! "/a.S/List") ⟨listInfo, watchInterceptor.handler false none (.serverStream listRun)⟩ .grpc fussyCodec .identity .identity ∧
    WsgiMessages (watchApp false) (watchEnviron (pys! "/a.S/List") (pys! "application/grpc") [[0, 0, 0, 0, 1, 2], [0, 0, 0, 0, 0]]) fussyCodec .identity ⟨[[2], []], none⟩ ∧
    TakesOne (.serverStream listRun : Handler Bytes Bytes) ∧ ¬ ∃ m, (⟨[[2], []], none⟩ : ReqStream Bytes) = ⟨[m], none⟩ :=
  ⟨watch_list _, (wsgiMessages_iff (by intro s hs; simp [watchEnviron, flowEnviron] at hs; rcases hs with rfl | rfl <;> simp)).2 (by decide +kernel), trivial,
    fun ⟨m, h⟩ => by cases h⟩

end Props
