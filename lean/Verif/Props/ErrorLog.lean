import Verif.Spec.ErrorLog
import Verif.Props.UnaryResponse
import Verif.Props.Stream
/-
C87: failures that nobody planned for are reported to the operator of the server.
-/
namespace Props
open Conn Py Spec

section
variable {Req Res : Type}

theorem maybeLog_unforeseen {e : Exc} (h : Unforeseen e) : maybeLog e = [e] := by
  rcases h with ⟨c, m, rfl⟩ | rfl <;> rfl

/-- `wsgiFail` tells of `e` as it should -/
theorem wsgiFail_told (calls : List (Called Req)) (e : Exc) (ctx : Option Meta) : OperatorTold (some e) (wsgiTold (wsgiFail calls e ctx)) := by
  unfold wsgiTold wsgiFail
  refine ⟨?_, ?_, fun h => by cases h⟩
  · intro x hx hu
    cases hx
    rcases hu with ⟨c, m, rfl⟩ | rfl <;> rfl
  · intro c hc
    cases hc
    rfl

theorem asgiFail_told {env : Env} (hrel : Reliable env) (calls : List (Called Req)) (e : Exc) (ctx : Option Meta) :
    OperatorTold (some e) (asgiTold (asgiFail env calls [] e ctx)) := by
  unfold asgiTold asgiFail
  have hs : ∀ a b : Sent, env.sendAll [] [a, b] = ([(a, none), (b, none)], none) := by
    intro a b
    simp [Env.sendAll, Env.send, hrel _]
  dsimp only
  rw [hs]
  refine ⟨?_, ?_, (fun h => by cases h)⟩
  · intro x hx hu
    cases hx
    rcases hu with ⟨c, m, rfl⟩ | rfl <;> rfl
  · intro c hc
    cases hc
    rfl

/-- how a unary handler's run ends -/
def unaryOutcome (codec : ServerCodec Req Res) (run : Call Res) : Option Exc :=
  match run.result with
  | .error e => some e
  | .ok r => match codec.res.encode r with
    | .error e => some e
    | .ok _ => none

theorem unaryOutcome_iff {codec : ServerCodec Req Res} {run : Call Res} {e : Exc} : unaryOutcome codec run = some e ↔ Fails codec run e := by
  unfold unaryOutcome Fails
  cases run.result with
  | error x => simp
  | ok r =>
    dsimp only
    cases hx : codec.res.encode r with
    | error x => simp [hx]
    | ok b => simp [hx]

theorem wsgiUnary_told {app : App Req Res} {env : Environ} {key hm : Str} {h : Headers} {ctx : RequestContext}
    {f : Req → RequestContext → Call Res} {req : Req} {codec : ServerCodec Req Res}
    (hread : (if hm = pys! "GET" then app.wsgiGet env else app.wsgiPost env h) = .ok (req, codec)) :
    OperatorTold (unaryOutcome codec (f req ctx)) (wsgiTold (app.wsgiUnary env key hm h ctx f)) := by
  obtain ⟨h', hc, _⟩ := call_metadata (Req := Req) (f req ctx).steps (f req ctx).result
  unfold App.wsgiUnary unaryOutcome
  rw [hread]
  dsimp only
  rw [hc]
  cases hr : (f req ctx).result with
  | error e => exact wsgiFail_told ..
  | ok r =>
    dsimp only
    cases he : codec.res.encode r with
    | error e => exact wsgiFail_told ..
    | ok data => exact ⟨(fun e h => by cases h), (fun e h => by cases h), fun _ => rfl⟩

theorem asgiUnary_told {app : App Req Res} {env : Env} {key hm : Str} {h : Headers} {ctx : RequestContext}
    {f : Req → RequestContext → Call Res} {req : Req} {codec : ServerCodec Req Res} {params : Dict Str (List Str)}
    (hread : (if hm = pys! "GET" then app.asgiGet params codec else app.asgiPost env h codec) = .ok req) (hrel : Reliable env) :
    OperatorTold (unaryOutcome codec (f req ctx)) (asgiTold (app.asgiUnary env key hm h codec params ctx f)) := by
  obtain ⟨h', hc, _⟩ := call_metadata (Req := Req) (f req ctx).steps (f req ctx).result
  unfold App.asgiUnary unaryOutcome
  rw [hread]
  dsimp only
  rw [hc]
  cases hr : (f req ctx).result with
  | error e => exact asgiFail_told hrel ..
  | ok r =>
    dsimp only
    cases he : codec.res.encode r with
    | error e => exact asgiFail_told hrel ..
    | ok data =>
      have hs : ∀ a b : Sent, env.sendAll [] [a, b] = ([(a, none), (b, none)], none) := by
        intro a b
        simp [Env.sendAll, Env.send, hrel _]
      dsimp only
      rw [hs]
      exact ⟨(fun e h => by cases h), (fun e h => by cases h), fun _ => rfl⟩

/-- **C87, WSGI, unary Connect requests.** If the handler fails — it raises, or its response cannot be encoded — with an exception nobody planned for, the operator is
told exactly that; if it reports an error of its own or succeeds, nothing. -/
theorem C87_wsgi_unary (app : App Req Res) (sc : StatusCodec) (env : Environ) (key httpMethod : List Char) (m : MethodInfo)
    (f : Req → RequestContext → Call Res) (h : WsgiConnectUnary app env key m f httpMethod) (hp : Pieces env.input)
    (codec : ServerCodec Req Res) (req : Req) (hacc : WsgiCarries app env m httpMethod codec req) :
    ∃ ctx, CtxIs ctx m httpMethod (wsgiScheme env.vars) (wsgiHeaders env.vars) (wsgiClient env.vars) ∧
      (∀ e, Fails codec (f req ctx) e → OperatorTold (some e) (wsgiTold (app.wsgi sc env))) ∧
      ((∀ e, ¬ Fails codec (f req ctx) e) → wsgiTold (app.wsgi sc env) = []) := by
  obtain ⟨hh, hreq⟩ := hacc
  have hrun : MayRun m ((wsgiHeaders env.vars).getD (pys! "content-type") []) httpMethod := by
    rcases hreq with ⟨h1, _⟩ | ⟨h1, h2, _⟩
    · exact .inl h1
    · exact .inr ⟨h1, h2, h.connect⟩
  rcases wsgiRoute_unary h hrun with ⟨_, ctx, hr, hctx⟩ | ⟨hno, _⟩
  · rw [wsgi_of_route hr]
    have key' : OperatorTold (unaryOutcome codec (f req ctx)) (wsgiTold (app.wsgiUnary env key httpMethod (wsgiHeaders env.vars) ctx f)) := by
      apply wsgiUnary_told
      rcases hreq with ⟨rfl, name, raw, data, h1, h2, h3⟩ | ⟨rfl, _, ⟨name, h1, h2⟩, raw, data, h3, h4, h5⟩
      · rw [if_neg (by decide)]
        unfold App.wsgiPost
        rw [(unaryCodecName_iff ..).1 h1, h2]
        dsimp only
        rw [(wsgiPostBody_ok hp).2 ⟨raw, data, h3⟩]
      · rw [if_pos rfl, wsgiGet_eq, wsgiGetBody_codec ⟨name, h1, h2⟩ h3 h4 h5]
    refine ⟨ctx, hctx, ?_, ?_⟩
    · intro e he
      rwa [unaryOutcome_iff.2 he] at key'
    · intro hn
      refine key'.2.2 ?_
      cases ho : unaryOutcome codec (f req ctx) with
      | none => rfl
      | some e => exact absurd (unaryOutcome_iff.1 ho) (hn e)
  · exact absurd hh hno

/-- **C87, ASGI, unary Connect requests**, when the server accepts what the application sends. -/
theorem C87_asgi_unary (app : App Req Res) (sc : StatusCodec) (scope : Scope) (env : Env) (headers : Headers)
    (key : List Char) (m : MethodInfo) (f : Req → RequestContext → Call Res)
    (h : AsgiConnectUnary app scope headers key m f) (hrel : Reliable env)
    (codec : ServerCodec Req Res) (req : Req) (hacc : AsgiCarries app scope env headers m codec req) :
    ∃ ctx, CtxIs ctx m scope.method (asgiScheme scope) headers (scope.client.map fun ca => ca.1 ++ pys! ":" ++ ca.2) ∧
      (∀ e, Fails codec (f req ctx) e → OperatorTold (some e) (asgiTold (app.asgi sc scope env))) ∧
      ((∀ e, ¬ Fails codec (f req ctx) e) → asgiTold (app.asgi sc scope env) = []) := by
  obtain ⟨hh, hreq⟩ := hacc
  have hrun : MayRun m (headers.getD (pys! "content-type") []) scope.method := by
    rcases hreq with ⟨h1, _⟩ | ⟨h1, h2, _⟩
    · exact .inl h1
    · exact .inr ⟨h1, h2, h.connect⟩
  rcases asgiRoute_unary h hrun with ⟨_, ctx, hr, hctx⟩ | ⟨hno, _⟩
  · have key' : OperatorTold (unaryOutcome codec (f req ctx)) (asgiTold (app.asgi sc scope env)) := by
      rcases hreq with ⟨hm, name, raw, data, h1, h2, h3⟩ | ⟨hm, _, q, hq, ⟨name, h1, h2⟩, raw, data, enc, h3⟩
      · have hc := asgiCodec_post (app := app) (key := key) (m := m) (f := f) (ctx := ctx) hm h1
        rw [h2] at hc
        rw [(asgi_of_route hr sc env).2 _ hc]
        exact asgiUnary_told (by rw [hm, if_neg (by decide)]; exact asgiPost_ok.2 ⟨raw, data, h3⟩) hrel
      · have hc := asgiCodec_get (app := app) (key := key) (m := m) (f := f) (ctx := ctx) (h := headers) hm hq h1
        rw [h2] at hc
        rw [(asgi_of_route hr sc env).2 _ hc]
        exact asgiUnary_told (by rw [if_pos hm]; exact asgiGet_ok.2 ⟨raw, data, enc, h3⟩) hrel
    refine ⟨ctx, hctx, ?_, ?_⟩
    · intro e he
      rwa [unaryOutcome_iff.2 he] at key'
    · intro hn
      refine key'.2.2 ?_
      cases ho : unaryOutcome codec (f req ctx) with
      | none => rfl
      | some e => exact absurd (unaryOutcome_iff.1 ho) (hn e)
  · exact absurd hh hno

/-- what a WSGI stream tells, exactly: as it should, except of an `Exception` after the handler has produced a message -/
theorem wsgi_stream_told (app : App Req Res) (sc : StatusCodec) (env : Environ) (key : List Char) (ep : Endpoint Req Res) (p : Proto)
    (codec : ServerCodec Req Res) (reqComp resComp : Compression) (h : WsgiStreamed app env key ep p codec reqComp resComp)
    (hp : Pieces env.input) (s : ReqStream Req) (hs : WsgiMessages app env codec reqComp s) :
    ∃ hm ctx, Dict.get? env.vars (pys! "REQUEST_METHOD") = some hm ∧
      CtxIs ctx ep.method hm (wsgiScheme env.vars) (wsgiHeaders env.vars) (wsgiClient env.vars) ∧
      ∀ req h0 script, Starts s ctx ep.handler req h0 script →
      ∀ i ms h' e, Runs (writerOf codec resComp).write none h0 script.acts script.outcome i ms h' e →
      (Caught e → ∃ out, EndsWith (writerOf codec resComp) p sc h'.info.trailers e out) →
      (Produces h0 script.acts → Caught e → wsgiTold (app.wsgi sc env) = []) ∧
      (¬ Produces h0 script.acts → OperatorTold e (wsgiTold (app.wsgi sc env))) := by
  obtain ⟨name, hn, hcodec⟩ := h.codec
  obtain ⟨hm, ctx, hctx, hcases⟩ := wsgi_stream_cases h.streams hn hcodec h.resComp
  refine ⟨hm, ctx, hctx.1, hctx.2, ?_⟩
  intro req h0 script hst i ms h' e hr hout
  rw [wsgiMessages_iff hp] at hs
  subst hs
  have hrun := ((hcases sc).2 reqComp h.reqComp).2 req h0 script (starts_iff.2 hst)
  rw [hrun]
  by_cases hc : Caught e
  · obtain ⟨out, ho⟩ := hout hc
    obtain ⟨bs, h1, logged, g1, g2, h2⟩ := wsgiFirst_runs (c := streamCfg p sc codec resComp [⟨key, ctx, req⟩]) hr hc ho
    unfold wsgiTold
    rw [h2]
    refine ⟨fun hp _ => by rw [g1 hp]; rfl, fun hn => ?_⟩
    rw [g2 hn]
    refine ⟨?_, ?_, ?_⟩
    · rintro x rfl hu
      simp [maybeLog_unforeseen hu]
    · rintro c rfl
      rfl
    · rintro rfl
      rfl
  · refine ⟨fun _ h => absurd h hc, fun hnp => ?_⟩
    cases e with
    | none => exact absurd (fun x hx => by cases hx) hc
    | some x =>
      have hx : x.isException = false := by
        cases hx : x.isException with
        | false => rfl
        | true => exact absurd (fun y hy => by cases hy; exact hx) hc
      have hxc : x = .cancelled := by cases x <;> first | rfl | cases hx
      subst hxc
      have : (streamCfg p sc codec resComp [⟨key, ctx, req⟩]).wsgiFirst script.outcome script.acts h0 =
          { calls := [⟨key, ctx, req⟩], received := h'.got, events := [], escaped := some .cancelled } := by
        clear hrun hst hout
        generalize script.outcome = o at hr
        generalize script.acts = acts at hr hnp
        generalize he : some Exc.cancelled = e at hr
        induction hr with
        | done h o => subst he; rfl
        | step hs hr ih =>
          unfold StreamCfg.wsgiFirst
          rw [does_iff.2 hs]
          exact ih (fun hp => hnp (.later hs hp)) he
        | raised hs =>
          cases he
          unfold StreamCfg.wsgiFirst
          rw [does_iff.2 hs]
          rfl
        | emit hw hr ih => exact absurd .now hnp
        | unwritable hw => exact absurd .now hnp
      rw [this]
      exact ⟨fun y hy _ => by cases hy; rfl, (fun c h => by cases h), (fun h => by cases h)⟩

/-- **C87, WSGI, streams** (partial). The operator is told of a failure of the handler exactly when nobody planned for it, if the handler had not produced a message by
then. Missing: failures after the first message (`C87_violation_wsgi`). -/
theorem C87_wsgi_stream_partial (app : App Req Res) (sc : StatusCodec) (env : Environ) (key : List Char) (ep : Endpoint Req Res) (p : Proto)
    (codec : ServerCodec Req Res) (reqComp resComp : Compression) (h : WsgiStreamed app env key ep p codec reqComp resComp)
    (hp : Pieces env.input) (s : ReqStream Req) (hs : WsgiMessages app env codec reqComp s) :
    ∃ hm ctx, Dict.get? env.vars (pys! "REQUEST_METHOD") = some hm ∧
      CtxIs ctx ep.method hm (wsgiScheme env.vars) (wsgiHeaders env.vars) (wsgiClient env.vars) ∧
      ∀ req h0 script, Starts s ctx ep.handler req h0 script →
      ∀ i ms h' e, Runs (writerOf codec resComp).write none h0 script.acts script.outcome i ms h' e →
      (Caught e → ∃ out, EndsWith (writerOf codec resComp) p sc h'.info.trailers e out) →
      ¬ Produces h0 script.acts → OperatorTold e (wsgiTold (app.wsgi sc env)) := by
  obtain ⟨hm, ctx, h1, h2, h3⟩ := wsgi_stream_told app sc env key ep p codec reqComp resComp h hp s hs
  exact ⟨hm, ctx, h1, h2, fun req h0 script hst i ms h' e hr ho => (h3 req h0 script hst i ms h' e hr ho).2⟩

/-- C87 is false of every streamed WSGI response whose handler fails after its first message: the operator is told nothing. -/
theorem C87_violation_wsgi (app : App Req Res) (sc : StatusCodec) (env : Environ) (key : List Char) (ep : Endpoint Req Res) (p : Proto)
    (codec : ServerCodec Req Res) (reqComp resComp : Compression) (h : WsgiStreamed app env key ep p codec reqComp resComp)
    (hp : Pieces env.input) (s : ReqStream Req) (hs : WsgiMessages app env codec reqComp s) :
    ∃ hm ctx, Dict.get? env.vars (pys! "REQUEST_METHOD") = some hm ∧
      CtxIs ctx ep.method hm (wsgiScheme env.vars) (wsgiHeaders env.vars) (wsgiClient env.vars) ∧
      ∀ req h0 script, Starts s ctx ep.handler req h0 script →
      ∀ i ms h' e, Runs (writerOf codec resComp).write none h0 script.acts script.outcome i ms h' (some e) →
      (∃ out, EndsWith (writerOf codec resComp) p sc h'.info.trailers (some e) out) →
      e.isException = true → Produces h0 script.acts → wsgiTold (app.wsgi sc env) = [] := by
  obtain ⟨hm, ctx, h1, h2, h3⟩ := wsgi_stream_told app sc env key ep p codec reqComp resComp h hp s hs
  exact ⟨hm, ctx, h1, h2, fun req h0 script hst i ms h' e hr ho he hpr =>
    (h3 req h0 script hst i ms h' (some e) hr fun _ => ho).1 hpr fun x hx => by cases hx; exact he⟩

/-- **C87, ASGI, streams**: the operator is told of a failure exactly when nobody planned for it, before and after the first message. (Cancelled requests: C84.) -/
theorem C87_asgi_stream_partial (app : App Req Res) (sc : StatusCodec) (scope : Scope) (env : Env) (headers : Headers) (key : List Char)
    (ep : Endpoint Req Res) (p : Proto) (codec : ServerCodec Req Res) (reqComp resComp : Compression)
    (h : AsgiStreamed app scope headers key ep p codec reqComp resComp) (hrel : Reliable env) :
    ∃ ctx s, CtxIs ctx ep.method scope.method (asgiScheme scope) headers (scope.client.map fun ca => ca.1 ++ pys! ":" ++ ca.2) ∧
      (env.cancelAfter = none → Ordinary app → AsgiMessages app env codec reqComp s) ∧
      ∀ req h0 script, Starts s ctx ep.handler req h0 script →
      ∀ i ms h' e, Runs (writerOf codec resComp).write script.closeErr h0 script.acts script.outcome i ms h' e →
      ((∃ f, ep.handler = .serverStream f) → ∀ k, env.disconnectAt = some k → ms.length < k) →
      e ≠ some .cancelled → (∃ out, EndsWith (writerOf codec resComp) p sc h'.info.trailers e out) →
      OperatorTold e (asgiTold (app.asgi sc scope env)) := by
  obtain ⟨ctx, s, h1, h2, h3⟩ := C35_asgi_partial app sc scope env headers key ep p codec reqComp resComp h hrel
  refine ⟨ctx, s, h1, h2, ?_⟩
  intro req h0 script hst i ms h' e hr hd he ⟨out, ho⟩
  obtain ⟨bs, _, hev⟩ := h3 req h0 script hst i ms h' e hr hd he out ho
  unfold asgiTold
  rw [hev]
  refine ⟨?_, ?_, ?_⟩
  · rintro x rfl hu
    rcases hu with ⟨c, m, rfl⟩ | rfl <;> rfl
  · rintro c rfl
    rfl
  · rintro rfl
    rfl

def LogsUnforeseen (o : WsgiOut Req) : Prop := ∀ e ∈ o.logged, Unforeseen e

/-- **C87, the log of WSGI servers**: whatever the request, only exceptions nobody planned for are written to it. -/
theorem C87_wsgi_log (app : App Req Res) (sc : StatusCodec) (env : Environ) : ∀ e ∈ (app.wsgi sc env).logged, Unforeseen e := by
  have hm : ∀ x : Exc, ∀ e ∈ maybeLog x, Unforeseen e := by
    intro x e he
    cases x with
    | connect c => cases he
    | http a b => cases he
    | other c m => cases List.mem_singleton.1 he; exact .inl ⟨_, _, rfl⟩
    | cancelled => cases List.mem_singleton.1 he; exact .inr rfl
  have hf : ∀ calls x ctx, LogsUnforeseen (wsgiFail calls x ctx : WsgiOut Req) := by
    intro calls x ctx e he
    unfold wsgiFail at he
    split at he
    · exact hm x e he
    · cases he
  have ho : ∀ (c : StreamCfg Req Res) h before x, LogsUnforeseen (c.wsgiErrorOnly h before x) := by
    intro c h before x e he
    unfold StreamCfg.wsgiErrorOnly at he
    split at he
    · split at he
      · exact hm x e he
      · dsimp only at he
        split at he
        · rcases List.mem_append.1 he with he | he
          · exact hm _ e he
          · exact hm _ e he
        · exact hm x e he
    · cases he
  have hb : ∀ (c : StreamCfg Req Res) o acts h ev, (c.wsgiBody o acts h ev).logged = [] := by
    intro c o acts
    have fin : ∀ h ev x, (c.wsgiFinish h ev x).logged = [] := by
      intro h ev x
      unfold StreamCfg.wsgiFinish
      cases c.writer.end' c.proto c.sc h.info.trailers (x.map ConnectErr.fromException) <;> rfl
    have cau : ∀ h ev x, (c.wsgiCaught h ev x).logged = [] := by
      intro h ev x
      unfold StreamCfg.wsgiCaught
      split
      · exact fin ..
      · rfl
    induction acts with
    | nil =>
      intro h ev
      cases o with
      | none => exact fin ..
      | some x => exact cau ..
    | cons a as ih =>
      intro h ev
      cases a with
      | step s =>
        unfold StreamCfg.wsgiBody
        rcases h.step s with ⟨h1, _ | x⟩
        · exact ih _ _
        · exact cau ..
      | emit m =>
        unfold StreamCfg.wsgiBody
        cases c.writer.write m with
        | error x => exact cau ..
        | ok b => exact ih _ _
  have hfst : ∀ (c : StreamCfg Req Res) o acts h, LogsUnforeseen (c.wsgiFirst o acts h) := by
    intro c o acts
    induction acts with
    | nil =>
      intro h
      unfold StreamCfg.wsgiFirst
      cases o with
      | some x => exact ho _ _ _ _
      | none =>
        dsimp only
        cases c.writer.end' c.proto c.sc h.info.trailers none with
        | ok out => intro e he; cases he
        | error x => exact ho _ _ _ _
    | cons a as ih =>
      intro h
      cases a with
      | step s =>
        unfold StreamCfg.wsgiFirst
        rcases h.step s with ⟨h1, _ | x⟩
        · exact ih _
        · exact ho _ _ _ _
      | emit m =>
        unfold StreamCfg.wsgiFirst LogsUnforeseen
        rw [hb]
        intro e he
        cases he
  have hu : ∀ key hm' h ctx f, LogsUnforeseen (app.wsgiUnary env key hm' h ctx f) := by
    intro key hm' h ctx f
    unfold App.wsgiUnary
    dsimp only
    cases (if hm' = pys! "GET" then app.wsgiGet env else app.wsgiPost env h) with
    | error x => exact hf _ _ _
    | ok r =>
      dsimp only
      rcases (HState.init ⟨[], none⟩ : HState Req).call (f r.1 ctx).steps (f r.1 ctx).result with ⟨h1, x | r'⟩
      · exact hf _ _ _
      · dsimp only
        cases r.2.res.encode r' with
        | error x => exact hf _ _ _
        | ok d => intro e he; cases he
  have hs : ∀ key p h ctx hd, LogsUnforeseen (app.wsgiStream sc env key p h ctx hd) := by
    intro key p h ctx hd
    unfold App.wsgiStream
    dsimp only
    cases app.codecs.get? (p.codecNameFromContentType (h.getD (pys! "content-type") []) true) with
    | none => exact hf _ _ _
    | some codec =>
      dsimp only
      cases (p.negotiateStreamCompression h app.comps).1 with
      | none => exact ho _ _ _ _
      | some rc =>
        dsimp only
        cases hd.start (app.wsgiRequests env codec rc) ctx with
        | error x => exact ho _ _ _ _
        | ok r => exact hfst _ _ _ _
  show LogsUnforeseen (app.wsgi sc env)
  unfold App.wsgi
  cases app.wsgiRoute env with
  | error x => exact hf _ _ _
  | ok r =>
    dsimp only
    split
    · exact hu _ _ _ _ _
    · exact hs _ _ _ _ _

/-- **C87, what the caller gets wrong** (partial). A unary Connect request on WSGI for which the handler is not called is not written to the log, whatever is wrong with
it. Missing: streams, and ASGI (`C87_violation_malformed`). -/
theorem C87_wsgi_malformed_partial (app : App Req Res) (sc : StatusCodec) (env : Environ) (key httpMethod : List Char) (m : MethodInfo)
    (f : Req → RequestContext → Call Res) (h : WsgiConnectUnary app env key m f httpMethod)
    (hrun : MayRun m ((wsgiHeaders env.vars).getD (pys! "content-type") []) httpMethod)
    (hcalls : (app.wsgi sc env).calls = []) : (app.wsgi sc env).logged = [] := by
  rcases wsgiRoute_unary h hrun with ⟨_, ctx, hr, hctx⟩ | ⟨_, msg, hr⟩
  · rw [wsgi_of_route hr] at hcalls ⊢
    have hint : ∀ x : Exc, (wsgiFail [] (internalUnlessConnect x) (some .empty) : WsgiOut Req).logged = [] := by
      intro x
      cases x <;> rfl
    have hread : ∀ x, (if httpMethod = pys! "GET" then app.wsgiGet env else app.wsgiPost env (wsgiHeaders env.vars)) = .error x →
        (wsgiFail [] x (some .empty) : WsgiOut Req).logged = [] := by
      intro x hx
      split at hx
      · unfold App.wsgiGet at hx
        dsimp only at hx
        split at hx
        · cases hx
        · cases hx
          exact hint _
      · unfold App.wsgiPost at hx
        split at hx
        · cases hx
          rfl
        · split at hx
          · cases hx
          · cases hx
            exact hint _
    unfold App.wsgiUnary at hcalls ⊢
    dsimp only at hcalls ⊢
    cases hx : (if httpMethod = pys! "GET" then app.wsgiGet env else app.wsgiPost env (wsgiHeaders env.vars)) with
    | error x => exact hread x hx
    | ok r =>
      rw [hx] at hcalls
      dsimp only at hcalls
      cases hc : (HState.init ⟨[], none⟩ : HState Req).call (f r.1 ctx).steps (f r.1 ctx).result with
      | mk h1 y =>
        rw [hc] at hcalls
        cases y with
        | error x =>
          dsimp only at hcalls
          rw [wsgiFail_calls] at hcalls
          cases hcalls
        | ok r' =>
          dsimp only at hcalls
          cases he : r.2.res.encode r' with
          | error x =>
            rw [he] at hcalls
            dsimp only at hcalls
            rw [wsgiFail_calls] at hcalls
            cases hcalls
          | ok d =>
            rw [he] at hcalls
            cases hcalls
  · unfold App.wsgi
    rw [hr]
    rfl

/-- C87 is false of ASGI servers for a body that cannot be decoded, though it is the caller's fault: the exception of the codec is raised to the server. -/
theorem C87_violation_malformed (app : App Req Res) (sc : StatusCodec) (scope : Scope) (env : Env) (headers : Headers)
    (key : List Char) (m : MethodInfo) (f : Req → RequestContext → Call Res) (codec : ServerCodec Req Res)
    (h : AsgiPosted app scope headers key m f codec) (raw data : List UInt8) (hraw : AsgiBody env.receive raw)
    (hdata : AsgiUncompressed app (lower (headers.getD (pys! "content-encoding") (pys! "identity"))) raw data)
    (hlim : WithinLimit app data) (cls : Cls) (msg : List Char) (he : codec.req.decode data = .error (.other cls msg))
    (hr : Reliable env) : (app.asgi sc scope env).calls = [] ∧ asgiTold (app.asgi sc scope env) = [.other cls msg] := by
  have he : app.asgiPost env headers codec = .error (.other cls msg) := by
    obtain ⟨hb1, hb2⟩ := asgiBody_ok.2 hraw
    rw [asgiPost_eq, hb1]
    dsimp only
    rw [hb2, asgiInflate_ok.2 hdata]
    dsimp only
    rw [checkSize_ok.2 hlim]
    exact he
  rw [asgi_posted h sc env he]
  exact ⟨asgiFail_calls .., (asgiFail_told hr ..).1 _ rfl (.inl ⟨_, _, rfl⟩)⟩

end

/-! ### the hypotheses are met -/

def boom : Exc := .other .valueError (pys! "boom")
/-- fails, unless the request is empty -/
def crashCall (b : Bytes) (_ : RequestContext) : Call Bytes := ⟨[], if b = [] then .error (.mk .notFound []) else .error boom⟩
/-- fails after one message, or at once for `[0]` -/
def crashRun (b : Bytes) (_ : RequestContext) : Script Bytes := ⟨if b = [0] then [] else [.emit b], some boom, none⟩
def crashApp : App Bytes Bytes :=
  .new [(pys! "/a.S/Echo", ⟨echoInfo, .unary crashCall⟩), (pys! "/a.S/List", ⟨listInfo, .serverStream crashRun⟩)]
    (pys! "/a.S") flipComp (some 10) none [protoCodec]

/-- `C87_wsgi_unary`: the operator is told of the crash, and not of NOT_FOUND -/
example :
    WsgiConnectUnary crashApp (pickyEnviron [] [[1], [2, 3]]) (pys! "/a.S/Echo") echoInfo crashCall (pys! "POST") ∧
    WsgiCarries crashApp (pickyEnviron [] [[1], [2, 3]]) echoInfo (pys! "POST") protoCodec [1, 2, 3] ∧
    (∀ ctx, Fails protoCodec (crashCall [1, 2, 3] ctx) boom) ∧ Unforeseen boom ∧
    wsgiTold (crashApp.wsgi demoStatus (pickyEnviron [] [[1], [2, 3]])) = [boom] ∧
    wsgiTold (crashApp.wsgi demoStatus (pickyEnviron [] [])) = [] :=
  ⟨⟨wsgiLookup_ok.1 rfl, rfl, (negotiate_connect _).1 (by decide +kernel)⟩,
   ⟨connectHeaders_of (by rfl) (by rfl),
    .inl ⟨rfl, pys! "proto", _, _, (unaryCodecName_iff ..).2 (by decide +kernel), rfl, .whole (fun s hs => by cases hs),
      .inl ⟨by decide +kernel, rfl⟩, (by intro n h; cases h; decide), rfl⟩⟩,
   fun _ => .inl rfl, .inl ⟨_, _, rfl⟩, by decide +kernel, by decide +kernel⟩

/-- `C87_asgi_unary` -/
example :
    AsgiConnectUnary crashApp (pickyScope []) (pickyHeaders []) (pys! "/a.S/Echo") echoInfo crashCall ∧
    AsgiCarries crashApp (pickyScope []) (demoEnv [.request [1] true, .request [2] false]) (pickyHeaders []) echoInfo
      protoCodec [1, 2] ∧ Reliable (demoEnv [.request [1] true, .request [2] false]) ∧
    asgiTold (crashApp.asgi demoStatus (pickyScope []) (demoEnv [.request [1] true, .request [2] false])) = [boom] ∧
    asgiTold (crashApp.asgi demoStatus (pickyScope []) (demoEnv [.request [] false])) = [] :=
  ⟨⟨asgiLookup_ok.1 rfl, by decide +kernel, (negotiate_connect _).1 (by decide +kernel)⟩,
   ⟨connectHeaders_of (by decide +kernel) (by decide +kernel),
    .inl ⟨rfl, pys! "proto", _, _, (unaryCodecName_iff ..).2 (by decide +kernel), rfl, .more [1] (.last [2] []),
      ⟨.identity, by
        rw [show lower ((pickyHeaders []).getD (pys! "content-encoding") (pys! "identity")) = pys! "identity" by decide +kernel]
        rfl, .inr ⟨by decide, rfl⟩⟩, (by intro n h; cases h; decide), rfl⟩⟩, fun _ => rfl, by decide +kernel, by decide +kernel⟩

theorem crash_streamed (input : List Bytes) : WsgiStreamed crashApp
    (flowEnviron (pys! "/a.S/List") (pys! "application/grpc") [] input)
    (pys! "/a.S/List") ⟨listInfo, .serverStream crashRun⟩ .grpc protoCodec .identity .identity :=
  ⟨⟨wsgiLookup_ok.1 rfl, ⟨pys! "POST", rfl, .inl rfl⟩, (speaks_iff ..).2 (by
        show negotiateServerProtocol ((wsgiHeaders (flowEnviron (pys! "/a.S/List") (pys! "application/grpc") [] []).vars).getD
          (pys! "content-type") []) = .grpc
        decide +kernel), fun _ => rfl, fun v hv => (by cases hv), fun h => (by cases h)⟩,
    ⟨pys! "proto", (streamCodecName_iff ..).2 (by
        show Proto.codecNameFromContentType .grpc ((wsgiHeaders (flowEnviron (pys! "/a.S/List") (pys! "application/grpc") []
          []).vars).getD (pys! "content-type") []) true = pys! "proto"
        decide +kernel), rfl⟩, .inl rfl, responseCompression_iff.1 rfl⟩

theorem crash_pieces (b : Bytes) (hb : b ≠ []) : Pieces [b] := by
  intro s hs
  rw [List.mem_singleton] at hs
  rw [hs]
  exact hb

/-- `C87_wsgi_stream_partial`: a failure before any message is told … -/
example : WsgiMessages crashApp (flowEnviron (pys! "/a.S/List") (pys! "application/grpc") [] [[0, 0, 0, 0, 1, 0]]) protoCodec
      .identity ⟨[[0]], none⟩ ∧
    (∀ ctx, Starts ⟨[[0]], none⟩ ctx (.serverStream crashRun) (some [0]) (.init ⟨[], none⟩) (crashRun [0] ctx)) ∧
    (∀ ctx, Runs (Req := Bytes) (writerOf protoCodec .identity).write none (.init ⟨[], none⟩) (crashRun [0] ctx).acts (crashRun [0] ctx).outcome
      .empty [] (.init ⟨[], none⟩) (some boom)) ∧
    (∃ out, EndsWith (writerOf protoCodec .identity) .grpc demoStatus Headers.empty (some boom) out) ∧
    ¬ Produces (.init ⟨[], none⟩ : HState Bytes) ([] : List (Act Bytes)) ∧
    wsgiTold (crashApp.wsgi demoStatus (flowEnviron (pys! "/a.S/List") (pys! "application/grpc") [] [[0, 0, 0, 0, 1, 0]])) = [boom] :=
  ⟨(wsgiMessages_iff (crash_pieces _ (by decide))).2 (by decide +kernel), fun _ => .serverStream _ _ rfl rfl, fun _ => .done ..,
    ⟨.trailers (Headers.ofPairs [(pys! "grpc-status", pys! "2"), (pys! "grpc-message", pys! "boom")]), by unfold EndsWith; decide +kernel⟩,
    (fun h => by cases h), by decide +kernel⟩

/-- … and one after a message is not (`C87_violation_wsgi`) -/
example : WsgiMessages crashApp (flowEnviron (pys! "/a.S/List") (pys! "application/grpc") [] [[0, 0, 0, 0, 1, 7]]) protoCodec
      .identity ⟨[[7]], none⟩ ∧
    (∀ ctx, Runs (Req := Bytes) (writerOf protoCodec .identity).write none (.init ⟨[], none⟩) (crashRun [7] ctx).acts (crashRun [7] ctx).outcome
      .empty [[7]] (.init ⟨[], none⟩) (some boom)) ∧
    (∀ ctx, Produces (.init ⟨[], none⟩ : HState Bytes) (crashRun [7] ctx).acts) ∧ boom.isException = true ∧
    wsgiTold (crashApp.wsgi demoStatus (flowEnviron (pys! "/a.S/List") (pys! "application/grpc") [] [[0, 0, 0, 0, 1, 7]])) = [] :=
  ⟨(wsgiMessages_iff (crash_pieces _ (by decide))).2 (by decide +kernel), fun _ => .emit (b := [0, 0, 0, 0, 1, 7]) rfl (.done ..), fun _ => .now,
    rfl, by decide +kernel⟩

/-- on ASGI it is (`C87_asgi_stream_partial`) -/
example : AsgiStreamed crashApp (flowScope (pys! "/a.S/List") (pys! "application/grpc") [])
      (flowHeaders (pys! "application/grpc") []) (pys! "/a.S/List") ⟨listInfo, .serverStream crashRun⟩ .grpc protoCodec .identity .identity ∧
    Reliable (demoEnv [.request [0, 0, 0, 0, 1, 7] false]) ∧
    asgiTold (crashApp.asgi demoStatus (flowScope (pys! "/a.S/List") (pys! "application/grpc") []) (demoEnv [.request [0, 0, 0, 0, 1, 7] false])) =
      [boom] :=
  ⟨⟨⟨asgiLookup_ok.1 rfl, by decide +kernel, .inl rfl, (speaks_iff ..).2 (by decide +kernel), fun _ => rfl,
      fun v hv => (by cases hv), fun h => (by cases h)⟩,
    ⟨pys! "proto", .inl ⟨by decide, (streamCodecName_iff ..).2 (by decide +kernel)⟩, rfl⟩, .inl rfl, responseCompression_iff.1 rfl⟩,
   fun _ => rfl, by decide +kernel⟩

/-- an undecodable body: nothing in the log of the WSGI server (`C87_wsgi_malformed_partial`), the codec's exception on ASGI (`C87_violation_malformed`) -/
example :
    WsgiConnectUnary pickyApp (pickyEnviron [] [[255]]) (pys! "/a.S/Echo") echoInfo echoCall (pys! "POST") ∧
    (pickyApp.wsgi demoStatus (pickyEnviron [] [[255]])).calls = [] ∧
    wsgiTold (pickyApp.wsgi demoStatus (pickyEnviron [] [[255]])) = [] ∧
    AsgiPosted pickyApp (pickyScope []) (pickyHeaders []) (pys! "/a.S/Echo") echoInfo echoCall ⟨pys! "proto", pickyCodec, rawCodec⟩ ∧
    AsgiBody (demoEnv [.request [255] false]).receive [255] ∧ pickyCodec.decode [255] = .error (.other .valueError (pys! "bad message")) ∧
    asgiTold (pickyApp.asgi demoStatus (pickyScope []) (demoEnv [.request [255] false])) = [.other .valueError (pys! "bad message")] :=
  ⟨picky_unary _ _ (by decide +kernel), by decide +kernel, by decide +kernel, picky_asgi, .last [255] [], rfl, by decide +kernel⟩

end Props
