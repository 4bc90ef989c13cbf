import Verif.Proofs.StreamServe
import Verif.Props.Unary
/-
Streamed responses on both servers: C31, C32, C33 (server half), C35, C36, and the streaming halves of C05, C26 and C28.
Specification: `Verif/Spec/Stream.lean`.
-/
namespace Props
open Conn Py Spec

section
variable {Req Res : Type}

/-! ### WSGI -/

/-- **C35, WSGI**: the handler is called once; the response is one `start_response` with the handler's headers as of its first
message, the envelopes of the messages it produced in order, and one end that reports how the run ended, with the handler's
trailers. (What is written to the error log is the subject of C87.) -/
theorem C35_wsgi (app : App Req Res) (sc : StatusCodec) (env : Environ) (key : List Char) (ep : Endpoint Req Res) (p : Proto)
    (codec : ServerCodec Req Res) (reqComp resComp : Compression) (h : WsgiStreamed app env key ep p codec reqComp resComp)
    (hp : Pieces env.input) (s : ReqStream Req) (hs : WsgiMessages app env codec reqComp s) :
    ∃ hm ctx, Dict.get? env.vars (pys! "REQUEST_METHOD") = some hm ∧
      CtxIs ctx ep.method hm (wsgiScheme env.vars) (wsgiHeaders env.vars) (wsgiClient env.vars) ∧
      ∀ req h0 script, Starts s ctx ep.handler req h0 script →
      ∀ i ms h' e, Runs (writerOf codec resComp).write none h0 script.acts script.outcome i ms h' e →
      Caught e → ∀ out, EndsWith (writerOf codec resComp) p sc h'.info.trailers e out →
      ∃ (bs : List (List UInt8)) (logged : List Exc), ms.map (writerOf codec resComp).write = bs.map .ok ∧
        app.wsgi sc env =
          { calls := [⟨key, ctx, req⟩], received := h'.got
            events := .start 200 (streamFields p codec resComp i) :: bs.map .chunk ++ wsgiEnding out
            escaped := none, logged } := by
  obtain ⟨name, hn, hcodec⟩ := h.codec
  obtain ⟨hm, ctx, hctx, hcases⟩ := wsgi_stream_cases h.streams hn hcodec h.resComp
  refine ⟨hm, ctx, hctx.1, hctx.2, ?_⟩
  intro req h0 script hst i ms h' e hr he out hout
  rw [wsgiMessages_iff hp] at hs
  subst hs
  have hrun := ((hcases sc).2 reqComp h.reqComp).2 req h0 script (starts_iff.2 hst)
  obtain ⟨bs, h1, logged, _, _, h2⟩ := wsgiFirst_runs (c := streamCfg p sc codec resComp [⟨key, ctx, req⟩]) hr he hout
  refine ⟨bs, logged, h1, ?_⟩
  rw [hrun, h2]
  unfold StreamCfg.wsgiStart
  rw [streamFields_eq]
  rfl

/-- **C33, WSGI, one message**: a handler that takes one message is called exactly when the request carries one message and nothing
else, and with that message. -/
theorem C33_wsgi_single (app : App Req Res) (sc : StatusCodec) (env : Environ) (key : List Char) (ep : Endpoint Req Res)
    (p : Proto) (codec : ServerCodec Req Res) (reqComp resComp : Compression)
    (h : WsgiStreamed app env key ep p codec reqComp resComp) (hp : Pieces env.input) (s : ReqStream Req)
    (hs : WsgiMessages app env codec reqComp s) (ht : TakesOne ep.handler) :
    ((app.wsgi sc env).calls.map (·.req) = [] ∧ ¬ ∃ m, s = ⟨[m], none⟩) ∨
    (∃ m, (app.wsgi sc env).calls.map (·.req) = [some m] ∧ s = ⟨[m], none⟩) := by
  obtain ⟨name, hn, hcodec⟩ := h.codec
  obtain ⟨hm, ctx, hctx, hcases⟩ := wsgi_stream_cases h.streams hn hcodec h.resComp
  rw [wsgiMessages_iff hp] at hs
  subst hs
  cases hst : ep.handler.start (app.wsgiRequests env codec reqComp) ctx with
  | error e =>
    rw [((hcases sc).2 reqComp h.reqComp).1 e hst, wsgiErrorOnly_calls]
    refine .inl ⟨rfl, ?_⟩
    rintro ⟨m, hm⟩
    rw [hm] at hst
    cases hh : ep.handler with
    | unary f => rw [hh] at hst; cases hst
    | clientStream f => rw [hh] at ht; exact ht
    | serverStream f => rw [hh] at hst; cases hst
    | bidi f => rw [hh] at ht; exact ht
  | ok r =>
    obtain ⟨req, h0, script⟩ := r
    rw [((hcases sc).2 reqComp h.reqComp).2 req h0 script hst, wsgiFirst_calls]
    have hst' := starts_iff.1 hst
    generalize app.wsgiRequests env codec reqComp = s at hst'
    obtain ⟨ms, er⟩ := s
    cases hh : ep.handler with
    | unary f =>
      rw [hh] at hst'
      cases hst' with
      | unary f m hm he => cases hm; cases he; exact .inr ⟨m, rfl, rfl⟩
    | clientStream f => rw [hh] at ht; exact ht.elim
    | serverStream f =>
      rw [hh] at hst'
      cases hst' with
      | serverStream f m hm he => cases hm; cases he; exact .inr ⟨m, rfl, rfl⟩
    | bidi f => rw [hh] at ht; exact ht.elim

/-- **C33, WSGI, refusal**: otherwise the response has no messages, and its end reports UNIMPLEMENTED for none or several
messages, or the error of the request stream (`Refuses`). -/
theorem C33_wsgi_refused (app : App Req Res) (sc : StatusCodec) (env : Environ) (key : List Char) (ep : Endpoint Req Res)
    (p : Proto) (codec : ServerCodec Req Res) (reqComp resComp : Compression)
    (h : WsgiStreamed app env key ep p codec reqComp resComp) (hp : Pieces env.input) (s : ReqStream Req)
    (hs : WsgiMessages app env codec reqComp s) (ht : TakesOne ep.handler) (hno : ¬ ∃ m, s = ⟨[m], none⟩) :
    ∃ e, Refuses s e ∧ (e.isException = true → ∀ out,
      EndsWith (writerOf codec resComp) p sc Headers.empty (some e) out →
      ∃ logged, app.wsgi sc env =
        { calls := [], received := [], events := .start 200 (streamFields p codec resComp .empty) :: wsgiEnding out
          escaped := none, logged }) := by
  obtain ⟨name, hn, hcodec⟩ := h.codec
  obtain ⟨hm, ctx, hctx, hcases⟩ := wsgi_stream_cases h.streams hn hcodec h.resComp
  rw [wsgiMessages_iff hp] at hs
  subst hs
  cases hst : ep.handler.start (app.wsgiRequests env codec reqComp) ctx with
  | error e =>
    refine ⟨e, (start_refuses hst).2, ?_⟩
    intro hx out hout
    rw [((hcases sc).2 reqComp h.reqComp).1 e hst, wsgiErrorOnly_eq hx hout]
    refine ⟨maybeLog e, ?_⟩
    unfold StreamCfg.wsgiStart
    rw [streamFields_eq]
    rfl
  | ok r =>
    obtain ⟨req, h0, script⟩ := r
    have hst' := starts_iff.1 hst
    generalize app.wsgiRequests env codec reqComp = s at hst' hno
    obtain ⟨ms, er⟩ := s
    cases hh : ep.handler with
    | unary f =>
      rw [hh] at hst'
      cases hst' with
      | unary f m hm he => cases hm; cases he; exact absurd ⟨m, rfl⟩ hno
    | clientStream f => rw [hh] at ht; exact ht.elim
    | serverStream f =>
      rw [hh] at hst'
      cases hst' with
      | serverStream f m hm he => cases hm; cases he; exact absurd ⟨m, rfl⟩ hno
    | bidi f => rw [hh] at ht; exact ht.elim

/-- **C26, WSGI streams (partial: not Connect)**: a gRPC or gRPC-Web request in an unknown compression is refused as
UNIMPLEMENTED, without calling the handler. -/
theorem C26_wsgi_stream_partial (app : App Req Res) (sc : StatusCodec) (env : Environ) (key : List Char) (ep : Endpoint Req Res)
    (p : Proto) (h : WsgiStreams app env key ep p) (hpc : p ≠ .connect) (name : List Char)
    (hn : StreamCodecName p ((wsgiHeaders env.vars).getD (pys! "content-type") []) name) (codec : ServerCodec Req Res)
    (hcodec : Dict.get? app.codecs name = some codec) (resComp : Compression)
    (hw : ResponseCompression app p (wsgiHeaders env.vars) resComp)
    (hunknown : Dict.get? app.comps ((wsgiHeaders env.vars).getD (pys! "grpc-encoding") (pys! "identity")) = none) :
    (app.wsgi sc env).calls = [] ∧ ∃ msg, ∀ out,
      EndsWith (writerOf codec resComp) p sc Headers.empty (some (.mk .unimplemented msg)) out →
      app.wsgi sc env =
        { calls := [], received := [], events := .start 200 (streamFields p codec resComp .empty) :: wsgiEnding out
          escaped := none } := by
  obtain ⟨hm, ctx, hctx, hcases⟩ := wsgi_stream_cases h hn hcodec hw
  have hno : ∀ c, ¬ RequestCompression app p (wsgiHeaders env.vars) c := by
    rintro c (hc | ⟨hc, _⟩)
    · cases p with
      | connect => exact hpc rfl
      | grpc => exact absurd (hunknown.symm.trans hc) (fun h => by cases h)
      | grpcWeb => exact absurd (hunknown.symm.trans hc) (fun h => by cases h)
    · exact hpc hc
  have hrun := (hcases sc).1 hno
  refine ⟨by rw [hrun, wsgiErrorOnly_calls]; rfl, pys! "Unrecognized request compression", fun out hout => ?_⟩
  rw [hrun, unrecognizedCompression, wsgiErrorOnly_eq rfl hout]
  unfold StreamCfg.wsgiStart
  rw [streamFields_eq]
  rfl

/-- **C28, WSGI streams**: a codec the server does not have is answered 415 and the handler is not called. -/
theorem C28_wsgi_stream_unsupported (app : App Req Res) (sc : StatusCodec) (env : Environ) (key : List Char)
    (ep : Endpoint Req Res) (p : Proto) (h : WsgiStreams app env key ep p) (name : List Char)
    (hn : StreamCodecName p ((wsgiHeaders env.vars).getD (pys! "content-type") []) name)
    (hc : Dict.get? app.codecs name = none) :
    (app.wsgi sc env).calls = [] ∧
    WsgiGave (app.wsgi sc env)
      ⟨415, [(pys! "Accept-Post", pys! "application/connect+json, application/connect+proto")], []⟩ := by
  rw [wsgi_stream_nocodec h hn hc sc]
  exact ⟨wsgiFail_calls .., wsgiFail_http ..⟩

/-- **C32, streams**: if every end marker the request may need can be written (a Connect or gRPC-Web end marker has to be shorter
than 4 GiB), `start_response` is called exactly once, before all chunks, and gRPC trailers are sent exactly once, after all
messages; an exception that is not an `Exception` may cut this off. -/
theorem C32_wsgi_stream_partial (app : App Req Res) (sc : StatusCodec) (env : Environ) (key : List Char) (ep : Endpoint Req Res)
    (p : Proto) (h : WsgiStreams app env key ep p) (hp : Pieces env.input) (name : List Char)
    (hn : StreamCodecName p ((wsgiHeaders env.vars).getD (pys! "content-type") []) name) (codec : ServerCodec Req Res)
    (hcodec : Dict.get? app.codecs name = some codec) (resComp : Compression)
    (hw : ResponseCompression app p (wsgiHeaders env.vars) resComp)
    (hfit : p ≠ .grpc → ∀ tr e, WsgiReports app env ep p codec resComp tr e → Caught e →
      ∃ out, EndsWith (writerOf codec resComp) p sc tr e out) :
    ((app.wsgi sc env).escaped = none ∧ WsgiComplete (decide (p = .grpc)) (app.wsgi sc env).events) ∨
    (∃ x, (app.wsgi sc env).escaped = some x ∧ x.isException = false ∧ WsgiCut (app.wsgi sc env).events) := by
  have htr : decide (p = .grpc) = p.usesTrailers := by cases p <;> rfl
  rw [htr]
  have hfit' : ∀ tr e, WsgiReports app env ep p codec resComp tr e → Caught e →
      ∃ out, EndsWith (writerOf codec resComp) p sc tr e out := by
    intro tr e hrep he
    by_cases hg : p = .grpc
    · cases hend : (writerOf codec resComp).end' p sc tr (e.map errorOf) with
      | ok out => exact ⟨out, hend⟩
      | error x => exact absurd hg (end_error hend).1
    · exact hfit hg tr e hrep he
  obtain ⟨hm, ctx, hctx, hcases⟩ := wsgi_stream_cases h hn hcodec hw
  by_cases hc : ∃ c, RequestCompression app p (wsgiHeaders env.vars) c
  · obtain ⟨c, hc⟩ := hc
    have hcase := (hcases sc).2 c hc
    have hms := (wsgiMessages_iff (app := app) (codec := codec) (comp := c) hp).2 rfl
    cases hst : ep.handler.start (app.wsgiRequests env codec c) ctx with
    | error e =>
      rw [hcase.1 e hst]
      exact wsgiErrorOnly_complete (c := streamCfg p sc codec resComp []) (fun he => hfit' _ _
        (.refused hc hms (start_refuses hst).1 (start_refuses hst).2) he)
    | ok r =>
      obtain ⟨req, h0, script⟩ := r
      rw [hcase.2 req h0 script hst]
      obtain ⟨i, ms, h', e, hr⟩ := runs_exists (writerOf codec resComp).write none h0 script.acts
        script.outcome
      exact wsgiFirst_complete (c := streamCfg p sc codec resComp [⟨key, ctx, req⟩]) hr
        (fun he => hfit' _ _ (.ran hc hms (starts_iff.1 hst) hr) he)
  · have hno : ∀ c, ¬ RequestCompression app p (wsgiHeaders env.vars) c := fun c hc' => hc ⟨c, hc'⟩
    rw [(hcases sc).1 hno]
    exact wsgiErrorOnly_complete (c := streamCfg p sc codec resComp []) (fun he => hfit' _ _ (.compression hno _) he)

/-- **C32, everything else**: a request that is not served as a stream. -/
theorem C32_wsgi_plain (app : App Req Res) (sc : StatusCodec) (env : Environ)
    (h : ∀ key ep p name, WsgiStreams app env key ep p →
      StreamCodecName p ((wsgiHeaders env.vars).getD (pys! "content-type") []) name → Dict.get? app.codecs name = none) :
    ((app.wsgi sc env).escaped = none ∧ WsgiComplete false (app.wsgi sc env).events) ∨
    (∃ x, (app.wsgi sc env).escaped = some x ∧ x.isException = false ∧ WsgiCut (app.wsgi sc env).events) := by
  by_cases hst : ∃ key ep p, WsgiStreams app env key ep p
  · obtain ⟨key, ep, p, hst⟩ := hst
    have hn := (streamCodecName_iff p ((wsgiHeaders env.vars).getD (pys! "content-type") []) _).2 rfl
    rw [wsgi_stream_nocodec hst hn (h key ep p _ hst hn) sc]
    exact wsgiFail_complete ..
  · exact wsgi_plain (fun key ep p h' => hst ⟨key, ep, p, h'⟩) sc

/-- **C05, WSGI**: unless the request is a GET, no message larger than the limit reaches a handler. -/
theorem C05_wsgi_bounded_partial (app : App Req Res) (sc : StatusCodec) (env : Environ) (hpc : Pieces env.input)
    (hm : Dict.get? env.vars (pys! "REQUEST_METHOD") ≠ some (pys! "GET")) :
    (∀ c ∈ (app.wsgi sc env).calls, ∀ m, c.req = some m → Within app m) ∧
    (∀ m ∈ (app.wsgi sc env).received, Within app m) := by
  have hfail : ∀ e ctx, (∀ c ∈ (wsgiFail [] e ctx : WsgiOut Req).calls, ∀ m, c.req = some m → Within app m) ∧
      (∀ m ∈ (wsgiFail [] e ctx : WsgiOut Req).received, Within app m) := by
    intro e ctx
    unfold wsgiFail wsgiError
    split <;> exact ⟨fun c hc => (by cases hc), fun m hm => (by cases hm)⟩
  by_cases hst : ∃ key ep p, WsgiStreams app env key ep p
  · obtain ⟨key, ep, p, hst⟩ := hst
    have hn := (streamCodecName_iff p ((wsgiHeaders env.vars).getD (pys! "content-type") []) _).2 rfl
    cases hcodec : Dict.get? app.codecs (p.codecNameFromContentType ((wsgiHeaders env.vars).getD (pys! "content-type") []) true) with
    | none =>
      rw [wsgi_stream_nocodec hst hn hcodec sc]
      exact hfail ..
    | some codec =>
      obtain ⟨hm, ctx, hctx, hcases⟩ := wsgi_stream_cases hst hn hcodec (responseCompression_iff.1 rfl)
      have herr : ∀ c : Compression, ∀ e, (∀ k ∈ ((streamCfg p sc codec c []).wsgiErrorOnly (.init ⟨[], none⟩) [] e).calls,
          ∀ m, k.req = some m → Within app m) ∧
          (∀ m ∈ ((streamCfg p sc codec c []).wsgiErrorOnly (.init ⟨[], none⟩) [] e).received, Within app m) := by
        intro c e
        rw [wsgiErrorOnly_calls, wsgiErrorOnly_received]
        exact ⟨fun c hc => (by cases hc), fun m hm => (by cases hm)⟩
      by_cases hc : ∃ c, RequestCompression app p (wsgiHeaders env.vars) c
      · obtain ⟨c, hc⟩ := hc
        have hcase := (hcases sc).2 c hc
        cases hst : ep.handler.start (app.wsgiRequests env codec c) ctx with
        | error e => rw [hcase.1 e hst]; exact herr ..
        | ok r =>
          obtain ⟨req, h0, script⟩ := r
          rw [hcase.2 req h0 script hst]
          obtain ⟨h1, h2⟩ := start_within (wsgiRequests_within ⟨_, hcodec⟩ c env) hst
          refine ⟨?_, h2 _ (wsgiFirst_received ..)⟩
          rw [wsgiFirst_calls]
          intro k hk m hkm
          rw [show (streamCfg p sc codec _ [⟨key, ctx, req⟩]).calls = [⟨key, ctx, req⟩] from rfl, List.mem_singleton] at hk
          subst hk
          exact h1 m hkm
      · rw [(hcases sc).1 (fun c hc' => hc ⟨c, hc'⟩)]
        exact herr ..
  · unfold App.wsgi
    cases hr : app.wsgiRoute env with
    | error e => exact hfail ..
    | ok r =>
      dsimp only
      have hno : ¬ (r.proto = .connect → r.ep.handler.isUnary = false) :=
        fun hk => hst ⟨_, _, _, wsgiRoute_streams_conv hr hk⟩
      cases hp : r.proto with
      | grpc => exact absurd (fun hc => by rw [hp] at hc; cases hc) hno
      | grpcWeb => exact absurd (fun hc => by rw [hp] at hc; cases hc) hno
      | connect =>
        cases hh : r.ep.handler with
        | unary f =>
          dsimp only
          have hrm : r.httpMethod ≠ pys! "GET" := by
            intro hg
            have := (wsgiRoute_ok hr).2.1
            rw [hg] at this
            exact hm this
          have hrec : (app.wsgiUnary env r.key r.httpMethod r.headers r.ctx f).received = [] := by
            unfold App.wsgiUnary wsgiFail wsgiError
            dsimp only
            repeat' split
            all_goals rfl
          rw [hrec]
          refine ⟨?_, fun m hm => (by cases hm)⟩
          rcases wsgiUnary_calls app env r.key r.httpMethod r.headers r.ctx f with ⟨e, _, h1⟩ | ⟨req, codec, h1, h2⟩
          · rw [h1, wsgiFail_calls]
            exact fun c hc => (by cases hc)
          · rw [h2]
            rw [if_neg hrm] at h1
            intro k hk m hkm
            rw [List.mem_singleton] at hk
            subst hk
            cases hkm
            obtain ⟨name, codec, raw, data, _, h3, _, _, h5, h6⟩ := (wsgiPost_ok hpc).1 ⟨codec, h1⟩
            exact ⟨name, codec, data, h3, h6, h5⟩
        | clientStream f => exact absurd (fun _ => by rw [hh]; rfl) hno
        | serverStream f => exact absurd (fun _ => by rw [hh]; rfl) hno
        | bidi f => exact absurd (fun _ => by rw [hh]; rfl) hno

/-! ### ASGI -/

theorem requestCompression_known {app : App Req Res} {p : Proto} {h : Headers} {c : Compression}
    (hc : RequestCompression app p h c) : c = .identity ∨ ∃ n, Dict.get? app.comps n = some c := by
  rcases hc with h | ⟨_, _, h⟩
  · exact .inr ⟨_, h⟩
  · exact .inl h

theorem asgiRaised_reraised {e : Option Exc} (h : e ≠ some .cancelled) : asgiRaised e = reraised e ∧ asgiError e = e := by
  cases e with
  | none => exact ⟨rfl, rfl⟩
  | some x => cases x with
    | cancelled => exact absurd rfl h
    | _ => exact ⟨rfl, rfl⟩

/-- the response to a streamed request, for what the handler can read of it -/
theorem asgi_stream_run (app : App Req Res) (sc : StatusCodec) (scope : Scope) (env : Env) (headers : Headers) (key : List Char)
    (ep : Endpoint Req Res) (p : Proto) (codec : ServerCodec Req Res) (reqComp resComp : Compression)
    (h : AsgiStreamed app scope headers key ep p codec reqComp resComp) (hrel : Reliable env) :
    ∃ ctx, CtxIs ctx ep.method scope.method (asgiScheme scope) headers (scope.client.map fun ca => ca.1 ++ pys! ":" ++ ca.2) ∧
      ∀ req h0 script, Starts (app.asgiRequests env codec reqComp) ctx ep.handler req h0 script →
      ∀ i ms h' e, Runs (writerOf codec resComp).write script.closeErr h0 script.acts script.outcome i ms h' e →
      ((∃ f, ep.handler = .serverStream f) → ∀ k, env.disconnectAt = some k → ms.length < k) →
      e ≠ some .cancelled → ∀ out, EndsWith (writerOf codec resComp) p sc h'.info.trailers e out →
      ∃ bs : List (List UInt8), ms.map (writerOf codec resComp).write = bs.map .ok ∧
        app.asgi sc scope env =
          { calls := [⟨key, ctx, req⟩], received := h'.got
            sends := (.start 200 (streamFields p codec resComp i) (decide (p = .grpc)) :: bs.map (Sent.body · true) ++
              asgiEnding out).map (·, none)
            escaped := reraised e } := by
  obtain ⟨name, hn, hcodec⟩ := h.codec
  obtain ⟨ctx, hctx, hcases⟩ := asgi_stream_cases h.streams hn hcodec h.resComp
  refine ⟨ctx, hctx, ?_⟩
  intro req h0 script hst i ms h' e hr hd he out hout
  have htr : decide (p = .grpc) = p.usesTrailers := by cases p <;> rfl
  have hrun := ((hcases sc env).2 reqComp h.reqComp).2 req h0 script (starts_iff.2 hst)
  obtain ⟨bs, h1, h2⟩ := loop_runs (c := asgiCfg p sc codec resComp env ep.handler) hrel [⟨key, ctx, req⟩] hr
    (out := out) (by rw [(asgiRaised_reraised he).2]; exact hout)
  refine ⟨bs, h1, ?_⟩
  rw [hrun, h2 [] false 0 ?_, (asgiRaised_reraised he).1, streamFields_eq, htr]
  · rfl
  · intro j hj
    rw [Nat.zero_add] at hj
    unfold AsgiCfg.disconnected asgiCfg
    dsimp only
    cases hh : ep.handler with
    | serverStream f =>
      dsimp only
      cases hk : env.disconnectAt with
      | none => rfl
      | some k =>
        have := hd ⟨f, hh⟩ k hk
        exact decide_eq_false (by omega)
    | _ => rfl

/-- **C35, ASGI (partial: not when the run ends with `CancelledError`)**: as for WSGI; `s` is what the handler can read, with
`AsgiMessages` when the task is not cancelled while the request is read. Exceptions other than `ConnectError` are raised again after the
response is complete. -/
theorem C35_asgi_partial (app : App Req Res) (sc : StatusCodec) (scope : Scope) (env : Env) (headers : Headers) (key : List Char)
    (ep : Endpoint Req Res) (p : Proto) (codec : ServerCodec Req Res) (reqComp resComp : Compression)
    (h : AsgiStreamed app scope headers key ep p codec reqComp resComp) (hrel : Reliable env) :
    ∃ ctx s, CtxIs ctx ep.method scope.method (asgiScheme scope) headers (scope.client.map fun ca => ca.1 ++ pys! ":" ++ ca.2) ∧
      (env.cancelAfter = none → Ordinary app → AsgiMessages app env codec reqComp s) ∧
      ∀ req h0 script, Starts s ctx ep.handler req h0 script →
      ∀ i ms h' e, Runs (writerOf codec resComp).write script.closeErr h0 script.acts script.outcome i ms h' e →
      ((∃ f, ep.handler = .serverStream f) → ∀ k, env.disconnectAt = some k → ms.length < k) →
      e ≠ some .cancelled → ∀ out, EndsWith (writerOf codec resComp) p sc h'.info.trailers e out →
      ∃ bs : List (List UInt8), ms.map (writerOf codec resComp).write = bs.map .ok ∧
        app.asgi sc scope env =
          { calls := [⟨key, ctx, req⟩], received := h'.got
            sends := (.start 200 (streamFields p codec resComp i) (decide (p = .grpc)) :: bs.map (Sent.body · true) ++
              asgiEnding out).map (·, none)
            escaped := reraised e } := by
  obtain ⟨name, hn, hcodec⟩ := h.codec
  obtain ⟨ctx, hctx, hrun⟩ := asgi_stream_run app sc scope env headers key ep p codec reqComp resComp h hrel
  exact ⟨ctx, app.asgiRequests env codec reqComp, hctx,
    fun hc ho => (asgiMessages_iff hc ho ⟨name, hcodec⟩ (requestCompression_known h.reqComp)).2 rfl, hrun⟩

/-- **C33, ASGI, one message**. -/
theorem C33_asgi_single (app : App Req Res) (ho : Ordinary app) (sc : StatusCodec) (scope : Scope) (env : Env)
    (hcan : env.cancelAfter = none) (headers : Headers) (key : List Char) (ep : Endpoint Req Res) (p : Proto)
    (codec : ServerCodec Req Res) (reqComp resComp : Compression)
    (h : AsgiStreamed app scope headers key ep p codec reqComp resComp) (s : ReqStream Req)
    (hs : AsgiMessages app env codec reqComp s) (ht : TakesOne ep.handler) :
    ((app.asgi sc scope env).calls.map (·.req) = [] ∧ ¬ ∃ m, s = ⟨[m], none⟩) ∨
    (∃ m, (app.asgi sc scope env).calls.map (·.req) = [some m] ∧ s = ⟨[m], none⟩) := by
  obtain ⟨name, hn, hcodec⟩ := h.codec
  obtain ⟨ctx, hctx, hcases⟩ := asgi_stream_cases h.streams hn hcodec h.resComp
  rw [asgiMessages_iff hcan ho ⟨name, hcodec⟩ (requestCompression_known h.reqComp)] at hs
  subst hs
  cases hst : ep.handler.start (app.asgiRequests env codec reqComp) ctx with
  | error e =>
    rw [((hcases sc env).2 reqComp h.reqComp).1 e hst, finish_calls]
    refine .inl ⟨rfl, ?_⟩
    rintro ⟨m, hm⟩
    rw [hm] at hst
    cases hh : ep.handler with
    | unary f => rw [hh] at hst; cases hst
    | clientStream f => rw [hh] at ht; exact ht
    | serverStream f => rw [hh] at hst; cases hst
    | bidi f => rw [hh] at ht; exact ht
  | ok r =>
    obtain ⟨req, h0, script⟩ := r
    rw [((hcases sc env).2 reqComp h.reqComp).2 req h0 script hst, finish_calls]
    have hst' := starts_iff.1 hst
    generalize app.asgiRequests env codec reqComp = s at hst'
    obtain ⟨ms, er⟩ := s
    cases hh : ep.handler with
    | unary f =>
      rw [hh] at hst'
      cases hst' with
      | unary f m hm he => cases hm; cases he; exact .inr ⟨m, rfl, rfl⟩
    | clientStream f => rw [hh] at ht; exact ht.elim
    | serverStream f =>
      rw [hh] at hst'
      cases hst' with
      | serverStream f m hm he => cases hm; cases he; exact .inr ⟨m, rfl, rfl⟩
    | bidi f => rw [hh] at ht; exact ht.elim

/-- **C33, ASGI, refusal**. -/
theorem C33_asgi_refused (app : App Req Res) (ho : Ordinary app) (sc : StatusCodec) (scope : Scope) (env : Env)
    (hcan : env.cancelAfter = none) (hrel : Reliable env) (headers : Headers) (key : List Char) (ep : Endpoint Req Res) (p : Proto)
    (codec : ServerCodec Req Res) (reqComp resComp : Compression)
    (h : AsgiStreamed app scope headers key ep p codec reqComp resComp) (s : ReqStream Req)
    (hs : AsgiMessages app env codec reqComp s) (ht : TakesOne ep.handler) (hno : ¬ ∃ m, s = ⟨[m], none⟩) :
    ∃ e, Refuses s e ∧ (e ≠ .cancelled → ∀ out, EndsWith (writerOf codec resComp) p sc Headers.empty (some e) out →
      app.asgi sc scope env =
        { calls := [], received := []
          sends := (.start 200 (streamFields p codec resComp .empty) (decide (p = .grpc)) :: asgiEnding out).map (·, none)
          escaped := reraised (some e) }) := by
  obtain ⟨name, hn, hcodec⟩ := h.codec
  obtain ⟨ctx, hctx, hcases⟩ := asgi_stream_cases h.streams hn hcodec h.resComp
  rw [asgiMessages_iff hcan ho ⟨name, hcodec⟩ (requestCompression_known h.reqComp)] at hs
  subst hs
  have htr : decide (p = .grpc) = p.usesTrailers := by cases p <;> rfl
  cases hst : ep.handler.start (app.asgiRequests env codec reqComp) ctx with
  | error e =>
    refine ⟨e, (start_refuses hst).2, ?_⟩
    intro hx out hout
    have hx' : (some e : Option Exc) ≠ some .cancelled := fun h => hx (Option.some.inj h)
    rw [((hcases sc env).2 reqComp h.reqComp).1 e hst,
      finish_eq (asgiCfg p sc codec resComp env ep.handler) [] _ [] false (some e) (out := out)
        (by rw [(asgiRaised_reraised hx').2]; exact hout) hrel, (asgiRaised_reraised hx').1, streamFields_eq, htr]
    rfl
  | ok r =>
    obtain ⟨req, h0, script⟩ := r
    have hst' := starts_iff.1 hst
    generalize app.asgiRequests env codec reqComp = s at hst' hno
    obtain ⟨ms, er⟩ := s
    cases hh : ep.handler with
    | unary f =>
      rw [hh] at hst'
      cases hst' with
      | unary f m hm he => cases hm; cases he; exact absurd ⟨m, rfl⟩ hno
    | clientStream f => rw [hh] at ht; exact ht.elim
    | serverStream f =>
      rw [hh] at hst'
      cases hst' with
      | serverStream f m hm he => cases hm; cases he; exact absurd ⟨m, rfl⟩ hno
    | bidi f => rw [hh] at ht; exact ht.elim

/-- **C26, ASGI streams (partial: not Connect)**. -/
theorem C26_asgi_stream_partial (app : App Req Res) (sc : StatusCodec) (scope : Scope) (env : Env) (headers : Headers)
    (key : List Char) (ep : Endpoint Req Res) (p : Proto) (h : AsgiStreams app scope headers key ep p) (hpc : p ≠ .connect)
    (name : List Char) (hn : AsgiCodecName scope p headers name) (codec : ServerCodec Req Res)
    (hcodec : Dict.get? app.codecs name = some codec) (resComp : Compression) (hw : ResponseCompression app p headers resComp)
    (hunknown : Dict.get? app.comps (headers.getD (pys! "grpc-encoding") (pys! "identity")) = none) :
    (app.asgi sc scope env).calls = [] ∧ (Reliable env → ∃ msg, ∀ out,
      EndsWith (writerOf codec resComp) p sc Headers.empty (some (.mk .unimplemented msg)) out →
      app.asgi sc scope env =
        { calls := [], received := []
          sends := (.start 200 (streamFields p codec resComp .empty) (decide (p = .grpc)) :: asgiEnding out).map (·, none)
          escaped := none }) := by
  obtain ⟨ctx, hctx, hcases⟩ := asgi_stream_cases h hn hcodec hw
  have hno : ∀ c, ¬ RequestCompression app p headers c := by
    rintro c (hc | ⟨hc, _⟩)
    · cases p with
      | connect => exact hpc rfl
      | grpc => exact absurd (hunknown.symm.trans hc) (fun h => by cases h)
      | grpcWeb => exact absurd (hunknown.symm.trans hc) (fun h => by cases h)
    · exact hpc hc
  have hrun := (hcases sc env).1 hno
  have htr : decide (p = .grpc) = p.usesTrailers := by cases p <;> rfl
  refine ⟨by rw [hrun, finish_calls], fun hrel => ⟨pys! "Unrecognized request compression", fun out hout => ?_⟩⟩
  have hx' : (some unrecognizedCompression : Option Exc) ≠ some .cancelled := fun h => by cases h
  rw [hrun, finish_eq (asgiCfg p sc codec resComp env ep.handler) [] _ [] false (some unrecognizedCompression) (out := out)
        (by rw [(asgiRaised_reraised hx').2]; exact hout) hrel, (asgiRaised_reraised hx').1, streamFields_eq, htr]
  rfl

/-- **C28, ASGI streams**. -/
theorem C28_asgi_stream_unsupported (app : App Req Res) (sc : StatusCodec) (scope : Scope) (env : Env) (headers : Headers)
    (key : List Char) (ep : Endpoint Req Res) (p : Proto) (h : AsgiStreams app scope headers key ep p) (name : List Char)
    (hn : AsgiCodecName scope p headers name) (hc : Dict.get? app.codecs name = none) :
    (app.asgi sc scope env).calls = [] ∧ (Reliable env → AsgiGave (app.asgi sc scope env)
      ⟨415, [(pys! "Accept-Post", pys! "application/json, application/proto")], []⟩) := by
  rw [asgi_stream_nocodec h hn hc sc env]
  exact ⟨asgiFail_calls .., fun hr => asgiFail_http hr ..⟩

/-- **C31**: whatever the handler does and whichever sends fail, the events that reach the client are a prefix of one start, body
events of which only the last is final, and one trailers event if the protocol is gRPC; if no send fails, the response is complete,
unless its end (not by gRPC) was too long for an envelope: then the exception of `struct.pack` leaves the application. -/
theorem C31_asgi_stream (app : App Req Res) (sc : StatusCodec) (scope : Scope) (env : Env) (headers : Headers)
    (key : List Char) (ep : Endpoint Req Res) (p : Proto) (h : AsgiStreams app scope headers key ep p) (name : List Char)
    (hn : AsgiCodecName scope p headers name) (codec : ServerCodec Req Res) (hcodec : Dict.get? app.codecs name = some codec) :
    ∃ full, AsgiComplete (decide (p = .grpc)) full ∧ delivered (app.asgi sc scope env).sends <+: full ∧
      ((∀ s ∈ (app.asgi sc scope env).sends, s.2 = none) → delivered (app.asgi sc scope env).sends = full ∨
        (p ≠ .grpc ∧ ∃ msg, (app.asgi sc scope env).escaped = some (.other .structError msg))) := by
  have htr : decide (p = .grpc) = p.usesTrailers := by cases p <;> rfl
  rw [htr]
  obtain ⟨ctx, hctx, hcases⟩ := asgi_stream_cases h hn hcodec (responseCompression_iff.1 rfl)
  have hfirst : Opening p.usesTrailers false ([] : List (Sent × Option Exc)) := ⟨fun _ => rfl, fun h => by cases h⟩
  by_cases hc : ∃ c, RequestCompression app p headers c
  · obtain ⟨c, hc⟩ := hc
    have hcase := (hcases sc env).2 c hc
    cases hst : ep.handler.start (app.asgiRequests env codec c) ctx with
    | error e =>
      rw [hcase.1 e hst]
      exact finish_complete (c := asgiCfg p sc codec _ env ep.handler) [] (l := ⟨_, [], false, _⟩) hfirst
    | ok r =>
      obtain ⟨req, h0, script⟩ := r
      rw [hcase.2 req h0 script hst]
      exact finish_complete (c := asgiCfg p sc codec _ env ep.handler) [⟨key, ctx, req⟩]
        (loop_opening (c := asgiCfg p sc codec _ env ep.handler) _ _ _ _ _ _ _ hfirst)
  · rw [(hcases sc env).1 (fun c hc' => hc ⟨c, hc'⟩)]
    exact finish_complete (c := asgiCfg p sc codec _ env ep.handler) [] (l := ⟨_, [], false, _⟩) hfirst

/-- **C36, no further message**: in a server-streaming RPC whose client has disconnected after `k` messages, at most `k` messages are
sent. -/
theorem C36_asgi_bounded (app : App Req Res) (sc : StatusCodec) (scope : Scope) (env : Env) (headers : Headers)
    (key : List Char) (ep : Endpoint Req Res) (p : Proto) (h : AsgiStreams app scope headers key ep p) (name : List Char)
    (hn : AsgiCodecName scope p headers name) (codec : ServerCodec Req Res) (hcodec : Dict.get? app.codecs name = some codec)
    (hk : ∃ f, ep.handler = .serverStream f) (k : Nat) (hd : env.disconnectAt = some k) :
    messagesSent (app.asgi sc scope env).sends ≤ k := by
  obtain ⟨f, hk⟩ := hk
  obtain ⟨ctx, hctx, hcases⟩ := asgi_stream_cases h hn hcodec (responseCompression_iff.1 rfl)
  by_cases hc : ∃ c, RequestCompression app p headers c
  · obtain ⟨c, hc⟩ := hc
    have hcase := (hcases sc env).2 c hc
    cases hst : ep.handler.start (app.asgiRequests env codec c) ctx with
    | error e =>
      rw [hcase.1 e hst, finish_messages]
      exact Nat.zero_le _
    | ok r =>
      obtain ⟨req, h0, script⟩ := r
      rw [hcase.2 req h0 script hst, finish_messages]
      refine loop_messages _ _ _ _ _ _ _ 0 k ?_ rfl (Nat.zero_le _)
      rw [hk]
      exact hd
  · rw [(hcases sc env).1 (fun c hc' => hc ⟨c, hc'⟩), finish_messages]
    exact Nat.zero_le _

/-- **C36, the outcome (partial: only when the handler produces another message)**: if the disconnect is noticed after the messages
`ms` and the handler, after steps that do not fail, produces another message, then that message is not sent and the RPC ends as
CANCELED (or with what closing the handler raises). -/
theorem C36_asgi_canceled_partial (app : App Req Res) (sc : StatusCodec) (scope : Scope) (env : Env) (headers : Headers)
    (key : List Char) (ep : Endpoint Req Res) (p : Proto) (codec : ServerCodec Req Res) (reqComp resComp : Compression)
    (h : AsgiStreamed app scope headers key ep p codec reqComp resComp) (hrel : Reliable env)
    (hk : ∃ f, ep.handler = .serverStream f) :
    ∃ ctx s, CtxIs ctx ep.method scope.method (asgiScheme scope) headers (scope.client.map fun ca => ca.1 ++ pys! ":" ++ ca.2) ∧
      (env.cancelAfter = none → Ordinary app → AsgiMessages app env codec reqComp s) ∧
      ∀ req h0 script, Starts s ctx ep.handler req h0 script → script.closeErr = none →
      ∀ pre m post, script.acts = pre ++ .emit m :: post →
      ∀ i ms h', Runs (writerOf codec resComp).write none h0 pre none i ms h' none → env.disconnectAt = some ms.length →
      ∃ msg, ∀ out, EndsWith (writerOf codec resComp) p sc h'.info.trailers (some (.mk .canceled msg)) out →
      ∃ bs : List (List UInt8), ms.map (writerOf codec resComp).write = bs.map .ok ∧
        app.asgi sc scope env =
          { calls := [⟨key, ctx, req⟩], received := h'.got
            sends := (.start 200 (streamFields p codec resComp i) (decide (p = .grpc)) :: bs.map (Sent.body · true) ++
              asgiEnding out).map (·, none)
            escaped := none } := by
  obtain ⟨f, hk⟩ := hk
  obtain ⟨name, hn, hcodec⟩ := h.codec
  obtain ⟨ctx, hctx, hcases⟩ := asgi_stream_cases h.streams hn hcodec h.resComp
  refine ⟨ctx, app.asgiRequests env codec reqComp, hctx,
    fun hc ho => (asgiMessages_iff hc ho ⟨name, hcodec⟩ (requestCompression_known h.reqComp)).2 rfl, ?_⟩
  intro req h0 script hst hclose pre m post hacts i ms h' hr hd
  refine ⟨pys! "Client disconnected", fun out hout => ?_⟩
  have htr : decide (p = .grpc) = p.usesTrailers := by cases p <;> rfl
  have hrun := ((hcases sc env).2 reqComp h.reqComp).2 req h0 script (starts_iff.2 hst)
  have hd' : ∀ j, (asgiCfg p sc codec resComp env ep.handler).disconnected j = decide (ms.length ≤ j) := by
    intro j
    unfold AsgiCfg.disconnected asgiCfg
    rw [hk]
    dsimp only
    rw [hd]
  obtain ⟨bs, h1, h2⟩ := loop_disconnect (c := asgiCfg p sc codec resComp env ep.handler) (m := m) (post := post) hrel
    [⟨key, ctx, req⟩] hr rfl rfl script.outcome hout
  refine ⟨bs, h1, ?_⟩
  rw [hrun, hclose, hacts, h2 [] false 0 (fun j hj => by rw [hd']; exact decide_eq_false (by omega))
    (by rw [hd']; exact decide_eq_true (by omega)), streamFields_eq, htr]
  rfl

/-- **C05, ASGI**: unless the request is a GET, no message larger than the limit reaches a handler. -/
theorem C05_asgi_bounded_partial (app : App Req Res) (sc : StatusCodec) (scope : Scope) (env : Env)
    (hm : scope.method ≠ pys! "GET") :
    (∀ c ∈ (app.asgi sc scope env).calls, ∀ m, c.req = some m → Within app m) ∧
    (∀ m ∈ (app.asgi sc scope env).received, Within app m) := by
  have hrecv : ∀ calls log e ctx, (asgiFail env calls log e ctx : AsgiOut Req).received = [] := by
    intro calls log e ctx
    unfold asgiFail
    dsimp only
    repeat' split
    all_goals rfl
  have hfail : ∀ e ctx, (∀ c ∈ (asgiFail env [] [] e ctx : AsgiOut Req).calls, ∀ m, c.req = some m → Within app m) ∧
      (∀ m ∈ (asgiFail env [] [] e ctx : AsgiOut Req).received, Within app m) := by
    intro e ctx
    rw [asgiFail_calls, hrecv]
    exact ⟨fun c hc => (by cases hc), fun m hm => (by cases hm)⟩
  unfold App.asgi
  cases hr : app.asgiRoute scope with
  | error e => exact hfail ..
  | ok r =>
    dsimp only
    cases hc : app.asgiCodec scope r with
    | error e => exact hfail ..
    | ok pc =>
      obtain ⟨params, codec⟩ := pc
      dsimp only
      have hcodec : ∃ n, Dict.get? app.codecs n = some codec := by
        unfold App.asgiCodec at hc
        split at hc
        · cases hc
        · split at hc
          · cases hc
          · rename_i hg; cases hc; exact ⟨_, hg⟩
      have hstream : ∀ handler : Handler Req Res,
          (∀ c ∈ (app.asgiStream sc env r.key r.proto r.headers codec r.ctx handler).calls, ∀ m, c.req = some m → Within app m) ∧
          (∀ m ∈ (app.asgiStream sc env r.key r.proto r.headers codec r.ctx handler).received, Within app m) := by
        intro handler
        unfold App.asgiStream
        dsimp only
        split
        · rw [finish_calls, finish_received]
          exact ⟨fun c hc => (by cases hc), fun m hm => (by cases hm)⟩
        · split
          · rw [finish_calls, finish_received]
            exact ⟨fun c hc => (by cases hc), fun m hm => (by cases hm)⟩
          · rename_i hst
            obtain ⟨h1, h2⟩ := start_within (asgiRequests_within hcodec _ env) hst
            rw [finish_calls, finish_received]
            refine ⟨?_, h2 _ (loop_received ..)⟩
            intro k hk m hkm
            rw [List.mem_singleton] at hk
            subst hk
            exact h1 m hkm
      have hmm : r.httpMethod = scope.method := (asgiRoute_ok hr).2.1
      have hunary : ∀ f : Req → RequestContext → Call Res,
          (∀ c ∈ (app.asgiUnary env r.key r.httpMethod r.headers codec params r.ctx f).calls, ∀ m, c.req = some m → Within app m) ∧
          (∀ m ∈ (app.asgiUnary env r.key r.httpMethod r.headers codec params r.ctx f).received, Within app m) := by
        intro f
        have hrec : (app.asgiUnary env r.key r.httpMethod r.headers codec params r.ctx f).received = [] := by
          unfold App.asgiUnary
          dsimp only
          repeat' split
          all_goals first | exact hrecv .. | rfl
        rw [hrec]
        refine ⟨?_, fun m hm => (by cases hm)⟩
        rcases asgiUnary_calls app env r.key r.httpMethod r.headers codec params r.ctx f with ⟨e, _, h1⟩ | ⟨req, h1, h2⟩
        · rw [h1, asgiFail_calls]
          exact fun c hc => (by cases hc)
        · rw [h2]
          rw [if_neg (by rw [hmm]; exact hm)] at h1
          intro k hk m hkm
          rw [List.mem_singleton] at hk
          subst hk
          cases hkm
          obtain ⟨raw, data, _, _, h5, h6⟩ := asgiPost_ok.1 h1
          obtain ⟨n, hn⟩ := hcodec
          exact ⟨n, codec, data, hn, h6, h5⟩
      split
      · exact hunary _
      · exact hstream _

/-! ### ASGI responses that are not streamed -/

theorem asgiFail_plain {env : Env} (hr : Reliable env) (calls : List (Called Req)) (e : Exc) (ctx : Option Meta) :
    (∃ r, AsgiGave (asgiFail env calls [] e ctx) r) ∨
    ((asgiFail env calls [] e ctx).sends = [] ∧ ∃ x, (asgiFail env calls [] e ctx).escaped = some x ∧ x.isException = false) := by
  cases hx : e.isException with
  | true => exact .inl ⟨_, asgiFail_sends hr calls hx ctx⟩
  | false =>
    refine .inr ?_
    unfold asgiFail
    rw [hx, if_neg (by decide)]
    exact ⟨rfl, e, rfl, hx⟩

/-- **C62 (partial: when no send fails)**: a request that is not served as a stream gets exactly one start without trailers and exactly
one body event, which is final; or an exception that is not an `Exception` leaves the application before anything is sent. -/
theorem C62_asgi_plain_partial (app : App Req Res) (sc : StatusCodec) (scope : Scope) (env : Env) (hrel : Reliable env)
    (h : ∀ headers key ep p name, AsgiStreams app scope headers key ep p → AsgiCodecName scope p headers name →
      Dict.get? app.codecs name = none) :
    (∃ r, AsgiGave (app.asgi sc scope env) r) ∨
    ((app.asgi sc scope env).sends = [] ∧ ∃ x, (app.asgi sc scope env).escaped = some x ∧ x.isException = false) := by
  unfold App.asgi
  cases hr : app.asgiRoute scope with
  | error e => exact asgiFail_plain hrel ..
  | ok r =>
    dsimp only
    cases hc : app.asgiCodec scope r with
    | error e => exact asgiFail_plain hrel ..
    | ok pc =>
      obtain ⟨params, codec⟩ := pc
      dsimp only
      have hno : ¬ (r.proto = .connect → r.ep.handler.isUnary = false) := by
        intro hk
        have hst := asgiRoute_streams_conv hr hk
        unfold App.asgiCodec at hc
        split at hc
        · cases hc
        · rename_i params' name hn
          split at hc
          · cases hc
          · rename_i hg
            have := h _ _ _ _ name hst ((asgiCodecName_stream (u := r.ep.handler.isUnary) hk).2 ⟨_, hn⟩)
            rw [this] at hg
            cases hg
      cases hp : r.proto with
      | grpc => exact absurd (fun hc => by rw [hp] at hc; cases hc) hno
      | grpcWeb => exact absurd (fun hc => by rw [hp] at hc; cases hc) hno
      | connect =>
        cases hh : r.ep.handler with
        | unary f =>
          dsimp only
          unfold App.asgiUnary
          dsimp only
          split
          · exact asgiFail_plain hrel ..
          · split
            · exact asgiFail_plain hrel ..
            · split
              · exact asgiFail_plain hrel ..
              · rw [sendAll_ok hrel]
                exact .inl ⟨⟨200, _, _⟩, rfl⟩
        | clientStream f => exact absurd (fun _ => by rw [hh]; rfl) hno
        | serverStream f => exact absurd (fun _ => by rw [hh]; rfl) hno
        | bidi f => exact absurd (fun _ => by rw [hh]; rfl) hno

end

/-! ### the hypotheses are met -/

/-- two copies of the request with a header and a trailer, and an outcome chosen by its first byte -/
def listRun (b : Bytes) (_ : RequestContext) : Script Bytes :=
  ⟨[.step (.update fun m => ⟨m.headers.add (pys! "x-h") (pys! "1"), m.trailers.add (pys! "x-t") (pys! "2")⟩), .emit b, .emit b],
   (if b = [2] then some (.mk .notFound (pys! "gone")) else if b = [3] then some .cancelled else none), none⟩
/-- answers every message -/
def chatRun (s : ReqStream Bytes) (_ : RequestContext) : Script Bytes :=
  ⟨s.messages.flatMap (fun m => [.step (.recv false), .emit m]) ++ [.step (.recv false)], none, none⟩
def listInfo : MethodInfo := ⟨pys! "List", pys! "a.S", .unknown⟩
def chatInfo : MethodInfo := ⟨pys! "Chat", pys! "a.S", .unknown⟩
def protoCodec : ServerCodec Bytes Bytes := ⟨pys! "proto", rawCodec, rawCodec⟩
def flowApp : App Bytes Bytes :=
  .new [(pys! "/a.S/Echo", ⟨echoInfo, .unary echoCall⟩), (pys! "/a.S/Count", ⟨countInfo, .clientStream countCall⟩),
    (pys! "/a.S/List", ⟨listInfo, .serverStream listRun⟩), (pys! "/a.S/Chat", ⟨chatInfo, .bidi chatRun⟩)]
    (pys! "/a.S") flipComp (some 10) none [protoCodec]
def flowEnviron (path ct : Str) (extra : List (Str × Str)) (input : List Bytes) : Environ :=
  ⟨[(pys! "REQUEST_METHOD", pys! "POST"), (pys! "PATH_INFO", path), (pys! "SCRIPT_NAME", []), (pys! "CONTENT_TYPE", ct)] ++ extra,
    input, true⟩
def flowScope (path ct : Str) (extra : List (Bytes × Bytes)) : Scope :=
  { path, rootPath := [], method := pys! "POST", scheme := none,
    headers := [(utf8Encode (pys! "content-type"), utf8Encode ct)] ++ extra, client := none, query := [], trailers := true }
def flowHeaders (ct : Str) (extra : List (Str × Str)) : Headers :=
  extra.foldl (fun h p => h.add p.1 p.2) (Headers.empty.add (pys! "content-type") ct)

theorem flow_ordinary : Ordinary flowApp := by
  constructor
  · intro n c hc b e he
    have hm : (n, c) ∈ [(pys! "proto", protoCodec)] := Dict.get?_some_mem hc
    rw [List.mem_singleton] at hm
    cases hm
    cases he
  · intro n c hc b e he
    have hm : (n, c) ∈ [(pys! "gzip", flipComp), (pys! "identity", .identity)] := Dict.get?_some_mem hc
    rcases List.mem_cons.1 hm with h | h
    · cases h; cases he
    · rw [List.mem_singleton] at h
      cases h
      cases he

/-- two envelopes in three pieces -/
def chatBody : List Bytes := [[0, 0, 0], [0, 1, 7, 0, 0], [0, 0, 2, 1, 2]]


theorem flow_chat : WsgiStreamed flowApp (flowEnviron (pys! "/a.S/Chat") (pys! "application/connect+proto") [] chatBody)
    (pys! "/a.S/Chat") ⟨chatInfo, .bidi chatRun⟩ .connect protoCodec .identity .identity :=
  ⟨⟨wsgiLookup_ok.1 rfl, ⟨pys! "POST", rfl, .inl rfl⟩, (speaks_iff ..).2 (by decide +kernel), fun h => (by cases h),
      connectHeaders_of (by decide +kernel) (by decide +kernel), fun _ => rfl⟩,
    ⟨pys! "proto", (streamCodecName_iff ..).2 (by decide +kernel), rfl⟩, .inl rfl, responseCompression_iff.1 rfl⟩

theorem chat_pieces : Pieces chatBody := by
  intro s hs
  simp [chatBody] at hs
  rcases hs with rfl | rfl | rfl <;> simp

/-- the hypotheses of `C35_wsgi` (Connect, a bidirectional stream of two messages), and what it then says -/
example : ∃ ctx : RequestContext,
    WsgiMessages flowApp (flowEnviron (pys! "/a.S/Chat") (pys! "application/connect+proto") [] chatBody) protoCodec .identity
      ⟨[[7], [1, 2]], none⟩ ∧
    Starts ⟨[[7], [1, 2]], none⟩ ctx (.bidi chatRun) none (.init ⟨[[7], [1, 2]], none⟩) (chatRun ⟨[[7], [1, 2]], none⟩ ctx) ∧
    Runs (writerOf protoCodec .identity).write none (.init ⟨[[7], [1, 2]], none⟩) (chatRun ⟨[[7], [1, 2]], none⟩ ctx).acts none
      .empty [[7], [1, 2]] ⟨[], none, .empty, [[7], [1, 2]]⟩ none ∧
    Caught none ∧ EndsWith (writerOf protoCodec .identity) .connect demoStatus Headers.empty none (.body [2, 0, 0, 0, 2, 123, 125]) :=
  ⟨⟨chatInfo, pys! "POST", Headers.empty, none, none, none⟩,
    (wsgiMessages_iff chat_pieces).2 (by decide +kernel), .bidi _,
    .step (does_iff.1 rfl) (.emit (b := [0, 0, 0, 0, 1, 7]) rfl (.step (does_iff.1 rfl) (.emit (b := [0, 0, 0, 0, 2, 1, 2]) rfl (.step (does_iff.1 rfl) (.done ..))))),
    fun x hx => (by cases hx), by unfold EndsWith; decide +kernel⟩

/-- a gRPC server stream: the handler ends with NOT_FOUND after two messages (`C35_wsgi`, `C32_wsgi_stream_partial`) -/
example : (flowApp.wsgi demoStatus (flowEnviron (pys! "/a.S/List") (pys! "application/grpc") [] [[0, 0, 0, 0, 1, 2]])).events =
    [.start 200 [(pys! "content-type", pys! "application/grpc+proto"), (pys! "grpc-encoding", pys! "identity"),
        (pys! "x-h", pys! "1")],
     .chunk [0, 0, 0, 0, 1, 2], .chunk [0, 0, 0, 0, 1, 2],
     .trailers [(pys! "x-t", pys! "2"), (pys! "grpc-status", pys! "5"), (pys! "grpc-message", pys! "gone")], .chunk []] := by decide +kernel

theorem flow_list_grpc (input : List Bytes) : WsgiStreamed flowApp
    (flowEnviron (pys! "/a.S/List") (pys! "application/grpc") [] input)
    (pys! "/a.S/List") ⟨listInfo, .serverStream listRun⟩ .grpc protoCodec .identity .identity :=
  ⟨⟨wsgiLookup_ok.1 rfl, ⟨pys! "POST", rfl, .inl rfl⟩, (speaks_iff ..).2 (by
        show negotiateServerProtocol ((wsgiHeaders (flowEnviron (pys! "/a.S/List") (pys! "application/grpc") [] []).vars).getD
          (pys! "content-type") []) = .grpc
        decide +kernel), fun _ => rfl, fun v hv => (by cases hv), fun h => (by cases h)⟩,
    ⟨pys! "proto", (streamCodecName_iff ..).2 (by
        show Proto.codecNameFromContentType .grpc ((wsgiHeaders (flowEnviron (pys! "/a.S/List") (pys! "application/grpc") []
          []).vars).getD (pys! "content-type") []) true = pys! "proto"
        decide +kernel), rfl⟩, .inl rfl, responseCompression_iff.1 rfl⟩

/-- `C33_wsgi_refused`: two messages for a handler that takes one; no message; a message that is too long -/
example : WsgiMessages flowApp (flowEnviron (pys! "/a.S/List") (pys! "application/grpc") [] [[0, 0, 0, 0, 1, 2], [0, 0, 0, 0, 0]])
      protoCodec .identity ⟨[[2], []], none⟩ ∧ TakesOne (.serverStream listRun : Handler Bytes Bytes) ∧
    Refuses (⟨[[2], []], none⟩ : ReqStream Bytes) (.mk .unimplemented []) ∧
    Refuses (⟨[], none⟩ : ReqStream Bytes) (.mk .unimplemented []) ∧
    Refuses (⟨[], some (tooLarge 10)⟩ : ReqStream Bytes) (tooLarge 10) ∧
    (flowApp.wsgi demoStatus (flowEnviron (pys! "/a.S/List") (pys! "application/grpc") []
      [[0, 0, 0, 0, 1, 2], [0, 0, 0, 0, 0]])).calls = [] :=
  ⟨(wsgiMessages_iff (by intro s hs; simp [flowEnviron] at hs; rcases hs with rfl | rfl <;> simp)).2 (by decide +kernel), trivial,
    .several (by decide) _, .none rfl rfl _, .failed (by decide) _ rfl, by decide +kernel⟩

/-- `C26_wsgi_stream_partial`: an unknown `grpc-encoding` -/
example : WsgiStreams flowApp (flowEnviron (pys! "/a.S/List") (pys! "application/grpc") [(pys! "HTTP_GRPC_ENCODING", pys! "br")] [])
      (pys! "/a.S/List") ⟨listInfo, .serverStream listRun⟩ .grpc ∧
    Dict.get? flowApp.comps ((wsgiHeaders (flowEnviron (pys! "/a.S/List") (pys! "application/grpc")
      [(pys! "HTTP_GRPC_ENCODING", pys! "br")] []).vars).getD (pys! "grpc-encoding") (pys! "identity")) = none ∧
    EndsWith (writerOf protoCodec .identity) .grpc demoStatus Headers.empty (some unrecognizedCompression)
      (.trailers (Headers.ofPairs [(pys! "grpc-status", pys! "12"), (pys! "grpc-message", pys! "Unrecognized%20request%20compression")])) :=
  ⟨⟨wsgiLookup_ok.1 rfl, ⟨pys! "POST", rfl, .inl rfl⟩, (speaks_iff ..).2 (by decide +kernel), fun _ => rfl,
      fun v hv => (by cases hv), fun h => (by cases h)⟩, by decide +kernel, by unfold EndsWith; decide +kernel⟩

/-- `C28_wsgi_stream_unsupported`: a codec the server does not have -/
example : WsgiStreams flowApp (flowEnviron (pys! "/a.S/List") (pys! "application/connect+json") [] [])
      (pys! "/a.S/List") ⟨listInfo, .serverStream listRun⟩ .connect ∧
    StreamCodecName .connect ((wsgiHeaders (flowEnviron (pys! "/a.S/List") (pys! "application/connect+json") [] []).vars).getD
      (pys! "content-type") []) (pys! "json") ∧ Dict.get? flowApp.codecs (pys! "json") = none :=
  ⟨⟨wsgiLookup_ok.1 rfl, ⟨pys! "POST", rfl, .inl rfl⟩, (speaks_iff ..).2 (by decide +kernel), fun h => (by cases h),
      connectHeaders_of (by decide +kernel) (by decide +kernel), fun _ => rfl⟩,
    (streamCodecName_iff ..).2 (by decide +kernel), by decide +kernel⟩

/-! ASGI -/

theorem flow_asgi_list : AsgiStreamed flowApp (flowScope (pys! "/a.S/List") (pys! "application/grpc") [])
    (flowHeaders (pys! "application/grpc") []) (pys! "/a.S/List") ⟨listInfo, .serverStream listRun⟩ .grpc protoCodec .identity
    .identity :=
  ⟨⟨asgiLookup_ok.1 rfl, by decide +kernel, .inl rfl, (speaks_iff ..).2 (by decide +kernel), fun _ => rfl,
      fun v hv => (by cases hv), fun h => (by cases h)⟩,
    ⟨pys! "proto", .inl ⟨by decide, (streamCodecName_iff ..).2 (by decide +kernel)⟩, rfl⟩, .inl rfl, responseCompression_iff.1 rfl⟩

/-- the run of `listRun` on `[1]` and `[3]`: two messages with a header and a trailer -/
theorem list_runs (b : Bytes) (bs : Bytes) (hw : (writerOf protoCodec .identity).write b = .ok bs) (ctx : RequestContext) :
    Runs (Req := Bytes) (writerOf protoCodec .identity).write none (.init ⟨[], none⟩) (listRun b ctx).acts (listRun b ctx).outcome
      ⟨Headers.empty.add (pys! "x-h") (pys! "1"), Headers.empty.add (pys! "x-t") (pys! "2")⟩ [b, b]
      ⟨[], none, ⟨Headers.empty.add (pys! "x-h") (pys! "1"), Headers.empty.add (pys! "x-t") (pys! "2")⟩, []⟩
      (listRun b ctx).outcome :=
  .step (does_iff.1 rfl) (.emit hw (.emit hw (.done ..)))

/-- the hypotheses of `C35_asgi_partial` -/
example : Reliable (demoEnv [.request [0, 0, 0, 0] true, .request [1, 1] false]) ∧
    AsgiMessages flowApp (demoEnv [.request [0, 0, 0, 0] true, .request [1, 1] false]) protoCodec .identity ⟨[[1]], none⟩ ∧
    (∀ ctx, Starts ⟨[[1]], none⟩ ctx (.serverStream listRun : Handler Bytes Bytes) (some [1]) (.init ⟨[], none⟩) (listRun [1] ctx)) ∧
    (∀ ctx, (listRun [1] ctx).outcome = none) ∧
    EndsWith (writerOf protoCodec .identity) .grpc demoStatus (Headers.empty.add (pys! "x-t") (pys! "2")) none
      (.trailers (Headers.ofPairs [(pys! "x-t", pys! "2"), (pys! "grpc-status", pys! "0")])) :=
  ⟨fun _ => rfl, (asgiMessages_iff rfl flow_ordinary ⟨pys! "proto", rfl⟩ (.inl rfl)).2 (by decide +kernel),
    fun _ => .serverStream _ _ rfl rfl, fun _ => rfl, by unfold EndsWith; decide +kernel⟩

/-- `C36_asgi_canceled_partial`: the disconnect is noticed after the first of two messages -/
example : ∃ pre post : List (Act Bytes), ∀ ctx, (listRun [1] ctx).acts = pre ++ .emit [1] :: post ∧ ∃ i h',
    Runs (Req := Bytes) (writerOf protoCodec .identity).write none (.init ⟨[], none⟩) pre none i [[1]] h' none ∧
    (flowApp.asgi demoStatus (flowScope (pys! "/a.S/List") (pys! "application/grpc") [])
      { demoEnv [.request [0, 0, 0, 0, 1, 1] false] with disconnectAt := some 1 }).sends.map (·.1) =
    [.start 200 [(pys! "content-type", pys! "application/grpc+proto"), (pys! "grpc-encoding", pys! "identity"),
        (pys! "x-h", pys! "1")] true, .body [0, 0, 0, 0, 1, 1] true, .body [] false,
     .trailers [(pys! "x-t", pys! "2"), (pys! "grpc-status", pys! "1"), (pys! "grpc-message", pys! "Client%20disconnected")]
        false] :=
  ⟨[.step (.update fun m => ⟨m.headers.add (pys! "x-h") (pys! "1"), m.trailers.add (pys! "x-t") (pys! "2")⟩), .emit [1]], [],
    fun _ => ⟨rfl, _, _, .step (does_iff.1 rfl) (.emit (b := [0, 0, 0, 0, 1, 1]) rfl (.done ..)), by decide +kernel⟩⟩

/-- `C31_asgi_stream` with a send that fails -/
example : delivered (flowApp.asgi demoStatus (flowScope (pys! "/a.S/List") (pys! "application/grpc") [])
      { demoEnv [.request [0, 0, 0, 0, 1, 1] false] with sendErr := fun n => if n = 2 then some (.other .runtimeError []) else none }).sends =
    [.start 200 [(pys! "content-type", pys! "application/grpc+proto"), (pys! "grpc-encoding", pys! "identity"),
        (pys! "x-h", pys! "1")] true, .body [0, 0, 0, 0, 1, 1] true, .body [] false,
     .trailers [(pys! "x-t", pys! "2"), (pys! "grpc-status", pys! "2")] false] := by decide +kernel

/-! ### violations -/

/-- **C26 is false for Connect streams** (WSGI; the ASGI server shares the code): a request that declares a compression the
server does not have is taken for an uncompressed one, and the handler runs. -/
theorem C26_violation_connect_stream : ∃ (app : App Bytes Bytes) (sc : StatusCodec) (env : Environ) (key : List Char)
    (ep : Endpoint Bytes Bytes), WsgiStreams app env key ep .connect ∧
    Dict.get? app.comps ((wsgiHeaders env.vars).getD (pys! "connect-content-encoding") (pys! "identity")) = none ∧
    (app.wsgi sc env).calls ≠ [] ∧
    (app.wsgi sc env).events.getLast? = some (.chunk [2, 0, 0, 0, 2, 123, 125]) :=
  ⟨flowApp, demoStatus, flowEnviron (pys! "/a.S/Chat") (pys! "application/connect+proto")
      [(pys! "HTTP_CONNECT_CONTENT_ENCODING", pys! "br")] chatBody, pys! "/a.S/Chat", ⟨chatInfo, .bidi chatRun⟩,
    ⟨wsgiLookup_ok.1 rfl, ⟨pys! "POST", rfl, .inl rfl⟩, (speaks_iff ..).2 (by decide +kernel), fun h => (by cases h),
      connectHeaders_of (by decide +kernel) (by decide +kernel), fun _ => rfl⟩,
    by decide +kernel, by decide +kernel, by decide +kernel⟩

/-- **C35 is false on the ASGI server for cancelled handlers**: a handler that raises `CancelledError` after two messages gives a
response whose end reports success. -/
theorem C35_violation_cancelled : ∃ (app : App Bytes Bytes) (sc : StatusCodec) (scope : Scope) (env : Env) (headers : Headers)
    (key : List Char) (f : Bytes → RequestContext → Script Bytes) (info : MethodInfo) (codec : ServerCodec Bytes Bytes)
    (out : EndOut) (tr : Headers),
    AsgiStreamed app scope headers key ⟨info, .serverStream f⟩ .grpc codec .identity .identity ∧ Reliable env ∧
    AsgiMessages app env codec .identity ⟨[[3]], none⟩ ∧ (∀ ctx, (f [3] ctx).outcome = some .cancelled) ∧
    (app.asgi sc scope env).calls.map (·.req) = [some [3]] ∧
    EndsWith (writerOf codec .identity) .grpc sc tr none out ∧
    ∃ rest, (app.asgi sc scope env).sends.map (·.1) = rest ++ asgiEnding out :=
  ⟨flowApp, demoStatus, flowScope (pys! "/a.S/List") (pys! "application/grpc") [], demoEnv [.request [0, 0, 0, 0, 1, 3] false],
    flowHeaders (pys! "application/grpc") [], pys! "/a.S/List", listRun, listInfo, protoCodec,
    .trailers (Headers.ofPairs [(pys! "x-t", pys! "2"), (pys! "grpc-status", pys! "0")]), Headers.empty.add (pys! "x-t") (pys! "2"),
    flow_asgi_list, fun _ => rfl, (asgiMessages_iff rfl flow_ordinary ⟨pys! "proto", rfl⟩ (.inl rfl)).2 (by decide +kernel),
    fun _ => rfl, by decide +kernel, by unfold EndsWith; decide +kernel,
    [.start 200 [(pys! "content-type", pys! "application/grpc+proto"), (pys! "grpc-encoding", pys! "identity"),
        (pys! "x-h", pys! "1")] true, .body [0, 0, 0, 0, 1, 3] true, .body [0, 0, 0, 0, 1, 3] true], by decide +kernel⟩

/-- **C36 is false when the handler does not produce another message**: the disconnect was noticed before the handler ended, and the
RPC ends with success. -/
theorem C36_violation_no_message : ∃ (app : App Bytes Bytes) (sc : StatusCodec) (scope : Scope) (env : Env) (headers : Headers)
    (key : List Char) (f : Bytes → RequestContext → Script Bytes) (info : MethodInfo) (codec : ServerCodec Bytes Bytes)
    (out : EndOut) (tr : Headers),
    AsgiStreamed app scope headers key ⟨info, .serverStream f⟩ .grpc codec .identity .identity ∧ Reliable env ∧
    env.disconnectAt = some 2 ∧ messagesSent (app.asgi sc scope env).sends = 2 ∧
    EndsWith (writerOf codec .identity) .grpc sc tr none out ∧
    ∃ rest, (app.asgi sc scope env).sends.map (·.1) = rest ++ asgiEnding out :=
  ⟨flowApp, demoStatus, flowScope (pys! "/a.S/List") (pys! "application/grpc") [],
    { demoEnv [.request [0, 0, 0, 0, 1, 1] false] with disconnectAt := some 2 },
    flowHeaders (pys! "application/grpc") [], pys! "/a.S/List", listRun, listInfo, protoCodec,
    .trailers (Headers.ofPairs [(pys! "x-t", pys! "2"), (pys! "grpc-status", pys! "0")]), Headers.empty.add (pys! "x-t") (pys! "2"),
    flow_asgi_list, fun _ => rfl, rfl, by decide +kernel, by unfold EndsWith; decide +kernel,
    [.start 200 [(pys! "content-type", pys! "application/grpc+proto"), (pys! "grpc-encoding", pys! "identity"),
        (pys! "x-h", pys! "1")] true, .body [0, 0, 0, 0, 1, 1] true, .body [0, 0, 0, 0, 1, 1] true], by decide +kernel⟩

/-- **C61 is false on both servers**: a request body that ends inside an envelope (here: after four of the nine bytes that the
second envelope announces) is taken for a complete stream. -/
theorem C61_violation : ∃ (app : App Bytes Bytes) (sc : StatusCodec) (bytes : List UInt8) (fs : List Frame) (rest : List UInt8)
    (env : Environ) (scope : Scope) (aenv : Env), Splits bytes fs rest ∧ rest ≠ [] ∧ env.input = [bytes] ∧
    aenv.receive = [.request bytes false] ∧ Reliable aenv ∧
    (app.wsgi sc env).received = [[7]] ∧
    (app.wsgi sc env).events.getLast? = some (.chunk [2, 0, 0, 0, 2, 123, 125]) ∧
    (app.asgi sc scope aenv).received = [[7]] ∧
    (app.asgi sc scope aenv).sends.getLast? = some (.body [2, 0, 0, 0, 2, 123, 125] false, none) :=
  ⟨flowApp, demoStatus, [0, 0, 0, 0, 1, 7, 0, 0, 0, 0, 9, 1, 2, 3, 4], [⟨0, [7]⟩], [0, 0, 0, 0, 9, 1, 2, 3, 4],
    flowEnviron (pys! "/a.S/Chat") (pys! "application/connect+proto") [] [[0, 0, 0, 0, 1, 7, 0, 0, 0, 0, 9, 1, 2, 3, 4]],
    flowScope (pys! "/a.S/Chat") (pys! "application/connect+proto") [],
    demoEnv [.request [0, 0, 0, 0, 1, 7, 0, 0, 0, 0, 9, 1, 2, 3, 4] false],
    ⟨by decide +kernel, fun f hf => (by rw [List.mem_singleton] at hf; subst hf; unfold Frame.Ok; decide), (incomplete_iff_short ..).2 (by decide)⟩, by decide, rfl, rfl, fun _ => rfl, by decide +kernel, by decide +kernel, by decide +kernel, by decide +kernel⟩

/-- `C62_asgi_plain_partial`: a unary Connect request -/
example : ∀ headers key ep p name, AsgiStreams flowApp (flowScope (pys! "/a.S/Echo") (pys! "application/proto") []) headers key ep p →
    AsgiCodecName (flowScope (pys! "/a.S/Echo") (pys! "application/proto") []) p headers name →
    Dict.get? flowApp.codecs name = none := by
  intro headers key ep p name h _
  have h1 := AsgiTarget.unique h.target
    (asgiLookup_ok.1 (rfl : flowApp.asgiLookup (flowScope (pys! "/a.S/Echo") (pys! "application/proto") []) =
      .ok (pys! "/a.S/Echo", ⟨echoInfo, .unary echoCall⟩)))
  have h2 : asgiHeaders (flowScope (pys! "/a.S/Echo") (pys! "application/proto") []).headers Headers.empty =
      .ok (flowHeaders (pys! "application/proto") []) := by decide +kernel
  rw [h.decoded] at h2
  cases h2
  have h3 := (speaks_iff ..).1 h.proto
  have h4 : negotiateServerProtocol ((flowHeaders (pys! "application/proto") []).getD (pys! "content-type") []) = .connect := by
    decide +kernel
  have h5 := h.kind (h3.symm.trans h4)
  rw [h1.2] at h5
  cases h5

/-- **C62 is false when the body event of a unary response cannot be sent**: a second start event is sent after the first. -/
theorem C62_violation_second_start : ∃ (app : App Bytes Bytes) (sc : StatusCodec) (scope : Scope) (env : Env) (f f' : List (Str × Str))
    (b : List UInt8), (app.asgi sc scope env).calls.map (·.path) = [pys! "/a.S/Echo"] ∧
    delivered (app.asgi sc scope env).sends = [.start 200 f false, .start 500 f' false, .body b false] :=
  ⟨flowApp, demoStatus, flowScope (pys! "/a.S/Echo") (pys! "application/proto") [],
    { demoEnv [.request [1] false] with sendErr := fun n => if n = 1 then some (.other .runtimeError []) else none },
    [(pys! "content-type", pys! "application/proto"), (pys! "content-encoding", pys! "identity"),
      (pys! "vary", pys! "Accept-Encoding"), (pys! "x-h", pys! "1")],
    [(pys! "content-type", pys! "application/json"), (pys! "x-h", pys! "1")],
    utf8Encode (pys! "{\"code\": \"unknown\", \"message\": \"\"}"), by decide +kernel, by decide +kernel⟩

end Props
