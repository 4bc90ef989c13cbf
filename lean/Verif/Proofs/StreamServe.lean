import Verif.Proofs.Stream
/-
From a request to the run of its handler, for streamed responses.
-/
namespace Conn
open Py Spec

variable {Req Res : Type}

def streamCfg (p : Proto) (sc : StatusCodec) (codec : ServerCodec Req Res) (comp : Compression) (calls : List (Called Req)) :
    StreamCfg Req Res :=
  { proto := p, sc, codecName := codec.name, comp, writer := ⟨codec.res, some comp⟩, calls }

def asgiCfg (p : Proto) (sc : StatusCodec) (codec : ServerCodec Req Res) (comp : Compression) (env : Env)
    (handler : Handler Req Res) : AsgiCfg Res :=
  { proto := p, sc, codecName := codec.name, comp, writer := ⟨codec.res, some comp⟩, env
    disconnectAt := match handler with
      | .serverStream _ => env.disconnectAt
      | _ => none }

/-- a WSGI stream with a known codec: the three ways on -/
theorem wsgi_stream_cases {app : App Req Res} {env : Environ} {key : Str} {ep : Endpoint Req Res} {p : Proto}
    (h : WsgiStreams app env key ep p) {codec : ServerCodec Req Res} {name : Str}
    (hn : StreamCodecName p ((wsgiHeaders env.vars).getD (pys! "content-type") []) name)
    (hcodec : Dict.get? app.codecs name = some codec) {wc : Compression}
    (hw : ResponseCompression app p (wsgiHeaders env.vars) wc) :
    ∃ hm ctx, (Dict.get? env.vars (pys! "REQUEST_METHOD") = some hm ∧
      CtxIs ctx ep.method hm (wsgiScheme env.vars) (wsgiHeaders env.vars) (wsgiClient env.vars)) ∧ ∀ sc,
      ((∀ c, ¬ RequestCompression app p (wsgiHeaders env.vars) c) →
        app.wsgi sc env = (streamCfg p sc codec wc []).wsgiErrorOnly (.init ⟨[], none⟩) [] unrecognizedCompression) ∧
      ∀ rc, RequestCompression app p (wsgiHeaders env.vars) rc →
        (∀ e, ep.handler.start (app.wsgiRequests env codec rc) ctx = .error e →
          app.wsgi sc env = (streamCfg p sc codec wc []).wsgiErrorOnly (.init ⟨[], none⟩) [] e) ∧
        (∀ req h0 script, ep.handler.start (app.wsgiRequests env codec rc) ctx = .ok (req, h0, script) →
          app.wsgi sc env = (streamCfg p sc codec wc [⟨key, ctx, req⟩]).wsgiFirst script.outcome script.acts h0) := by
  obtain ⟨hm, ctx, hctx, hrun⟩ := wsgi_streams h
  refine ⟨hm, ctx, hctx, fun sc => ?_⟩
  rw [streamCodecName_iff] at hn
  rw [← responseCompression_iff] at hw
  have hsplit : app.wsgi sc env = match (p.negotiateStreamCompression (wsgiHeaders env.vars) app.comps).1 with
      | none => (streamCfg p sc codec wc []).wsgiErrorOnly (.init ⟨[], none⟩) [] unrecognizedCompression
      | some reqComp =>
        match ep.handler.start (app.wsgiRequests env codec reqComp) ctx with
        | .error e => (streamCfg p sc codec wc []).wsgiErrorOnly (.init ⟨[], none⟩) [] e
        | .ok (req, h, script) => (streamCfg p sc codec wc [⟨key, ctx, req⟩]).wsgiFirst script.outcome script.acts h := by
    rw [hrun sc]
    unfold App.wsgiStream
    dsimp only
    rw [hn, hcodec]
    subst hw
    rfl
  constructor
  · intro hno
    rw [hsplit]
    cases hc : (p.negotiateStreamCompression (wsgiHeaders env.vars) app.comps).1 with
    | none => rfl
    | some c => exact absurd (requestCompression_iff.1 hc) (hno c)
  · intro rc hrc
    rw [← requestCompression_iff] at hrc
    rw [hrc] at hsplit
    constructor
    · intro e he
      rw [hsplit]
      dsimp only
      rw [he]
    · intro req h0 script hs
      rw [hsplit]
      dsimp only
      rw [hs]

/-- a WSGI stream with an unknown codec -/
theorem wsgi_stream_nocodec {app : App Req Res} {env : Environ} {key : Str} {ep : Endpoint Req Res} {p : Proto}
    (h : WsgiStreams app env key ep p) {name : Str}
    (hn : StreamCodecName p ((wsgiHeaders env.vars).getD (pys! "content-type") []) name)
    (hcodec : Dict.get? app.codecs name = none) (sc : StatusCodec) :
    app.wsgi sc env =
      wsgiFail [] (unsupportedMedia (pys! "application/connect+json, application/connect+proto")) (some .empty) := by
  obtain ⟨hm, ctx, hctx, hrun⟩ := wsgi_streams h
  rw [streamCodecName_iff] at hn
  rw [hrun sc]
  unfold App.wsgiStream
  dsimp only
  rw [hn, hcodec]

theorem encoding_iff (params : Dict Str (List Str)) (k name : Str) :
    ((match firstParam params k with
      | some v => v
      | none => []) = name) ↔
      (Param params k name ∨ (name = [] ∧ ∀ v, ¬ Param params k v)) := by
  cases hf : firstParam params k with
  | some v =>
    dsimp only
    constructor
    · intro h; subst h; exact .inl (firstParam_iff.1 hf)
    · rintro (h | ⟨_, h⟩)
      · rw [← firstParam_iff, hf] at h
        exact Option.some.inj h
      · exact absurd (firstParam_iff.1 hf) (h v)
  | none =>
    dsimp only
    rw [firstParam_none] at hf
    constructor
    · intro h; exact .inr ⟨h.symm, hf⟩
    · rintro (h | ⟨h, _⟩)
      · exact absurd h (hf _)
      · exact h.symm

/-- the codec name of a streamed ASGI request -/
theorem asgiCodecName_stream {p : Proto} {scope : Scope} {headers : Headers} {u : Bool} (hu : p = .connect → u = false)
    {name : Str} : AsgiCodecName scope p headers name ↔
      ∃ params, asgiCodecName p scope (headers.getD (pys! "content-type") []) u = .ok (params, name) := by
  unfold AsgiCodecName asgiCodecName
  by_cases hg : scope.method = pys! "GET"
  · rw [if_pos hg]
    cases hq : utf8Decode scope.query with
    | none =>
      constructor
      · rintro (⟨h, _⟩ | ⟨_, q, h, _⟩)
        · exact absurd hg h
        · cases h
      · rintro ⟨_, h⟩; cases h
    | some q =>
      dsimp only
      constructor
      · rintro (⟨h, _⟩ | ⟨_, q', h, h'⟩)
        · exact absurd hg h
        · cases h
          rw [← encoding_iff] at h'
          exact ⟨parseQs q, congrArg (fun n => Except.ok (parseQs q, n)) h'⟩
      · rintro ⟨params, h⟩
        refine .inr ⟨hg, q, rfl, ?_⟩
        rw [← encoding_iff]
        injection h with h
        exact congrArg Prod.snd h
  · rw [if_neg hg, streamCodecName_iff]
    have hs : p.codecNameFromContentType (headers.getD (pys! "content-type") []) (!u) =
        p.codecNameFromContentType (headers.getD (pys! "content-type") []) true := by
      cases p with
      | connect => rw [hu rfl]; rfl
      | grpc => rfl
      | grpcWeb => rfl
    rw [hs]
    constructor
    · rintro (⟨_, h⟩ | ⟨h, _⟩)
      · exact ⟨[], by rw [h]⟩
      · exact absurd h hg
    · rintro ⟨params, h⟩
      injection h with h
      exact .inl ⟨hg, congrArg Prod.snd h⟩

/-- an ASGI stream with a known codec: the three ways on -/
theorem asgi_stream_cases {app : App Req Res} {scope : Scope} {headers : Headers} {key : Str} {ep : Endpoint Req Res} {p : Proto}
    (h : AsgiStreams app scope headers key ep p) {codec : ServerCodec Req Res} {name : Str}
    (hn : AsgiCodecName scope p headers name)
    (hcodec : Dict.get? app.codecs name = some codec) {wc : Compression} (hw : ResponseCompression app p headers wc) :
    ∃ ctx, CtxIs ctx ep.method scope.method (asgiScheme scope) headers (scope.client.map fun ca => ca.1 ++ pys! ":" ++ ca.2) ∧ ∀ sc env,
      ((∀ c, ¬ RequestCompression app p headers c) →
        app.asgi sc scope env = (asgiCfg p sc codec wc env ep.handler).finish []
          ⟨.init ⟨[], none⟩, [], false, some unrecognizedCompression⟩) ∧
      ∀ rc, RequestCompression app p headers rc →
        (∀ e, ep.handler.start (app.asgiRequests env codec rc) ctx = .error e →
          app.asgi sc scope env = (asgiCfg p sc codec wc env ep.handler).finish [] ⟨.init ⟨[], none⟩, [], false, some e⟩) ∧
        (∀ req h0 script, ep.handler.start (app.asgiRequests env codec rc) ctx = .ok (req, h0, script) →
          app.asgi sc scope env = (asgiCfg p sc codec wc env ep.handler).finish [⟨key, ctx, req⟩]
            ((asgiCfg p sc codec wc env ep.handler).loop script.outcome script.closeErr script.acts h0 [] false 0)) := by
  obtain ⟨ctx, hroute, hctx⟩ := asgiRoute_streams h
  refine ⟨ctx, hctx, fun sc env => ?_⟩
  obtain ⟨params, hn⟩ := (asgiCodecName_stream (u := ep.handler.isUnary) h.kind).1 hn
  rw [← responseCompression_iff] at hw
  have hc : app.asgiCodec scope { key, ep, httpMethod := scope.method, headers, proto := p, ctx } = .ok (params, codec) := by
    unfold App.asgiCodec
    dsimp only
    rw [hn]
    dsimp only
    rw [hcodec]
  have hstream : app.asgi sc scope env = app.asgiStream sc env key p headers codec ctx ep.handler := by
    unfold App.asgi
    rw [hroute]
    dsimp only
    rw [hc]
    dsimp only
    have hk := h.kind
    cases hh : ep.handler with
    | unary f =>
      cases p with
      | connect => rw [hh] at hk; exact absurd (hk rfl) (fun h => by cases h)
      | grpc => rfl
      | grpcWeb => rfl
    | _ => rfl
  have hsplit : app.asgi sc scope env = match (p.negotiateStreamCompression headers app.comps).1 with
      | none => (asgiCfg p sc codec wc env ep.handler).finish [] ⟨.init ⟨[], none⟩, [], false, some unrecognizedCompression⟩
      | some reqComp =>
        match ep.handler.start (app.asgiRequests env codec reqComp) ctx with
        | .error e => (asgiCfg p sc codec wc env ep.handler).finish [] ⟨.init ⟨[], none⟩, [], false, some e⟩
        | .ok (req, h, script) => (asgiCfg p sc codec wc env ep.handler).finish [⟨key, ctx, req⟩]
            ((asgiCfg p sc codec wc env ep.handler).loop script.outcome script.closeErr script.acts h [] false 0) := by
    rw [hstream]
    unfold App.asgiStream
    dsimp only
    subst hw
    rfl
  constructor
  · intro hno
    rw [hsplit]
    cases hc : (p.negotiateStreamCompression headers app.comps).1 with
    | none => rfl
    | some c => exact absurd (requestCompression_iff.1 hc) (hno c)
  · intro rc hrc
    rw [← requestCompression_iff] at hrc
    rw [hrc] at hsplit
    constructor
    · intro e he
      rw [hsplit]
      dsimp only
      rw [he]
    · intro req h0 script hs
      rw [hsplit]
      dsimp only
      rw [hs]

/-- an ASGI stream with an unknown codec -/
theorem asgi_stream_nocodec {app : App Req Res} {scope : Scope} {headers : Headers} {key : Str} {ep : Endpoint Req Res} {p : Proto}
    (h : AsgiStreams app scope headers key ep p) {name : Str} (hn : AsgiCodecName scope p headers name)
    (hcodec : Dict.get? app.codecs name = none) (sc : StatusCodec) (env : Env) :
    app.asgi sc scope env =
      asgiFail env [] [] (unsupportedMedia (pys! "application/json, application/proto")) (some .empty) := by
  obtain ⟨ctx, hroute, hctx⟩ := asgiRoute_streams h
  obtain ⟨params, hn⟩ := (asgiCodecName_stream (u := ep.handler.isUnary) h.kind).1 hn
  unfold App.asgi
  rw [hroute]
  dsimp only
  have hc : app.asgiCodec scope { key, ep, httpMethod := scope.method, headers, proto := p, ctx } =
      .error (unsupportedMedia (pys! "application/json, application/proto")) := by
    unfold App.asgiCodec
    dsimp only
    rw [hn]
    dsimp only
    rw [hcodec]
  rw [hc]

/-! ### runs that end with an exception the WSGI server does not catch -/

theorem wsgiCaught_escapes {c : StreamCfg Req Res} {h : HState Req} {x : Exc} (hx : x.isException = false) (ev : List WEvent) :
    c.wsgiCaught h ev x = { calls := c.calls, received := h.got, events := ev, escaped := some x } := by
  unfold StreamCfg.wsgiCaught
  rw [hx, if_neg (by decide)]

theorem wsgiErrorOnly_escapes {c : StreamCfg Req Res} {h : HState Req} {x : Exc} (hx : x.isException = false) (ev : List WEvent) :
    c.wsgiErrorOnly h ev x = { calls := c.calls, received := h.got, events := ev, escaped := some x } := by
  unfold StreamCfg.wsgiErrorOnly
  rw [hx, if_neg (by decide)]

theorem wsgiBody_escapes {c : StreamCfg Req Res} {h h' : HState Req} {acts : List (Act Res)} {o e : Option Exc} {i : Meta}
    {ms : List Res} (hr : Runs c.writer.write none h acts o i ms h' e) {x : Exc} (he : e = some x) (hx : x.isException = false) :
    ∃ bs : List Bytes, ∀ ev, c.wsgiBody o acts h ev =
      { calls := c.calls, received := h'.got, events := ev ++ bs.map .chunk, escaped := some x } := by
  induction hr with
  | done h o =>
    subst he
    refine ⟨[], fun ev => ?_⟩
    unfold StreamCfg.wsgiBody
    dsimp only
    rw [wsgiCaught_escapes hx, List.map_nil, List.append_nil]
  | step hs hr ih =>
    obtain ⟨bs, h2⟩ := ih he
    refine ⟨bs, fun ev => ?_⟩
    unfold StreamCfg.wsgiBody
    rw [does_iff.2 hs]
    exact h2 ev
  | raised hs =>
    cases he
    refine ⟨[], fun ev => ?_⟩
    unfold StreamCfg.wsgiBody
    rw [does_iff.2 hs]
    dsimp only
    rw [wsgiCaught_escapes hx, List.map_nil, List.append_nil]
  | @emit _ _ _ _ _ _ _ _ b hw hr ih =>
    obtain ⟨bs, h2⟩ := ih he
    refine ⟨b :: bs, fun ev => ?_⟩
    unfold StreamCfg.wsgiBody
    rw [hw]
    dsimp only
    rw [h2]
    simp
  | unwritable hw =>
    cases he
    refine ⟨[], fun ev => ?_⟩
    unfold StreamCfg.wsgiBody
    rw [hw]
    dsimp only
    rw [Option.getD_none] at hx
    rw [wsgiCaught_escapes hx, List.map_nil, List.append_nil]
    rfl

theorem wsgiFirst_escapes {c : StreamCfg Req Res} {h h' : HState Req} {acts : List (Act Res)} {o e : Option Exc} {i : Meta}
    {ms : List Res} (hr : Runs c.writer.write none h acts o i ms h' e) {x : Exc} (he : e = some x) (hx : x.isException = false) :
    (c.wsgiFirst o acts h).escaped = some x ∧ WsgiCut (c.wsgiFirst o acts h).events := by
  induction hr with
  | done h o =>
    subst he
    unfold StreamCfg.wsgiFirst
    dsimp only
    rw [wsgiErrorOnly_escapes hx]
    exact ⟨rfl, .inl rfl⟩
  | step hs hr ih =>
    unfold StreamCfg.wsgiFirst
    rw [does_iff.2 hs]
    exact ih he
  | raised hs =>
    cases he
    unfold StreamCfg.wsgiFirst
    rw [does_iff.2 hs]
    dsimp only
    rw [wsgiErrorOnly_escapes hx]
    exact ⟨rfl, .inl rfl⟩
  | emit hw hr ih =>
    obtain ⟨bs, h2⟩ := wsgiBody_escapes (Runs.emit hw hr) he hx
    unfold StreamCfg.wsgiFirst
    rw [h2]
    exact ⟨rfl, .inr ⟨_, _, bs, rfl⟩⟩
  | unwritable hw =>
    obtain ⟨bs, h2⟩ := wsgiBody_escapes (Runs.unwritable hw) he hx
    unfold StreamCfg.wsgiFirst
    rw [h2]
    exact ⟨rfl, .inr ⟨_, _, bs, rfl⟩⟩

/-! ### complete WSGI responses -/

theorem ending_complete {w : EnvelopeWriter Res} {p : Proto} {sc : StatusCodec} {tr : Headers} {e : Option Exc} {out : EndOut}
    (h : EndsWith w p sc tr e out) (status : Nat) (fields : List (Str × Str)) (bs : List Bytes) :
    WsgiComplete p.usesTrailers (.start status fields :: bs.map .chunk ++ wsgiEnding out) := by
  rcases end_kind h with ⟨hp, t, ho⟩ | ⟨hp, b, ho⟩
  · subst ho
    rw [hp]
    exact ⟨status, fields, bs, t.allitems, rfl⟩
  · subst ho
    rw [hp]
    refine ⟨status, fields, bs ++ [b], ?_⟩
    simp [wsgiEnding]

/-- what a WSGI stream gives, when every end marker it may need can be written -/
theorem wsgiFirst_complete {c : StreamCfg Req Res} {h h' : HState Req} {acts : List (Act Res)} {o e : Option Exc} {i : Meta}
    {ms : List Res} (hr : Runs c.writer.write none h acts o i ms h' e)
    (hfit : Caught e → ∃ out, EndsWith c.writer c.proto c.sc h'.info.trailers e out) :
    ((c.wsgiFirst o acts h).escaped = none ∧ WsgiComplete c.proto.usesTrailers (c.wsgiFirst o acts h).events) ∨
    (∃ x, (c.wsgiFirst o acts h).escaped = some x ∧ x.isException = false ∧ WsgiCut (c.wsgiFirst o acts h).events) := by
  by_cases hc : Caught e
  · obtain ⟨out, ho⟩ := hfit hc
    obtain ⟨bs, _, _, _, _, h2⟩ := wsgiFirst_runs hr hc ho
    rw [h2]
    exact .inl ⟨rfl, ending_complete ho _ _ bs⟩
  · cases e with
    | none => exact absurd (fun x hx => by cases hx) hc
    | some x =>
      have hx : x.isException = false := by
        cases hx : x.isException with
        | false => rfl
        | true => exact absurd (fun y hy => by cases hy; exact hx) hc
      obtain ⟨h1, h2⟩ := wsgiFirst_escapes hr rfl hx
      exact .inr ⟨x, h1, hx, h2⟩

theorem wsgiErrorOnly_complete {c : StreamCfg Req Res} {h : HState Req} {x : Exc}
    (hfit : Caught (some x) → ∃ out, EndsWith c.writer c.proto c.sc h.info.trailers (some x) out) :
    ((c.wsgiErrorOnly h [] x).escaped = none ∧ WsgiComplete c.proto.usesTrailers (c.wsgiErrorOnly h [] x).events) ∨
    (∃ y, (c.wsgiErrorOnly h [] x).escaped = some y ∧ y.isException = false ∧ WsgiCut (c.wsgiErrorOnly h [] x).events) := by
  cases hx : x.isException with
  | true =>
    obtain ⟨out, ho⟩ := hfit (fun y hy => by cases hy; exact hx)
    rw [wsgiErrorOnly_eq hx ho]
    exact .inl ⟨rfl, ending_complete ho _ _ []⟩
  | false =>
    rw [wsgiErrorOnly_escapes hx]
    exact .inr ⟨x, rfl, hx, .inl rfl⟩

theorem wsgiFail_complete (calls : List (Called Req)) (e : Exc) (ctx : Option Meta) :
    ((wsgiFail calls e ctx).escaped = none ∧ WsgiComplete false (wsgiFail calls e ctx).events) ∨
    (∃ y, (wsgiFail calls e ctx).escaped = some y ∧ y.isException = false ∧ WsgiCut (wsgiFail calls e ctx).events) := by
  unfold wsgiFail
  cases hx : e.isException with
  | true =>
    rw [if_pos rfl]
    exact .inl ⟨rfl, _, _, _, rfl⟩
  | false =>
    rw [if_neg (by decide)]
    exact .inr ⟨e, rfl, hx, .inl rfl⟩

/-- the requests that are not streamed -/
theorem wsgi_plain {app : App Req Res} {env : Environ} (h : ∀ key ep p, ¬ WsgiStreams app env key ep p) (sc : StatusCodec) :
    ((app.wsgi sc env).escaped = none ∧ WsgiComplete false (app.wsgi sc env).events) ∨
    (∃ y, (app.wsgi sc env).escaped = some y ∧ y.isException = false ∧ WsgiCut (app.wsgi sc env).events) := by
  unfold App.wsgi
  cases hr : app.wsgiRoute env with
  | error e => exact wsgiFail_complete ..
  | ok r =>
    dsimp only
    have hno : ¬ (r.proto = .connect → r.ep.handler.isUnary = false) :=
      fun hk => h _ _ _ (wsgiRoute_streams_conv hr hk)
    cases hp : r.proto with
    | grpc => exact absurd (fun hc => by rw [hp] at hc; cases hc) hno
    | grpcWeb => exact absurd (fun hc => by rw [hp] at hc; cases hc) hno
    | connect =>
      cases hh : r.ep.handler with
      | unary f =>
        dsimp only
        unfold App.wsgiUnary
        dsimp only
        split
        · exact wsgiFail_complete ..
        · split
          · exact wsgiFail_complete ..
          · split
            · exact wsgiFail_complete ..
            · exact .inl ⟨rfl, _, _, [_], rfl⟩
      | clientStream f => exact absurd (fun _ => by rw [hh]; rfl) hno
      | serverStream f => exact absurd (fun _ => by rw [hh]; rfl) hno
      | bidi f => exact absurd (fun _ => by rw [hh]; rfl) hno

/-! ### the number of messages of an ASGI response -/

theorem messagesSent_ok (log : List (Sent × Option Exc)) (m : Sent) :
    messagesSent (log ++ [(m, none)]) = messagesSent log + match m with
      | .body _ true => 1
      | _ => 0 := by
  unfold messagesSent
  rw [delivered_ok, List.countP_append]
  cases m with
  | body b more => cases more <;> rfl
  | start _ _ _ => rfl
  | trailers _ _ => rfl

theorem messagesSent_failed (log : List (Sent × Option Exc)) (m : Sent) (e : Exc) :
    messagesSent (log ++ [(m, some e)]) = messagesSent log := by
  unfold messagesSent
  rw [delivered_failed]

theorem send_messages (env : Env) (log : List (Sent × Option Exc)) (m : Sent)
    (hm : ∀ b, m ≠ .body b true) : messagesSent (env.send log m).1 = messagesSent log := by
  unfold Env.send
  dsimp only
  cases env.sendErr log.length with
  | some e => exact messagesSent_failed ..
  | none =>
    rw [messagesSent_ok]
    cases m with
    | body b more =>
      cases more with
      | true => exact absurd rfl (hm b)
      | false => rfl
    | start _ _ _ => rfl
    | trailers _ _ => rfl

theorem ensureStart_messages (c : AsgiCfg Res) (sent : Bool) (m : Meta) (log : List (Sent × Option Exc)) :
    messagesSent (c.ensureStart sent m log).1 = messagesSent log := by
  unfold AsgiCfg.ensureStart
  split
  · rfl
  · exact send_messages _ _ _ (fun b hb => by cases hb)

theorem sendAll_messages (env : Env) (ms : List Sent) (hm : ∀ m ∈ ms, ∀ b, m ≠ .body b true) (log : List (Sent × Option Exc)) :
    messagesSent (env.sendAll log ms).1 = messagesSent log := by
  induction ms generalizing log with
  | nil => rfl
  | cons m ms ih =>
    unfold Env.sendAll
    have h1 := send_messages env log m (hm m List.mem_cons_self)
    split
    · rename_i l e he
      rw [he] at h1
      exact h1
    · rename_i l he
      rw [he] at h1
      rw [ih (fun m' hm' => hm m' (List.mem_cons_of_mem _ hm')) l]
      exact h1

theorem finish_messages (c : AsgiCfg Res) (calls : List (Called Req)) (l : LoopOut Req) :
    messagesSent (c.finish calls l).sends = messagesSent l.log := by
  unfold AsgiCfg.finish
  split
  · rfl
  · rename_i out _
    have h1 := ensureStart_messages c l.sentHeaders l.h.info l.log
    split
    · rename_i l1 e he
      rw [he] at h1
      exact h1
    · rename_i l1 he
      rw [he] at h1
      have h2 := sendAll_messages c.env (asgiEnd out) (by
        intro m hm b hb
        subst hb
        cases out <;> simp [asgiEnd] at hm) l1
      split
      · rename_i l2 e he2
        rw [he2] at h2
        exact h2.trans h1
      · rename_i l2 he2
        rw [he2] at h2
        exact h2.trans h1

theorem loop_messages (c : AsgiCfg Res) (o close : Option Exc) (acts : List (Act Res)) (h : HState Req)
    (log : List (Sent × Option Exc)) (sent : Bool) (n k : Nat) (hk : c.disconnectAt = some k) (hn : messagesSent log = n)
    (hle : n ≤ k) : messagesSent (c.loop o close acts h log sent n).log ≤ k := by
  induction acts generalizing h log sent n with
  | nil => exact hn ▸ hle
  | cons a as ih =>
    unfold AsgiCfg.loop
    cases a with
    | step s =>
      dsimp only
      split
      · exact hn ▸ hle
      · exact ih _ _ _ _ hn hle
    | emit m =>
      dsimp only
      split
      · exact hn ▸ hle
      · rename_i hd
        have hlt : n < k := by
          unfold AsgiCfg.disconnected at hd
          rw [hk] at hd
          simp at hd
          exact hd
        have h1 := ensureStart_messages c sent h.info log
        split
        · rename_i l e he
          rw [he] at h1
          exact (h1.trans hn) ▸ hle
        · rename_i l he
          rw [he] at h1
          split
          · exact (h1.trans hn) ▸ hle
          · rename_i b hb
            split
            · rename_i l2 e he2
              unfold Env.send at he2
              obtain ⟨h2, h3⟩ := Prod.mk.injEq .. ▸ he2
              rw [h3] at h2
              subst h2
              show messagesSent _ ≤ k
              rw [messagesSent_failed]
              exact (h1.trans hn) ▸ hle
            · rename_i l2 he2
              unfold Env.send at he2
              obtain ⟨h2, h3⟩ := Prod.mk.injEq .. ▸ he2
              rw [h3] at h2
              subst h2
              refine ih _ _ _ _ ?_ hlt
              rw [messagesSent_ok]
              exact congrArg (· + 1) (h1.trans hn)

/-! ### the limit on request messages -/

theorem deliver_within {app : App Req Res} {codec : ServerCodec Req Res} (hcodec : ∃ n, Dict.get? app.codecs n = some codec)
    (comp : Compression) (fs : List Frame) : ∀ m ∈ ((serverPolicy app codec comp).deliver fs).1, Within app m := by
  induction fs with
  | nil => intro m hm; cases hm
  | cons f fs ih =>
    intro m hm
    unfold Policy.deliver at hm
    cases hf : (serverPolicy app codec comp).message f with
    | error e => rw [hf] at hm; cases hm
    | ok m1 =>
      rw [hf] at hm
      rcases List.mem_cons.1 hm with h | h
      · subst h
        obtain ⟨n, hn⟩ := hcodec
        unfold Policy.message at hf
        cases hi : (serverPolicy app codec comp).inflate f with
        | error e => rw [hi] at hf; cases hf
        | ok d =>
          rw [hi] at hf
          dsimp only at hf
          cases hc : (serverPolicy app codec comp).checkSize d with
          | error e => rw [hc] at hf; cases hf
          | ok d' =>
            rw [hc] at hf
            refine ⟨n, codec, d', hn, hf, ?_⟩
            intro k hk
            unfold Policy.checkSize at hc
            have hl : (serverPolicy app codec comp).limit = some k := hk
            rw [hl] at hc
            dsimp only at hc
            split at hc
            · cases hc; assumption
            · cases hc
      · exact ih m h

theorem reader_within {app : App Req Res} {codec : ServerCodec Req Res} (hcodec : ∃ n, Dict.get? app.codecs n = some codec)
    (comp : Compression) (chunks : List Bytes) :
    ∀ m ∈ (feedAll (app.reader codec comp) (ReaderState.init ()) chunks).1, Within app m := by
  obtain ⟨fs, rest, hsp⟩ := splits_exists chunks.flatten
  have := Props.reader_delivers (app.reader codec comp) () chunks hsp (fun f _ => reader_data app codec comp f.flags)
  rw [this.1]
  exact deliver_within hcodec comp fs

theorem wsgiRequests_within {app : App Req Res} {codec : ServerCodec Req Res} (hcodec : ∃ n, Dict.get? app.codecs n = some codec)
    (comp : Compression) (env : Environ) : ∀ m ∈ (app.wsgiRequests env codec comp).messages, Within app m :=
  reader_within hcodec comp _

theorem asgiRequests_within {app : App Req Res} {codec : ServerCodec Req Res} (hcodec : ∃ n, Dict.get? app.codecs n = some codec)
    (comp : Compression) (env : Env) : ∀ m ∈ (app.asgiRequests env codec comp).messages, Within app m := by
  intro m hm
  unfold App.asgiRequests at hm
  dsimp only at hm
  split at hm
  · split at hm
    · exact reader_within hcodec comp _ m (List.mem_of_mem_take hm)
    · exact reader_within hcodec comp _ m hm
  · exact reader_within hcodec comp _ m hm

/-- a handler gets only messages of the request stream -/
theorem start_within {app : App Req Res} {s : ReqStream Req} (hs : ∀ m ∈ s.messages, Within app m) {ctx : RequestContext}
    {handler : Handler Req Res} {req : Option Req} {h : HState Req} {script : Script Res}
    (hh : handler.start s ctx = .ok (req, h, script)) :
    (∀ m, req = some m → Within app m) ∧ (∀ l, l <+: h.got ++ h.reqs → ∀ m ∈ l, Within app m) := by
  obtain ⟨h1, h2, h3⟩ := starts_reqs (starts_iff.1 hh)
  refine ⟨fun m hm => hs m (h1 m hm), fun l hl m hm => hs m (h3 m ?_)⟩
  rw [h2, List.nil_append] at hl
  exact hl.subset hm

end Conn
