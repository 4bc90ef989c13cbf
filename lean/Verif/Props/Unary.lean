import Verif.Proofs.Unary
import Verif.Props.Routing
/-
C34 (rejected unary requests run no handler), C37 (bodies), C38 (malformed messages), and the unary halves of C05 (size limit), C26
(unknown compression) and C28 (unknown codec), for the WSGI and the ASGI application.
-/
namespace Props
open Conn Py Spec

variable {Req Res : Type}

/-! ### lemmas -/

theorem wsgi_of_route {app : App Req Res} {env : Environ} {key hm : Str} {m : MethodInfo} {f : Req → RequestContext → Call Res}
    {h : Headers} {ctx : RequestContext} (hr : app.wsgiRoute env = .ok
      { key, ep := ⟨m, .unary f⟩, httpMethod := hm, headers := h, proto := .connect, ctx }) (sc : StatusCodec) :
    app.wsgi sc env = app.wsgiUnary env key hm h ctx f := by
  unfold App.wsgi
  rw [hr]

theorem wsgi_refused_route {app : App Req Res} {env : Environ} {e : Exc} (hr : app.wsgiRoute env = .error e) (sc : StatusCodec) :
    app.wsgi sc env = wsgiFail [] e none := by
  unfold App.wsgi
  rw [hr]

theorem mayRun_post (m : MethodInfo) (ct : Str) : MayRun m ct (pys! "POST") := .inl rfl

/-- a POST runs `_handle_post_request` -/
theorem wsgiUnary_post (app : App Req Res) (env : Environ) (key : Str) (h : Headers) (ctx : RequestContext)
    (f : Req → RequestContext → Call Res) :
    (∀ e, app.wsgiPost env h = .error e → app.wsgiUnary env key (pys! "POST") h ctx f = wsgiFail [] e (some .empty)) ∧
    (∀ r, app.wsgiPost env h = .ok r → (app.wsgiUnary env key (pys! "POST") h ctx f).calls = [⟨key, ctx, some r.1⟩]) := by
  constructor
  · intro e he
    unfold App.wsgiUnary
    rw [if_neg (by decide), he]
  · intro r hr
    unfold App.wsgiUnary
    rw [if_neg (by decide), hr]
    dsimp only
    repeat' split
    all_goals first | exact wsgiFail_calls .. | rfl

theorem wsgiUnary_get (app : App Req Res) (env : Environ) (key : Str) (h : Headers) (ctx : RequestContext)
    (f : Req → RequestContext → Call Res) :
    (∀ e, app.wsgiGet env = .error e → app.wsgiUnary env key (pys! "GET") h ctx f = wsgiFail [] e (some .empty)) ∧
    (∀ r, app.wsgiGet env = .ok r → (app.wsgiUnary env key (pys! "GET") h ctx f).calls = [⟨key, ctx, some r.1⟩]) := by
  constructor
  · intro e he
    unfold App.wsgiUnary
    rw [if_pos rfl, he]
  · intro r hr
    unfold App.wsgiUnary
    rw [if_pos rfl, hr]
    dsimp only
    repeat' split
    all_goals first | exact wsgiFail_calls .. | rfl

theorem wsgi_posted {app : App Req Res} {env : Environ} {key : Str} {m : MethodInfo} {f : Req → RequestContext → Call Res}
    {codec : ServerCodec Req Res} (h : WsgiPosted app env key m f codec) (sc : StatusCodec) {e : Exc}
    (he : app.wsgiPostBody env codec = .error e) : app.wsgi sc env = wsgiFail [] (internalUnlessConnect e) (some .empty) := by
  rcases wsgiRoute_unary h.unary (mayRun_post ..) with ⟨_, ctx, hr, _⟩ | ⟨hno, _⟩
  · rw [wsgi_of_route hr]
    refine (wsgiUnary_post ..).1 _ ?_
    obtain ⟨name, h1, h2⟩ := h.codec
    unfold App.wsgiPost
    rw [(unaryCodecName_iff ..).1 h1, h2]
    dsimp only
    rw [he]
  · exact absurd h.ready hno

theorem wsgi_queried {app : App Req Res} {env : Environ} {key : Str} {m : MethodInfo} {f : Req → RequestContext → Call Res}
    (h : WsgiQueried app env key m f) (sc : StatusCodec) {e : Exc}
    (he : app.wsgiGetBody (wsgiParams env) = .error e) : app.wsgi sc env = wsgiFail [] (internalUnlessConnect e) (some .empty) := by
  rcases wsgiRoute_unary h.unary (.inr ⟨rfl, h.safe, h.unary.connect⟩) with ⟨_, ctx, hr, _⟩ | ⟨hno, _⟩
  · rw [wsgi_of_route hr]
    refine (wsgiUnary_get ..).1 _ ?_
    rw [wsgiGet_eq, he]
  · exact absurd h.ready hno

theorem wrap_exception (c : Code) (t : Str) {e : Exc} (h : e.isException = true) : ∃ msg, wrapExc c t e = .mk c msg := by
  unfold wrapExc
  rw [if_pos h]
  exact ⟨_, rfl⟩

/-! ### C34 -/

/-- C34, WSGI: an acceptable unary request runs the handler of its endpoint exactly once, on the message the request
carries. -/
theorem C34_wsgi_accepted (app : App Req Res) (sc : StatusCodec) (env : Environ) (key httpMethod : List Char) (m : MethodInfo)
    (f : Req → RequestContext → Call Res) (h : WsgiConnectUnary app env key m f httpMethod) (hp : Pieces env.input) (req : Req)
    (hacc : WsgiAcceptable app env m httpMethod req) : ∃ ctx, (app.wsgi sc env).calls = [⟨key, ctx, some req⟩] := by
  obtain ⟨hh, hreq⟩ := hacc
  have hrun : MayRun m ((wsgiHeaders env.vars).getD (pys! "content-type") []) httpMethod := by
    rcases hreq with ⟨h1, _⟩ | ⟨h1, h2, _⟩
    · exact .inl h1
    · exact .inr ⟨h1, h2, h.connect⟩
  rcases wsgiRoute_unary h hrun with ⟨_, ctx, hr, _⟩ | ⟨hno, _⟩
  · rw [wsgi_of_route hr]
    refine ⟨ctx, ?_⟩
    rcases hreq with ⟨rfl, hpost⟩ | ⟨rfl, _, hget⟩
    · obtain ⟨codec, hc⟩ := (wsgiPost_ok hp).2 hpost
      exact (wsgiUnary_post app env key _ ctx f).2 _ hc
    · obtain ⟨codec, hc⟩ := wsgiGet_ok.2 hget
      exact (wsgiUnary_get app env key _ ctx f).2 _ hc
  · exact absurd hh hno

/-- C34, WSGI: any other request runs no handler, and gets a complete response: an error with the HTTP status of its code, or a bare
405 or 415. -/
theorem C34_wsgi_rejected (app : App Req Res) (ho : Ordinary app) (sc : StatusCodec) (env : Environ) (key httpMethod : List Char)
    (m : MethodInfo) (f : Req → RequestContext → Call Res) (h : WsgiConnectUnary app env key m f httpMethod)
    (hp : Pieces env.input) (hno : ∀ req, ¬ WsgiAcceptable app env m httpMethod req) :
    (app.wsgi sc env).calls = [] ∧ ∃ r, WsgiGave (app.wsgi sc env) r ∧ CompleteRefusal r := by
  by_cases hrun : MayRun m ((wsgiHeaders env.vars).getD (pys! "content-type") []) httpMethod
  · rcases wsgiRoute_unary h hrun with ⟨hh, ctx, hr, _⟩ | ⟨_, msg, hr⟩
    · rw [wsgi_of_route hr]
      rcases hrun with rfl | ⟨rfl, hs, _⟩
      · cases hpost : app.wsgiPost env (wsgiHeaders env.vars) with
        | ok r => exact absurd ⟨hh, .inl ⟨rfl, (wsgiPost_ok hp).1 ⟨r.2, hpost⟩⟩⟩ (hno r.1)
        | error e =>
          rw [(wsgiUnary_post ..).1 _ hpost]
          exact ⟨wsgiFail_calls .., wsgiFail_refusal (wsgiPost_error ho hp hpost) _⟩
      · cases hget : app.wsgiGet env with
        | ok r => exact absurd ⟨hh, .inr ⟨rfl, hs, wsgiGet_ok.1 ⟨r.2, hget⟩⟩⟩ (hno r.1)
        | error e =>
          rw [(wsgiUnary_get ..).1 _ hget]
          exact ⟨wsgiFail_calls .., wsgiFail_refusal (wsgiGet_error ho hget) _⟩
    · rw [wsgi_refused_route hr]
      exact ⟨wsgiFail_calls .., wsgiFail_refusal (.inl ⟨_, _, rfl⟩) _⟩
  · obtain ⟨h1, a, _, h2⟩ := C29_wsgi_not_allowed app sc env key ⟨m, .unary f⟩ h.target httpMethod h.method _ rfl
      (fun hg => absurd hg h.connect.1) hrun
    exact ⟨h1, _, h2, .inr (.inl ⟨rfl, rfl, a, by simp⟩)⟩

/-! ### C37, C38, C05, C26, C28: WSGI POST -/

/-- C37, WSGI: a body shorter than its declared length is refused. -/
theorem C37_wsgi_truncated (app : App Req Res) (sc : StatusCodec) (env : Environ) (key : List Char) (m : MethodInfo)
    (f : Req → RequestContext → Call Res) (codec : ServerCodec Req Res) (h : WsgiPosted app env key m f codec)
    (hp : Pieces env.input) (n : Nat) (hn : DeclaredLength env n) (hshort : env.input.flatten.length < n) :
    WsgiRefused (app.wsgi sc env) .invalidArgument := by
  have hb : ∃ msg, app.wsgiPostBody env codec = .error (.mk .invalidArgument msg) := by
    unfold App.wsgiPostBody
    rcases wsgiRawBody_cases hp with ⟨h0, _⟩ | ⟨n', hn', hl, _⟩ | ⟨n', _, _, e⟩ | ⟨s, _, _, hs1, _, hs2, _⟩
    · exact absurd h0 (declared_not_none hn)
    · rw [declared_unique hn hn'] at hshort; omega
    · rw [e]; exact ⟨_, rfl⟩
    · obtain ⟨_, s', h1, _, h2⟩ := hn
      rw [hs1] at h1; cases h1
      rw [hs2] at h2; cases h2
  obtain ⟨msg, hb⟩ := hb
  rw [wsgi_posted h sc hb]
  exact wsgiFail_refused ..

/-- C38, WSGI: a body that cannot be decompressed is the client's fault. -/
theorem C38_wsgi_post_decompress_partial (app : App Req Res) (sc : StatusCodec) (env : Environ) (key : List Char) (m : MethodInfo)
    (f : Req → RequestContext → Call Res) (codec : ServerCodec Req Res) (h : WsgiPosted app env key m f codec)
    (hp : Pieces env.input) (raw : List UInt8) (hraw : WsgiBody env raw) (c : Compression)
    (hne : wsgiEncoding env ≠ pys! "identity") (hc : Dict.get? app.comps (wsgiEncoding env) = some c) (e : Exc)
    (he : c.decompress raw = .error e) (hx : e.isException = true) : WsgiRefused (app.wsgi sc env) .invalidArgument := by
  obtain ⟨msg, hw⟩ := wrap_exception .invalidArgument (pys! "Failed to decompress request body: ") hx
  have hb : app.wsgiPostBody env codec = .error (.mk .invalidArgument msg) := by
    unfold App.wsgiPostBody
    rw [(wsgiRawBody_ok hp).2 hraw]
    dsimp only
    rw [wsgiDecompress_eq, if_neg hne, hc]
    dsimp only
    rw [he]
    dsimp only
    rw [hw]
  rw [wsgi_posted h sc hb]
  exact wsgiFail_refused ..

/-- C38, WSGI: a body that cannot be decoded is the client's fault. -/
theorem C38_wsgi_post_decode_partial (app : App Req Res) (sc : StatusCodec) (env : Environ) (key : List Char) (m : MethodInfo)
    (f : Req → RequestContext → Call Res) (codec : ServerCodec Req Res) (h : WsgiPosted app env key m f codec)
    (hp : Pieces env.input) (raw data : List UInt8) (hraw : WsgiBody env raw)
    (hdata : Uncompressed app (wsgiEncoding env) raw data) (hlim : WithinLimit app data) (e : Exc)
    (he : codec.req.decode data = .error e) (hx : e.isException = true) :
    WsgiRefused (app.wsgi sc env) .invalidArgument := by
  obtain ⟨msg, hw⟩ := wrap_exception .invalidArgument (pys! "Failed to decode request body: ") hx
  have hb : app.wsgiPostBody env codec = .error (.mk .invalidArgument msg) := by
    unfold App.wsgiPostBody
    rw [(wsgiRawBody_ok hp).2 hraw]
    dsimp only
    rw [wsgiDecompress_ok.2 hdata]
    dsimp only
    rw [checkSize_ok.2 hlim]
    dsimp only
    rw [he]
    dsimp only
    rw [hw]
  rw [wsgi_posted h sc hb]
  exact wsgiFail_refused ..

/-- C05, WSGI: a POST body larger (after decompression) than the limit is refused. -/
theorem C05_wsgi_post_oversize (app : App Req Res) (sc : StatusCodec) (env : Environ) (key : List Char) (m : MethodInfo)
    (f : Req → RequestContext → Call Res) (codec : ServerCodec Req Res) (h : WsgiPosted app env key m f codec)
    (hp : Pieces env.input) (raw data : List UInt8) (hraw : WsgiBody env raw)
    (hdata : Uncompressed app (wsgiEncoding env) raw data) (hlim : ¬ WithinLimit app data) :
    WsgiRefused (app.wsgi sc env) .resourceExhausted := by
  have hb : ∃ msg, app.wsgiPostBody env codec = .error (.mk .resourceExhausted msg) := by
    unfold App.wsgiPostBody
    rw [(wsgiRawBody_ok hp).2 hraw]
    dsimp only
    rw [wsgiDecompress_ok.2 hdata]
    dsimp only
    cases hs : checkSize app.readMax data with
    | ok u => exact absurd (checkSize_ok.1 hs) hlim
    | error e =>
      unfold checkSize at hs
      repeat' split at hs
      all_goals first | (cases hs; exact ⟨_, rfl⟩) | cases hs
  obtain ⟨msg, hb⟩ := hb
  rw [wsgi_posted h sc hb]
  exact wsgiFail_refused ..

/-- C26, WSGI: a POST body in an unknown compression is refused. -/
theorem C26_wsgi_post (app : App Req Res) (sc : StatusCodec) (env : Environ) (key : List Char) (m : MethodInfo)
    (f : Req → RequestContext → Call Res) (codec : ServerCodec Req Res) (h : WsgiPosted app env key m f codec)
    (hp : Pieces env.input) (raw : List UInt8) (hraw : WsgiBody env raw) (hne : wsgiEncoding env ≠ pys! "identity")
    (hc : Dict.get? app.comps (wsgiEncoding env) = none) : WsgiRefused (app.wsgi sc env) .unimplemented := by
  have hb : app.wsgiPostBody env codec = .error (unknownCompression (wsgiEncoding env) app.comps) := by
    unfold App.wsgiPostBody
    rw [(wsgiRawBody_ok hp).2 hraw]
    dsimp only
    rw [wsgiDecompress_eq, if_neg hne, hc]
  rw [wsgi_posted h sc hb]
  exact wsgiFail_refused ..

/-- C28, WSGI: a POST in an unknown codec is answered 415. -/
theorem C28_wsgi_unary_unsupported (app : App Req Res) (sc : StatusCodec) (env : Environ) (key : List Char) (m : MethodInfo)
    (f : Req → RequestContext → Call Res) (h : WsgiConnectUnary app env key m f (pys! "POST"))
    (hh : ConnectHeaders (wsgiHeaders env.vars)) (name : List Char)
    (hn : UnaryCodecName ((wsgiHeaders env.vars).getD (pys! "content-type") []) name)
    (hc : Dict.get? app.codecs name = none) :
    (app.wsgi sc env).calls = [] ∧
    WsgiGave (app.wsgi sc env) ⟨415, [(pys! "Accept-Post", pys! "application/json, application/proto")], []⟩ := by
  rcases wsgiRoute_unary h (mayRun_post ..) with ⟨_, ctx, hr, _⟩ | ⟨hno, _⟩
  · rw [wsgi_of_route hr]
    have : app.wsgiPost env (wsgiHeaders env.vars) = .error (unsupportedMedia (pys! "application/json, application/proto")) := by
      unfold App.wsgiPost
      rw [(unaryCodecName_iff ..).1 hn, hc]
    rw [(wsgiUnary_post ..).1 _ this]
    exact ⟨wsgiFail_calls .., wsgiFail_http ..⟩
  · exact absurd hh hno

/-! ### WSGI GET -/

/-- C38, WSGI: a `message` that is not base64 although it says so is the client's fault. -/
theorem C38_wsgi_get_base64_partial (app : App Req Res) (sc : StatusCodec) (env : Environ) (key : List Char) (m : MethodInfo)
    (f : Req → RequestContext → Call Res) (h : WsgiQueried app env key m f) (text : List Char)
    (ht : Param (wsgiParams env) (pys! "message") text) (hb : Param (wsgiParams env) (pys! "base64") ['1'])
    (hbad : urlsafeB64decode (text ++ pys! "===") = none) : WsgiRefused (app.wsgi sc env) .invalidArgument := by
  have : ∃ msg, app.wsgiGetBody (wsgiParams env) = .error (.mk .invalidArgument msg) := by
    rw [wsgiGetBody_eq]
    unfold wsgiGetMessage
    rw [firstParam_iff.2 ht]
    dsimp only
    rw [if_pos (firstParam_iff.2 hb), hbad]
    exact ⟨_, rfl⟩
  obtain ⟨msg, hb⟩ := this
  rw [wsgi_queried h sc hb]
  exact wsgiFail_refused ..

/-- C38, WSGI: a request without `message` is the client's fault. -/
theorem C38_wsgi_get_missing_partial (app : App Req Res) (sc : StatusCodec) (env : Environ) (key : List Char) (m : MethodInfo)
    (f : Req → RequestContext → Call Res) (h : WsgiQueried app env key m f)
    (ht : ∀ text, ¬ Param (wsgiParams env) (pys! "message") text) : WsgiRefused (app.wsgi sc env) .invalidArgument := by
  have hb : app.wsgiGetBody (wsgiParams env) = .error messageRequired := by
    rw [wsgiGetBody_eq]
    unfold wsgiGetMessage
    rw [firstParam_none.2 ht]
  rw [wsgi_queried h sc hb]
  exact wsgiFail_refused ..

/-- C38, WSGI: a `message` that cannot be decoded is the client's fault. -/
theorem C38_wsgi_get_decode_partial (app : App Req Res) (sc : StatusCodec) (env : Environ) (key : List Char) (m : MethodInfo)
    (f : Req → RequestContext → Call Res) (h : WsgiQueried app env key m f) (codec : ServerCodec Req Res)
    (hcodec : QueryCodec app (wsgiParams env) codec) (raw data : List UInt8) (hraw : MessageParam (wsgiParams env) raw)
    (hdata : (∀ v, ¬ Param (wsgiParams env) (pys! "compression") v) ∧ data = raw ∨
      ∃ v c, Param (wsgiParams env) (pys! "compression") v ∧ Dict.get? app.comps v = some c ∧ c.decompress raw = .ok data)
    (e : Exc) (he : codec.req.decode data = .error e) (hx : e.isException = true) :
    WsgiRefused (app.wsgi sc env) .invalidArgument := by
  obtain ⟨msg, hw⟩ := wrap_exception .invalidArgument (pys! "Failed to decode message: ") hx
  have hb : app.wsgiGetBody (wsgiParams env) = .error (.mk .invalidArgument msg) := by
    rw [wsgiGetBody_eq, wsgiGetMessage_ok.2 hraw]
    dsimp only
    rw [wsgiGetData_ok.2 hdata]
    dsimp only
    obtain ⟨name, h1, h2⟩ := hcodec
    rw [encodingParam.2 h1, h2]
    dsimp only
    rw [he]
    dsimp only
    rw [hw]
  rw [wsgi_queried h sc hb]
  exact wsgiFail_refused ..

/-- C26, WSGI: a `message` in an unknown compression is refused. -/
theorem C26_wsgi_get (app : App Req Res) (sc : StatusCodec) (env : Environ) (key : List Char) (m : MethodInfo)
    (f : Req → RequestContext → Call Res) (h : WsgiQueried app env key m f) (raw : List UInt8)
    (hraw : MessageParam (wsgiParams env) raw) (v : List Char) (hv : Param (wsgiParams env) (pys! "compression") v)
    (hc : Dict.get? app.comps v = none) : WsgiRefused (app.wsgi sc env) .unimplemented := by
  have hb : app.wsgiGetBody (wsgiParams env) = .error (unknownCompression v app.comps) := by
    rw [wsgiGetBody_eq, wsgiGetMessage_ok.2 hraw]
    dsimp only
    unfold wsgiGetData
    rw [firstParam_iff.2 hv]
    dsimp only
    rw [hc]
  rw [wsgi_queried h sc hb]
  exact wsgiFail_refused ..

/-- C38, WSGI: what the code does instead with a `message` that cannot be decompressed: INTERNAL. -/
theorem C38_wsgi_get_decompress_internal (app : App Req Res) (sc : StatusCodec) (env : Environ) (key : List Char) (m : MethodInfo)
    (f : Req → RequestContext → Call Res) (h : WsgiQueried app env key m f) (raw : List UInt8)
    (hraw : MessageParam (wsgiParams env) raw) (v : List Char) (hv : Param (wsgiParams env) (pys! "compression") v)
    (c : Compression) (hc : Dict.get? app.comps v = some c) (cls : Cls) (msg : List Char)
    (he : c.decompress raw = .error (.other cls msg)) : WsgiRefused (app.wsgi sc env) .internal := by
  have hb : app.wsgiGetBody (wsgiParams env) = .error (.other cls msg) := by
    rw [wsgiGetBody_eq, wsgiGetMessage_ok.2 hraw]
    dsimp only
    unfold wsgiGetData
    rw [firstParam_iff.2 hv]
    dsimp only
    rw [hc]
    dsimp only
    rw [he]
  rw [wsgi_queried h sc hb]
  exact wsgiFail_refused ..

/-! ### ASGI: lemmas -/

theorem asgi_of_route {app : App Req Res} {scope : Scope} {key : Str} {m : MethodInfo} {f : Req → RequestContext → Call Res}
    {h : Headers} {ctx : RequestContext} (hr : app.asgiRoute scope = .ok
      { key, ep := ⟨m, .unary f⟩, httpMethod := scope.method, headers := h, proto := .connect, ctx }) (sc : StatusCodec)
    (env : Env) :
    (∀ e, app.asgiCodec scope { key, ep := ⟨m, .unary f⟩, httpMethod := scope.method, headers := h, proto := .connect, ctx } =
        .error e → app.asgi sc scope env = asgiFail env [] [] e (some .empty)) ∧
    (∀ r, app.asgiCodec scope { key, ep := ⟨m, .unary f⟩, httpMethod := scope.method, headers := h, proto := .connect, ctx } =
        .ok r → app.asgi sc scope env = app.asgiUnary env key scope.method h r.2 r.1 ctx f) := by
  constructor
  · intro e he
    unfold App.asgi
    rw [hr]
    dsimp only
    rw [he]
  · intro r hc
    unfold App.asgi
    rw [hr]
    dsimp only
    rw [hc]

theorem asgi_refused_route {app : App Req Res} {scope : Scope} {e : Exc} (hr : app.asgiRoute scope = .error e) (sc : StatusCodec)
    (env : Env) : app.asgi sc scope env = asgiFail env [] [] e none := by
  unfold App.asgi
  rw [hr]

theorem asgiUnary_post (app : App Req Res) (env : Env) (key : Str) (h : Headers) (codec : ServerCodec Req Res)
    (params : Dict Str (List Str)) (ctx : RequestContext) (f : Req → RequestContext → Call Res) :
    (∀ e, app.asgiPost env h codec = .error e →
      app.asgiUnary env key (pys! "POST") h codec params ctx f = asgiFail env [] [] e (some .empty)) ∧
    (∀ r, app.asgiPost env h codec = .ok r →
      (app.asgiUnary env key (pys! "POST") h codec params ctx f).calls = [⟨key, ctx, some r⟩]) := by
  constructor
  · intro e he
    unfold App.asgiUnary
    dsimp only
    rw [if_neg (by decide), he]
  · intro r hr
    unfold App.asgiUnary
    dsimp only
    rw [if_neg (by decide), hr]
    dsimp only
    repeat' split
    all_goals first | exact asgiFail_calls .. | rfl

theorem asgiUnary_get (app : App Req Res) (env : Env) (key : Str) (h : Headers) (codec : ServerCodec Req Res)
    (params : Dict Str (List Str)) (ctx : RequestContext) (f : Req → RequestContext → Call Res) :
    (∀ e, app.asgiGet params codec = .error e →
      app.asgiUnary env key (pys! "GET") h codec params ctx f = asgiFail env [] [] e (some .empty)) ∧
    (∀ r, app.asgiGet params codec = .ok r →
      (app.asgiUnary env key (pys! "GET") h codec params ctx f).calls = [⟨key, ctx, some r⟩]) := by
  constructor
  · intro e he
    unfold App.asgiUnary
    dsimp only
    rw [if_pos rfl, he]
  · intro r hr
    unfold App.asgiUnary
    dsimp only
    rw [if_pos rfl, hr]
    dsimp only
    repeat' split
    all_goals first | exact asgiFail_calls .. | rfl

/-- the codec of a POST -/
theorem asgiCodec_post {app : App Req Res} {scope : Scope} {key : Str} {m : MethodInfo} {f : Req → RequestContext → Call Res}
    {h : Headers} {ctx : RequestContext} (hm : scope.method = pys! "POST") {name : Str}
    (hn : UnaryCodecName (h.getD (pys! "content-type") []) name) :
    app.asgiCodec scope { key, ep := ⟨m, .unary f⟩, httpMethod := scope.method, headers := h, proto := .connect, ctx } =
      match app.codecs.get? name with
      | none => .error (unsupportedMedia (pys! "application/json, application/proto"))
      | some codec => .ok ([], codec) := by
  unfold App.asgiCodec asgiCodecName
  rw [hm, if_neg (by decide)]
  have hn' : connectCodecName (h.getD (pys! "content-type") []) (!true) = name := (unaryCodecName_iff ..).1 hn
  dsimp only [Handler.isUnary, Proto.codecNameFromContentType]
  rw [hn']
  cases Dict.get? app.codecs name <;> rfl

/-- the codec of a GET -/
theorem asgiCodec_get {app : App Req Res} {scope : Scope} {key : Str} {m : MethodInfo} {f : Req → RequestContext → Call Res}
    {h : Headers} {ctx : RequestContext} (hm : scope.method = pys! "GET") {q : Str} (hq : utf8Decode scope.query = some q)
    {name : Str} (hn : Param (parseQs q) (pys! "encoding") name ∨ (name = [] ∧ ∀ v, ¬ Param (parseQs q) (pys! "encoding") v)) :
    app.asgiCodec scope { key, ep := ⟨m, .unary f⟩, httpMethod := scope.method, headers := h, proto := .connect, ctx } =
      match app.codecs.get? name with
      | none => .error (unsupportedMedia (pys! "application/json, application/proto"))
      | some codec => .ok (parseQs q, codec) := by
  unfold App.asgiCodec asgiCodecName
  rw [if_pos hm, hq]
  have e := encodingParam.2 hn
  dsimp only
  cases hf : firstParam (parseQs q) (pys! "encoding") with
  | none => rw [hf] at e; subst e; dsimp only; cases Dict.get? app.codecs [] <;> rfl
  | some v => rw [hf] at e; subst e; dsimp only; cases Dict.get? app.codecs v <;> rfl

theorem asgi_posted {app : App Req Res} {scope : Scope} {headers : Headers} {key : Str} {m : MethodInfo}
    {f : Req → RequestContext → Call Res} {codec : ServerCodec Req Res} (h : AsgiPosted app scope headers key m f codec)
    (sc : StatusCodec) (env : Env) {e : Exc} (he : app.asgiPost env headers codec = .error e) :
    app.asgi sc scope env = asgiFail env [] [] e (some .empty) := by
  rcases asgiRoute_unary h.unary (by rw [h.method]; exact mayRun_post ..) with ⟨_, ctx, hr, _⟩ | ⟨hno, _⟩
  · obtain ⟨name, h1, h2⟩ := h.codec
    have hc := asgiCodec_post (app := app) (key := key) (m := m) (f := f) (ctx := ctx) h.method h1
    rw [h2] at hc
    rw [(asgi_of_route hr sc env).2 _ hc, h.method]
    exact (asgiUnary_post ..).1 _ he
  · exact absurd h.ready hno

theorem asgi_queried {app : App Req Res} {scope : Scope} {headers : Headers} {key : Str} {m : MethodInfo}
    {f : Req → RequestContext → Call Res} {params : Dict Str (List Str)} {codec : ServerCodec Req Res}
    (h : AsgiQueried app scope headers key m f params codec) (sc : StatusCodec) (env : Env) {e : Exc}
    (he : app.asgiGet params codec = .error e) : app.asgi sc scope env = asgiFail env [] [] e (some .empty) := by
  rcases asgiRoute_unary h.unary (.inr ⟨h.method, h.safe, h.unary.connect⟩) with ⟨_, ctx, hr, _⟩ | ⟨hno, _⟩
  · obtain ⟨name, h1, h2⟩ := h.codec
    obtain ⟨q, hq, hparams⟩ := h.query
    subst hparams
    have hc := asgiCodec_get (app := app) (key := key) (m := m) (f := f) (ctx := ctx) (h := headers) h.method hq h1
    rw [h2] at hc
    rw [(asgi_of_route hr sc env).2 _ hc, h.method]
    exact (asgiUnary_get ..).1 _ he
  · exact absurd h.ready hno

/-! ### C34, ASGI -/

/-- C34, ASGI: an acceptable unary request runs the handler of its endpoint exactly once, on the message the request carries. -/
theorem C34_asgi_accepted (app : App Req Res) (sc : StatusCodec) (scope : Scope) (env : Env) (headers : Headers)
    (key : List Char) (m : MethodInfo) (f : Req → RequestContext → Call Res)
    (h : AsgiConnectUnary app scope headers key m f) (req : Req) (hacc : AsgiAcceptable app scope env headers m req) :
    ∃ ctx, (app.asgi sc scope env).calls = [⟨key, ctx, some req⟩] := by
  obtain ⟨hh, hreq⟩ := hacc
  have hrun : MayRun m (headers.getD (pys! "content-type") []) scope.method := by
    rcases hreq with ⟨h1, _⟩ | ⟨h1, h2, _⟩
    · exact .inl h1
    · exact .inr ⟨h1, h2, h.connect⟩
  rcases asgiRoute_unary h hrun with ⟨_, ctx, hr, _⟩ | ⟨hno, _⟩
  · refine ⟨ctx, ?_⟩
    rcases hreq with ⟨hm, name, codec, raw, data, h1, h2, h3⟩ | ⟨hm, _, q, hq, name, codec, raw, data, enc, h1, h2, h3⟩
    · have hc := asgiCodec_post (app := app) (key := key) (m := m) (f := f) (ctx := ctx) hm h1
      rw [h2] at hc
      rw [(asgi_of_route hr sc env).2 _ hc, hm]
      exact (asgiUnary_post ..).2 _ (asgiPost_ok.2 ⟨raw, data, h3⟩)
    · have hc := asgiCodec_get (app := app) (key := key) (m := m) (f := f) (ctx := ctx) (h := headers) hm hq h1
      rw [h2] at hc
      rw [(asgi_of_route hr sc env).2 _ hc, hm]
      exact (asgiUnary_get ..).2 _ (asgiGet_ok.2 ⟨raw, data, enc, h3⟩)
  · exact absurd hh hno

/-- C34, ASGI: any other request runs no handler; if the events of the request end and the response can be sent, it is a complete
one: an error with the HTTP status of its code, or a bare 405 or 415. -/
theorem C34_asgi_rejected (app : App Req Res) (sc : StatusCodec) (scope : Scope) (env : Env)
    (headers : Headers) (key : List Char) (m : MethodInfo) (f : Req → RequestContext → Call Res)
    (h : AsgiConnectUnary app scope headers key m f) (hno : ∀ req, ¬ AsgiAcceptable app scope env headers m req) :
    (app.asgi sc scope env).calls = [] ∧ (Ordinary app → Reliable env → Reported env.receive →
      ∃ r, AsgiGave (app.asgi sc scope env) r ∧ CompleteRefusal r) := by
  by_cases hrun : MayRun m (headers.getD (pys! "content-type") []) scope.method
  · rcases asgiRoute_unary h hrun with ⟨hh, ctx, hr, _⟩ | ⟨_, msg, hr⟩
    · cases hcod : app.asgiCodec scope
          { key, ep := ⟨m, .unary f⟩, httpMethod := scope.method, headers, proto := .connect, ctx } with
      | error e =>
        rw [(asgi_of_route hr sc env).1 _ hcod]
        refine ⟨asgiFail_calls .., fun _ hrel _ => asgiFail_refusal hrel ?_ _⟩
        unfold App.asgiCodec at hcod
        split at hcod
        · rename_i hn
          cases hcod
          unfold asgiCodecName at hn
          repeat' split at hn
          all_goals first | (cases hn; exact .inr (.inl ⟨_, _, rfl⟩)) | cases hn
        · split at hcod
          · cases hcod; exact .inr (.inr ⟨_, rfl⟩)
          · cases hcod
      | ok pc =>
        rw [(asgi_of_route hr sc env).2 _ hcod]
        rcases hrun with hm | ⟨hm, hs, _⟩
        · have hn : UnaryCodecName (headers.getD (pys! "content-type") [])
              (connectCodecName (headers.getD (pys! "content-type") []) false) := (unaryCodecName_iff ..).2 rfl
          have hc := asgiCodec_post (app := app) (key := key) (m := m) (f := f) (ctx := ctx) hm hn
          rw [hcod] at hc
          split at hc
          · cases hc
          · rename_i codec hcodec
            cases hc
            rw [hm]
            cases hpost : app.asgiPost env headers codec with
            | ok req =>
              obtain ⟨raw, data, h3⟩ := asgiPost_ok.1 hpost
              exact absurd ⟨hh, .inl ⟨hm, _, codec, raw, data, hn, hcodec, h3⟩⟩ (hno req)
            | error e =>
              rw [(asgiUnary_post ..).1 _ hpost]
              exact ⟨asgiFail_calls .., fun ho hrel hrep => asgiFail_refusal hrel (asgiPost_error ho hrep hcodec hpost) _⟩
        · cases hq : utf8Decode scope.query with
          | none =>
            exfalso
            unfold App.asgiCodec asgiCodecName at hcod
            rw [if_pos hm, hq] at hcod
            cases hcod
          | some q =>
            have hn := (encodingParam (params := parseQs q)).1 rfl
            have hc := asgiCodec_get (app := app) (key := key) (m := m) (f := f) (ctx := ctx) (h := headers) hm hq hn
            rw [hcod] at hc
            split at hc
            · cases hc
            · rename_i codec hcodec
              cases hc
              rw [hm]
              cases hget : app.asgiGet (parseQs q) codec with
              | ok req =>
                obtain ⟨raw, data, enc, h3⟩ := asgiGet_ok.1 hget
                exact absurd ⟨hh, .inr ⟨hm, hs, q, hq, _, codec, raw, data, enc, hn, hcodec, h3⟩⟩ (hno req)
              | error e =>
                rw [(asgiUnary_get ..).1 _ hget]
                exact ⟨asgiFail_calls .., fun ho hrel _ => asgiFail_refusal hrel (asgiGet_error ho hcodec hget) _⟩
    · rw [asgi_refused_route hr]
      exact ⟨asgiFail_calls .., fun _ hrel _ => asgiFail_refusal hrel (.inl ⟨_, _, rfl⟩) _⟩
  · obtain ⟨h1, h2⟩ := C29_asgi_not_allowed app sc scope env key ⟨m, .unary f⟩ h.target headers h.decoded _ rfl
      (fun hg => absurd hg h.connect.1) hrun
    refine ⟨h1, fun _ hrel _ => ?_⟩
    obtain ⟨a, _, h3⟩ := h2 hrel
    exact ⟨_, h3, .inr (.inl ⟨rfl, rfl, a, by simp⟩)⟩

/-! ### C37, C38, C05, C26, C28: ASGI -/

/-- C37, ASGI: the client disconnects in the middle of the body. -/
theorem C37_asgi_disconnect (app : App Req Res) (sc : StatusCodec) (scope : Scope) (env : Env) (headers : Headers)
    (key : List Char) (m : MethodInfo) (f : Req → RequestContext → Call Res) (codec : ServerCodec Req Res)
    (h : AsgiPosted app scope headers key m f codec) (hd : Disconnects env.receive) :
    (app.asgi sc scope env).calls = [] ∧ (Reliable env → AsgiRefused (app.asgi sc scope env) .canceled) := by
  have he : app.asgiPost env headers codec = .error (.mk .canceled (pys! "Client disconnected before request completion")) := by
    rw [asgiPost_eq, asgiBody_disconnect hd]
  rw [asgi_posted h sc env he]
  exact ⟨asgiFail_calls .., fun hr => asgiFail_refused hr ..⟩

/-- C05, ASGI: a POST body larger (after decompression) than the limit is refused. -/
theorem C05_asgi_post_oversize (app : App Req Res) (sc : StatusCodec) (scope : Scope) (env : Env) (headers : Headers)
    (key : List Char) (m : MethodInfo) (f : Req → RequestContext → Call Res) (codec : ServerCodec Req Res)
    (h : AsgiPosted app scope headers key m f codec) (raw data : List UInt8) (hraw : AsgiBody env.receive raw)
    (hdata : AsgiUncompressed app (lower (headers.getD (pys! "content-encoding") (pys! "identity"))) raw data)
    (hlim : ¬ WithinLimit app data) :
    (app.asgi sc scope env).calls = [] ∧ (Reliable env → AsgiRefused (app.asgi sc scope env) .resourceExhausted) := by
  have he : ∃ msg, app.asgiPost env headers codec = .error (.mk .resourceExhausted msg) := by
    obtain ⟨hb1, hb2⟩ := asgiBody_ok.2 hraw
    rw [asgiPost_eq, hb1]
    dsimp only
    rw [hb2, asgiInflate_ok.2 hdata]
    dsimp only
    cases hs : checkSize app.readMax data with
    | ok u => exact absurd (checkSize_ok.1 hs) hlim
    | error e =>
      unfold checkSize at hs
      repeat' split at hs
      all_goals first | (cases hs; exact ⟨_, rfl⟩) | cases hs
  obtain ⟨msg, he⟩ := he
  rw [asgi_posted h sc env he]
  exact ⟨asgiFail_calls .., fun hr => asgiFail_refused hr ..⟩

/-- C26, ASGI: a POST body in an unknown compression is refused. -/
theorem C26_asgi_post (app : App Req Res) (sc : StatusCodec) (scope : Scope) (env : Env) (headers : Headers)
    (key : List Char) (m : MethodInfo) (f : Req → RequestContext → Call Res) (codec : ServerCodec Req Res)
    (h : AsgiPosted app scope headers key m f codec) (raw : List UInt8) (hraw : AsgiBody env.receive raw)
    (hc : Dict.get? app.comps (lower (headers.getD (pys! "content-encoding") (pys! "identity"))) = none) :
    (app.asgi sc scope env).calls = [] ∧ (Reliable env → AsgiRefused (app.asgi sc scope env) .unimplemented) := by
  have he : ∃ msg, app.asgiPost env headers codec = .error (.mk .unimplemented msg) := by
    obtain ⟨hb1, _⟩ := asgiBody_ok.2 hraw
    rw [asgiPost_eq, hb1]
    dsimp only
    unfold asgiInflate
    rw [hc]
    exact ⟨_, rfl⟩
  obtain ⟨msg, he⟩ := he
  rw [asgi_posted h sc env he]
  exact ⟨asgiFail_calls .., fun hr => asgiFail_refused hr ..⟩

/-- C28, ASGI: a POST in an unknown codec is answered 415. -/
theorem C28_asgi_unary_unsupported (app : App Req Res) (sc : StatusCodec) (scope : Scope) (env : Env) (headers : Headers)
    (key : List Char) (m : MethodInfo) (f : Req → RequestContext → Call Res)
    (h : AsgiConnectUnary app scope headers key m f) (hm : scope.method = pys! "POST") (hh : ConnectHeaders headers)
    (name : List Char) (hn : UnaryCodecName (headers.getD (pys! "content-type") []) name)
    (hc : Dict.get? app.codecs name = none) :
    (app.asgi sc scope env).calls = [] ∧ (Reliable env → AsgiGave (app.asgi sc scope env)
      ⟨415, [(pys! "Accept-Post", pys! "application/json, application/proto")], []⟩) := by
  rcases asgiRoute_unary h (by rw [hm]; exact mayRun_post ..) with ⟨_, ctx, hr, _⟩ | ⟨hno, _⟩
  · have hcod := asgiCodec_post (app := app) (key := key) (m := m) (f := f) (ctx := ctx) hm hn
    rw [hc] at hcod
    rw [(asgi_of_route hr sc env).1 _ hcod]
    exact ⟨asgiFail_calls .., fun hr => asgiFail_http hr ..⟩
  · exact absurd hh hno

/-- C38, ASGI: a `message` that is not base64 although it says so is the client's fault. -/
theorem C38_asgi_get_base64_partial (app : App Req Res) (sc : StatusCodec) (scope : Scope) (env : Env) (headers : Headers)
    (key : List Char) (m : MethodInfo) (f : Req → RequestContext → Call Res) (params : List (List Char × List (List Char)))
    (codec : ServerCodec Req Res) (h : AsgiQueried app scope headers key m f params codec) (text : List Char)
    (ht : Param params (pys! "message") text) (hb : Param params (pys! "base64") ['1'])
    (hbad : urlsafeB64decode (text ++ pys! "===") = none) :
    (app.asgi sc scope env).calls = [] ∧ (Reliable env → AsgiRefused (app.asgi sc scope env) .invalidArgument) := by
  have he : ∃ msg, app.asgiGet params codec = .error (.mk .invalidArgument msg) := by
    rw [asgiGet_eq]
    unfold asgiGetMessage
    rw [firstParam_iff.2 ht]
    dsimp only
    rw [if_pos (firstParam_iff.2 hb), hbad]
    exact ⟨_, rfl⟩
  obtain ⟨msg, he⟩ := he
  rw [asgi_queried h sc env he]
  exact ⟨asgiFail_calls .., fun hr => asgiFail_refused hr ..⟩

/-- C38, ASGI: a request without `message` is the client's fault. -/
theorem C38_asgi_get_missing_partial (app : App Req Res) (sc : StatusCodec) (scope : Scope) (env : Env) (headers : Headers)
    (key : List Char) (m : MethodInfo) (f : Req → RequestContext → Call Res) (params : List (List Char × List (List Char)))
    (codec : ServerCodec Req Res) (h : AsgiQueried app scope headers key m f params codec)
    (ht : ∀ text, ¬ Param params (pys! "message") text) :
    (app.asgi sc scope env).calls = [] ∧ (Reliable env → AsgiRefused (app.asgi sc scope env) .invalidArgument) := by
  have he : app.asgiGet params codec = .error messageRequired := by
    rw [asgiGet_eq]
    unfold asgiGetMessage
    rw [firstParam_none.2 ht]
  rw [asgi_queried h sc env he]
  exact ⟨asgiFail_calls .., fun hr => asgiFail_refused hr ..⟩

/-- C26, ASGI: a `message` in an unknown compression is refused. -/
theorem C26_asgi_get (app : App Req Res) (sc : StatusCodec) (scope : Scope) (env : Env) (headers : Headers)
    (key : List Char) (m : MethodInfo) (f : Req → RequestContext → Call Res) (params : List (List Char × List (List Char)))
    (codec : ServerCodec Req Res) (h : AsgiQueried app scope headers key m f params codec) (raw : List UInt8)
    (hraw : MessageParam params raw) (v : List Char) (hv : Param params (pys! "compression") v)
    (hc : Dict.get? app.comps v = none) :
    (app.asgi sc scope env).calls = [] ∧ (Reliable env → AsgiRefused (app.asgi sc scope env) .unimplemented) := by
  have he : app.asgiGet params codec = .error (unknownCompression v app.comps) := by
    rw [asgiGet_eq, asgiGetMessage_ok.2 hraw]
    dsimp only
    unfold asgiInflate
    rw [compressionParam.2 (.inl hv), hc]
  rw [asgi_queried h sc env he]
  exact ⟨asgiFail_calls .., fun hr => asgiFail_refused hr ..⟩

/-- C38, ASGI: what the code does instead with a body that cannot be decoded: UNKNOWN (HTTP 500), and the exception goes on to
the application server. -/
theorem C38_asgi_post_decode_unknown (app : App Req Res) (sc : StatusCodec) (scope : Scope) (env : Env) (headers : Headers)
    (key : List Char) (m : MethodInfo) (f : Req → RequestContext → Call Res) (codec : ServerCodec Req Res)
    (h : AsgiPosted app scope headers key m f codec) (raw data : List UInt8) (hraw : AsgiBody env.receive raw)
    (hdata : AsgiUncompressed app (lower (headers.getD (pys! "content-encoding") (pys! "identity"))) raw data)
    (hlim : WithinLimit app data) (cls : Cls) (msg : List Char) (he : codec.req.decode data = .error (.other cls msg))
    (hr : Reliable env) : AsgiRefused (app.asgi sc scope env) .unknown := by
  have he : app.asgiPost env headers codec = .error (.other cls msg) := by
    obtain ⟨hb1, hb2⟩ := asgiBody_ok.2 hraw
    rw [asgiPost_eq, hb1]
    dsimp only
    rw [hb2, asgiInflate_ok.2 hdata]
    dsimp only
    rw [checkSize_ok.2 hlim]
    exact he
  rw [asgi_posted h sc env he]
  obtain ⟨r, h1, h2⟩ := asgiFail_error hr ([] : List (Called Req)) (.inr ⟨cls, msg, rfl⟩) (some .empty)
  exact ⟨asgiFail_calls .., r, _, h1, h2, rfl⟩

/-! ### C37: fragmentation -/

theorem wsgiRawBody_frag {env env' : Environ} (hv : env'.vars = env.vars) (hp : Pieces env.input) (hp' : Pieces env'.input)
    (hf : env'.input.flatten = env.input.flatten) : wsgiRawBody env' = wsgiRawBody env := by
  unfold wsgiRawBody
  rw [hv, readBody_flatten _ hp, readBody_flatten _ hp', hf]
  have : ∀ n, readBodyWithLength env'.input n = readBodyWithLength env.input n := by
    intro n
    rw [readBodyWithLength_eq _ hp, readBodyWithLength_eq _ hp', hf]
  simp only [this]

theorem requests_frag (app : App Req Res) (codec : ServerCodec Req Res) (comp : Compression) {xs ys : List Bytes}
    (h : xs.flatten = ys.flatten) :
    (feedAll (app.reader codec comp) (ReaderState.init ()) xs).1 = (feedAll (app.reader codec comp) (ReaderState.init ()) ys).1 ∧
    (feedAll (app.reader codec comp) (ReaderState.init ()) xs).2.1 =
      (feedAll (app.reader codec comp) (ReaderState.init ()) ys).2.1 :=
  C04_chunking_independent _ (fun _ _ _ => rfl) _ _ _ h

theorem wsgiRequests_frag (app : App Req Res) (codec : ServerCodec Req Res) (comp : Compression) {env env' : Environ}
    (hp : Pieces env.input) (hp' : Pieces env'.input) (hf : env'.input.flatten = env.input.flatten) :
    app.wsgiRequests env' codec comp = app.wsgiRequests env codec comp := by
  obtain ⟨h1, h2⟩ := requests_frag app codec comp (xs := readBody env'.input) (ys := readBody env.input)
    (by rw [readBody_flatten _ hp, readBody_flatten _ hp', hf])
  unfold App.wsgiRequests
  simp only [h1, h2]

/-- C37, WSGI: nothing the application does depends on the pieces in which the application server hands out the body: the whole
outcome (calls, messages received, response) is the same for every way of cutting the same bytes.  All kinds of requests. -/
theorem C37_wsgi_fragmentation (app : App Req Res) (sc : StatusCodec) (env : Environ) (hp : Pieces env.input)
    (input : List (List UInt8)) (hp' : Pieces input) (hf : input.flatten = env.input.flatten) :
    app.wsgi sc { env with input } = app.wsgi sc env := by
  have hraw := wsgiRawBody_frag (env := env) (env' := { env with input }) rfl hp hp' hf
  have hr : app.wsgiRoute { env with input } = app.wsgiRoute env := rfl
  unfold App.wsgi
  rw [hr]
  cases app.wsgiRoute env with
  | error e => rfl
  | ok r =>
    dsimp only
    have hu : ∀ f, app.wsgiUnary { env with input } r.key r.httpMethod r.headers r.ctx f =
        app.wsgiUnary env r.key r.httpMethod r.headers r.ctx f := by
      intro f
      have hg : app.wsgiGet { env with input } = app.wsgiGet env := rfl
      have hpo : app.wsgiPost { env with input } r.headers = app.wsgiPost env r.headers := by
        unfold App.wsgiPost App.wsgiPostBody
        rw [hraw]
        rfl
      unfold App.wsgiUnary
      rw [hg, hpo]
    have hs : ∀ p h, app.wsgiStream sc { env with input } r.key p r.headers r.ctx h =
        app.wsgiStream sc env r.key p r.headers r.ctx h := by
      intro p h
      have : ∀ codec comp, app.wsgiRequests { env with input } codec comp = app.wsgiRequests env codec comp :=
        fun codec comp => wsgiRequests_frag app codec comp hp hp' hf
      unfold App.wsgiStream
      simp only [this]
    split
    · rename_i f _ _
      exact hu f
    · exact hs _ _

/-- C37, WSGI: a unary body longer than its declared length is cut there. -/
theorem C37_wsgi_cut (app : App Req Res) (sc : StatusCodec) (env : Environ) (key : List Char) (m : MethodInfo)
    (f : Req → RequestContext → Call Res) (h : WsgiConnectUnary app env key m f (pys! "POST")) (hp : Pieces env.input)
    (n : Nat) (hn : DeclaredLength env n) (hlen : n ≤ env.input.flatten.length) :
    app.wsgi sc env = app.wsgi sc { env with input := [env.input.flatten.take n] } := by
  have hp' : Pieces [env.input.flatten.take n] := by
    intro s hs
    rw [List.mem_singleton] at hs
    subst hs
    intro e
    have := congrArg List.length e
    rw [List.length_take] at this
    have := hn.1
    simp at *
    omega
  have hraw : wsgiRawBody { env with input := [env.input.flatten.take n] } = wsgiRawBody env := by
    rw [(wsgiRawBody_ok hp).2 (.declared hn hlen)]
    rw [wsgiRawBody_ok (env := { env with input := [env.input.flatten.take n] }) hp']
    have hd : DeclaredLength { env with input := [env.input.flatten.take n] } n := hn
    have hfl : [env.input.flatten.take n].flatten = env.input.flatten.take n := by
      rw [List.flatten_cons, List.flatten_nil, List.append_nil]
    have := WsgiBody.declared hd (by rw [hfl, List.length_take]; omega)
    dsimp only at this
    rw [hfl, List.take_take, Nat.min_self] at this
    exact this
  rcases wsgiRoute_unary h (mayRun_post ..) with ⟨_, ctx, hr, _⟩ | ⟨_, msg, hr⟩
  · have hr' : app.wsgiRoute { env with input := [env.input.flatten.take n] } = app.wsgiRoute env := rfl
    rw [wsgi_of_route hr, wsgi_of_route (hr'.trans hr)]
    have hg : app.wsgiGet { env with input := [env.input.flatten.take n] } = app.wsgiGet env := rfl
    have hpo : app.wsgiPost { env with input := [env.input.flatten.take n] } (wsgiHeaders env.vars) =
        app.wsgiPost env (wsgiHeaders env.vars) := by
      unfold App.wsgiPost App.wsgiPostBody
      rw [hraw]
      rfl
    unfold App.wsgiUnary
    rw [hg, hpo]
  · have hr' : app.wsgiRoute { env with input := [env.input.flatten.take n] } = app.wsgiRoute env := rfl
    rw [wsgi_refused_route hr, wsgi_refused_route (hr'.trans hr)]

/-- an ASGI request: what the body events mean is all that counts -/
theorem asgi_receive_congr (app : App Req Res) (sc : StatusCodec) (scope : Scope) (env : Env) (receive : List Recv)
    (hreqs : ∀ codec comp, app.asgiRequests { env with receive } codec comp = app.asgiRequests env codec comp)
    (hpost : (∃ r, app.asgiRoute scope = .ok r ∧ (r.proto = .connect → r.ep.handler.isUnary = false)) ∨
      ∀ headers codec, app.asgiPost { env with receive } headers codec = app.asgiPost env headers codec) :
    app.asgi sc scope { env with receive } = app.asgi sc scope env := by
  have hsend : Env.sendAll { env with receive } = env.sendAll := by
    funext log ms
    induction ms generalizing log with
    | nil => rfl
    | cons m ms ih =>
      show (match env.send log m with
        | (log, some e) => (log, some e)
        | (log, none) => Env.sendAll { env with receive } log ms) = _
      simp only [ih]
      rfl
  have hfail : ∀ (calls : List (Called Req)) log e ctx, asgiFail { env with receive } calls log e ctx = asgiFail env calls log e ctx := by
    intro calls log e ctx
    unfold asgiFail
    rw [hsend]
  have hfin : ∀ (c : AsgiCfg Res) (calls : List (Called Req)) (l : LoopOut Req),
      AsgiCfg.finish { c with env := { env with receive } } calls l = AsgiCfg.finish { c with env } calls l := by
    intro c calls l
    unfold AsgiCfg.finish
    dsimp only
    rw [hsend]
    rfl
  have hloop : ∀ (c : AsgiCfg Res) (o ce : Option Exc) (as : List (Act Res)) (h : HState Req) log sent n,
      AsgiCfg.loop { c with env := { env with receive } } o ce as h log sent n =
        AsgiCfg.loop { c with env } o ce as h log sent n := by
    intro c o ce as
    induction as with
    | nil => intro h log sent n; rfl
    | cons a as ih =>
      intro h log sent n
      cases a with
      | step s =>
        unfold AsgiCfg.loop
        simp only [ih]
      | emit m =>
        unfold AsgiCfg.loop
        simp only [ih]
        rfl
  unfold App.asgi
  cases hroute : app.asgiRoute scope with
  | error e => exact hfail ..
  | ok r =>
    dsimp only
    cases app.asgiCodec scope r with
    | error e => exact hfail ..
    | ok pc =>
      obtain ⟨params, codec⟩ := pc
      dsimp only
      have hu : (∀ headers codec, app.asgiPost { env with receive } headers codec = app.asgiPost env headers codec) →
          ∀ f, app.asgiUnary { env with receive } r.key r.httpMethod r.headers codec params r.ctx f =
          app.asgiUnary env r.key r.httpMethod r.headers codec params r.ctx f := by
        intro hpost f
        unfold App.asgiUnary
        simp only [hsend, hpost, hfail]
      have hs : ∀ p h, app.asgiStream sc { env with receive } r.key p r.headers codec r.ctx h =
          app.asgiStream sc env r.key p r.headers codec r.ctx h := by
        intro p h
        let cfg : AsgiCfg Res :=
          { proto := p, sc, codecName := codec.name, comp := (p.negotiateStreamCompression r.headers app.comps).2
            writer := ⟨codec.res, some (p.negotiateStreamCompression r.headers app.comps).2⟩, env
            disconnectAt := match h with
              | .serverStream _ => env.disconnectAt
              | _ => none }
        unfold App.asgiStream
        simp only [hreqs]
        split
        · exact hfin cfg _ _
        · split
          · exact hfin cfg _ _
          · rename_i req hst script _
            exact (hfin cfg _ _).trans (congrArg (AsgiCfg.finish cfg _) (hloop cfg script.outcome script.closeErr script.acts hst [] false 0))
      split
      · rename_i f _ _
        rcases hpost with ⟨r', hr', hk⟩ | hpost
        · rw [hroute] at hr'
          cases hr'
          rename_i hh hp
          rw [hh] at hk
          cases hk hp
        · exact hu hpost f
      · exact hs _ _

/-- C37, ASGI: the same for the body events. -/
theorem C37_asgi_fragmentation (app : App Req Res) (sc : StatusCodec) (scope : Scope) (env : Env) (raw : List UInt8)
    (hb : AsgiBody env.receive raw) (receive : List Recv) (hb' : AsgiBody receive raw) :
    app.asgi sc scope { env with receive } = app.asgi sc scope env := by
  obtain ⟨h1, h2⟩ := asgiBody_ok.2 hb
  obtain ⟨h1', h2'⟩ := asgiBody_ok.2 hb'
  have hpost : ∀ headers codec, app.asgiPost { env with receive } headers codec = app.asgiPost env headers codec := by
    intro headers codec
    rw [asgiPost_eq, asgiPost_eq]
    dsimp only
    rw [h1, h1', h2, h2']
  have hreqs : ∀ codec comp, app.asgiRequests { env with receive } codec comp = app.asgiRequests env codec comp := by
    intro codec comp
    obtain ⟨g1, g2⟩ := requests_frag app codec comp (xs := (asgiBody receive).1) (ys := (asgiBody env.receive).1)
      (by rw [h2, h2'])
    unfold App.asgiRequests
    simp only [g1, g2, h1, h1']
  exact asgi_receive_congr app sc scope env receive hreqs (.inr hpost)

/-! ### the hypotheses are met; violations -/

/-- a codec and a compression that reject data starting with 255 -/
def pickyCodec : Codec Bytes := ⟨pys! "proto", .ok, fun b =>
  if b.head? = some 255 then .error (.other .valueError (pys! "bad message")) else .ok b⟩
def pickyComp : Compression := .custom (pys! "picky") id fun b =>
  if b.head? = some 255 then .error (.other .valueError (pys! "bad data")) else .ok b
def pickyApp : App Bytes Bytes :=
  .new [(pys! "/a.S/Echo", ⟨echoInfo, .unary echoCall⟩)] (pys! "/a.S") flipComp (some 10) (some [pickyComp])
    [⟨pys! "proto", pickyCodec, rawCodec⟩]

theorem picky_ordinary : Ordinary pickyApp := by
  constructor
  · intro n c hc b e he
    have := Dict.get?_some_mem hc
    have hm : (n, c) ∈ [(pys! "proto", (⟨pys! "proto", pickyCodec, rawCodec⟩ : ServerCodec Bytes Bytes))] := this
    rw [List.mem_singleton] at hm
    cases hm
    dsimp only [pickyCodec] at he
    split at he
    · cases he; exact ⟨_, _, rfl⟩
    · cases he
  · intro n c hc b e he
    have := Dict.get?_some_mem hc
    have hm : (n, c) ∈ [(pys! "picky", pickyComp), (pys! "identity", .identity)] := this
    rcases List.mem_cons.1 hm with h | h
    · cases h
      dsimp only [pickyComp, Compression.decompress] at he
      split at he
      · cases he; exact ⟨_, _, rfl⟩
      · cases he
    · rw [List.mem_singleton] at h
      cases h
      cases he

/-- a POST with extra variables -/
def pickyEnviron (extra : List (Str × Str)) (input : List Bytes) : Environ :=
  ⟨[(pys! "REQUEST_METHOD", pys! "POST"), (pys! "PATH_INFO", pys! "/a.S/Echo"), (pys! "SCRIPT_NAME", []),
    (pys! "CONTENT_TYPE", pys! "application/proto; charset=utf-8")] ++ extra, input, false⟩
def pickyQuery (query : Str) : Environ :=
  ⟨[(pys! "REQUEST_METHOD", pys! "GET"), (pys! "PATH_INFO", pys! "/a.S/Echo"), (pys! "SCRIPT_NAME", []),
    (pys! "QUERY_STRING", query)], [], false⟩

theorem connectHeaders_of {h : Headers} (h1 : h.get (pys! "connect-protocol-version") = none)
    (h2 : h.get (pys! "connect-timeout-ms") = none) : ConnectHeaders h :=
  ⟨fun v hv => (by rw [h1] at hv; cases hv), fun v hv => (by rw [h2] at hv; cases hv)⟩

theorem picky_unary (extra : List (Str × Str)) (input : List Bytes)
    (hct : (wsgiHeaders (pickyEnviron extra input).vars).getD (pys! "content-type") [] = pys! "application/proto; charset=utf-8") :
    WsgiConnectUnary pickyApp (pickyEnviron extra input) (pys! "/a.S/Echo") echoInfo echoCall (pys! "POST") :=
  ⟨wsgiLookup_ok.1 rfl, rfl, (negotiate_connect _).1 (by rw [hct]; decide +kernel)⟩

/-- `WsgiPosted` with a body in two pieces and a declared length (C37), in the known (C38, C05) or an unknown (C26) compression -/
theorem picky_posted (extra : List (Str × Str)) (input : List Bytes)
    (hct : (wsgiHeaders (pickyEnviron extra input).vars).getD (pys! "content-type") [] = pys! "application/proto; charset=utf-8")
    (h1 : (wsgiHeaders (pickyEnviron extra input).vars).get (pys! "connect-protocol-version") = none)
    (h2 : (wsgiHeaders (pickyEnviron extra input).vars).get (pys! "connect-timeout-ms") = none) :
    WsgiPosted pickyApp (pickyEnviron extra input) (pys! "/a.S/Echo") echoInfo echoCall ⟨pys! "proto", pickyCodec, rawCodec⟩ :=
  ⟨picky_unary extra input hct, connectHeaders_of h1 h2, pys! "proto",
    (unaryCodecName_iff ..).2 (by rw [hct]; decide +kernel), rfl⟩

example : WsgiPosted pickyApp (pickyEnviron [(pys! "CONTENT_LENGTH", pys! "4")] [[1, 2], [3]]) (pys! "/a.S/Echo") echoInfo
      echoCall ⟨pys! "proto", pickyCodec, rawCodec⟩ ∧
    DeclaredLength (pickyEnviron [(pys! "CONTENT_LENGTH", pys! "4")] [[1, 2], [3]]) 4 ∧
    Pieces [[1, 2], [(3 : UInt8)]] ∧ ([[1, 2], [3]] : List Bytes).flatten.length < 4 ∧ Ordinary pickyApp :=
  ⟨picky_posted _ _ (by decide +kernel) (by decide +kernel) (by decide +kernel),
    ⟨by decide, pys! "4", rfl, by decide, by decide +kernel⟩, by intro s hs; simp at hs; rcases hs with rfl | rfl <;> simp,
    by decide, picky_ordinary⟩

/-- accepted: the handler runs on the cut body; truncated, undecodable, undecompressible, too large, unknown compression: refused -/
example :
    (pickyApp.wsgi demoStatus (pickyEnviron [(pys! "CONTENT_LENGTH", pys! "2")] [[1], [2, 3]])).calls.map (·.req) =
      [some [1, 2]] ∧
    (pickyApp.wsgi demoStatus (pickyEnviron [(pys! "CONTENT_LENGTH", pys! "4")] [[1], [2, 3]])).calls.length = 0 ∧
    (pickyApp.wsgi demoStatus (pickyEnviron [] [[255], [2, 3]])).calls.length = 0 ∧
    (pickyApp.wsgi demoStatus (pickyEnviron [(pys! "HTTP_CONTENT_ENCODING", pys! "picky")] [[255, 2, 3]])).calls.length = 0 ∧
    (pickyApp.wsgi demoStatus (pickyEnviron [] [[1, 2, 3, 4, 5, 6], [7, 8, 9, 10, 11]])).calls.length = 0 ∧
    (pickyApp.wsgi demoStatus (pickyEnviron [(pys! "HTTP_CONTENT_ENCODING", pys! "zstd")] [[1]])).calls.length = 0 := by
  decide +kernel

example : WsgiPosted pickyApp (pickyEnviron [(pys! "HTTP_CONTENT_ENCODING", pys! "picky")] [[255, 2]]) (pys! "/a.S/Echo") echoInfo
      echoCall ⟨pys! "proto", pickyCodec, rawCodec⟩ ∧
    WsgiBody (pickyEnviron [(pys! "HTTP_CONTENT_ENCODING", pys! "picky")] [[255, 2]]) [255, 2] ∧
    wsgiEncoding (pickyEnviron [(pys! "HTTP_CONTENT_ENCODING", pys! "picky")] [[255, 2]]) = pys! "picky" ∧
    pickyComp.decompress [255, 2] = .error (.other .valueError (pys! "bad data")) :=
  ⟨picky_posted _ _ (by decide +kernel) (by decide +kernel) (by decide +kernel),
    .whole (fun s hs => by cases hs), by decide +kernel, rfl⟩

/-- GET with a message that is not base64, and with one in a known compression -/
theorem picky_queried (query : Str) : WsgiQueried pickyApp (pickyQuery query) (pys! "/a.S/Echo") echoInfo echoCall :=
  have e : (wsgiHeaders (pickyQuery query).vars) = Headers.empty := rfl
  ⟨⟨wsgiLookup_ok.1 rfl, rfl, (negotiate_connect _).1 (by rw [e]; decide +kernel)⟩, rfl,
    by rw [e]; exact connectHeaders_of (by decide +kernel) (by decide +kernel)⟩

example : WsgiQueried pickyApp (pickyQuery (pys! "message=a&base64=1&encoding=proto")) (pys! "/a.S/Echo") echoInfo echoCall ∧
    Param (wsgiParams (pickyQuery (pys! "message=a&base64=1&encoding=proto"))) (pys! "message") (pys! "a") ∧
    Param (wsgiParams (pickyQuery (pys! "message=a&base64=1&encoding=proto"))) (pys! "base64") ['1'] ∧
    urlsafeB64decode (pys! "a" ++ pys! "===") = none ∧
    (pickyApp.wsgi demoStatus (pickyQuery (pys! "message=a&base64=1&encoding=proto"))).calls.length = 0 :=
  ⟨picky_queried _, firstParam_iff.1 (by decide +kernel), firstParam_iff.1 (by decide +kernel), by decide +kernel,
    by decide +kernel⟩

def pickyScope (extra : List (Bytes × Bytes)) : Scope :=
  { path := pys! "/a.S/Echo", rootPath := [], method := pys! "POST", scheme := none
    headers := [(utf8Encode (pys! "Content-Type"), utf8Encode (pys! "application/proto"))] ++ extra
    client := none, query := [], trailers := false }
def pickyHeaders (extra : List (Str × Str)) : Headers :=
  extra.foldl (fun h p => h.add p.1 p.2) (Headers.empty.add (pys! "Content-Type") (pys! "application/proto"))

theorem picky_asgi : AsgiPosted pickyApp (pickyScope []) (pickyHeaders []) (pys! "/a.S/Echo") echoInfo
    echoCall ⟨pys! "proto", pickyCodec, rawCodec⟩ :=
  ⟨⟨asgiLookup_ok.1 rfl, by decide +kernel, (negotiate_connect _).1 (by decide +kernel)⟩, rfl,
    connectHeaders_of (by decide +kernel) (by decide +kernel), pys! "proto", (unaryCodecName_iff ..).2 (by decide +kernel), rfl⟩

/-- disconnect in the middle of a body, and a body in two pieces -/
example : Disconnects [.request [1] true, .disconnect] ∧ AsgiBody [.request [1] true, .request [2] false] [1, 2] ∧
    (pickyApp.asgi demoStatus (pickyScope []) (demoEnv [.request [1] true, .disconnect])).calls.length = 0 ∧
    (pickyApp.asgi demoStatus (pickyScope []) (demoEnv [.request [1] true, .request [2] false])).calls.map (·.req) =
      [some [1, 2]] ∧ Reliable (demoEnv []) :=
  ⟨.later _ (.now _), .more [1] (.last [2] []), by decide +kernel, by decide +kernel, fun _ => rfl⟩

theorem asgiRefused_unique {o : AsgiOut Req} {c c' : Code} (h : AsgiRefused o c) (h' : AsgiRefused o c') :
    connectHttpStatus c = connectHttpStatus c' := by
  obtain ⟨_, r, e, h1, ⟨h2, _⟩, rfl⟩ := h
  obtain ⟨_, r', e', h1', ⟨h2', _⟩, rfl⟩ := h'
  have : r.status = r'.status := by
    unfold AsgiGave at h1 h1'
    rw [h1] at h1'
    injection h1' with a _
    injection a with a _
    injection a
  rw [← h2, ← h2', this]

theorem wsgiRefused_unique {o : WsgiOut Req} {c c' : Code} (h : WsgiRefused o c) (h' : WsgiRefused o c') :
    connectHttpStatus c = connectHttpStatus c' := by
  obtain ⟨_, r, e, ⟨_, ch, h1, _⟩, ⟨h2, _⟩, rfl⟩ := h
  obtain ⟨_, r', e', ⟨_, ch', h1', _⟩, ⟨h2', _⟩, rfl⟩ := h'
  have : r.status = r'.status := by
    rw [h1] at h1'
    injection h1' with a _
    injection a
  rw [← h2, ← h2', this]

/-- **C38 is false of the ASGI server**: a POST body its codec rejects is answered with UNKNOWN and HTTP 500, not with
INVALID_ARGUMENT. -/
theorem C38_violation_asgi_decode : ∃ (app : App Bytes Bytes) (sc : StatusCodec) (scope : Scope) (env : Env) (headers : Headers)
    (key : List Char) (m : MethodInfo) (f : Bytes → RequestContext → Call Bytes) (codec : ServerCodec Bytes Bytes)
    (raw : List UInt8),
    AsgiPosted app scope headers key m f codec ∧ Reliable env ∧ AsgiBody env.receive raw ∧
    AsgiUncompressed app (lower (headers.getD (pys! "content-encoding") (pys! "identity"))) raw raw ∧ WithinLimit app raw ∧
    (∃ e, codec.req.decode raw = .error e) ∧ AsgiRefused (app.asgi sc scope env) .unknown ∧
    ¬ AsgiRefused (app.asgi sc scope env) .invalidArgument := by
  have hb : AsgiBody (demoEnv [.request [255] false]).receive [255] := .last _ _
  have hu : AsgiUncompressed pickyApp (lower ((pickyHeaders []).getD (pys! "content-encoding") (pys! "identity"))) [255] [255] := by
    have : lower ((pickyHeaders []).getD (pys! "content-encoding") (pys! "identity")) = pys! "identity" := by decide +kernel
    rw [this]
    exact ⟨.identity, rfl, .inr ⟨by simp, rfl⟩⟩
  have hl : WithinLimit pickyApp [255] := by
    intro n hn
    cases hn
    decide
  have hr := C38_asgi_post_decode_unknown pickyApp demoStatus (pickyScope []) (demoEnv [.request [255] false]) (pickyHeaders [])
    (pys! "/a.S/Echo") echoInfo echoCall ⟨pys! "proto", pickyCodec, rawCodec⟩ picky_asgi [255] [255] hb hu hl
    .valueError (pys! "bad message") rfl (fun _ => rfl)
  exact ⟨pickyApp, demoStatus, pickyScope [], demoEnv [.request [255] false], pickyHeaders [], _, _, _, _, [255], picky_asgi,
    fun _ => rfl, hb, hu, hl, ⟨_, rfl⟩, hr, fun h => absurd (asgiRefused_unique hr h) (by decide)⟩

/-- **C38 is false of the WSGI server for GET**: a message that cannot be decompressed is answered with INTERNAL. -/
theorem C38_violation_wsgi_get_decompress : ∃ (app : App Bytes Bytes) (sc : StatusCodec) (env : Environ) (key : List Char)
    (m : MethodInfo) (f : Bytes → RequestContext → Call Bytes) (raw : List UInt8) (v : List Char) (c : Compression),
    WsgiQueried app env key m f ∧ MessageParam (wsgiParams env) raw ∧ Param (wsgiParams env) (pys! "compression") v ∧
    Dict.get? app.comps v = some c ∧ (∃ e, c.decompress raw = .error e) ∧ WsgiRefused (app.wsgi sc env) .internal ∧
    ¬ WsgiRefused (app.wsgi sc env) .invalidArgument := by
  have hm : MessageParam (wsgiParams (pickyQuery (pys! "message=_w&base64=1&compression=picky&encoding=proto"))) [255] :=
    wsgiGetMessage_ok.1 (by decide +kernel)
  have hv : Param (wsgiParams (pickyQuery (pys! "message=_w&base64=1&compression=picky&encoding=proto")))
    (pys! "compression") (pys! "picky") := firstParam_iff.1 (by decide +kernel)
  have hr := C38_wsgi_get_decompress_internal pickyApp demoStatus
    (pickyQuery (pys! "message=_w&base64=1&compression=picky&encoding=proto")) (pys! "/a.S/Echo") echoInfo echoCall
    (picky_queried _) [255] hm (pys! "picky") hv pickyComp rfl .valueError (pys! "bad data") rfl
  exact ⟨pickyApp, demoStatus, _, _, _, _, [255], _, pickyComp, picky_queried _, hm, hv, rfl, ⟨_, rfl⟩, hr,
    fun h => absurd (wsgiRefused_unique hr h) (by decide)⟩

/-- **C05 is false for GET on both servers**: a message of eleven bytes reaches the handler although the limit is ten. -/
theorem C05_violation_get : ∃ (app : App Bytes Bytes) (sc : StatusCodec) (env : Environ) (scope : Scope) (aenv : Env)
    (req : Bytes), app.readMax = some 10 ∧ 10 < req.length ∧
    (app.wsgi sc env).calls.map (·.req) = [some req] ∧ (app.asgi sc scope aenv).calls.map (·.req) = [some req] :=
  ⟨demoApp, demoStatus, pickyQuery (pys! "message=01234567890&encoding=proto"),
    { demoScope (pys! "GET") (pys! "/a.S/Echo") [] with query := utf8Encode (pys! "message=01234567890&encoding=proto") },
    demoEnv [.request [] false], [48, 49, 50, 51, 52, 53, 54, 55, 56, 57, 48], rfl, by decide, by decide +kernel, by decide +kernel⟩

end Props
