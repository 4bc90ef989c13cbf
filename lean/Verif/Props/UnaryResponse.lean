import Verif.Spec.UnaryResponse
import Verif.Props.Unary
/-
C63: the response to a unary Connect request carries what the handler returned or raised, with the response metadata it set.
-/
namespace Props
open Conn Py Spec

variable {Req Res : Type}

/-! ### lemmas -/

/-- a unary handler has nothing to read: its steps never raise -/
theorem call_nothing {Res : Type} (steps : List Step) (r : Except Exc Res) (i : Meta) (got : List Req) :
    ∃ h : HState Req, (HState.mk [] none i got).call steps r = (h, r) ∧
      h.info = steps.foldl (fun m s => match s with
        | .update f => f m
        | .recv _ => m) i := by
  induction steps generalizing i got with
  | nil => exact ⟨_, rfl, rfl⟩
  | cons s ss ih =>
    cases s with
    | update f => exact ih (f i) got
    | recv c => exact ih i got

theorem call_metadata {Res : Type} (steps : List Step) (r : Except Exc Res) :
    ∃ h : HState Req, (HState.init ⟨[], none⟩ : HState Req).call steps r = (h, r) ∧ h.info = metadataOf steps :=
  call_nothing steps r _ _

theorem contextHeaders_eq (m : Meta) : m.contextHeaders = metadataFields m := rfl

theorem errorResponse_fields (ct : Str) {e : Exc} (hh : ∀ s hs, e ≠ .http s hs) (m : Meta) :
    (errorResponse ct e (some m)).2.1 = (ct, pys! "application/json") :: metadataFields m := by
  unfold errorResponse
  cases e with
  | http s hs => exact absurd rfl (hh s hs)
  | _ => rfl

/-- the error response to a failed call -/
theorem fail_answers (ct : Str) (hct : lower ct = pys! "content-type") (codec : ServerCodec Req Res) (comp : Compression)
    {run : Call Res} {e : Exc} (hf : Fails codec run e) (hd : DebugOk (errorOf e)) :
    Answers codec comp run ⟨(errorResponse ct e (some (metadataOf run.steps))).1,
      (errorResponse ct e (some (metadataOf run.steps))).2.1, (errorResponse ct e (some (metadataOf run.steps))).2.2.flatten⟩ := by
  by_cases hh : ∃ s hs, e = .http s hs
  · obtain ⟨s, hs, rfl⟩ := hh
    exact .http hf
  · have hh' : ∀ s hs, e ≠ .http s hs := fun s hs h => hh ⟨s, hs, h⟩
    exact .failure hf hh' (errorResponse_complete ct hct e hh' hd _) ⟨ct, hct, errorResponse_fields ct hh' _⟩

/-- the exception a call fails with is determined -/
theorem fails_unique {codec : ServerCodec Req Res} {run : Call Res} {e x : Exc} (hf : Fails codec run e) (hx : Fails codec run x) :
    x = e := by
  rcases hf with hf | ⟨r, hf1, hf2⟩ <;> rcases hx with hx | ⟨r', hx1, hx2⟩
  · rw [hf] at hx; cases hx; rfl
  · rw [hf] at hx1; cases hx1
  · rw [hx] at hf1; cases hf1
  · rw [hf1] at hx1; cases hx1; rw [hf2] at hx2; cases hx2; rfl

/-! ### WSGI -/

theorem wsgiGetBody_codec {app : App Req Res} {params : Dict Str (List Str)} {codec : ServerCodec Req Res} {req : Req}
    {raw data : List UInt8} (h : QueryCodec app params codec) (h3 : MessageParam params raw)
    (h4 : (∀ v, ¬ Param params (pys! "compression") v) ∧ data = raw ∨
        ∃ v c, Param params (pys! "compression") v ∧ Dict.get? app.comps v = some c ∧ c.decompress raw = .ok data)
    (h5 : codec.req.decode data = .ok req) : app.wsgiGetBody params = .ok (req, codec) := by
  obtain ⟨name, h1, h2⟩ := h
  rw [wsgiGetBody_eq, wsgiGetMessage_ok.2 h3]
  dsimp only
  rw [wsgiGetData_ok.2 h4]
  dsimp only
  rw [encodingParam.2 h1, h2]
  dsimp only
  rw [h5]

/-- what `_handle_unary` does once the request has been read -/
theorem wsgiUnary_answers {app : App Req Res} {env : Environ} {key hm : Str} {h : Headers} {ctx : RequestContext}
    {f : Req → RequestContext → Call Res} {req : Req} {codec : ServerCodec Req Res}
    (hread : (if hm = pys! "GET" then app.wsgiGet env else app.wsgiPost env h) = .ok (req, codec)) :
    (app.wsgiUnary env key hm h ctx f).calls = [⟨key, ctx, some req⟩] ∧
    ((∀ e, Fails codec (f req ctx) e → e.isException = true ∧ DebugOk (errorOf e)) →
      ∃ r, WsgiGave (app.wsgiUnary env key hm h ctx f) r ∧
        Answers codec (negotiateCompression (h.getD (pys! "accept-encoding") (pys! "identity")) app.comps) (f req ctx) r) ∧
    (∀ e, Fails codec (f req ctx) e → e.isException = false →
      (app.wsgiUnary env key hm h ctx f).events = [] ∧ (app.wsgiUnary env key hm h ctx f).escaped = some e) := by
  obtain ⟨h', hc, hi⟩ := call_metadata (Req := Req) (f req ctx).steps (f req ctx).result
  unfold App.wsgiUnary
  rw [hread]
  dsimp only
  rw [hc]
  have fail : ∀ e, Fails codec (f req ctx) e →
      (wsgiFail [⟨key, ctx, some req⟩] e (some h'.info)).calls = [⟨key, ctx, some req⟩] ∧
      ((∀ e, Fails codec (f req ctx) e → e.isException = true ∧ DebugOk (errorOf e)) →
        ∃ r, WsgiGave (wsgiFail [⟨key, ctx, some req⟩] e (some h'.info)) r ∧
          Answers codec (negotiateCompression (h.getD (pys! "accept-encoding") (pys! "identity")) app.comps) (f req ctx) r) ∧
      (∀ x, Fails codec (f req ctx) x → x.isException = false →
        (wsgiFail [⟨key, ctx, some req⟩] e (some h'.info)).events = [] ∧
        (wsgiFail [⟨key, ctx, some req⟩] e (some h'.info)).escaped = some x) := by
    intro e hf
    refine ⟨wsgiFail_calls .., fun hall => ?_, fun x hx hxe => ?_⟩
    · obtain ⟨h1, h2⟩ := hall e hf
      rw [hi]
      unfold wsgiFail
      rw [if_pos h1]
      exact ⟨_, ⟨rfl, _, rfl, rfl⟩, fail_answers (pys! "Content-Type") (by decide +kernel) codec _ hf h2⟩
    · cases fails_unique hf hx
      unfold wsgiFail
      rw [hxe, if_neg (by decide)]
      exact ⟨rfl, rfl⟩
  cases hr : (f req ctx).result with
  | error e => exact fail e (.inl hr)
  | ok r =>
    dsimp only
    cases he : codec.res.encode r with
    | error e => exact fail e (.inr ⟨r, hr, he⟩)
    | ok data =>
      refine ⟨rfl, fun _ => ⟨_, ⟨rfl,
        [(negotiateCompression (h.getD (pys! "accept-encoding") (pys! "identity")) app.comps).compress data], ?_, ?_⟩,
        .success hr he⟩, fun e hf _ => ?_⟩
      · rw [← hi]
        rfl
      · exact List.append_nil _
      · rcases hf with hf | ⟨r', hf1, hf2⟩
        · rw [hr] at hf; cases hf
        · rw [hr] at hf1; cases hf1; rw [he] at hf2; cases hf2

/-- **C63, WSGI**: the handler is called once, on the message of the request; unless it raises an exception that is not an `Exception`
(which then leaves the application, with nothing sent), the response carries its response or its error, and its response
metadata. (`DebugOk`: the optional debug renderings of error details are JSON values.) -/
theorem C63_wsgi (app : App Req Res) (sc : StatusCodec) (env : Environ) (key httpMethod : List Char) (m : MethodInfo)
    (f : Req → RequestContext → Call Res) (h : WsgiConnectUnary app env key m f httpMethod) (hp : Pieces env.input)
    (codec : ServerCodec Req Res) (req : Req) (hacc : WsgiCarries app env m httpMethod codec req) :
    ∃ ctx, CtxIs ctx m httpMethod (wsgiScheme env.vars) (wsgiHeaders env.vars) (wsgiClient env.vars) ∧
      (app.wsgi sc env).calls = [⟨key, ctx, some req⟩] ∧
      ((∀ e, Fails codec (f req ctx) e → e.isException = true ∧ DebugOk (errorOf e)) →
        ∃ r, WsgiGave (app.wsgi sc env) r ∧ Answers codec (negotiateCompression
          ((wsgiHeaders env.vars).getD (pys! "accept-encoding") (pys! "identity")) app.comps) (f req ctx) r) ∧
      (∀ e, Fails codec (f req ctx) e → e.isException = false →
        (app.wsgi sc env).events = [] ∧ (app.wsgi sc env).escaped = some e) := by
  obtain ⟨hh, hreq⟩ := hacc
  have hrun : MayRun m ((wsgiHeaders env.vars).getD (pys! "content-type") []) httpMethod := by
    rcases hreq with ⟨h1, _⟩ | ⟨h1, h2, _⟩
    · exact .inl h1
    · exact .inr ⟨h1, h2, h.connect⟩
  rcases wsgiRoute_unary h hrun with ⟨_, ctx, hr, hctx⟩ | ⟨hno, _⟩
  · rw [wsgi_of_route hr]
    refine ⟨ctx, hctx, wsgiUnary_answers ?_⟩
    rcases hreq with ⟨rfl, name, raw, data, h1, h2, h3⟩ | ⟨rfl, _, ⟨name, h1, h2⟩, raw, data, h3, h4, h5⟩
    · rw [if_neg (by decide)]
      unfold App.wsgiPost
      rw [(unaryCodecName_iff ..).1 h1, h2]
      dsimp only
      rw [(wsgiPostBody_ok hp).2 ⟨raw, data, h3⟩]
    · rw [if_pos rfl, wsgiGet_eq, wsgiGetBody_codec ⟨name, h1, h2⟩ h3 h4 h5]
  · exact absurd hh hno

/-! ### ASGI -/

/-- what `_handle_unary_connect` does once the request has been read -/
theorem asgiUnary_answers {app : App Req Res} {env : Env} {key hm : Str} {h : Headers} {ctx : RequestContext}
    {f : Req → RequestContext → Call Res} {req : Req} {codec : ServerCodec Req Res} {params : Dict Str (List Str)}
    (hread : (if hm = pys! "GET" then app.asgiGet params codec else app.asgiPost env h codec) = .ok req) (hrel : Reliable env) :
    (app.asgiUnary env key hm h codec params ctx f).calls = [⟨key, ctx, some req⟩] ∧
    ((∀ e, Fails codec (f req ctx) e → e.isException = true ∧ DebugOk (errorOf e)) →
      ∃ r, AsgiGave (app.asgiUnary env key hm h codec params ctx f) r ∧
        Answers codec (negotiateCompression (h.getD (pys! "accept-encoding") []) app.comps) (f req ctx) r) ∧
    (∀ e, Fails codec (f req ctx) e → e.isException = false →
      (app.asgiUnary env key hm h codec params ctx f).sends = [] ∧
      (app.asgiUnary env key hm h codec params ctx f).escaped = some e) := by
  obtain ⟨h', hc, hi⟩ := call_metadata (Req := Req) (f req ctx).steps (f req ctx).result
  unfold App.asgiUnary
  dsimp only
  rw [hread]
  dsimp only
  rw [hc]
  have fail : ∀ e, Fails codec (f req ctx) e →
      (asgiFail env [⟨key, ctx, some req⟩] [] e (some h'.info)).calls = [⟨key, ctx, some req⟩] ∧
      ((∀ e, Fails codec (f req ctx) e → e.isException = true ∧ DebugOk (errorOf e)) →
        ∃ r, AsgiGave (asgiFail env [⟨key, ctx, some req⟩] [] e (some h'.info)) r ∧
          Answers codec (negotiateCompression (h.getD (pys! "accept-encoding") []) app.comps) (f req ctx) r) ∧
      (∀ x, Fails codec (f req ctx) x → x.isException = false →
        (asgiFail env [⟨key, ctx, some req⟩] [] e (some h'.info)).sends = [] ∧
        (asgiFail env [⟨key, ctx, some req⟩] [] e (some h'.info)).escaped = some x) := by
    intro e hf
    refine ⟨asgiFail_calls .., fun hall => ?_, fun x hx hxe => ?_⟩
    · obtain ⟨h1, h2⟩ := hall e hf
      rw [hi]
      exact ⟨_, asgiFail_sends hrel _ h1 _, fail_answers (pys! "content-type") (by decide +kernel) codec _ hf h2⟩
    · cases fails_unique hf hx
      unfold asgiFail
      rw [hxe, if_neg (by decide)]
      exact ⟨rfl, rfl⟩
  cases hr : (f req ctx).result with
  | error e => exact fail e (.inl hr)
  | ok r =>
    dsimp only
    cases he : codec.res.encode r with
    | error e => exact fail e (.inr ⟨r, hr, he⟩)
    | ok data =>
      dsimp only
      rw [sendAll_ok hrel]
      refine ⟨rfl, fun _ => ⟨_, ?_, .success hr he⟩, fun e hf _ => ?_⟩
      · rw [← hi]
        rfl
      · rcases hf with hf | ⟨r', hf1, hf2⟩
        · rw [hr] at hf; cases hf
        · rw [hr] at hf1; cases hf1; rw [he] at hf2; cases hf2

/-- **C63, ASGI**: as on WSGI, when the server accepts what the application sends. -/
theorem C63_asgi (app : App Req Res) (sc : StatusCodec) (scope : Scope) (env : Env) (headers : Headers)
    (key : List Char) (m : MethodInfo) (f : Req → RequestContext → Call Res)
    (h : AsgiConnectUnary app scope headers key m f) (hrel : Reliable env)
    (codec : ServerCodec Req Res) (req : Req) (hacc : AsgiCarries app scope env headers m codec req) :
    ∃ ctx, CtxIs ctx m scope.method (asgiScheme scope) headers (scope.client.map fun ca => ca.1 ++ pys! ":" ++ ca.2) ∧
      (app.asgi sc scope env).calls = [⟨key, ctx, some req⟩] ∧
      ((∀ e, Fails codec (f req ctx) e → e.isException = true ∧ DebugOk (errorOf e)) →
        ∃ r, AsgiGave (app.asgi sc scope env) r ∧ Answers codec (negotiateCompression
          (headers.getD (pys! "accept-encoding") []) app.comps) (f req ctx) r) ∧
      (∀ e, Fails codec (f req ctx) e → e.isException = false →
        (app.asgi sc scope env).sends = [] ∧ (app.asgi sc scope env).escaped = some e) := by
  obtain ⟨hh, hreq⟩ := hacc
  have hrun : MayRun m (headers.getD (pys! "content-type") []) scope.method := by
    rcases hreq with ⟨h1, _⟩ | ⟨h1, h2, _⟩
    · exact .inl h1
    · exact .inr ⟨h1, h2, h.connect⟩
  rcases asgiRoute_unary h hrun with ⟨_, ctx, hr, hctx⟩ | ⟨hno, _⟩
  · refine ⟨ctx, hctx, ?_⟩
    rcases hreq with ⟨hm, name, raw, data, h1, h2, h3⟩ | ⟨hm, _, q, hq, ⟨name, h1, h2⟩, raw, data, enc, h3⟩
    · have hc := asgiCodec_post (app := app) (key := key) (m := m) (f := f) (ctx := ctx) hm h1
      rw [h2] at hc
      rw [(asgi_of_route hr sc env).2 _ hc]
      exact asgiUnary_answers (by rw [hm, if_neg (by decide)]; exact asgiPost_ok.2 ⟨raw, data, h3⟩) hrel
    · have hc := asgiCodec_get (app := app) (key := key) (m := m) (f := f) (ctx := ctx) (h := headers) hm hq h1
      rw [h2] at hc
      rw [(asgi_of_route hr sc env).2 _ hc]
      exact asgiUnary_answers (by rw [if_pos hm]; exact asgiGet_ok.2 ⟨raw, data, enc, h3⟩) hrel
  · exact absurd hh hno

/-! ### C64: configuration -/

/-- **C64, servers**: an application serves the endpoints it is given, looks compressions up among those it was configured with
(and identity), codecs among those it was configured with (of two with one name the later counts), and keeps the given limit. -/
theorem C64_app (endpoints : Dict (List Char) (Endpoint Req Res)) (path : List Char) (gzip : Compression) (readMax : Option Int)
    (compressions : Option (List Compression)) (codecs : List (ServerCodec Req Res)) :
    let app := App.new endpoints path gzip readMax compressions codecs
    app.endpoints = endpoints ∧ app.path = path ∧ app.readMax = readMax ∧
    (∀ n, Dict.get? app.comps n = available gzip compressions n) ∧
    (∀ n, Dict.get? app.codecs n = (codecs.filter fun c => c.name = n).getLast?) := by
  refine ⟨rfl, rfl, rfl, resolve_get? gzip compressions, fun n => ?_⟩
  show Dict.get? (Dict.ofList (codecs.map fun c => (c.name, c))) n = _
  rw [Dict.ofList, get?_ofList_aux, List.filter_map, List.getLast?_map]
  cases h : (codecs.filter ((fun p : Str × ServerCodec Req Res => p.1 = n) ∘ fun c => (c.name, c))).getLast? with
  | none => exact h.symm ▸ rfl
  | some c => exact h.symm ▸ rfl

/-- **C64, clients**: a client looks response compressions up among those it was configured with (and identity), sends requests in the
given compression or uncompressed, and keeps the given timeout and limit. -/
theorem C64_client (flavor : Flavor) (address : List Char) (codec : Codec Req) (resCodec : Codec Res) (proto : Proto)
    (gzip : Compression) (accept : Option (List Compression)) (send : Option Compression) (timeoutMs readMax : Option Int)
    (userAgent : List Char) :
    let c := Client.new flavor address codec resCodec proto gzip accept send timeoutMs readMax userAgent
    (∀ n, Dict.get? c.comps n = available gzip accept n) ∧ c.send = send.getD .identity ∧ c.timeoutMs = timeoutMs ∧
    c.readMax = readMax ∧ c.codec = codec ∧ c.resCodec = resCodec ∧ c.proto = proto ∧ c.address = address ∧ c.closed = false :=
  ⟨resolve_get? gzip accept, by cases send <;> rfl, rfl, rfl, rfl, rfl, rfl, rfl, rfl⟩

def twiceApp : App Bytes Bytes :=
  .new [] (pys! "/") flipComp none (some [pickyComp]) [⟨pys! "proto", pickyCodec, rawCodec⟩, ⟨pys! "proto", rawCodec, rawCodec⟩]

/-- two codecs of one name: the later counts; a configured compression, and one that is not -/
example : Dict.get? twiceApp.codecs (pys! "proto") = some ⟨pys! "proto", rawCodec, rawCodec⟩ ∧
    Dict.get? twiceApp.comps (pys! "picky") = some pickyComp ∧ Dict.get? twiceApp.comps (pys! "gzip") = none := ⟨rfl, rfl, rfl⟩

/-! ### the hypotheses are met -/

/-- sets a header and a trailer; then returns the request, or raises if it is empty -/
def tellCall (b : Bytes) (_ : RequestContext) : Call Bytes :=
  ⟨[.update fun m => { m with headers := m.headers.add (pys! "x-h") (pys! "1") },
    .update fun m => { m with trailers := m.trailers.add (pys! "x-t") (pys! "2") }],
   if b = [] then .error (.mk .notFound (pys! "nothing")) else if b = [9] then .error .cancelled else .ok b⟩
def tellApp : App Bytes Bytes :=
  .new [(pys! "/a.S/Echo", ⟨echoInfo, .unary tellCall⟩)] (pys! "/a.S") flipComp none (some [pickyComp])
    [⟨pys! "proto", rawCodec, rawCodec⟩]

theorem tell_wsgi (extra : List (Str × Str)) (input : List Bytes)
    (hct : (wsgiHeaders (pickyEnviron extra input).vars).getD (pys! "content-type") [] = pys! "application/proto; charset=utf-8") :
    WsgiConnectUnary tellApp (pickyEnviron extra input) (pys! "/a.S/Echo") echoInfo tellCall (pys! "POST") :=
  ⟨wsgiLookup_ok.1 rfl, rfl, (negotiate_connect _).1 (by rw [hct]; decide +kernel)⟩

/-- a request in two pieces, for a client that accepts `picky` -/
def tellEnviron (input : List Bytes) : Environ := pickyEnviron [(pys! "HTTP_ACCEPT_ENCODING", pys! "picky")] input

theorem tell_carries (input : List Bytes) : WsgiCarries tellApp (tellEnviron input) echoInfo (pys! "POST")
    ⟨pys! "proto", rawCodec, rawCodec⟩ input.flatten :=
  ⟨connectHeaders_of (by rfl) (by rfl),
   .inl ⟨rfl, pys! "proto", _, _, (unaryCodecName_iff ..).2 (by
      show connectCodecName ((wsgiHeaders (tellEnviron []).vars).getD _ _) false = _
      decide +kernel), rfl, .whole (fun s hs => by cases hs),
    .inl ⟨by show wsgiEncoding (tellEnviron []) = _; decide +kernel, rfl⟩, (by intro n h; cases h), rfl⟩⟩

/-- the handler's answer, compressed; its error; its `CancelledError`: each with what it set -/
example :
    WsgiConnectUnary tellApp (tellEnviron [[1], [2, 3]]) (pys! "/a.S/Echo") echoInfo tellCall (pys! "POST") ∧
    WsgiCarries tellApp (tellEnviron [[1], [2, 3]]) echoInfo (pys! "POST") ⟨pys! "proto", rawCodec, rawCodec⟩ [1, 2, 3] ∧
    (tellApp.wsgi demoStatus (tellEnviron [[1], [2, 3]])).events =
      [.start 200 [(pys! "content-type", pys! "application/proto"), (pys! "content-encoding", pys! "picky"),
        (pys! "vary", pys! "Accept-Encoding"), (pys! "x-h", pys! "1"), (pys! "trailer-x-t", pys! "2")], .chunk [1, 2, 3]] ∧
    (tellApp.wsgi demoStatus (tellEnviron [])).events =
      [.start 404 [(pys! "Content-Type", pys! "application/json"), (pys! "x-h", pys! "1"), (pys! "trailer-x-t", pys! "2")],
        .chunk (utf8Encode (pys! "{\"code\": \"not_found\", \"message\": \"nothing\"}"))] ∧
    (tellApp.wsgi demoStatus (tellEnviron [[9]])).escaped = some .cancelled ∧ Exc.cancelled.isException = false :=
  ⟨tell_wsgi _ _ (by decide +kernel), tell_carries [[1], [2, 3]], by decide +kernel, by decide +kernel, by decide +kernel, rfl⟩

/-- on ASGI -/
example :
    AsgiConnectUnary tellApp (pickyScope []) (pickyHeaders []) (pys! "/a.S/Echo") echoInfo tellCall ∧
    AsgiCarries tellApp (pickyScope []) (demoEnv [.request [1] true, .request [2] false]) (pickyHeaders []) echoInfo
      ⟨pys! "proto", rawCodec, rawCodec⟩ [1, 2] ∧ Reliable (demoEnv []) ∧
    (tellApp.asgi demoStatus (pickyScope []) (demoEnv [.request [1] true, .request [2] false])).sends =
      [(.start 200 [(pys! "content-type", pys! "application/proto"), (pys! "content-encoding", pys! "identity"),
        (pys! "vary", pys! "Accept-Encoding"), (pys! "x-h", pys! "1"), (pys! "trailer-x-t", pys! "2")] false, none),
       (.body [1, 2] false, none)] :=
  ⟨⟨asgiLookup_ok.1 rfl, by decide +kernel, (negotiate_connect _).1 (by decide +kernel)⟩,
   ⟨connectHeaders_of (by decide +kernel) (by decide +kernel),
    .inl ⟨rfl, pys! "proto", _, _, (unaryCodecName_iff ..).2 (by decide +kernel), rfl, .more [1] (.last [2] []),
      ⟨.identity, by
        rw [show lower ((pickyHeaders []).getD (pys! "content-encoding") (pys! "identity")) = pys! "identity" by decide +kernel]
        rfl, .inr ⟨by decide, rfl⟩⟩, (by intro n h; cases h), rfl⟩⟩, fun _ => rfl, by decide +kernel⟩

end Props
