import Verif.Props.Alike
import Verif.Props.Universal
/-
C90: where the WSGI and the ASGI application differ, for every application and request.
-/
namespace Props
open Conn Py Spec

section
variable {Req Res : Type}

/-- answers with different statuses are not alike -/
theorem gave_differ {w : WsgiOut Req} {a : AsgiOut Req} {x y : Response} (hw : WsgiGave w x) (ha : AsgiGave a y)
    (hne : x.status ≠ y.status ∨ (x.fields.map fun p => (lower p.1, p.2)) ≠ (y.fields.map fun p => (lower p.1, p.2))) : ¬ Alike w a := by
  intro h
  obtain ⟨_, chunks, he, _⟩ := hw
  have ha : a.sends = _ := ha
  obtain ⟨h1, h2⟩ := alike_start h (by rw [he]; rfl) (by rw [ha]; rfl)
  rcases hne with hne | hne
  · exact hne h1
  · exact hne h2

theorem refused_differ {w : WsgiOut Req} {a : AsgiOut Req} {c d : Code} (hw : WsgiRefused w c) (ha : AsgiRefused a d) (hne : connectHttpStatus c ≠ connectHttpStatus d) : ¬ Alike w a := by
  obtain ⟨_, x, e, hx, ⟨hx1, _⟩, rfl⟩ := hw
  obtain ⟨_, y, e', hy, ⟨hy1, _⟩, rfl⟩ := ha
  exact gave_differ hx hy (.inl (by rw [hx1, hy1]; exact hne))

/-- what the WSGI application takes for a unary Connect request to an endpoint, the ASGI application does too -/
theorem asgi_unary_of {app : App Req Res} {r : HttpIn} (hr : r.Plain) {env : Environ} (hw : WsgiGets r env) {scope : Scope} {aenv : Env} (ha : AsgiGets r scope aenv)
    {key hm : Str} {m : MethodInfo} {f : Req → RequestContext → Call Res} (h : WsgiConnectUnary app env key m f hm) :
    AsgiConnectUnary app scope (wsgiHeaders env.vars) key m f ∧ scope.method = hm := by
  have hmeth := h.method
  rw [hw.method] at hmeth
  cases hmeth
  refine ⟨⟨asgiLookup_ok.1 ((lookup_same app hr hw ha).symm.trans (wsgiLookup_ok.2 h.target)), ?_, h.connect⟩, ha.method⟩
  rw [ha.fields, asgiHeaders_addAll, wsgiHeaders_same hr hw]

theorem asgi_posted_of {app : App Req Res} {r : HttpIn} (hr : r.Plain) {env : Environ} (hw : WsgiGets r env) {scope : Scope} {aenv : Env} (ha : AsgiGets r scope aenv)
    {key : Str} {m : MethodInfo} {f : Req → RequestContext → Call Res} {codec : ServerCodec Req Res} (h : WsgiPosted app env key m f codec) :
    AsgiPosted app scope (wsgiHeaders env.vars) key m f codec := by
  obtain ⟨h1, h2⟩ := asgi_unary_of hr hw ha h.unary
  exact ⟨h1, h2, h.ready, h.codec⟩

theorem encodings_of {r : HttpIn} (hr : r.Plain) {env : Environ} (hw : WsgiGets r env) :
    wsgiEncoding env = lower ((r.value (pys! "content-encoding")).getD (pys! "identity")) ∧
    (wsgiHeaders env.vars).getD (pys! "content-encoding") (pys! "identity") = (r.value (pys! "content-encoding")).getD (pys! "identity") := by
  refine ⟨?_, ?_⟩
  · unfold wsgiEncoding
    rw [encoding_same hr hw]
  · rw [wsgiHeaders_same hr hw, addAll_getD]

/-- **C90 is false of every body that cannot be decoded**: the WSGI application blames the client (INVALID_ARGUMENT, 400), the ASGI application answers UNKNOWN (500). -/
theorem C90_violation_garbled_all (app : App Req Res) (hcfg : Configured app) (sc : StatusCodec) (r : HttpIn) (hr : r.Plain) (env : Environ) (hw : WsgiGets r env) (scope : Scope) (aenv : Env)
    (ha : AsgiGets r scope aenv) (key : List Char) (m : MethodInfo) (f : Req → RequestContext → Call Res) (codec : ServerCodec Req Res) (h : WsgiPosted app env key m f codec)
    (comp : Compression) (hc : Dict.get? app.comps (lower ((r.value (pys! "content-encoding")).getD (pys! "identity"))) = some comp)
    (data : List UInt8) (hd : comp.decompress r.body = .ok data) (h0 : r.body = [] → data = []) (hl : WithinLimit app data) (e : Exc) (he : codec.req.decode data = .error e) :
    WsgiRefused (app.wsgi sc env) .invalidArgument ∧ AsgiRefused (app.asgi sc scope aenv) .unknown ∧ ¬ Alike (app.wsgi sc env) (app.asgi sc scope aenv) := by
  obtain ⟨e1, e2⟩ := encodings_of hr hw
  obtain ⟨name, hn, hcodec⟩ := h.codec
  obtain ⟨cls, msg, rfl⟩ := hcfg.ordinary.decode name codec hcodec _ _ he
  have w : WsgiRefused (app.wsgi sc env) .invalidArgument := by
    refine C38_wsgi_post_decode_partial app sc env key m f codec h hw.pieces r.body data ((wsgiRawBody_ok hw.pieces).1 (rawBody_same hw)) ?_ hl _ he rfl
    rw [e1]
    by_cases hi : lower ((r.value (pys! "content-encoding")).getD (pys! "identity")) = pys! "identity"
    · refine .inl ⟨hi, ?_⟩
      rw [hi, hcfg.identity] at hc
      cases hc
      cases hd
      rfl
    · exact .inr ⟨hi, comp, hc, hd⟩
  have a : AsgiRefused (app.asgi sc scope aenv) .unknown := by
    refine C38_asgi_post_decode_unknown app sc scope aenv _ key m f codec (asgi_posted_of hr hw ha h) r.body data ha.body ?_ hl cls msg he ha.calm.1
    rw [e2]
    refine ⟨comp, hc, ?_⟩
    by_cases hb : r.body = []
    · exact .inl ⟨hb, h0 hb⟩
    · exact .inr ⟨hb, hd⟩
  exact ⟨w, a, refused_differ w a (by decide)⟩

/-- **C90 is false of every body that cannot be decompressed**: the WSGI application blames the client, the ASGI application answers UNKNOWN. -/
theorem C90_violation_corrupt_all (app : App Req Res) (hcfg : Configured app) (sc : StatusCodec) (r : HttpIn) (hr : r.Plain) (env : Environ) (hw : WsgiGets r env) (scope : Scope) (aenv : Env)
    (ha : AsgiGets r scope aenv) (key : List Char) (m : MethodInfo) (f : Req → RequestContext → Call Res) (codec : ServerCodec Req Res) (h : WsgiPosted app env key m f codec)
    (comp : Compression) (hc : Dict.get? app.comps (lower ((r.value (pys! "content-encoding")).getD (pys! "identity"))) = some comp)
    (hne : r.body ≠ []) (e : Exc) (he : comp.decompress r.body = .error e) :
    WsgiRefused (app.wsgi sc env) .invalidArgument ∧ AsgiRefused (app.asgi sc scope aenv) .unknown ∧ ¬ Alike (app.wsgi sc env) (app.asgi sc scope aenv) := by
  obtain ⟨e1, e2⟩ := encodings_of hr hw
  obtain ⟨cls, msg, rfl⟩ := hcfg.ordinary.decompress _ comp hc _ _ he
  have hi : lower ((r.value (pys! "content-encoding")).getD (pys! "identity")) ≠ pys! "identity" := by
    intro hi
    rw [hi, hcfg.identity] at hc
    cases hc
    cases he
  have w : WsgiRefused (app.wsgi sc env) .invalidArgument :=
    C38_wsgi_post_decompress_partial app sc env key m f codec h hw.pieces r.body ((wsgiRawBody_ok hw.pieces).1 (rawBody_same hw)) comp (by rw [e1]; exact hi) (by rw [e1]; exact hc) _ he rfl
  have a : AsgiRefused (app.asgi sc scope aenv) .unknown :=
    C38_violation_asgi_post_decompress app sc scope aenv _ key m f codec (asgi_posted_of hr hw ha h) r.body ha.body hne comp (by rw [e2]; exact hc) _ he .unknown (.other ..) ha.calm.1
  exact ⟨w, a, refused_differ w a (by decide)⟩

/-- **C90 is false of every empty body that its compression refuses**, if the empty message can be decoded: the WSGI application blames the client, the ASGI application calls the function. -/
theorem C90_violation_empty_all (app : App Req Res) (hcfg : Configured app) (sc : StatusCodec) (r : HttpIn) (hr : r.Plain) (env : Environ) (hw : WsgiGets r env) (scope : Scope) (aenv : Env)
    (ha : AsgiGets r scope aenv) (key : List Char) (m : MethodInfo) (f : Req → RequestContext → Call Res) (codec : ServerCodec Req Res) (h : WsgiPosted app env key m f codec)
    (comp : Compression) (hc : Dict.get? app.comps (lower ((r.value (pys! "content-encoding")).getD (pys! "identity"))) = some comp)
    (h0 : r.body = []) (e : Exc) (he : comp.decompress [] = .error e) (hl : WithinLimit app []) (req : Req) (hq : codec.req.decode [] = .ok req) :
    WsgiRefused (app.wsgi sc env) .invalidArgument ∧ (app.asgi sc scope aenv).calls.map (·.req) = [some req] ∧ ¬ Alike (app.wsgi sc env) (app.asgi sc scope aenv) := by
  obtain ⟨e1, e2⟩ := encodings_of hr hw
  obtain ⟨cls, msg, rfl⟩ := hcfg.ordinary.decompress _ comp hc _ _ he
  have hi : lower ((r.value (pys! "content-encoding")).getD (pys! "identity")) ≠ pys! "identity" := by
    intro hi
    rw [hi, hcfg.identity] at hc
    cases hc
    cases he
  have w : WsgiRefused (app.wsgi sc env) .invalidArgument :=
    C38_wsgi_post_decompress_partial app sc env key m f codec h hw.pieces r.body ((wsgiRawBody_ok hw.pieces).1 (rawBody_same hw)) comp (by rw [e1]; exact hi) (by rw [e1]; exact hc) _
      (by rw [h0]; exact he) rfl
  have hp := asgi_posted_of hr hw ha h
  obtain ⟨name, hn, hcodec⟩ := hp.codec
  obtain ⟨ctx, _, hcalls, _⟩ := C63_asgi app sc scope aenv _ key m f hp.unary ha.calm.1 codec req
    ⟨hp.ready, .inl ⟨hp.method, name, r.body, [], hn, hcodec, ha.body, by rw [e2]; exact ⟨comp, hc, .inl ⟨h0, rfl⟩⟩, hl, hq⟩⟩
  refine ⟨w, by rw [hcalls]; rfl, fun hal => ?_⟩
  have := hal.1
  rw [w.1, hcalls] at this
  cases this

/-- **C90 is false of every GET in an unknown encoding** whose message can be read: the WSGI application answers UNIMPLEMENTED (501), the ASGI application 415. -/
theorem C90_violation_get_encoding_all (app : App Req Res) (sc : StatusCodec) (r : HttpIn) (hr : r.Plain) (env : Environ) (hw : WsgiGets r env) (scope : Scope) (aenv : Env)
    (ha : AsgiGets r scope aenv) (key : List Char) (m : MethodInfo) (f : Req → RequestContext → Call Res) (h : WsgiQueried app env key m f)
    (raw data : List UInt8) (hraw : MessageParam (parseQs r.query) raw)
    (hdata : (∀ v, ¬ Param (parseQs r.query) (pys! "compression") v) ∧ data = raw ∨
      ∃ v c, Param (parseQs r.query) (pys! "compression") v ∧ Dict.get? app.comps v = some c ∧ c.decompress raw = .ok data)
    (name : List Char) (hn : Param (parseQs r.query) (pys! "encoding") name ∨ (name = [] ∧ ∀ v, ¬ Param (parseQs r.query) (pys! "encoding") v)) (hno : Dict.get? app.codecs name = none) :
    WsgiRefused (app.wsgi sc env) .unimplemented ∧
    AsgiGave (app.asgi sc scope aenv) ⟨415, [(pys! "Accept-Post", pys! "application/json, application/proto")], []⟩ ∧ ¬ Alike (app.wsgi sc env) (app.asgi sc scope aenv) := by
  have hpar : wsgiParams env = parseQs r.query := by
    unfold wsgiParams
    rw [hw.query]
    rfl
  have w : WsgiRefused (app.wsgi sc env) .unimplemented := by
    have hb : ∃ msg, app.wsgiGetBody (wsgiParams env) = .error (.mk .unimplemented msg) := by
      rw [hpar, wsgiGetBody_eq, wsgiGetMessage_ok.2 hraw]
      dsimp only
      rw [wsgiGetData_ok.2 hdata]
      dsimp only
      rw [encodingParam.2 hn, hno]
      exact ⟨_, rfl⟩
    obtain ⟨msg, hb⟩ := hb
    rw [wsgi_queried h sc hb]
    exact wsgiFail_refused ..
  obtain ⟨h1, h2⟩ := asgi_unary_of hr hw ha h.unary
  have a : AsgiGave (app.asgi sc scope aenv) ⟨415, [(pys! "Accept-Post", pys! "application/json, application/proto")], []⟩ := by
    rcases asgiRoute_unary h1 (by rw [h2]; exact .inr ⟨rfl, h.safe, h1.connect⟩) with ⟨_, ctx, hroute, _⟩ | ⟨hx, _⟩
    · have hcod := asgiCodec_get (app := app) (key := key) (m := m) (f := f) (ctx := ctx) (h := wsgiHeaders env.vars) h2 (q := r.query) (by rw [ha.query, utf8Decode_encode]) hn
      rw [hno] at hcod
      rw [(asgi_of_route hroute sc aenv).1 _ hcod]
      exact asgiFail_http ha.calm.1 ..
    · exact absurd h.ready hx
  refine ⟨w, a, ?_⟩
  obtain ⟨_, x, e, hx, ⟨hx1, _⟩, hcode⟩ := w
  exact gave_differ hx a (.inl (by rw [hx1, hcode]; decide))

/-- **C90 is false of every stream in an unknown codec**: both applications answer 415, and name different content types that they would accept. -/
theorem C90_violation_stream_codec_all (app : App Req Res) (sc : StatusCodec) (r : HttpIn) (hr : r.Plain) (env : Environ) (hw : WsgiGets r env) (scope : Scope) (aenv : Env)
    (ha : AsgiGets r scope aenv) (key : List Char) (ep : Endpoint Req Res) (p : Proto) (h : WsgiStreams app env key ep p) (hget : r.method ≠ pys! "GET")
    (name : List Char) (hn : StreamCodecName p ((wsgiHeaders env.vars).getD (pys! "content-type") []) name) (hno : Dict.get? app.codecs name = none) :
    WsgiGave (app.wsgi sc env) ⟨415, [(pys! "Accept-Post", pys! "application/connect+json, application/connect+proto")], []⟩ ∧
    AsgiGave (app.asgi sc scope aenv) ⟨415, [(pys! "Accept-Post", pys! "application/json, application/proto")], []⟩ ∧ ¬ Alike (app.wsgi sc env) (app.asgi sc scope aenv) := by
  obtain ⟨_, w⟩ := C28_wsgi_stream_unsupported app sc env key ep p h name hn hno
  obtain ⟨hm, hm1, hm2⟩ := h.method
  rw [hw.method] at hm1
  cases hm1
  have hs : AsgiStreams app scope (wsgiHeaders env.vars) key ep p :=
    ⟨asgiLookup_ok.1 ((lookup_same app hr hw ha).symm.trans (wsgiLookup_ok.2 h.target)), by rw [ha.fields, asgiHeaders_addAll, wsgiHeaders_same hr hw],
      by rw [ha.method]; exact hm2, h.proto, fun hp => by rw [ha.trailers, ← hw.trailers]; exact h.trailers hp, h.ready, h.kind⟩
  have a := (C28_asgi_stream_unsupported app sc scope aenv _ key ep p hs name (.inl ⟨by rw [ha.method]; exact hget, hn⟩) hno).2 ha.calm.1
  exact ⟨w, a, gave_differ w a (.inr (by decide +kernel))⟩

end

/-! ### the hypotheses are met -/

/-- a message that cannot be decoded, in the clear -/
def twinGarbled : HttpIn := twinIn (pys! "POST") (pys! "/a.S/Echo") [] (pys! "application/proto") [] [255]
/-- a message that cannot be decompressed, and no message -/
def twinFrail (body : Bytes) : HttpIn := twinIn (pys! "POST") (pys! "/a.S/Echo") [] (pys! "application/proto") [(pys! "content-encoding", pys! "frail")] body

theorem twin_garbled_posted : WsgiPosted twinApp (environFor twinGarbled) (pys! "/a.S/Echo") echoInfo echoCall ⟨pys! "proto", pickyCodec, rawCodec⟩ :=
  ⟨⟨wsgiLookup_ok.1 rfl, rfl, (negotiate_connect _).1 (by decide +kernel)⟩, connectHeaders_of (by decide +kernel) (by decide +kernel), pys! "proto",
    (unaryCodecName_iff ..).2 (by decide +kernel), rfl⟩

theorem twin_frail_posted (body : Bytes) (h : body = [7] ∨ body = []) :
    WsgiPosted twinApp (environFor (twinFrail body)) (pys! "/a.S/Echo") echoInfo echoCall ⟨pys! "proto", pickyCodec, rawCodec⟩ := by
  rcases h with rfl | rfl <;>
  exact ⟨⟨wsgiLookup_ok.1 rfl, rfl, (negotiate_connect _).1 (by decide +kernel)⟩, connectHeaders_of (by decide +kernel) (by decide +kernel), pys! "proto",
    (unaryCodecName_iff ..).2 (by decide +kernel), rfl⟩

example : WsgiRefused (twinApp.wsgi demoStatus (environFor twinGarbled)) .invalidArgument ∧
    AsgiRefused (twinApp.asgi demoStatus (scopeFor twinGarbled) (envFor twinGarbled)) .unknown :=
  have hs := twin_served (method := pys! "POST") (path := pys! "/a.S/Echo") (query := []) (ct := pys! "application/proto") (others := []) (body := [255]) (by decide +kernel)
  have h := C90_violation_garbled_all twinApp hs.1 demoStatus twinGarbled hs.2.1 _ hs.2.2.1 _ _ hs.2.2.2 _ _ _ _ twin_garbled_posted .identity rfl [255] rfl (fun h => by cases h)
    (fun n hn => by cases hn; decide) _ rfl
  ⟨h.1, h.2.1⟩

example : WsgiRefused (twinApp.wsgi demoStatus (environFor (twinFrail [7]))) .invalidArgument ∧
    AsgiRefused (twinApp.asgi demoStatus (scopeFor (twinFrail [7])) (envFor (twinFrail [7]))) .unknown :=
  have hs := twin_served (method := pys! "POST") (path := pys! "/a.S/Echo") (query := []) (ct := pys! "application/proto")
    (others := [(pys! "content-encoding", pys! "frail")]) (body := [7]) (by decide +kernel)
  have h := C90_violation_corrupt_all twinApp hs.1 demoStatus (twinFrail [7]) hs.2.1 _ hs.2.2.1 _ _ hs.2.2.2 _ _ _ _ (twin_frail_posted _ (.inl rfl)) frailComp rfl
    (fun h => by cases h) _ rfl
  ⟨h.1, h.2.1⟩

example : WsgiRefused (twinApp.wsgi demoStatus (environFor (twinFrail []))) .invalidArgument ∧
    (twinApp.asgi demoStatus (scopeFor (twinFrail [])) (envFor (twinFrail []))).calls.map (·.req) = [some []] :=
  have hs := twin_served (method := pys! "POST") (path := pys! "/a.S/Echo") (query := []) (ct := pys! "application/proto")
    (others := [(pys! "content-encoding", pys! "frail")]) (body := []) (by decide +kernel)
  have h := C90_violation_empty_all twinApp hs.1 demoStatus (twinFrail []) hs.2.1 _ hs.2.2.1 _ _ hs.2.2.2 _ _ _ _ (twin_frail_posted _ (.inr rfl)) frailComp rfl
    rfl _ rfl (fun n hn => by cases hn; decide) [] rfl
  ⟨h.1, h.2.1⟩

/-- a GET in a codec that the server does not have -/
def twinForeign : HttpIn := twinIn (pys! "GET") (pys! "/a.S/Echo") (pys! "message=AQID&base64=1&encoding=json") [] [] []

example : WsgiRefused (twinApp.wsgi demoStatus (environFor twinForeign)) .unimplemented :=
  have hs := twin_served (method := pys! "GET") (path := pys! "/a.S/Echo") (query := pys! "message=AQID&base64=1&encoding=json") (ct := []) (others := []) (body := []) (by decide +kernel)
  (C90_violation_get_encoding_all twinApp demoStatus twinForeign hs.2.1 _ hs.2.2.1 _ _ hs.2.2.2 (pys! "/a.S/Echo") echoInfo echoCall
    ⟨⟨wsgiLookup_ok.1 rfl, rfl, (negotiate_connect _).1 (by decide +kernel)⟩, rfl, connectHeaders_of (by decide +kernel) (by decide +kernel)⟩
    [1, 2, 3] [1, 2, 3] (wsgiGetMessage_ok.1 (by decide +kernel)) (wsgiGetData_ok.1 (by decide +kernel)) (pys! "json") (.inl (firstParam_iff.1 (by decide +kernel))) rfl).1

/-- a stream in a codec that the server does not have -/
def twinOdd : HttpIn := twinIn (pys! "POST") (pys! "/a.S/Count") [] (pys! "application/connect+json") [] []

example : WsgiGave (twinApp.wsgi demoStatus (environFor twinOdd)) ⟨415, [(pys! "Accept-Post", pys! "application/connect+json, application/connect+proto")], []⟩ :=
  have hs := twin_served (method := pys! "POST") (path := pys! "/a.S/Count") (query := []) (ct := pys! "application/connect+json") (others := []) (body := []) (by decide +kernel)
  (C90_violation_stream_codec_all twinApp demoStatus twinOdd hs.2.1 _ hs.2.2.1 _ _ hs.2.2.2 (pys! "/a.S/Count") ⟨countInfo, .clientStream countCall⟩ .connect
    ⟨wsgiLookup_ok.1 rfl, ⟨_, rfl, mayRun_post ..⟩, (speaks_iff ..).2 (by decide +kernel), (fun h => by cases h), connectHeaders_of (by decide +kernel) (by decide +kernel), fun _ => rfl⟩
    (by decide +kernel) (pys! "json") ((streamCodecName_iff ..).2 (by decide +kernel)) rfl).1

end Props
