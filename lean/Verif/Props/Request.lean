import Verif.Proofs.Request
import Verif.Props.StreamEndToEnd
/-
C72: a server understands every request in the published formats.
-/
namespace Props
open Py Spec Conn

variable {Req Res : Type}

/-- C72, unary requests by Connect on WSGI; partial: a message in the query that is not in base64 has to be text (see
`C72_violation_binary_query`). A request in the published format runs the handler once, with its message, and the handler is told its headers and its
timeout. -/
theorem C72_wsgi_unary_partial (app : App Req Res) (hu : UsualCompressions app) (codec : ServerCodec Req Res) (address path : List Char)
    (ms : MethodInfo) (f : Req → RequestContext → Call Res) (hpath : PlainPath path)
    (hep : Dict.get? app.endpoints path = some ⟨ms, .unary f⟩) (rq : HttpRequest) (req : Req) (told : Option Int)
    (hrq : UnaryRequest app codec address path rq req told) (hget : rq.method = pys! "GET" → ms.idempotency = .noSideEffects)
    (htext : ∀ params, Queried app codec address path params rq req → TextMessage params)
    (env : Environ) (hs : WsgiSees address rq env) (sc : StatusCodec) :
    ∃ ctx, ToldOf rq ms told joined (wsgiScheme env.vars) (wsgiHeaders env.vars) (wsgiClient env.vars) ctx ∧
      (app.wsgi sc env).calls = [⟨path, ctx, some req⟩] := by
  have hr : Readable ms app codec address path rq req := by
    rcases hrq.carries with h | ⟨params, h⟩
    · exact .inl h
    · exact .inr ⟨params, h, htext params h, hget h.1⟩
  obtain ⟨h1, h2, h3⟩ := wsgi_conforming hu hrq.version hrq.timeout hr hpath hep hs
  obtain ⟨ctx, h4, h5, _⟩ := C63_wsgi app sc env _ _ ms f h1 hs.pieces codec req h2
  have ht := h4.timeout
  rw [h4.headers] at ht
  refine ⟨ctx, ⟨h4, h3 _ ht, ?_⟩, h5⟩
  intro n hn hv
  rw [h4.headers, wsgiHeaders_getall _ hs.distinct]
  exact values_one hs.distinct (headerOfVar_cgiVar hn.2) (hs.field n hn hv)

/-- C72, unary requests by Connect on ASGI; partial as on WSGI. -/
theorem C72_asgi_unary_partial (app : App Req Res) (hu : UsualCompressions app) (codec : ServerCodec Req Res) (address path : List Char)
    (ms : MethodInfo) (f : Req → RequestContext → Call Res) (hpath : PlainPath path)
    (hep : Dict.get? app.endpoints path = some ⟨ms, .unary f⟩) (rq : HttpRequest) (req : Req) (told : Option Int)
    (hrq : UnaryRequest app codec address path rq req told) (hget : rq.method = pys! "GET" → ms.idempotency = .noSideEffects)
    (htext : ∀ params, Queried app codec address path params rq req → TextMessage params)
    (scope : Scope) (env : Env) (hs : AsgiSees address rq scope env) (hrel : Reliable env)
    (hroot : scope.rootPath = [] ∨ Dict.get? app.endpoints (scope.rootPath ++ path) = none) (sc : StatusCodec) :
    ∃ ctx headers, ToldOf rq ms told id (asgiScheme scope) headers (scope.client.map fun ca => ca.1 ++ [':'] ++ ca.2) ctx ∧
      (app.asgi sc scope env).calls = [⟨path, ctx, some req⟩] := by
  have hr : Readable ms app codec address path rq req := by
    rcases hrq.carries with h | ⟨params, h⟩
    · exact .inl h
    · exact .inr ⟨params, h, htext params h, hget h.1⟩
  obtain ⟨headers, h1, h2, h3, hv⟩ := asgi_conforming hu hrq.version hrq.timeout hr hpath hep hs hroot
  obtain ⟨ctx, h4, h5, _⟩ := C63_asgi app sc scope env headers _ ms f h1 hrel codec req h2
  have ht := h4.timeout
  rw [h4.headers] at ht
  rw [hs.method] at h4
  refine ⟨ctx, headers, ⟨h4, h3 _ ht, ?_⟩, h5⟩
  intro n hn hne
  rw [h4.headers]
  exact hv n hn hne

/-- C72, streams of all protocols on WSGI (for gRPC, on a server with trailers): the handler is started once, on exactly the messages of the request,
and is told its headers and its timeout; it receives the messages it asks for, in order. -/
theorem C72_wsgi_stream (app : App Req Res) (hu : Dict.get? app.comps (pys! "identity") = some .identity) (codec : ServerCodec Req Res)
    (address path : List Char) (ms : MethodInfo) (handler : Handler Req Res) (hpath : PlainPath path)
    (hep : Dict.get? app.endpoints path = some ⟨ms, handler⟩) (p : Proto) (hkind : p = .connect → handler.isUnary = false)
    (rq : HttpRequest) (reqs : List Req) (told : Option Int) (hrq : StreamedRequest app codec address path p rq reqs told)
    (env : Environ) (hs : WsgiSees address rq env) (htr : p = .grpc → env.sendTrailers = true) (sc : StatusCodec) :
    ∃ ctx, ToldOf rq ms told joined (wsgiScheme env.vars) (wsgiHeaders env.vars) (wsgiClient env.vars) ctx ∧
      ∀ req h0 script, Starts ⟨reqs, none⟩ ctx handler req h0 script →
      ∀ resComp, ResponseCompression app p ctx.requestHeaders resComp →
      ∀ i out h' e, Runs (writerOf codec resComp).write none h0 script.acts script.outcome i out h' e → Caught e →
      ∀ eo, EndsWith (writerOf codec resComp) p sc h'.info.trailers e eo →
        (app.wsgi sc env).calls = [⟨path, ctx, req⟩] ∧ (app.wsgi sc env).received = h'.got := by
  obtain ⟨k, h1, h2, h3⟩ := wsgi_conforming_stream hu hrq hpath hep hkind hs htr rfl
  obtain ⟨hm, ctx, h4, h5, h6⟩ := C35_wsgi app sc env _ _ _ codec k _ h1 hs.pieces _ h2
  rw [hs.method] at h4
  cases h4
  have ht := h5.timeout
  rw [h5.headers] at ht
  refine ⟨ctx, ⟨h5, h3 _ ht, ?_⟩, ?_⟩
  · intro n hn hv
    rw [h5.headers, wsgiHeaders_getall _ hs.distinct]
    exact values_one hs.distinct (headerOfVar_cgiVar hn.2) (hs.field n hn hv)
  · intro req h0 script hst resComp hres i out h' e hrun hc eo heo
    unfold ResponseCompression at hres
    rw [h5.headers] at hres
    subst hres
    obtain ⟨bs, _, _, hev⟩ := h6 req h0 script hst i out h' e hrun hc eo heo
    rw [hev]
    exact ⟨rfl, rfl⟩

/-- C72, streams of all protocols on ASGI, while the client stays connected and the task is not cancelled. -/
theorem C72_asgi_stream (app : App Req Res) (hu : Dict.get? app.comps (pys! "identity") = some .identity) (ho : Spec.Ordinary app)
    (codec : ServerCodec Req Res) (address path : List Char) (ms : MethodInfo) (handler : Handler Req Res) (hpath : PlainPath path)
    (hep : Dict.get? app.endpoints path = some ⟨ms, handler⟩) (p : Proto) (hkind : p = .connect → handler.isUnary = false)
    (rq : HttpRequest) (reqs : List Req) (told : Option Int) (hrq : StreamedRequest app codec address path p rq reqs told)
    (scope : Scope) (env : Env) (hs : AsgiSees address rq scope env) (htr : p = .grpc → scope.trailers = true) (hrel : Reliable env)
    (hcan : env.cancelAfter = none) (hdis : env.disconnectAt = none)
    (hroot : scope.rootPath = [] ∨ Dict.get? app.endpoints (scope.rootPath ++ path) = none) (sc : StatusCodec) :
    ∃ ctx headers, ToldOf rq ms told id (asgiScheme scope) headers (scope.client.map fun ca => ca.1 ++ [':'] ++ ca.2) ctx ∧
      ∀ req h0 script, Starts ⟨reqs, none⟩ ctx handler req h0 script →
      ∀ resComp, ResponseCompression app p ctx.requestHeaders resComp →
      ∀ i out h' e, Runs (writerOf codec resComp).write script.closeErr h0 script.acts script.outcome i out h' e → Caught e →
      ∀ eo, EndsWith (writerOf codec resComp) p sc h'.info.trailers e eo →
        (app.asgi sc scope env).calls = [⟨path, ctx, req⟩] ∧ (app.asgi sc scope env).received = h'.got := by
  obtain ⟨headers, _, hv, h3, k, h1, h2⟩ := asgi_conforming_stream hu hrq hpath hep hkind hs htr hroot
  obtain ⟨ctx, s, h5, h4, h6⟩ := C35_asgi_partial app sc scope env headers _ _ _ codec k _ (h1 _ rfl) hrel
  have := h2 s (h4 hcan ho)
  subst this
  have ht := h5.timeout
  rw [h5.headers] at ht
  rw [hs.method] at h5
  refine ⟨ctx, headers, ⟨h5, h3 _ ht, ?_⟩, ?_⟩
  · intro n hn hne
    rw [h5.headers]
    exact hv n hn hne
  · intro req h0 script hst resComp hres i out h' e hrun hc eo heo
    unfold ResponseCompression at hres
    rw [h5.headers] at hres
    subst hres
    obtain ⟨bs, _, hev⟩ := h6 req h0 script hst i out h' e hrun (fun _ k hk => by rw [hdis] at hk; cases hk)
      (by rintro rfl; exact absurd (hc _ rfl) (by decide)) eo heo
    rw [hev]
    exact ⟨rfl, rfl⟩

/-! ### the hypotheses are met -/

theorem pair_usual : UsualCompressions pairApp where
  identity := rfl
  empty n k data h hd := by
    have h1 : n ∈ Dict.keys pairApp.comps := (Dict.get?_isSome_iff _ _).1 (by rw [h]; rfl)
    have h2 : ∀ n ∈ Dict.keys pairApp.comps, n = pys! "gzip" ∨ n = pys! "identity" := by decide +kernel
    rcases h2 n h1 with rfl | rfl
    · cases h; cases hd; rfl
    · cases h; cases hd; rfl

/-- text that stands for itself -/
theorem queryText_literal {res : List Char} : ∀ (s : Str), (∀ c ∈ s, (0x21 ≤ c.toNat ∧ c.toNat ≤ 0x7E) ∧ c ∉ res) →
    QueryText res s (s.map fun c => UInt8.ofNat c.toNat)
  | [], _ => .nil
  | c :: s, h => .plain (h c List.mem_cons_self).1 (h c List.mem_cons_self).2 (queryText_literal s fun d hd => h d (List.mem_cons_of_mem _ hd))

/-- a request by POST, not as the client of this library would write it: the media type in capitals and with a parameter, the content encoding
in mixed case, no protocol version -/
def postedRequest : HttpRequest :=
  ⟨pys! "POST", pys! "http://h/a.S/Echo", [(pys! "Content-Type", pys! "application/RAW; charset=utf-8"), (pys! "CONTENT-encoding", pys! "GZip"),
    (pys! "Connect-Timeout-Ms", pys! "0001500"), (pys! "x-a", pys! "1")], none, [[3, 2], [1]], none⟩

theorem posted_request : UnaryRequest pairApp ⟨pys! "raw", rawCodec, rawCodec⟩ (pys! "http://h") (pys! "/a.S/Echo") postedRequest [1, 2, 3] (some 1500) where
  version := .inl (by decide +kernel)
  timeout := .connect (ds := pys! "0001500") (by decide +kernel) (by decide +kernel) (by decide) (by decide)
  carries := .inl ⟨rfl, rfl, ⟨pys! "application/RAW; charset=utf-8", pys! "raw", by decide +kernel, by decide +kernel, by decide +kernel, rfl⟩,
    [1, 2, 3], .inr ⟨pys! "GZip", revGzip, by decide +kernel, rfl, rfl⟩, (by intro n h; cases h), rfl⟩

/-- a request by GET with a message of text, other parameters, and escapes in the name of the codec -/
def queriedRequest : HttpRequest :=
  ⟨pys! "GET", pys! "http://h/a.S/Echo?connect=v1&message=%03+%4a&encoding=r%61w", [(pys! "Connect-Protocol-Version", pys! "1")], none, [], none⟩
def queriedParams : List (Str × Bytes) :=
  [(pys! "connect", [0x76, 0x31]), (pys! "message", [0x03, 0x20, 0x4A]), (pys! "encoding", [0x72, 0x61, 0x77])]

theorem queried_query : Query queriedParams (pys! "connect=v1&message=%03+%4a&encoding=r%61w") :=
  .more (n := pys! "connect") (v := pys! "v1") (queryText_literal _ (by decide)) (queryText_literal _ (by decide))
    (.more (n := pys! "message") (v := pys! "%03+%4a") (queryText_literal _ (by decide))
      (.escaped (h := 0) (l := 3) (.inl (by decide)) (.inl (by decide)) (.blank (.escaped (h := 4) (l := 10) (.inl (by decide)) (.inr (.inl (by decide))) .nil)))
      (.one (n := pys! "encoding") (v := pys! "r%61w") (queryText_literal _ (by decide))
        (.plain (by decide) (by decide) (.escaped (h := 6) (l := 1) (.inl (by decide)) (.inl (by decide)) (.plain (by decide) (by decide) .nil)))))

theorem queried_request :
    UnaryRequest pairApp ⟨pys! "raw", rawCodec, rawCodec⟩ (pys! "http://h") (pys! "/a.S/Echo") queriedRequest [0x03, 0x20, 0x4A] none ∧
    TextMessage queriedParams := by
  refine ⟨⟨.inr (by decide +kernel), .none (by decide +kernel), .inr ⟨queriedParams, rfl, by decide +kernel, ⟨_, rfl, queried_query⟩,
    ⟨pys! "raw", by decide +kernel, rfl⟩, [0x03, 0x20, 0x4A], [0x03, 0x20, 0x4A], .inl ⟨by decide +kernel, by decide +kernel⟩,
    .inl ⟨by decide +kernel, rfl⟩, rfl⟩⟩, ?_⟩
  intro _ raw h
  refine ⟨pys! "\x03 J", ?_⟩
  have : parameter queriedParams (pys! "message") = [utf8Encode (pys! "\x03 J")] := by decide +kernel
  rw [this] at h
  exact (List.cons.inj h).1.symm

/-- a request by GET with a compressed message in base64, without padding, in another order of the parameters -/
def base64Request : HttpRequest :=
  ⟨pys! "GET", pys! "http://h/a.S/Echo?base64=1&compression=gzip&encoding=raw&message=-_8", [], none, [], none⟩
def base64Params : List (Str × Bytes) :=
  [(pys! "base64", [0x31]), (pys! "compression", utf8Encode (pys! "gzip")), (pys! "encoding", utf8Encode (pys! "raw")),
   (pys! "message", utf8Encode (pys! "-_8"))]

theorem base64_request :
    UnaryRequest pairApp ⟨pys! "raw", rawCodec, rawCodec⟩ (pys! "http://h") (pys! "/a.S/Echo") base64Request [0xFF, 0xFB] none ∧
    TextMessage base64Params := by
  refine ⟨⟨.inl (by decide +kernel), .none (by decide +kernel), .inr ⟨base64Params, rfl, by decide +kernel, ⟨_, rfl, ?_⟩,
    ⟨pys! "raw", by decide +kernel, rfl⟩, [0xFB, 0xFF], [0xFF, 0xFB], .inr ⟨by decide +kernel, pys! "-_8", by decide +kernel,
      pys! "+/8", ⟨1, by decide +kernel⟩, by decide +kernel⟩,
    .inr ⟨pys! "gzip", revGzip, by decide +kernel, rfl, by decide +kernel⟩, rfl⟩⟩, ?_⟩
  · exact .more (n := pys! "base64") (v := pys! "1") (queryText_literal _ (by decide)) (queryText_literal _ (by decide))
      (.more (n := pys! "compression") (v := pys! "gzip") (queryText_literal _ (by decide)) (queryText_literal _ (by decide))
      (.more (n := pys! "encoding") (v := pys! "raw") (queryText_literal _ (by decide)) (queryText_literal _ (by decide))
      (.one (n := pys! "message") (v := pys! "-_8") (queryText_literal _ (by decide)) (queryText_literal _ (by decide)))))
  · intro h
    have : parameter base64Params (pys! "base64") ≠ [] := by decide +kernel
    exact absurd h this

/-- these requests arrive, at both servers -/
example : PlainPath (pys! "/a.S/Echo") ∧ Dict.get? pairApp.endpoints (pys! "/a.S/Echo") = some ⟨echoInfo, .unary tellCall⟩ ∧
    echoInfo.idempotency = .noSideEffects ∧
    ∀ rq ∈ [postedRequest, queriedRequest, base64Request],
      (∃ env, WsgiSees (pys! "http://h") rq env) ∧
      ∃ scope env, AsgiSees (pys! "http://h") rq scope env ∧ Reliable env ∧ scope.rootPath = pys! "/root" ∧
        Dict.get? pairApp.endpoints (scope.rootPath ++ pys! "/a.S/Echo") = none := by
  have hp : PlainPath (pys! "/a.S/Echo") := ⟨⟨_, rfl⟩, by decide +kernel⟩
  refine ⟨hp, rfl, rfl, ?_⟩
  intro rq hrq
  have : ∃ q, HasTarget (pys! "http://h") rq (pys! "/a.S/Echo") q := by
    simp only [List.mem_cons, List.not_mem_nil, or_false] at hrq
    rcases hrq with rfl | rfl | rfl
    · exact ⟨[], hp, .inl ⟨rfl, rfl⟩⟩
    · exact ⟨_, hp, .inr rfl⟩
    · exact ⟨_, hp, .inr rfl⟩
  obtain ⟨q, hq⟩ := this
  exact ⟨⟨_, wsgiSees_environOf hq⟩, _, demoEnv [.request rq.body.flatten false], asgiSees_of hq (pys! "/root") _ (.last _ _), fun _ => rfl, rfl, rfl⟩

/-- and are run -/
example :
    (pairApp.wsgi demoStatus (environOf (pys! "POST") (pys! "/a.S/Echo") [] postedRequest.headers postedRequest.body)).calls.map
      (fun c => (c.req, c.ctx.timeoutMs)) = [(some [1, 2, 3], some 1500)] ∧
    (pairApp.wsgi demoStatus (environOf (pys! "GET") (pys! "/a.S/Echo") (pys! "connect=v1&message=%03+%4a&encoding=r%61w")
      queriedRequest.headers [])).calls.map (fun c => (c.req, c.ctx.timeoutMs)) = [(some [0x03, 0x20, 0x4A], none)] := by
  decide +kernel

/-- a request by GET with the one byte 0xFF as its message, not in base64 -/
def binaryRequest : HttpRequest :=
  ⟨pys! "GET", pys! "http://h/a.S/Echo?message=%FF&encoding=raw", [], none, [], none⟩

/-- C72 is false of binary messages that are escaped in the query, on both servers: the request is in the published format, but the handler is called with
other bytes than those of the message (EF BF BD, the replacement character, for FF). -/
theorem C72_violation_binary_query :
    UnaryRequest pairApp ⟨pys! "raw", rawCodec, rawCodec⟩ (pys! "http://h") (pys! "/a.S/Echo") binaryRequest [0xFF] none ∧
    (∃ env, WsgiSees (pys! "http://h") binaryRequest env ∧
      (pairApp.wsgi demoStatus env).calls.map (·.req) = [some [0xEF, 0xBF, 0xBD]]) ∧
    ∃ scope env, AsgiSees (pys! "http://h") binaryRequest scope env ∧ Reliable env ∧
      (pairApp.asgi demoStatus scope env).calls.map (·.req) = [some [0xEF, 0xBF, 0xBD]] := by
  have hq : HasTarget (pys! "http://h") binaryRequest (pys! "/a.S/Echo") (pys! "message=%FF&encoding=raw") :=
    ⟨⟨⟨_, rfl⟩, by decide +kernel⟩, .inr rfl⟩
  refine ⟨⟨.inl (by decide +kernel), .none (by decide +kernel), .inr ⟨[(pys! "message", [0xFF]), (pys! "encoding", utf8Encode (pys! "raw"))],
      rfl, by decide +kernel, ⟨_, rfl, ?_⟩, ⟨pys! "raw", by decide +kernel, rfl⟩, [0xFF], [0xFF],
      .inl ⟨by decide +kernel, by decide +kernel⟩, .inl ⟨by decide +kernel, rfl⟩, rfl⟩⟩,
    ⟨_, wsgiSees_environOf hq, by decide +kernel⟩, _, demoEnv [.request [] false], asgiSees_of hq [] _ (.last _ _), fun _ => rfl, by decide +kernel⟩
  exact .more (n := pys! "message") (v := pys! "%FF") (queryText_literal _ (by decide))
    (.escaped (h := 15) (l := 15) (.inr (.inr (by decide))) (.inr (.inr (by decide))) .nil)
    (.one (n := pys! "encoding") (v := pys! "raw") (queryText_literal _ (by decide)) (queryText_literal _ (by decide)))

/-- a stream of two messages, the first compressed and the second not, by each protocol -/
def chatRequest (p : Proto) : HttpRequest :=
  ⟨pys! "POST", pys! "http://h/a.S/Echo",
    [(pys! "Content-Type", match p with
      | .connect => pys! "Application/Connect+Raw ;a=b"
      | .grpc => pys! "application/grpc+raw"
      | .grpcWeb => pys! "application/grpc-web+raw"), (encodingHeader p, pys! "gzip"),
     (timeoutName p, match p with | .connect => pys! "2000" | _ => pys! "2S")], none, [[1, 0, 0], [0, 2, 5, 4, 0, 0, 0, 0, 1], [6]], none⟩

theorem chat_request (p : Proto) :
    StreamedRequest chatApp chatCodec (pys! "http://h") (pys! "/a.S/Echo") p (chatRequest p) [[4, 5], [6]] (some 2000) where
  method := rfl
  url := rfl
  version _ := .inl (by cases p <;> decide +kernel)
  timeout := by
    cases p
    · exact .connect (ds := pys! "2000") (by decide +kernel) (by decide +kernel) (by decide) (by decide)
    · exact .grpc (ds := ['2']) (u := 'S') (k := 1000000000) (by decide) (by decide +kernel) (by decide +kernel) (by decide) (by decide) (by decide)
    · exact .grpc (ds := ['2']) (u := 'S') (k := 1000000000) (by decide) (by decide +kernel) (by decide +kernel) (by decide) (by decide) (by decide)
  type := by
    cases p
    · exact ⟨pys! "Application/Connect+Raw ;a=b", pys! "raw", by decide +kernel, (by show mediaType (pys! "Application/Connect+Raw ;a=b") = _; decide +kernel), rfl⟩
    · exact ⟨_, pys! "raw", by decide +kernel, .inl rfl, rfl⟩
    · exact ⟨_, pys! "raw", by decide +kernel, .inl rfl, rfl⟩
  body := by
    refine ⟨revGzip, [⟨1, [5, 4]⟩, ⟨0, [6]⟩], .inr ⟨pys! "gzip", by cases p <;> decide +kernel, by decide, rfl⟩, ?_, rfl, rfl⟩
    intro f hf
    simp only [List.mem_cons, List.not_mem_nil, or_false] at hf
    rcases hf with rfl | rfl
    · exact ⟨(by show 2 < 2 ^ 32; decide), .inr rfl⟩
    · exact ⟨(by show 1 < 2 ^ 32; decide), .inl rfl⟩

/-- it arrives at both servers, and the handler runs on its messages -/
example (p : Proto) (ctx : RequestContext) :
    (∃ env, WsgiSees (pys! "http://h") (chatRequest p) env ∧ env.sendTrailers = true) ∧
    (∃ scope env, AsgiSees (pys! "http://h") (chatRequest p) scope env ∧ scope.trailers = true ∧ Reliable env ∧ env.cancelAfter = none ∧
      env.disconnectAt = none ∧ scope.rootPath = []) ∧
    Dict.get? chatApp.comps (pys! "identity") = some .identity ∧
    ∃ req h0 script, Starts ⟨[[4, 5], [6]], none⟩ ctx (.bidi chatScript) req h0 script ∧ ∃ i out h' e,
      Runs (writerOf chatCodec revGzip).write none h0 script.acts script.outcome i out h' e ∧ Caught e ∧
      ∃ eo, EndsWith (writerOf chatCodec revGzip) p protobufStatus h'.info.trailers e eo := by
  have hq : HasTarget (pys! "http://h") (chatRequest p) (pys! "/a.S/Echo") [] := ⟨⟨⟨_, rfl⟩, by decide +kernel⟩, .inl ⟨rfl, rfl⟩⟩
  refine ⟨⟨⟨(environOf (pys! "POST") (pys! "/a.S/Echo") [] (chatRequest p).headers (chatRequest p).body).vars,
    (environOf (pys! "POST") (pys! "/a.S/Echo") [] (chatRequest p).headers (chatRequest p).body).input, true⟩, ?_, rfl⟩,
    ⟨⟨pys! "/a.S/Echo", [], pys! "POST", none, (chatRequest p).headers.map fun p => (utf8Encode p.1, utf8Encode p.2), none, [], true⟩,
      demoEnv [.request (chatRequest p).body.flatten false], ?_, rfl, fun _ => rfl, rfl, rfl, rfl⟩, rfl,
    none, _, _, chat_starts ctx, _, _, _, _, chat_runs ctx, (chat_regular p).caught, ?_⟩
  · have h := wsgiSees_environOf hq
    exact ⟨h.method, h.path, h.query, h.distinct, h.field, h.unset, h.pieces, h.body, h.length⟩
  · have h := asgiSees_of hq [] (demoEnv [.request (chatRequest p).body.flatten false]) (.last _ _)
    exact ⟨h.method, h.path, h.query, h.fields, h.body⟩
  · cases p <;> exact (chat_regular _).ends

end Props
