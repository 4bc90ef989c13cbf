import Verif.Props.BadRequest
/-
C102 and C92: what no function is told of a streamed request with an envelope that cannot be accepted, or that was cut.
-/
namespace Props
open Conn Py Spec

variable {Req Res : Type}

theorem start_failed {s : ReqStream Req} (hs : s.err ≠ none) {ctx : RequestContext} {handler : Handler Req Res} {req : Option Req} {h : HState Req}
    {script : Script Res} (hst : handler.start s ctx = .ok (req, h, script)) : req = none ∧ h.got ++ h.reqs = s.messages := by
  cases starts_iff.1 hst with
  | unary f m hm he hr => exact absurd he hs
  | clientStream f hr => exact ⟨rfl, rfl⟩
  | serverStream f m hm he => exact absurd he hs
  | bidi f => exact ⟨rfl, rfl⟩

/-- **C102, WSGI, nothing else**: whatever the function does, it is not called with a message, and it receives nothing but messages from before the bad envelope,
in order. -/
theorem C102_wsgi_nothing_else (app : App Req Res) (hu : Dict.get? app.comps (pys! "identity") = some .identity) (codec : ServerCodec Req Res)
    (address path : List Char) (ms : MethodInfo) (handler : Handler Req Res) (hpath : PlainPath path)
    (hep : Dict.get? app.endpoints path = some ⟨ms, handler⟩) (p : Proto) (hkind : p = .connect → handler.isUnary = false)
    (rq : HttpRequest) (reqs : List Req) (told : Option Int) (code : Code) (text : List Char)
    (hrq : SpoiltRequest app codec address path p rq reqs told code text)
    (env : Environ) (hs : WsgiSees address rq env) (htr : p = .grpc → env.sendTrailers = true) (sc : StatusCodec) :
    (∀ c ∈ (app.wsgi sc env).calls, c.req = none) ∧ (app.wsgi sc env).received <+: reqs := by
  obtain ⟨e, k, _, h1, h2, _⟩ := wsgi_spoilt hu hrq hpath hep hkind hs htr
  have h1 := h1 _ rfl
  obtain ⟨name, hn, hcodec⟩ := h1.codec
  obtain ⟨hm, ctx, _, hcases⟩ := wsgi_stream_cases h1.streams hn hcodec h1.resComp
  rw [wsgiMessages_iff hs.pieces] at h2
  have hcase := (hcases sc).2 k h1.reqComp
  rw [h2] at hcase
  cases hst : handler.start (⟨reqs, some e⟩ : ReqStream Req) ctx with
  | error x =>
    rw [hcase.1 x hst, wsgiErrorOnly_calls, wsgiErrorOnly_received]
    exact ⟨fun c hc => (by cases hc), List.nil_prefix⟩
  | ok r =>
    obtain ⟨req, h0, script⟩ := r
    obtain ⟨rfl, hgot⟩ := start_failed (fun h => by cases h) hst
    rw [hcase.2 _ h0 script hst, wsgiFirst_calls]
    refine ⟨fun c hc => ?_, ?_⟩
    · rw [List.mem_singleton.1 hc]
    · rw [← show h0.got ++ h0.reqs = reqs from hgot]
      exact wsgiFirst_received ..

/-- **C102, ASGI, nothing else**: also if the client disconnects, sending fails or the task is cancelled. -/
theorem C102_asgi_nothing_else (app : App Req Res) (hu : Dict.get? app.comps (pys! "identity") = some .identity) (ho : Spec.Ordinary app)
    (codec : ServerCodec Req Res) (address path : List Char) (ms : MethodInfo) (handler : Handler Req Res) (hpath : PlainPath path)
    (hep : Dict.get? app.endpoints path = some ⟨ms, handler⟩) (p : Proto) (hkind : p = .connect → handler.isUnary = false)
    (rq : HttpRequest) (reqs : List Req) (told : Option Int) (code : Code) (text : List Char)
    (hrq : SpoiltRequest app codec address path p rq reqs told code text)
    (scope : Scope) (env : Env) (hs : AsgiSees address rq scope env) (htr : p = .grpc → scope.trailers = true)
    (hroot : scope.rootPath = [] ∨ Dict.get? app.endpoints (scope.rootPath ++ path) = none) (sc : StatusCodec) :
    (∀ c ∈ (app.asgi sc scope env).calls, c.req = none) ∧ (app.asgi sc scope env).received <+: reqs := by
  obtain ⟨e, k, headers, _, _, _, h1, _, h2⟩ := asgi_spoilt hu hrq hpath hep hkind hs htr hroot
  have h1 := h1 _ rfl
  obtain ⟨name, hn, hcodec⟩ := h1.codec
  obtain ⟨ctx, _, hcases⟩ := asgi_stream_cases h1.streams hn hcodec h1.resComp
  have hcase := (hcases sc env).2 k h1.reqComp
  have hwhole := (asgiMessages_iff (env := { env with cancelAfter := none }) rfl ho ⟨name, hcodec⟩ (requestCompression_known h1.reqComp)).1 h2
  obtain ⟨s, hs1, hs2, hs3⟩ : ∃ s : ReqStream Req, app.asgiRequests env codec k = s ∧ s.err ≠ none ∧ s.messages <+: reqs := by
    generalize hw : app.asgiRequests { env with cancelAfter := none } codec k = whole at hwhole
    have key : ∃ canceled, app.asgiRequests env codec k = whole ∨ ∃ n, app.asgiRequests env codec k = ⟨whole.messages.take n, some canceled⟩ := by
      refine ⟨.mk .canceled (pys! "Request was cancelled"), ?_⟩
      rw [← hw]
      unfold App.asgiRequests
      dsimp only
      cases hc : env.cancelAfter with
      | none => exact .inl rfl
      | some n =>
        dsimp only
        split
        · exact .inr ⟨_, rfl⟩
        · exact .inl rfl
    subst hwhole
    obtain ⟨x, h | ⟨n, h⟩⟩ := key
    · exact ⟨_, h, (fun h => by cases h), List.prefix_refl _⟩
    · exact ⟨_, h, (fun h => by cases h), List.take_prefix _ _⟩
  rw [hs1] at hcase
  cases hst : handler.start s ctx with
  | error x =>
    rw [hcase.1 x hst, finish_calls, finish_received]
    exact ⟨fun c hc => (by cases hc), List.nil_prefix⟩
  | ok r =>
    obtain ⟨req, h0, script⟩ := r
    obtain ⟨rfl, hgot⟩ := start_failed hs2 hst
    rw [hcase.2 _ h0 script hst, finish_calls, finish_received]
    refine ⟨fun c hc => ?_, ?_⟩
    · rw [List.mem_singleton.1 hc]
    · exact ((loop_received ..).trans (by rw [hgot]; exact List.prefix_refl _)).trans hs3

/-- **C92, streamed requests** (partial, see `C92_violation_request`): of a message of a streamed request that is compressed with gzip and has lost its end (but not everything), or with brotli
and has lost its end or was extended, no function is told anything; it receives nothing but the messages before. -/
theorem C92_request_partial (app : App Req Res) (hu : Dict.get? app.comps (pys! "identity") = some .identity) (ho : Spec.Ordinary app)
    (codec : ServerCodec Req Res) (address path : List Char) (ms : MethodInfo) (handler : Handler Req Res) (hpath : PlainPath path)
    (hep : Dict.get? app.endpoints path = some ⟨ms, handler⟩) (p : Proto) (hkind : p = .connect → handler.isUnary = false)
    (rq : HttpRequest) (reqs : List Req) (told : Option Int) (fmt : Format) (hfmt : Sensible fmt) (comp : Compression) (data : List UInt8) (bad : Frame)
    (rest : List UInt8) (hrq : RequestUpTo app codec address path p rq comp reqs told bad rest) (hflag : bad.flags.toNat % 2 = 1)
    (hs : (comp = gzipCompression fmt ∧ CutShort comp data bad.payload ∧ bad.payload ≠ []) ∨
      (comp = brotliCompression fmt ∧ (CutShort comp data bad.payload ∨ Extended comp data bad.payload))) (sc : StatusCodec) :
    (∀ env, WsgiSees address rq env → (p = .grpc → env.sendTrailers = true) →
      (∀ c ∈ (app.wsgi sc env).calls, c.req = none) ∧ (app.wsgi sc env).received <+: reqs) ∧
    (∀ scope env, AsgiSees address rq scope env → (p = .grpc → scope.trailers = true) →
      (scope.rootPath = [] ∨ Dict.get? app.endpoints (scope.rootPath ++ path) = none) →
      (∀ c ∈ (app.asgi sc scope env).calls, c.req = none) ∧ (app.asgi sc scope env).received <+: reqs) := by
  obtain ⟨cls, msg, hd⟩ := spoilt hfmt hs
  have hne : comp ≠ .identity := by
    rcases hs with ⟨rfl, _⟩ | ⟨rfl, _⟩ <;> exact fun h => by cases h
  have hbad : SpoiltRequest app codec address path p rq reqs told .unknown msg := ⟨comp, bad, rest, hrq, .spoilt hflag hne hd⟩
  exact ⟨fun env h1 h2 => C102_wsgi_nothing_else app hu codec address path ms handler hpath hep p hkind rq reqs told _ _ hbad env h1 h2 sc,
    fun scope env h1 h2 h3 => C102_asgi_nothing_else app hu ho codec address path ms handler hpath hep p hkind rq reqs told _ _ hbad scope env h1 h2 h3 sc⟩

theorem runs_reading {write : Res → Except Exc Bytes} {close : Option Exc} (ms : List Req) (got : List Req) (m : Meta) :
    Runs write close ⟨ms, none, m, got⟩ (List.replicate (ms.length + 1) (.step (.recv false))) none m [] ⟨[], none, m, got ++ ms⟩ none := by
  induction ms generalizing got with
  | nil =>
    rw [List.append_nil]
    exact .step (.ended m got false) (.done ⟨[], none, m, got⟩ none)
  | cons a ms ih =>
    have := ih (got ++ [a])
    rw [List.append_assoc, List.singleton_append] at this
    rw [List.length_cons, List.replicate_succ]
    exact .step (.message a ms none m got false) this

/-- **C92 is violated by the servers, in streams**: of a message of a streamed request in zstd that has lost its end, a function that reads its messages gets a beginning, if it can be decoded
as a message. -/
theorem C92_violation_request (app : App Req Res) (hu : Dict.get? app.comps (pys! "identity") = some .identity) (ho : Spec.Ordinary app)
    (codec : ServerCodec Req Res) (address path : List Char) (ms : MethodInfo) (f : ReqStream Req → RequestContext → Script Res)
    (hf : ∀ s ctx, f s ctx = ⟨List.replicate (s.messages.length + 1) (.step (.recv false)), none, none⟩)
    (hpath : PlainPath path) (hep : Dict.get? app.endpoints path = some ⟨ms, .bidi f⟩) (p : Proto)
    (rq : HttpRequest) (reqs : List Req) (told : Option Int) (fmt : Format) (hfmt : Sensible fmt) (data : List UInt8) (bad : Frame)
    (hrq : RequestUpTo app codec address path p rq (zstdCompression fmt) reqs told bad []) (hflag : bad.flags = 1)
    (hs : CutShort (zstdCompression fmt) data bad.payload)
    (hd : ∀ known, known <+: data → WithinLimit app known ∧ ∃ r, codec.req.decode known = .ok r) (sc : StatusCodec)
    (hend : ∀ accept, ∃ eo, EndsWith (writerOf codec (negotiateCompression accept app.comps)) p sc Headers.empty none eo) :
    ∃ known r, known <+: data ∧ codec.req.decode known = .ok r ∧
      (∀ env, WsgiSees address rq env → (p = .grpc → env.sendTrailers = true) → (app.wsgi sc env).received = reqs ++ [r]) ∧
      (∀ scope env, AsgiSees address rq scope env → (p = .grpc → scope.trailers = true) → Reliable env → env.cancelAfter = none → env.disconnectAt = none →
        (scope.rootPath = [] ∨ Dict.get? app.endpoints (scope.rootPath ++ path) = none) → (app.asgi sc scope env).received = reqs ++ [r]) := by
  obtain ⟨known, hk, hz⟩ := (C92_violation_zstd fmt hfmt data bad.payload).1 hs
  obtain ⟨hl, r, hr⟩ := hd known hk
  have hmsg : (serverPolicy app codec (zstdCompression fmt)).message bad = .ok r := by
    unfold Policy.message
    rw [holds_server (contents := known) (.inr ⟨by rw [hflag]; rfl, fun h => (by cases h), hz⟩)]
    dsimp only
    unfold Policy.checkSize
    show (match (match app.readMax with | none => _ | some n => _ : Except Exc Bytes) with | .error e => _ | .ok d => codec.req.decode d) = _
    cases hq : app.readMax with
    | none => exact hr
    | some n => dsimp only; rw [if_pos (hl n hq)]; exact hr
  obtain ⟨fs, hok, hms, hb⟩ := hrq.body
  have hreq : StreamedRequest app codec address path p rq (reqs ++ [r]) told := by
    refine ⟨hrq.method, hrq.url, hrq.version, hrq.timeout, hrq.type, _, fs ++ [bad], hrq.named, ?_, by rw [hb]; simp, ?_⟩
    · intro f hf
      rcases List.mem_append.1 hf with hf | hf
      · exact hok f hf
      · rw [List.mem_singleton.1 hf]; exact ⟨hrq.nextOk, .inr hflag⟩
    · rw [List.map_append, List.map_append, hms, List.map_singleton, hmsg]
      rfl
  refine ⟨known, r, hk, hr, ?_, ?_⟩
  · intro env h1 h2
    obtain ⟨ctx, h3, h4⟩ := C72_wsgi_stream app hu codec address path ms (.bidi f) hpath hep p (fun _ => rfl) rq _ told hreq env h1 h2 sc
    obtain ⟨eo, heo⟩ := hend (ctx.requestHeaders.getD (acceptHeader p) [])
    have := h4 _ _ _ (.bidi f) _ rfl .empty [] ⟨[], none, .empty, reqs ++ [r]⟩ none
      (by rw [hf]; exact runs_reading (reqs ++ [r]) [] .empty) (fun x h => by cases h) eo heo
    exact this.2
  · intro scope env h1 h2 h3 h4 h5 h6
    obtain ⟨ctx, headers, h7, h8⟩ := C72_asgi_stream app hu ho codec address path ms (.bidi f) hpath hep p (fun _ => rfl) rq _ told hreq scope env h1 h2 h3 h4 h5 h6 sc
    obtain ⟨eo, heo⟩ := hend (ctx.requestHeaders.getD (acceptHeader p) [])
    have := h8 _ _ _ (.bidi f) _ rfl .empty [] ⟨[], none, .empty, reqs ++ [r]⟩ none
      (by rw [hf]; exact runs_reading (reqs ++ [r]) [] .empty) (fun x h => by cases h) eo heo
    exact this.2

/-! ### the hypotheses are met -/

/-- a server that knows the three compressions (all in the plain format), and functions that read their messages -/
def codingServer (handler : Handler Bytes Bytes) : App Bytes Bytes :=
  .new [(pys! "/a.S/Echo", ⟨echoInfo, handler⟩)] (pys! "/a.S") flipComp none
    (some [zstdCompression plainFormat, gzipCompression plainFormat, brotliCompression plainFormat]) [⟨pys! "raw", rawCodec, rawCodec⟩]
def readOnly (s : ReqStream Bytes) (_ : RequestContext) : Script Bytes := ⟨List.replicate (s.messages.length + 1) (.step (.recv false)), none, none⟩
def cutRequest (p : Proto) (enc : Str) : HttpRequest :=
  { chatRequest p with
    headers := [(pys! "Content-Type", match p with
      | .connect => pys! "Application/Connect+Raw ;a=b"
      | .grpc => pys! "application/grpc+raw"
      | .grpcWeb => pys! "application/grpc-web+raw"), (encodingHeader p, enc),
      (timeoutName p, match p with | .connect => pys! "2000" | _ => pys! "2S")]
    body := [[0, 0, 0, 0, 1], [9, 1, 0, 0, 0, 3, 1, 7, 1]] }

theorem cut_request (p : Proto) (handler : Handler Bytes Bytes) (enc : Str) (comp : Compression) (henc : enc ∈ [pys! "zstd", pys! "gzip", pys! "br"])
    (hc : Dict.get? (codingServer handler).comps enc = some comp) :
    RequestUpTo (codingServer handler) chatCodec (pys! "http://h") (pys! "/a.S/Echo") p (cutRequest p enc) comp [[9]] (some 2000) ⟨1, [1, 7, 1]⟩ [] where
  method := rfl
  url := rfl
  version _ := .inl (by
    simp only [List.mem_cons, List.not_mem_nil, or_false] at henc
    rcases henc with rfl | rfl | rfl <;> cases p <;> decide +kernel)
  timeout := by
    simp only [List.mem_cons, List.not_mem_nil, or_false] at henc
    cases p
    · exact .connect (ds := pys! "2000") (by rcases henc with rfl | rfl | rfl <;> decide +kernel) (by decide +kernel) (by decide) (by decide)
    · exact .grpc (ds := ['2']) (u := 'S') (k := 1000000000) (by decide) (by rcases henc with rfl | rfl | rfl <;> decide +kernel) (by decide +kernel) (by decide) (by decide) (by decide)
    · exact .grpc (ds := ['2']) (u := 'S') (k := 1000000000) (by decide) (by rcases henc with rfl | rfl | rfl <;> decide +kernel) (by decide +kernel) (by decide) (by decide) (by decide)
  type := by
    simp only [List.mem_cons, List.not_mem_nil, or_false] at henc
    cases p
    · exact ⟨pys! "Application/Connect+Raw ;a=b", pys! "raw", by rcases henc with rfl | rfl | rfl <;> decide +kernel, (by show mediaType (pys! "Application/Connect+Raw ;a=b") = _; decide +kernel), rfl⟩
    · exact ⟨pys! "application/grpc+raw", pys! "raw", by rcases henc with rfl | rfl | rfl <;> decide +kernel, .inl rfl, rfl⟩
    · exact ⟨pys! "application/grpc-web+raw", pys! "raw", by rcases henc with rfl | rfl | rfl <;> decide +kernel, .inl rfl, rfl⟩
  named := by
    refine .inr ⟨enc, ?_, ?_, hc⟩
    · simp only [List.mem_cons, List.not_mem_nil, or_false] at henc
      rcases henc with rfl | rfl | rfl <;> cases p <;> decide +kernel
    · rintro rfl; revert henc; decide
  body := by
    refine ⟨[⟨0, [9]⟩], ?_, rfl, rfl⟩
    intro f hf
    rw [List.mem_singleton.1 hf]
    exact ⟨(by show 1 < 2 ^ 32; decide), .inl rfl⟩
  nextOk := by show 3 < 2 ^ 32; decide

theorem negotiateFrom_known (comps : Dict Str Compression) (as : List Str) :
    negotiateFrom comps as = .identity ∨ ∃ q ∈ comps, q.2 = negotiateFrom comps as := by
  induction as with
  | nil => exact .inl rfl
  | cons a as ih =>
    unfold negotiateFrom
    cases h : Dict.get? comps (strip a) with
    | none => exact ih
    | some c => exact .inr ⟨_, Dict.get?_some_mem h, rfl⟩

/-- in gzip and brotli it is refused, in zstd the function gets `[7]`, a beginning of `[7, 8]` -/
example (p : Proto) :
    RequestUpTo (codingServer (.bidi readOnly)) chatCodec (pys! "http://h") (pys! "/a.S/Echo") p (cutRequest p (pys! "gzip")) (gzipCompression plainFormat) [[9]] (some 2000) ⟨1, [1, 7, 1]⟩ [] ∧
    CutShort (gzipCompression plainFormat) [7, 8] [1, 7, 1] ∧
    RequestUpTo (codingServer (.bidi readOnly)) chatCodec (pys! "http://h") (pys! "/a.S/Echo") p (cutRequest p (pys! "zstd")) (zstdCompression plainFormat) [[9]] (some 2000) ⟨1, [1, 7, 1]⟩ [] ∧
    CutShort (zstdCompression plainFormat) [7, 8] [1, 7, 1] ∧
    (∀ known, known <+: [7, 8] → WithinLimit (codingServer (.bidi readOnly)) known ∧ ∃ r, chatCodec.req.decode known = .ok r) ∧
    (∃ env, WsgiSees (pys! "http://h") (cutRequest p (pys! "zstd")) env ∧ env.sendTrailers = true) ∧
    ∀ accept, ∃ eo, EndsWith (writerOf chatCodec (negotiateCompression accept (codingServer (.bidi readOnly)).comps)) p protobufStatus Headers.empty none eo := by
  have hq : HasTarget (pys! "http://h") (cutRequest p (pys! "zstd")) (pys! "/a.S/Echo") [] := ⟨⟨⟨_, rfl⟩, by decide +kernel⟩, .inl ⟨rfl, rfl⟩⟩
  refine ⟨cut_request p _ _ _ (by decide) rfl, ⟨⟨[8, 2], rfl⟩, fun h => by cases h⟩, cut_request p _ _ _ (by decide) rfl, ⟨⟨[8, 2], rfl⟩, fun h => by cases h⟩,
    fun known _ => ⟨(fun n h => by cases h), known, rfl⟩,
    ⟨⟨(environOf (pys! "POST") (pys! "/a.S/Echo") [] (cutRequest p (pys! "zstd")).headers (cutRequest p (pys! "zstd")).body).vars,
      (environOf (pys! "POST") (pys! "/a.S/Echo") [] (cutRequest p (pys! "zstd")).headers (cutRequest p (pys! "zstd")).body).input, true⟩, ?_, rfl⟩, ?_⟩
  · have h := wsgiSees_environOf hq
    exact ⟨h.method, h.path, h.query, h.distinct, h.field, h.unset, h.pieces, h.body, h.length⟩
  · intro accept
    have hok : ∀ {r : Except Exc EndOut}, (match r with | .ok _ => true | .error _ => false) = true → ∃ out, r = .ok out := by
      intro r h
      cases r with
      | ok out => exact ⟨out, rfl⟩
      | error e => cases h
    have hall : ∀ c : Compression, (c = .identity ∨ c ∈ (codingServer (.bidi readOnly)).comps.map (·.2)) →
        ∃ eo, EndsWith (writerOf chatCodec c) p protobufStatus Headers.empty none eo := by
      intro c hc
      have : (codingServer (.bidi readOnly)).comps.map (·.2) = [zstdCompression plainFormat, gzipCompression plainFormat, brotliCompression plainFormat, .identity] := rfl
      rw [this] at hc
      simp only [List.mem_cons, List.not_mem_nil, or_false] at hc
      rcases hc with rfl | rfl | rfl | rfl | rfl <;> cases p <;> exact hok (by decide +kernel)
    apply hall
    rcases negotiateFrom_known (codingServer (.bidi readOnly)).comps (split ',' accept) with h | ⟨q, hq, h⟩
    · exact .inl h
    · exact .inr (List.mem_map.2 ⟨q, hq, h⟩)

end Props
