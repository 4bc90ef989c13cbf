import Verif.Proofs.Response
import Verif.Props.Request
/-
C73: a server answers every request in the published formats in the published formats.
-/
namespace Props
open Py Spec Conn

variable {Req Res : Type}

/-- **C73, unary requests by Connect, WSGI.** The response to a request in the published format is in the published format: it has the message the
handler returned, or the error it raised. (`c` says what the client reads; `undo` are the content encodings its HTTP implementation
undoes. The condition on `TextMessage` is that of C72.) -/
theorem C73_wsgi_unary (c : Client Req Res) (app : App Req Res) (hu : UsualCompressions app) (codec : ServerCodec Req Res)
    (hc : CanRead c app codec) (address path : List Char)
    (ms : MethodInfo) (f : Req → RequestContext → Call Res) (hpath : PlainPath path)
    (hep : Dict.get? app.endpoints path = some ⟨ms, .unary f⟩) (rq : HttpRequest) (req : Req) (told : Option Int)
    (hrq : UnaryRequest app codec address path rq req told) (hacc : AcceptsUnary c rq)
    (hget : rq.method = pys! "GET" → ms.idempotency = .noSideEffects)
    (htext : ∀ params, Queried app codec address path params rq req → TextMessage params)
    (env : Environ) (hs : WsgiSees address rq env) (sc : StatusCodec) :
    ∃ ctx, (app.wsgi sc env).calls = [⟨path, ctx, some req⟩] ∧
      (RegularAnswer c codec (f req ctx) → ∃ r, WsgiGave (app.wsgi sc env) r ∧
        ∀ undo resp, Undoes undo c app → Received undo r resp → ConformingAnswer c codec (f req ctx) resp) := by
  have hr : Readable ms app codec address path rq req := by
    rcases hrq.carries with h | ⟨params, h⟩
    · exact .inl h
    · exact .inr ⟨params, h, htext params h, hget h.1⟩
  obtain ⟨h1, h2, h3⟩ := wsgi_conforming hu hrq.version hrq.timeout hr hpath hep hs
  obtain ⟨ctx, h4, h5, h6, _⟩ := C63_wsgi app sc env _ _ ms f h1 hs.pieces codec req h2
  refine ⟨ctx, h5, ?_⟩
  intro hreg
  obtain ⟨r, h7, h8⟩ := h6 fun e he => ⟨(hreg.regular.exceptions e he).1, (hreg.regular.exceptions e he).2.1⟩
  refine ⟨r, h7, ?_⟩
  intro undo resp hundo hrec
  obtain ⟨text, h9, h10⟩ := hacc
  rw [(getall_one ((wsgi_arrived hs).one _ _ (by decide +kernel) h9)).2] at h8
  exact answer_conforming hc (accepted hc h10) hreg h8 hundo hrec

/-- **C73, unary requests by Connect, ASGI.** -/
theorem C73_asgi_unary (c : Client Req Res) (app : App Req Res) (hu : UsualCompressions app) (codec : ServerCodec Req Res)
    (hc : CanRead c app codec) (address path : List Char)
    (ms : MethodInfo) (f : Req → RequestContext → Call Res) (hpath : PlainPath path)
    (hep : Dict.get? app.endpoints path = some ⟨ms, .unary f⟩) (rq : HttpRequest) (req : Req) (told : Option Int)
    (hrq : UnaryRequest app codec address path rq req told) (hacc : AcceptsUnary c rq)
    (hget : rq.method = pys! "GET" → ms.idempotency = .noSideEffects)
    (htext : ∀ params, Queried app codec address path params rq req → TextMessage params)
    (scope : Scope) (env : Env) (hs : AsgiSees address rq scope env) (hrel : Reliable env)
    (hroot : scope.rootPath = [] ∨ Dict.get? app.endpoints (scope.rootPath ++ path) = none) (sc : StatusCodec) :
    ∃ ctx, (app.asgi sc scope env).calls = [⟨path, ctx, some req⟩] ∧
      (RegularAnswer c codec (f req ctx) → ∃ r, AsgiGave (app.asgi sc scope env) r ∧
        ∀ undo resp, Undoes undo c app → Received undo r resp → ConformingAnswer c codec (f req ctx) resp) := by
  have hr : Readable ms app codec address path rq req := by
    rcases hrq.carries with h | ⟨params, h⟩
    · exact .inl h
    · exact .inr ⟨params, h, htext params h, hget h.1⟩
  obtain ⟨headers, h1, h2, h3, hv⟩ := asgi_conforming hu hrq.version hrq.timeout hr hpath hep hs hroot
  obtain ⟨ctx, h4, h5, h6, _⟩ := C63_asgi app sc scope env headers _ ms f h1 hrel codec req h2
  refine ⟨ctx, h5, ?_⟩
  intro hreg
  obtain ⟨r, h7, h8⟩ := h6 fun e he => ⟨(hreg.regular.exceptions e he).1, (hreg.regular.exceptions e he).2.1⟩
  refine ⟨r, h7, ?_⟩
  intro undo resp hundo hrec
  obtain ⟨text, h9, h10⟩ := hacc
  rw [(getall_one (show headers.getall (pys! "accept-encoding") = [text] by
    rw [hv _ (by decide +kernel) (by rw [h9]; simp), h9])).2] at h8
  exact answer_conforming hc (accepted hc h10) hreg h8 hundo hrec

/-- **C73, streams of all protocols, WSGI.** The response to a streamed request in the published format is in the published format: it delivers the messages
the handler produced, and reports its outcome and its trailers — whichever way its body is cut into chunks. -/
theorem C73_wsgi_stream (c : Client Req Res) (app : App Req Res) (codec : ServerCodec Req Res) (hc : CanRead c app codec)
    (address path : List Char) (ms : MethodInfo) (handler : Handler Req Res) (hpath : PlainPath path)
    (hep : Dict.get? app.endpoints path = some ⟨ms, handler⟩) (hkind : c.proto = .connect → handler.isUnary = false)
    (rq : HttpRequest) (reqs : List Req) (told : Option Int) (hrq : StreamedRequest app codec address path c.proto rq reqs told)
    (hacc : AcceptsStream c rq)
    (env : Environ) (hs : WsgiSees address rq env) (htr : c.proto = .grpc → env.sendTrailers = true) (sc : StatusCodec) :
    ∃ ctx, CtxIs ctx ms rq.method (wsgiScheme env.vars) (wsgiHeaders env.vars) (wsgiClient env.vars) ∧
      ∀ req h0 script, Starts ⟨reqs, none⟩ ctx handler req h0 script →
      ∀ resComp, ResponseCompression app c.proto ctx.requestHeaders resComp →
      ∀ i out h' e, Runs (writerOf codec resComp).write none h0 script.acts script.outcome i out h' e →
      RegularResponse c codec sc resComp i.headers out h'.info.trailers e →
        (app.wsgi sc env).calls = [⟨path, ctx, req⟩] ∧ ∃ r, WsgiStreamGave (app.wsgi sc env) r ∧
          ∀ chunks : List (List UInt8), chunks.flatten = r.body →
            ConformingStream c sc out h'.info.trailers.allitems (e.map errorOf) (inChunks r chunks) := by
  obtain ⟨k, h1, h2, h3⟩ := wsgi_conforming_stream hc.identity.1 hrq hpath hep hkind hs htr rfl
  obtain ⟨hm, ctx, h4, h5, h6⟩ := C35_wsgi app sc env _ _ _ codec k _ h1 hs.pieces _ h2
  rw [hs.method] at h4
  cases h4
  refine ⟨ctx, h5, ?_⟩
  intro req h0 script hst resComp hres i out h' e hrun hreg
  rw [h5.headers] at hres
  obtain ⟨k', hk1, hk2, hk3⟩ := accepted_stream hc hacc (wsgi_arrived hs) hres
  unfold ResponseCompression at hres
  obtain ⟨eo, heo⟩ := hreg.regular.ends
  rw [← hres] at h6
  obtain ⟨bs, _, hbs, hev⟩ := h6 req h0 script hst i out h' e hrun hreg.regular.caught eo heo
  rw [hev]
  refine ⟨rfl, ?_⟩
  cases eo with
  | body b =>
    refine ⟨⟨200, streamFields c.proto codec resComp i, bs.flatten ++ b, []⟩, ⟨rfl, bs ++ [b], by simp, .inl ⟨?_, rfl⟩⟩,
      fun chunks hch => wrote_conforming hc hk1 hk2 hk3 hreg ⟨hbs, rfl, rfl, _, heo, rfl, rfl⟩ hch⟩
    simp [wsgiEnding]
  | trailers th =>
    exact ⟨⟨200, streamFields c.proto codec resComp i, bs.flatten, th.allitems⟩, ⟨rfl, bs, rfl, .inr rfl⟩,
      fun chunks hch => wrote_conforming hc hk1 hk2 hk3 hreg ⟨hbs, rfl, rfl, _, heo, rfl, rfl⟩ hch⟩

/-- **C73, streams of all protocols, ASGI**, while the client stays connected and the task is not cancelled. -/
theorem C73_asgi_stream (c : Client Req Res) (app : App Req Res) (ho : Spec.Ordinary app) (codec : ServerCodec Req Res) (hc : CanRead c app codec)
    (address path : List Char) (ms : MethodInfo) (handler : Handler Req Res) (hpath : PlainPath path)
    (hep : Dict.get? app.endpoints path = some ⟨ms, handler⟩) (hkind : c.proto = .connect → handler.isUnary = false)
    (rq : HttpRequest) (reqs : List Req) (told : Option Int) (hrq : StreamedRequest app codec address path c.proto rq reqs told)
    (hacc : AcceptsStream c rq)
    (scope : Scope) (env : Env) (hs : AsgiSees address rq scope env) (htr : c.proto = .grpc → scope.trailers = true) (hrel : Reliable env)
    (hcan : env.cancelAfter = none) (hdis : env.disconnectAt = none)
    (hroot : scope.rootPath = [] ∨ Dict.get? app.endpoints (scope.rootPath ++ path) = none) (sc : StatusCodec) :
    ∃ ctx headers, CtxIs ctx ms rq.method (asgiScheme scope) headers (scope.client.map fun ca => ca.1 ++ [':'] ++ ca.2) ∧
      ∀ req h0 script, Starts ⟨reqs, none⟩ ctx handler req h0 script →
      ∀ resComp, ResponseCompression app c.proto ctx.requestHeaders resComp →
      ∀ i out h' e, Runs (writerOf codec resComp).write script.closeErr h0 script.acts script.outcome i out h' e →
      RegularResponse c codec sc resComp i.headers out h'.info.trailers e →
        (app.asgi sc scope env).calls = [⟨path, ctx, req⟩] ∧ ∃ r, AsgiStreamGave (app.asgi sc scope env) r ∧
          ∀ chunks : List (List UInt8), chunks.flatten = r.body →
            ConformingStream c sc out h'.info.trailers.allitems (e.map errorOf) (inChunks r chunks) := by
  obtain ⟨headers, hh, hv, h3, k, h1, h2⟩ := asgi_conforming_stream hc.identity.1 hrq hpath hep hkind hs htr hroot
  obtain ⟨ctx, s, h5, h4, h6⟩ := C35_asgi_partial app sc scope env headers _ _ _ codec k _ (h1 _ rfl) hrel
  have := h2 s (h4 hcan ho)
  subst this
  rw [hs.method] at h5
  refine ⟨ctx, headers, h5, ?_⟩
  intro req h0 script hst resComp hres i out h' e hrun hreg
  rw [h5.headers] at hres
  have harr : Arrived rq.headers headers := by
    obtain ⟨headers', e1, e2, _⟩ := asgi_arrived hs
    rw [hh] at e1
    cases e1
    exact e2
  obtain ⟨k', hk1, hk2, hk3⟩ := accepted_stream hc hacc harr hres
  unfold ResponseCompression at hres
  obtain ⟨eo, heo⟩ := hreg.regular.ends
  rw [← hres] at h6
  obtain ⟨bs, hbs, hev⟩ := h6 req h0 script hst i out h' e hrun (fun _ k hk => by rw [hdis] at hk; cases hk)
    (by rintro rfl; exact absurd (hreg.regular.caught _ rfl) (by decide)) eo heo
  rw [hev]
  refine ⟨rfl, ?_⟩
  cases eo with
  | body b =>
    refine ⟨⟨200, streamFields c.proto codec resComp i, bs.flatten ++ b, []⟩, ⟨bs, b, rfl, .inl ⟨?_, rfl⟩⟩,
      fun chunks hch => wrote_conforming hc hk1 hk2 hk3 hreg ⟨hbs, rfl, rfl, _, heo, rfl, rfl⟩ hch⟩
    have : decide (c.proto = .grpc) = false := by
      unfold EndsWith at heo
      cases hc : c.proto with
      | grpc => rw [hc] at heo; cases heo
      | _ => rfl
    rw [this]
    rfl
  | trailers th =>
    refine ⟨⟨200, streamFields c.proto codec resComp i, bs.flatten, th.allitems⟩, ⟨bs, [], by simp, .inr ?_⟩,
      fun chunks hch => wrote_conforming hc hk1 hk2 hk3 hreg ⟨hbs, rfl, rfl, _, heo, rfl, rfl⟩ hch⟩
    have : decide (c.proto = .grpc) = true := by
      unfold EndsWith EnvelopeWriter.end' at heo
      cases hcp : c.proto with
      | grpc => rfl
      | connect =>
        rw [hcp] at heo
        dsimp only at heo
        cases hx : (writerOf codec resComp).connectEnd h'.info.trailers (e.map errorOf) with
        | error x => rw [hx] at heo; cases heo
        | ok x => rw [hx] at heo; cases heo
      | grpcWeb =>
        rw [hcp] at heo
        dsimp only at heo
        cases hx : (writerOf codec resComp).grpcWebEnd sc h'.info.trailers (e.map errorOf) with
        | error x => rw [hx] at heo; cases heo
        | ok x => rw [hx] at heo; cases heo
    rw [this]
    rfl

/-! ### the hypotheses are met -/

theorem revGzip_undo : revGzip ≠ .identity ∧ ∀ b, revGzip.decompress (revGzip.compress b) = .ok b :=
  ⟨(by intro h; cases h), by intro b; simp [revGzip, Compression.compress, Compression.decompress]⟩

/-- what is found under a name -/
theorem two_comps {n : Str} {k : Compression} (h : Dict.get? (resolveCompressions revGzip none) n = some k) :
    (n = pys! "gzip" ∧ k = revGzip) ∨ (n = pys! "identity" ∧ k = .identity) := by
  have h1 : n ∈ Dict.keys (resolveCompressions revGzip none) := (Dict.get?_isSome_iff _ _).1 (by rw [h]; rfl)
  have h2 : ∀ n ∈ Dict.keys (resolveCompressions revGzip none), n = pys! "gzip" ∨ n = pys! "identity" := by decide +kernel
  rcases h2 n h1 with rfl | rfl
  · exact .inl ⟨rfl, (Option.some.inj h).symm⟩
  · exact .inr ⟨rfl, (Option.some.inj h).symm⟩

theorem two_comps_names {n : Str} {k : Compression} (h : Dict.get? (resolveCompressions revGzip none) n = some k) :
    k.name = n ∧ PlainName n := by
  rcases two_comps h with ⟨rfl, rfl⟩ | ⟨rfl, rfl⟩
  · exact ⟨rfl, by decide +kernel⟩
  · exact ⟨rfl, by decide +kernel⟩

theorem two_comps_undo {n : Str} {k k' : Compression} (h : Dict.get? (resolveCompressions revGzip none) n = some k)
    (h' : Dict.get? (resolveCompressions revGzip none) n = some k') (hk : k ≠ .identity) :
    k' ≠ .identity ∧ ∀ b, k'.decompress (k.compress b) = .ok b := by
  rw [h] at h'
  cases h'
  rcases two_comps h with ⟨rfl, rfl⟩ | ⟨rfl, rfl⟩
  · exact revGzip_undo
  · exact absurd rfl hk

theorem pair_reads : CanRead pairClient pairApp ⟨pys! "raw", rawCodec, rawCodec⟩ where
  name := rfl
  plain := by show PlainName (pys! "raw"); decide +kernel
  messages m b h := by cases h; rfl
  byName n k h := two_comps_names h
  identity := ⟨rfl, rfl⟩
  undo n k k' h h' hk := two_comps_undo h h' hk

theorem chat_reads (p : Proto) (handler : Handler Bytes Bytes) : CanRead (chatClient p) (chatAppOf handler) chatCodec where
  name := rfl
  plain := by show PlainName (pys! "raw"); decide +kernel
  messages m b h := by cases h; rfl
  byName n k h := two_comps_names h
  identity := ⟨rfl, rfl⟩
  undo n k k' h h' hk := two_comps_undo h h' hk

/-- an accept list with a weight, and a wildcard -/
def acceptEntries : List AcceptEntry := [⟨[], pys! "br;q=1.0", []⟩, ⟨[' '], pys! "gzip", []⟩, ⟨[' '], pys! "*;q=0.1", [' ']⟩]

theorem accept_list (c : Client Bytes Bytes) (h : (Dict.get? c.comps (pys! "gzip")).isSome = true) : AcceptList c (pys! "br;q=1.0, gzip, *;q=0.1 ") := by
  refine ⟨acceptEntries, by decide, by decide +kernel, ?_⟩
  intro e he
  simp only [acceptEntries, List.mem_cons, List.not_mem_nil, or_false] at he
  rcases he with rfl | rfl | rfl
  · exact ⟨⟨by decide, by decide, by decide, by decide +kernel, by decide +kernel⟩, .inr (.inl (by decide))⟩
  · exact ⟨⟨by decide +kernel, by decide, by decide, by decide +kernel, by decide +kernel⟩, .inl h⟩
  · exact ⟨⟨by decide +kernel, by decide +kernel, by decide, by decide +kernel, by decide +kernel⟩, .inr (.inl (by decide))⟩

/-- a unary request that accepts these, its run, and the response -/
def acceptingRequest : HttpRequest :=
  ⟨pys! "POST", pys! "http://h/a.S/Echo", [(pys! "Content-Type", pys! "application/raw"), (pys! "Accept-Encoding", pys! "br;q=1.0, gzip, *;q=0.1 ")],
    none, [[1, 2, 3]], none⟩

example (ctx : RequestContext) :
    UnaryRequest pairApp ⟨pys! "raw", rawCodec, rawCodec⟩ (pys! "http://h") (pys! "/a.S/Echo") acceptingRequest [1, 2, 3] none ∧
    AcceptsUnary pairClient acceptingRequest ∧
    RegularAnswer pairClient ⟨pys! "raw", rawCodec, rawCodec⟩ (tellCall [1, 2, 3] ctx) ∧
    RegularAnswer pairClient ⟨pys! "raw", rawCodec, rawCodec⟩ (tellCall [] ctx) ∧
    (∃ e, Fails (⟨pys! "raw", rawCodec, rawCodec⟩ : ServerCodec Bytes Bytes) (tellCall [] ctx) e) ∧ Undoes pairUndo pairClient pairApp ∧
    Received pairUndo ⟨200, pairFields, [3, 2, 1]⟩ ⟨200, pairFields.map fun p => (lower p.1, p.2), [1, 2, 3]⟩ := by
  refine ⟨⟨.inl (by decide +kernel), .none (by decide +kernel), .inl ⟨rfl, rfl, ⟨pys! "application/raw", pys! "raw", by decide +kernel, by decide +kernel,
    by decide +kernel, rfl⟩, [1, 2, 3], .inl ⟨by decide +kernel, rfl⟩, (by intro n h; cases h), rfl⟩⟩,
    ⟨_, (by decide +kernel : fieldValues acceptingRequest.headers (pys! "accept-encoding") = [pys! "br;q=1.0, gzip, *;q=0.1 "]), accept_list _ rfl⟩,
    ⟨pair_regular _ (by decide) _, ?_⟩, ⟨pair_regular _ (by decide) _, ?_⟩, ⟨_, .inl rfl⟩, pair_undoes,
    received_of (.inr (.inr ⟨pys! "gzip", by decide +kernel, by decide, rfl⟩))⟩
  all_goals
    show fieldValues (metadataFields (Spec.metadataOf (tellCall [] default).steps)) _ = []
    decide +kernel

/-- a stream that accepts these, its run by all protocols, and the response -/
def acceptingStream (p : Proto) : HttpRequest := { chatRequest p with headers := (acceptHeader p, pys! "br;q=1.0, gzip, *;q=0.1 ") :: (chatRequest p).headers }

example (p : Proto) :
    AcceptsStream (chatClient p) (acceptingStream p) ∧ AcceptsStream (chatClient p) (chatRequest p) ∧ (chatClient p).proto = p ∧
    RegularResponse (chatClient p) chatCodec protobufStatus revGzip chatHeaders [[1, 2], [3]] chatTrailers (some (.connect demoError)) ∧
    negotiateCompression (pys! "br;q=1.0, gzip, *;q=0.1 ") chatApp.comps = revGzip := by
  refine ⟨.inr ⟨pys! "br;q=1.0, gzip, *;q=0.1 ", by cases p <;> decide +kernel, accept_list _ (by cases p <;> rfl)⟩, .inl (by cases p <;> decide +kernel), by cases p <;> rfl,
    ⟨chat_regular p, ⟨[.add (pys! "x-h") (pys! "1")], rfl⟩, ?_, ?_⟩, rfl⟩
  · intro n hn
    simp only [List.mem_cons, List.not_mem_nil, or_false] at hn
    rcases hn with rfl | rfl <;> cases p <;> decide +kernel
  · intro _ x hx hm
    cases hx
    exact absurd hm (by decide)

/-- the requests of the streams are in the format -/
theorem accepting_stream (p : Proto) :
    StreamedRequest chatApp chatCodec (pys! "http://h") (pys! "/a.S/Echo") p (acceptingStream p) [[4, 5], [6]] (some 2000) := by
  have h := chat_request p
  have hf : ∀ n, lower n ≠ lower (acceptHeader p) → fieldValues (acceptingStream p).headers n = fieldValues (chatRequest p).headers n := by
    intro n hn
    unfold acceptingStream
    rw [fieldValues_cons, if_neg (fun h => hn h.symm)]
  refine ⟨h.method, h.url, ?_, ?_, ?_, ?_⟩
  · intro hp
    have := h.version hp
    unfold Version at this ⊢
    rwa [hf _ (by cases p <;> decide +kernel)]
  · have ht := h.timeout
    generalize (some 2000 : Option Int) = t at ht
    cases ht with
    | none h1 => exact .none (by rw [hf _ (by cases p <;> decide +kernel)]; exact h1)
    | connect h1 h2 h3 h4 => exact .connect (by rw [hf _ (by decide +kernel)]; exact h1) h2 h3 h4
    | grpc h0 h1 h2 h3 h4 h5 => exact .grpc h0 (by rw [hf _ (by cases p <;> decide +kernel)]; exact h1) h2 h3 h4 h5
  · obtain ⟨ct, n, h1, h2, h3⟩ := h.type
    exact ⟨ct, n, by rw [hf _ (by cases p <;> decide +kernel)]; exact h1, h2, h3⟩
  · obtain ⟨k, fs, h1, h2, h3, h4⟩ := h.body
    refine ⟨k, fs, ?_, h2, h3, h4⟩
    unfold Named at h1 ⊢
    rwa [hf _ (by cases p <;> decide +kernel)]

end Props
