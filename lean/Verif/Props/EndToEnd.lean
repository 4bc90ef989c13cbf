import Verif.Proofs.World
/-
A client and a server of this library, end to end (C47, C48, C58, C66).
-/
namespace Props
open Conn Py Spec

variable {Req Res : Type}

/-- C58 (Connect), WSGI server. A unary call, by POST or by GET, on a client and a server that agree on codec and compressions: the client
sends one request; the application, given that request, calls the handler of that method once, with the caller's message, the
caller's headers and the caller's timeout; and the caller gets what the handler returned, or its error, and is told the headers and
trailers the handler set. -/
theorem C58_connect_wsgi_partial (c : Client Req Res) (app : App Req Res) (codec : ServerCodec Req Res) (m ms : MethodInfo)
    (f : Req → RequestContext → Call Res) (req : Req) (user : UserHeaders) (t : Option Int) (useGet : Bool)
    (h : UnaryCall c app codec m ms f req user t useGet) (sc : StatusCodec) (sink : Sink) (cs : Circumstances) :
    ∃ rq, Addressed c.address rq (methodPath m) ∧ SendsOnly (· = rq) (fun http => c.executeUnary sc http sink cs req m user t useGet) ∧
    ∀ env, WsgiSees c.address rq env →
    ∃ ctx, CtxIs ctx ms (if useGet then pys! "GET" else pys! "POST") (wsgiScheme env.vars) (wsgiHeaders env.vars) (wsgiClient env.vars) ∧
      TimeoutTold t c.timeoutMs ctx.timeoutMs ∧ Passes user joined ctx.requestHeaders ∧
      (app.wsgi sc env).calls = [⟨methodPath m, ctx, some req⟩] ∧
      (Regular c codec (f req ctx) →
        ∃ r, WsgiGave (app.wsgi sc env) r ∧
        ∀ undo resp, Undoes undo c app → Received undo r resp → ∀ http : HttpClient, http.full rq = .ok resp →
          Gets codec (f req ctx) (c.executeUnary sc http sink cs req m user t useGet).2 ∧
          (sink = some RespMeta.new → ∃ rm, (c.executeUnary sc http sink cs req m user t useGet).1 = some rm ∧
            Told (Spec.metadataOf (f req ctx).steps) rm)) := by
  obtain ⟨data, hd, _⟩ := h.message
  refine ⟨theRequest c m user t useGet data, theRequest_addressed h.connect .., executeUnary_sends h.connect sc sink cs hd m user t useGet, ?_⟩
  intro env hs
  obtain ⟨h1, h2, h3, h4⟩ := wsgi_carries h hd hs
  obtain ⟨ctx, h5, h6, h7, _⟩ := C63_wsgi app sc env _ _ ms f h1 hs.pieces codec req h2
  have ht : ctx.timeoutMs = pickTimeout t c.timeoutMs := by
    rw [h5.timeout.1 (by rw [h5.headers]; exact h1.connect), h5.headers, h4]
  have hp : Passes user joined (wsgiHeaders env.vars) :=
    wsgi_passes hs (theRequest_user h.connect m user t useGet data)
  refine ⟨ctx, by cases useGet <;> exact h5, by rw [ht]; exact timeoutTold_pick _ _, by rw [h5.headers]; exact hp, h6, ?_⟩
  intro hr
  obtain ⟨r, h8, h9⟩ := h7 fun e he => ⟨(hr.exceptions e he).1, (hr.exceptions e he).2.1⟩
  rw [h3] at h9
  refine ⟨r, h8, ?_⟩
  intro undo resp hu hrec http hh
  rw [executeUnary_result h.connect sc sink cs hd m user t useGet hh]
  obtain ⟨h10, h11⟩ := client_reads h.codec h.comps rfl hr h9 hu hrec sink
  refine ⟨?_, ?_⟩
  · rcases h11 with ⟨x, data', e1, e2, e3⟩ | ⟨e, e', e1, e2, e3⟩
    · rw [e3]; exact .returned e1 e2
    · rw [e3]; exact .failed e1 e2.1 e2.2
  · rintro rfl
    obtain ⟨pre, hf, hpre⟩ := answers_fields h9 (fun s hs hf => (hr.exceptions _ hf).2.2 s hs rfl)
    obtain ⟨rm, h12, h13⟩ := told hrec hf hpre
    exact ⟨rm, by rw [← h12]; exact h10, h13⟩

/-- C58 (Connect), ASGI server. (If the application is mounted below a root path, no method of it may be registered under the root path and
the method's path together: `C30` has what happens then.) -/
theorem C58_connect_asgi_partial (c : Client Req Res) (app : App Req Res) (codec : ServerCodec Req Res) (m ms : MethodInfo)
    (f : Req → RequestContext → Call Res) (req : Req) (user : UserHeaders) (t : Option Int) (useGet : Bool)
    (h : UnaryCall c app codec m ms f req user t useGet) (sc : StatusCodec) (sink : Sink) (cs : Circumstances) :
    ∃ rq, Addressed c.address rq (methodPath m) ∧ SendsOnly (· = rq) (fun http => c.executeUnary sc http sink cs req m user t useGet) ∧
    ∀ scope env, AsgiSees c.address rq scope env → Reliable env →
      (scope.rootPath = [] ∨ Dict.get? app.endpoints (scope.rootPath ++ methodPath m) = none) →
    ∃ ctx headers, asgiHeaders scope.headers Headers.empty = .ok headers ∧
      CtxIs ctx ms (if useGet then pys! "GET" else pys! "POST") (asgiScheme scope) headers (scope.client.map fun ca => ca.1 ++ [':'] ++ ca.2) ∧
      TimeoutTold t c.timeoutMs ctx.timeoutMs ∧ Passes user id ctx.requestHeaders ∧
      (app.asgi sc scope env).calls = [⟨methodPath m, ctx, some req⟩] ∧
      (Regular c codec (f req ctx) →
        ∃ r, AsgiGave (app.asgi sc scope env) r ∧
        ∀ undo resp, Undoes undo c app → Received undo r resp → ∀ http : HttpClient, http.full rq = .ok resp →
          Gets codec (f req ctx) (c.executeUnary sc http sink cs req m user t useGet).2 ∧
          (sink = some RespMeta.new → ∃ rm, (c.executeUnary sc http sink cs req m user t useGet).1 = some rm ∧
            Told (Spec.metadataOf (f req ctx).steps) rm)) := by
  obtain ⟨data, hd, _⟩ := h.message
  refine ⟨theRequest c m user t useGet data, theRequest_addressed h.connect .., executeUnary_sends h.connect sc sink cs hd m user t useGet, ?_⟩
  intro scope env hs hrel hroot
  obtain ⟨h0, headers, hh0, h1, h2, h3, h4⟩ := asgi_carries h hd hs hroot
  obtain ⟨ctx, h5, h6, h7, _⟩ := C63_asgi app sc scope env headers _ ms f h1 hrel codec req h2
  rw [h0] at h5
  have ht : ctx.timeoutMs = pickTimeout t c.timeoutMs := by
    rw [h5.timeout.1 (by rw [h5.headers]; exact h1.connect), h5.headers, h4]
  have hp : Passes user id headers := by
    obtain ⟨headers', e1, _, e2⟩ := asgi_arrived hs
    rw [hh0] at e1
    cases e1
    exact asgi_passes e2 (theRequest_user h.connect m user t useGet data)
  refine ⟨ctx, headers, hh0, by cases useGet <;> exact h5, by rw [ht]; exact timeoutTold_pick _ _,
    by rw [h5.headers]; exact hp, h6, ?_⟩
  intro hr
  obtain ⟨r, h8, h9⟩ := h7 fun e he => ⟨(hr.exceptions e he).1, (hr.exceptions e he).2.1⟩
  rw [h3] at h9
  refine ⟨r, h8, ?_⟩
  intro undo resp hu hrec http hh
  rw [executeUnary_result h.connect sc sink cs hd m user t useGet hh]
  obtain ⟨h10, h11⟩ := client_reads h.codec h.comps rfl hr h9 hu hrec sink
  refine ⟨?_, ?_⟩
  · rcases h11 with ⟨x, data', e1, e2, e3⟩ | ⟨e, e', e1, e2, e3⟩
    · rw [e3]; exact .returned e1 e2
    · rw [e3]; exact .failed e1 e2.1 e2.2
  · rintro rfl
    obtain ⟨pre, hf, hpre⟩ := answers_fields h9 (fun s hs hf => (hr.exceptions _ hf).2.2 s hs rfl)
    obtain ⟨rm, h12, h13⟩ := told hrec hf hpre
    exact ⟨rm, by rw [← h12]; exact h10, h13⟩

/-- C47. The query of a GET call names the codec and the compression, and carries the encoded, compressed message, for every message and any
names, as the servers read them (`Param`, `MessageParam`: see C34 and C63 for what the servers make of them); the request has no body.
That both servers hand this message to the handler is C63 for GET requests; for the whole call see C58 with `useGet = true`. -/
theorem C47_get_query (c : Client Req Res) (hc : c.proto = .connect) (sc : StatusCodec) (sink : Sink) (cs : Circumstances) (req : Req)
    (data : List UInt8) (hd : c.codec.encode req = .ok data) (m : MethodInfo) (user : UserHeaders) (t : Option Int) :
    ∃ q, SendsOnly (fun rq => rq.method = pys! "GET" ∧ rq.url = c.address ++ methodPath m ++ ['?'] ++ q ∧ rq.body = [])
        (fun http => c.executeUnary sc http sink cs req m user t true) ∧
      Param (parseQs q) (pys! "encoding") c.codec.name ∧ Param (parseQs q) (pys! "compression") c.send.name ∧
      MessageParam (parseQs q) (c.send.compress data) := by
  refine ⟨urlencode [(pys! "connect", pys! "v1"), (pys! "base64", pys! "1"), (pys! "compression", c.send.name),
      (pys! "encoding", c.codec.name), (pys! "message", urlsafeB64encode (c.send.compress data))], ?_, ?_⟩
  · intro h h' hh
    refine executeUnary_sends hc sc sink cs hd m user t true h h' ?_
    rintro _ rfl
    exact hh _ (by
      rw [theRequest, verb]
      have := unaryRequest_get c hc m user t (c.send.compress data)
      exact ⟨congrArg HttpRequest.method this, congrArg HttpRequest.url this, congrArg HttpRequest.body this⟩)
  · rw [getParams]
    exact ⟨⟨[], rfl⟩, ⟨[], rfl⟩, getParams_message c _⟩

/-- C47: only one message, codec name and compression name can be read from a query. -/
theorem C47_unambiguous (params : List (List Char × List (List Char))) :
    (∀ k v v', Param params k v → Param params k v' → v = v') ∧
    (∀ raw raw', MessageParam params raw → MessageParam params raw' → raw = raw') := by
  have h1 : ∀ k v v', Param params k v → Param params k v' → v = v' := by
    rintro k v v' ⟨vs, h⟩ ⟨vs', h'⟩
    rw [h] at h'
    cases h'
    rfl
  refine ⟨h1, ?_⟩
  rintro raw raw' ⟨text, h, h2⟩ ⟨text', h', h2'⟩
  have := h1 _ _ _ h h'
  subst this
  rcases h2 with ⟨a, b⟩ | ⟨a, b⟩ <;> rcases h2' with ⟨a', b'⟩ | ⟨a', b'⟩
  · rw [b] at b'; cases b'; rfl
  · exact absurd a a'
  · exact absurd a' a
  · rw [b, b']

/-- C48. The metadata object of a caller, used for one call, tells exactly the headers (besides those of HTTP and of Connect) and trailers the
handler set, with all values in order — whatever the handler returned or raised. (Part of `C58_connect_wsgi_partial` and `C58_connect_asgi_partial`, here for the
response alone.) What is missing: an object that was used for an earlier call, see `C48_violation_stale_trailers`. -/
theorem C48_metadata_partial (codec : ServerCodec Req Res) (comp : Compression) (run : Call Res) (r : Response)
    (h : Answers codec comp run r) (hno : ∀ s hs, ¬ Fails codec run (.http s hs)) (undo : Undo) (resp : FullResponse)
    (hr : Received undo r resp) :
    ∃ rm, handleResponseHeaders (some RespMeta.new) resp.headers = some rm ∧ Told (Spec.metadataOf run.steps) rm := by
  obtain ⟨pre, hf, hpre⟩ := answers_fields h hno
  exact told hr hf hpre

/-- C48 is false of a metadata object used for two calls: if the second response has no trailers, the object still tells the trailers of the
first. -/
theorem C48_violation_stale_trailers :
    ((handleResponseHeaders (handleResponseHeaders (some RespMeta.new)
        [(pys! "content-type", pys! "application/proto"), (pys! "trailer-x-t", pys! "first")])
      [(pys! "content-type", pys! "application/proto"), (pys! "x-h", pys! "second")]).map
        fun r => (r.getHeaders.getall (pys! "x-h"), r.getTrailers.getall (pys! "x-t"))) =
    some ([pys! "second"], [pys! "first"]) := by decide +kernel

/-- Clients and servers made by their constructors look compressions up by their names: what remains to be asked for is that the names can
be written in a header, and that the server has the compression of the requests and undoes it. -/
theorem C58_configured (fl : Flavor) (address : Str) (codec : Codec Req) (resCodec : Codec Res) (p : Proto) (gzip gzip' : Compression)
    (hg : gzip'.name = pys! "gzip") (accept : Option (List Compression)) (send : Option Compression) (timeoutMs readMax : Option Int)
    (ua : Str) (endpoints : Dict Str (Endpoint Req Res)) (path : Str) (readMax' : Option Int) (compressions : Option (List Compression))
    (codecs : List (ServerCodec Req Res)) (hn : ∀ n, (available gzip accept n).isSome = true → PlainName n)
    (hs : ∀ k, send = some k → PlainName k.name ∧ (∀ b, k.compress b = [] → b = []) ∧
      ∃ k', available gzip' compressions k.name = some k' ∧ ∀ b, k'.decompress (k.compress b) = .ok b) :
    Compressions (Client.new fl address codec resCodec p gzip accept send timeoutMs readMax ua)
      (App.new endpoints path gzip' readMax' compressions codecs) where
  server n k h := available_name hg (by rw [← resolve_get?]; exact h)
  serverIdentity := by
    show Dict.get? (resolveCompressions gzip' compressions) _ = _
    rw [resolve_get?, available_identity]
  clientIdentity := by
    show Dict.get? (resolveCompressions gzip accept) _ = _
    rw [resolve_get?, available_identity]
  names n h := hn n ((keys_available ..).1 h)
  sendName := by
    cases send with
    | none => exact hn (pys! "identity") (by rw [available_identity]; rfl)
    | some k => exact (hs k rfl).1
  send := by
    show ∃ k', Dict.get? (resolveCompressions gzip' compressions) _ = _ ∧ _
    rw [resolve_get?]
    cases send with
    | none => exact ⟨.identity, available_identity .., fun b => rfl⟩
    | some k => exact (hs k rfl).2.2
  nonempty := by
    cases send with
    | none => exact fun b h => h
    | some k => exact (hs k rfl).2.1

/-! ### the hypotheses are met -/

/-- a client and a server that share a codec and a compression, which the client uses for its requests -/
def revGzip : Compression := .custom (pys! "gzip") List.reverse fun b => .ok b.reverse
def pairClient : Client Bytes Bytes :=
  .new .sync (pys! "http://h") rawCodec rawCodec .connect revGzip none (some revGzip) (some 5000) none (pys! "ua")
def pairApp : App Bytes Bytes :=
  .new [(pys! "/a.S/Echo", ⟨echoInfo, .unary tellCall⟩)] (pys! "/a.S") revGzip none none [⟨pys! "raw", rawCodec, rawCodec⟩]
def pairUser : UserHeaders := .headers (Headers.ofPairs [(pys! "X-A", pys! "1"), (pys! "X-A", pys! "2")])
def pairUndo : Undo := fun n b => if n = pys! "gzip" then some b.reverse else none

instance (n : Str) : Decidable (PlainName n) := by unfold PlainName; infer_instance
instance (c : Char) : Decidable (PathChar c) := by unfold PathChar; infer_instance

theorem pair_call (req : Bytes) (useGet : Bool) :
    UnaryCall pairClient pairApp ⟨pys! "raw", rawCodec, rawCodec⟩ echoInfo echoInfo tellCall req pairUser (some 1500) useGet where
  connect := rfl
  codec := ⟨rfl, rfl, by decide +kernel, by decide +kernel, by intro m b h; cases h; rfl, by intro m b h; cases h; rfl⟩
  comps := by
    refine C58_configured _ _ _ _ _ _ _ rfl _ _ _ _ _ _ _ _ _ _ ?_ ?_
    · intro n h
      have h1 : n ∈ Dict.keys (resolveCompressions revGzip none) := (keys_available ..).2 h
      have h2 : ∀ n ∈ Dict.keys (resolveCompressions revGzip none), PlainName n := by decide +kernel
      exact h2 n h1
    · intro k h
      cases h
      refine ⟨by decide +kernel, ?_, revGzip, rfl, ?_⟩
      · intro b h; simpa [revGzip, Compression.compress] using h
      · intro b; simp [revGzip, Compression.compress, Compression.decompress]
  path := ⟨⟨_, rfl⟩, by decide +kernel⟩
  endpoint := rfl
  get _ := rfl
  message := ⟨req, rfl, by intro _ n h; cases h⟩
  timeout := by
    show (intStr 1500).length ≤ 10
    decide +kernel

theorem pair_regular (req : Bytes) (h9 : req ≠ [9]) (ctx : RequestContext) :
    Regular pairClient ⟨pys! "raw", rawCodec, rawCodec⟩ (tellCall req ctx) where
  exceptions e he := by
    rcases he with he | ⟨r, _, he⟩
    · unfold tellCall at he
      dsimp only at he
      by_cases h : req = []
      · rw [if_pos h] at he
        cases he
        exact ⟨rfl, (by intro d hd; cases hd), (by intro s hs h; cases h)⟩
      · rw [if_neg h, if_neg h9] at he
        cases he
    · cases he
  encoding := by
    show fieldValues (metadataFields (Spec.metadataOf (tellCall [] default).steps)) _ = []
    decide +kernel
  limit r b _ _ n h := by cases h

theorem pair_undoes : Undoes pairUndo pairClient pairApp := by
  intro n k hn hk hne b
  have h1 : n = pys! "gzip" := by
    have : ∀ x ∈ Dict.keys pairClient.comps, x = pys! "gzip" ∨ x = pys! "identity" := by decide +kernel
    rcases this n hn with h | h
    · exact h
    · exact absurd h hne
  subst h1
  have h2 : k = revGzip := by
    have : Dict.get? pairApp.comps (pys! "gzip") = some revGzip := rfl
    rw [this] at hk
    exact (Option.some.inj hk).symm
  subst h2
  simp [pairUndo, revGzip, Compression.compress]

/-- the request of `pairClient` for [1, 2, 3], and the response of `pairApp` as the HTTP client returns it -/
def pairRequest (useGet : Bool) : HttpRequest := theRequest pairClient echoInfo pairUser (some 1500) useGet [1, 2, 3]
def pairFields : List (Str × Str) :=
  [(pys! "content-type", pys! "application/raw"), (pys! "content-encoding", pys! "gzip"), (pys! "vary", pys! "Accept-Encoding"),
   (pys! "x-h", pys! "1"), (pys! "trailer-x-t", pys! "2")]

/-- A call that meets the hypotheses of C58, on both servers: the request and how it arrives, the response and how it is received. -/
example (useGet : Bool) :
    (∃ q, WsgiSees pairClient.address (pairRequest useGet)
      (environOf (pairRequest useGet).method (pys! "/a.S/Echo") q (pairRequest useGet).headers (pairRequest useGet).body)) ∧
    (∃ scope, scope.rootPath = pys! "/root" ∧ AsgiSees pairClient.address (pairRequest useGet) scope
      (demoEnv [.request (pairRequest useGet).body.flatten false]) ∧ Dict.get? pairApp.endpoints (scope.rootPath ++ pys! "/a.S/Echo") = none) ∧
    Received pairUndo ⟨200, pairFields, [3, 2, 1]⟩ ⟨200, pairFields.map fun p => (lower p.1, p.2), [1, 2, 3]⟩ := by
  obtain ⟨q, hq⟩ := hasTarget_of (pair_call [1, 2, 3] useGet).path (theRequest_addressed (c := pairClient) rfl echoInfo pairUser (some 1500) useGet [1, 2, 3])
  exact ⟨⟨q, wsgiSees_environOf hq⟩, ⟨_, rfl, asgiSees_of hq (pys! "/root") _ (.last _ _), rfl⟩,
    received_of (.inr (.inr ⟨pys! "gzip", by decide +kernel, by decide, rfl⟩))⟩

/-- C47, C48: a GET call, and a response with metadata -/
example : pairClient.proto = .connect ∧ pairClient.codec.encode [1, 2, 3] = .ok [1, 2, 3] ∧
    Answers ⟨pys! "raw", rawCodec, rawCodec⟩ revGzip (tellCall [1, 2, 3] default) ⟨200, pairFields, [3, 2, 1]⟩ ∧
    (∀ s hs, ¬ Fails (⟨pys! "raw", rawCodec, rawCodec⟩ : ServerCodec Bytes Bytes) (tellCall [1, 2, 3] default) (.http s hs)) :=
  ⟨rfl, rfl, Answers.success (r := [1, 2, 3]) (data := [1, 2, 3]) rfl rfl, by
    rintro s hs (h | ⟨r, _, h⟩)
    · cases h
    · cases h⟩

/-- that call, run -/
example :
    (pairApp.wsgi demoStatus (environOf (pys! "POST") (pys! "/a.S/Echo") [] (pairRequest false).headers [[3, 2, 1]])).events =
      [.start 200 pairFields, .chunk [3, 2, 1]] ∧
    (pairClient.executeUnary demoStatus ⟨fun rq => if rq = pairRequest false then .ok ⟨200, pairFields, [1, 2, 3]⟩ else .error .cancelled,
      fun _ => .error .cancelled⟩ none calm [1, 2, 3] echoInfo pairUser (some 1500) false).2 = .ok [1, 2, 3] := by
  decide +kernel

/-- C58 is false for timeouts of more than ten digits, which a client announces and a server of this library rejects: no handler is called.
(Four months; the same for the caller's own malformed timeout header.) -/
theorem C58_violation_long_timeout :
    (pairApp.wsgi demoStatus (environOf (pys! "POST") (pys! "/a.S/Echo") []
      (theRequest pairClient echoInfo pairUser (some 10000000000) false [1, 2, 3]).headers [[3, 2, 1]])).calls = [] ∧
    (pairApp.wsgi demoStatus (environOf (pys! "POST") (pys! "/a.S/Echo") []
      (theRequest pairClient echoInfo pairUser (some 9999999999) false [1, 2, 3]).headers [[3, 2, 1]])).calls.length = 1 ∧
    WsgiSees pairClient.address (theRequest pairClient echoInfo pairUser (some 10000000000) false [1, 2, 3])
      (environOf (pys! "POST") (pys! "/a.S/Echo") []
        (theRequest pairClient echoInfo pairUser (some 10000000000) false [1, 2, 3]).headers [[3, 2, 1]]) := by
  refine ⟨by decide +kernel, by decide +kernel, ?_⟩
  refine wsgiSees_environOf (address := pairClient.address)
    (rq := theRequest pairClient echoInfo pairUser (some 10000000000) false [1, 2, 3]) (query := [])
    ⟨⟨⟨_, rfl⟩, by decide +kernel⟩, .inl ⟨?_, rfl⟩⟩
  decide +kernel

/-! ### C66 -/

/-- C66 on WSGI, partial (a timeout of 0 and Connect timeouts of more than ten digits are excluded, see the violations): whatever headers the
caller passed, as a `Headers` object or as a mapping, the context of the handler has all their values (joined by commas), for every name
that HTTP passes on and the protocols do not use; and the timeout of the call, or else that of the client. -/
theorem C66_wsgi_partial (c : Client Req Res) (app : App Req Res) (codec : ServerCodec Req Res) (m ms : MethodInfo)
    (f : Req → RequestContext → Call Res) (req : Req) (user : UserHeaders) (t : Option Int) (useGet : Bool)
    (h : UnaryCall c app codec m ms f req user t useGet) (sc : StatusCodec) (sink : Sink) (cs : Circumstances) :
    ∃ rq, SendsOnly (· = rq) (fun http => c.executeUnary sc http sink cs req m user t useGet) ∧
    ∀ env, WsgiSees c.address rq env → ∃ call, (app.wsgi sc env).calls = [call] ∧ call.req = some req ∧
      (∀ n, Forwarded n → lower n ∉ protocolNames → lower n ≠ pys! "accept-encoding" → given user n ≠ [] →
        call.ctx.requestHeaders.getall n = [join [','] (given user n)]) ∧
      (∀ ms, t = some ms → ms ≠ 0 → call.ctx.timeoutMs = some ms) ∧ (t = none → call.ctx.timeoutMs = c.timeoutMs) := by
  obtain ⟨rq, _, h1, h2⟩ := C58_connect_wsgi_partial c app codec m ms f req user t useGet h sc sink cs
  refine ⟨rq, h1, ?_⟩
  intro env he
  obtain ⟨ctx, _, ht, hp, hc, _⟩ := h2 env he
  exact ⟨_, hc, rfl, hp, ht.1, fun e => ht.2 (.inl e)⟩

/-- C66 on ASGI, partial in the same way; the values are those the caller gave, in order. -/
theorem C66_asgi_partial (c : Client Req Res) (app : App Req Res) (codec : ServerCodec Req Res) (m ms : MethodInfo)
    (f : Req → RequestContext → Call Res) (req : Req) (user : UserHeaders) (t : Option Int) (useGet : Bool)
    (h : UnaryCall c app codec m ms f req user t useGet) (sc : StatusCodec) (sink : Sink) (cs : Circumstances) :
    ∃ rq, SendsOnly (· = rq) (fun http => c.executeUnary sc http sink cs req m user t useGet) ∧
    ∀ scope env, AsgiSees c.address rq scope env → Reliable env →
      (scope.rootPath = [] ∨ Dict.get? app.endpoints (scope.rootPath ++ methodPath m) = none) →
      ∃ call, (app.asgi sc scope env).calls = [call] ∧ call.req = some req ∧
      (∀ n, Forwarded n → lower n ∉ protocolNames → lower n ≠ pys! "accept-encoding" → given user n ≠ [] →
        call.ctx.requestHeaders.getall n = given user n) ∧
      (∀ ms, t = some ms → ms ≠ 0 → call.ctx.timeoutMs = some ms) ∧ (t = none → call.ctx.timeoutMs = c.timeoutMs) := by
  obtain ⟨rq, _, h1, h2⟩ := C58_connect_asgi_partial c app codec m ms f req user t useGet h sc sink cs
  refine ⟨rq, h1, ?_⟩
  intro scope env he hr hroot
  obtain ⟨ctx, headers, _, _, ht, hp, hc, _⟩ := h2 scope env he hr hroot
  exact ⟨_, hc, rfl, hp, ht.1, fun e => ht.2 (.inl e)⟩

/-- what the handler of `pairApp` is told about the header that the caller set twice -/
example : (pairApp.wsgi demoStatus (environOf (pys! "POST") (pys! "/a.S/Echo") [] (pairRequest false).headers [[3, 2, 1]])).calls.map
    (fun call => (call.ctx.requestHeaders.getall (pys! "x-a"), call.ctx.timeoutMs)) = [([pys! "1,2"], some 1500)] ∧
    given pairUser (pys! "X-a") = [pys! "1", pys! "2"] := by
  decide +kernel

/-- C66 is false for a call with a timeout of 0 on a client with a default: the handler is told the default (see C13). -/
theorem C66_violation_zero :
    (pairApp.wsgi demoStatus (environOf (pys! "POST") (pys! "/a.S/Echo") []
      (theRequest pairClient echoInfo pairUser (some 0) false [1, 2, 3]).headers [[3, 2, 1]])).calls.map (·.ctx.timeoutMs) = [some 5000] ∧
    WsgiSees pairClient.address (theRequest pairClient echoInfo pairUser (some 0) false [1, 2, 3])
      (environOf (pys! "POST") (pys! "/a.S/Echo") []
        (theRequest pairClient echoInfo pairUser (some 0) false [1, 2, 3]).headers [[3, 2, 1]]) := by
  refine ⟨by decide +kernel, ?_⟩
  refine wsgiSees_environOf (address := pairClient.address)
    (rq := theRequest pairClient echoInfo pairUser (some 0) false [1, 2, 3]) (query := [])
    ⟨⟨⟨_, rfl⟩, by decide +kernel⟩, .inl ⟨?_, rfl⟩⟩
  decide +kernel

end Props
