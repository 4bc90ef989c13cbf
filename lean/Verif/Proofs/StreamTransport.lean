import Verif.Spec.StreamTransport
import Verif.Props.Stream
import Verif.Props.RequestBody
import Verif.Props.Timeout
import Verif.Proofs.World
/-
Streamed calls end to end: the request arrives, the response is read.
-/
namespace Conn
open Py Spec Props

variable {Req Res : Type}

/-! ### the fields of a streamed request -/

/-- the content type of a streamed request -/
abbrev streamType (p : Proto) (name : Str) : Str := (match p with
  | .connect => pys! "application/connect+"
  | .grpc => pys! "application/grpc+"
  | .grpcWeb => pys! "application/grpc-web+") ++ name

/-- the timeout header of a protocol, and its text -/
abbrev timeoutHeader : Proto → Str
  | .connect => pys! "connect-timeout-ms"
  | .grpc | .grpcWeb => pys! "grpc-timeout"
abbrev timeoutText : Proto → Int → Str
  | .connect => intStr
  | .grpc | .grpcWeb => serializeTimeout

/-- the fields of a streamed request that matter to the server -/
structure StreamRequestFields (c : Client Req Res) (user : UserHeaders) (t : Option Int) (h : Headers) : Prop where
  version : c.proto = .connect → h.getall (pys! "connect-protocol-version") = [['1']]
  accept : h.getall (acceptHeader c.proto) = [c.acceptHeader]
  encoding : h.getall (encodingHeader c.proto) = [c.send.name]
  type : h.getall (pys! "content-type") = [streamType c.proto c.codec.name]
  timeout : h.getall (timeoutHeader c.proto) = match pickTimeout t c.timeoutMs with
    | some ms => [timeoutText c.proto ms]
    | none => given user (timeoutHeader c.proto)

theorem stream_context_fields (c : Client Req Res) (m : MethodInfo) (hm : Str) (user : UserHeaders) (t : Option Int) (stream : Bool)
    (hst : c.proto = .connect → stream = true) :
    StreamRequestFields c user t (c.context m hm user t stream).requestHeaders := by
  have he : (c.context m hm user t stream).requestHeaders =
      c.proto.clientHeaders c.userAgent user (pickTimeout t c.timeoutMs) c.codec.name stream c.acceptHeader (some c.send) := rfl
  rw [he]
  cases hc : c.proto with
  | connect =>
    rw [hst hc]
    show StreamRequestFields c user t
      (connectClientHeaders c.userAgent user (pickTimeout t c.timeoutMs) c.codec.name true c.acceptHeader (some c.send))
    constructor
    · intro _; rw [connectClientHeaders_getall]; rfl
    · rw [hc, connectClientHeaders_getall]; rfl
    · rw [hc, connectClientHeaders_getall]; rfl
    · rw [hc, connectClientHeaders_getall]; rfl
    · rw [hc, connectClientHeaders_getall]
      cases pickTimeout t c.timeoutMs <;> rfl
  | grpc =>
    show StreamRequestFields c user t
      (grpcClientHeaders .grpc c.userAgent user (pickTimeout t c.timeoutMs) c.codec.name stream c.acceptHeader (some c.send))
    constructor
    · intro h; rw [hc] at h; cases h
    · rw [hc, grpcClientHeaders_getall]; rfl
    · rw [hc, grpcClientHeaders_getall]; rfl
    · rw [hc, grpcClientHeaders_getall]; rfl
    · rw [hc, grpcClientHeaders_getall]
      cases pickTimeout t c.timeoutMs <;> rfl
  | grpcWeb =>
    show StreamRequestFields c user t
      (grpcClientHeaders .grpcWeb c.userAgent user (pickTimeout t c.timeoutMs) c.codec.name stream c.acceptHeader (some c.send))
    constructor
    · intro h; rw [hc] at h; cases h
    · rw [hc, grpcClientHeaders_getall]; rfl
    · rw [hc, grpcClientHeaders_getall]; rfl
    · rw [hc, grpcClientHeaders_getall]; rfl
    · rw [hc, grpcClientHeaders_getall]
      cases pickTimeout t c.timeoutMs <;> rfl

/-- the caller's own headers are sent -/
theorem stream_context_user (c : Client Req Res) (m : MethodInfo) (hm : Str) (user : UserHeaders) (t : Option Int) (stream : Bool)
    (n : Str) (hf : lower n ∉ transportNames) (h1 : lower n ∉ protocolNames) (h2 : lower n ≠ pys! "accept-encoding")
    (h3 : given user n ≠ []) : (c.context m hm user t stream).requestHeaders.getall n = given user n := by
  have hne : ∀ x : Str, x ∈ protocolNames → lower x = x → ¬ lower x = lower n := by
    intro x hx e1 e
    exact h1 (by rw [← e, e1]; exact hx)
  have hte : ¬ lower (pys! "te") = lower n := by
    intro e
    exact hf (by rw [← e]; decide +kernel)
  have hgrpc : ∀ p : Proto,
      (grpcClientHeaders p c.userAgent user (pickTimeout t c.timeoutMs) c.codec.name stream c.acceptHeader (some c.send)).getall n =
        given user n := by
    intro p
    rw [grpcClientHeaders_getall, if_neg, if_neg, if_neg, if_neg, if_neg h3, if_neg hte]
    · split <;> rfl
    · exact hne _ (by decide +kernel) (by decide +kernel)
    · exact hne _ (by decide +kernel) (by decide +kernel)
    · exact hne _ (by decide +kernel) (by decide +kernel)
    · intro e; exact hne _ (by decide +kernel) (by decide +kernel) e.1
  cases hc : c.proto with
  | connect => exact context_user c hc m hm user t stream n h1 h2 h3
  | grpc =>
    have : (c.context m hm user t stream).requestHeaders = _ :=
      congrArg (fun p : Proto => p.clientHeaders c.userAgent user (pickTimeout t c.timeoutMs) c.codec.name stream c.acceptHeader
        (some c.send)) hc
    rw [this]
    exact hgrpc .grpc
  | grpcWeb =>
    have : (c.context m hm user t stream).requestHeaders = _ :=
      congrArg (fun p : Proto => p.clientHeaders c.userAgent user (pickTimeout t c.timeoutMs) c.codec.name stream c.acceptHeader
        (some c.send)) hc
    rw [this]
    exact hgrpc .grpcWeb

/-! ### the request -/

/-- the request of a streamed call -/
abbrev streamRequest (c : Client Req Res) (ctx : RequestContext) (reqs : List Req) : HttpRequest :=
  ⟨pys! "POST", c.url ctx.method, ctx.requestHeaders.allitems, ctx.timeoutMs,
    (streamingContent ⟨c.codec, some c.send⟩ reqs none).1, (streamingContent ⟨c.codec, some c.send⟩ reqs none).2⟩

theorem url_eq (c : Client Req Res) (m : MethodInfo) : c.url m = c.address ++ methodPath m := by
  unfold Client.url methodPath
  simp [List.append_assoc]

theorem bidi_sends_one (c : Client Req Res) (sc : StatusCodec) (sink : Sink) (cs : Circumstances) (ctx : RequestContext) (reqs : List Req) :
    SendsOnly (· = streamRequest c ctx reqs) fun http => c.bidi sc http.stream sink cs ctx reqs none := by
  intro h h' hh
  dsimp only
  unfold Client.bidi
  dsimp only
  rw [(hh (streamRequest c ctx reqs) rfl).2]

/-- all messages can be sent, and the server reads them back -/
theorem request_frames {c : Client Req Res} {app : App Req Res} {codec : ServerCodec Req Res} (hcodec : SameCodec c app codec)
    {k : Compression} (hk : c.send ≠ .identity → k ≠ .identity ∧ ∀ b, k.decompress (c.send.compress b) = .ok b) {reqs : List Req}
    (hm : ∀ r ∈ reqs, ∃ data, c.codec.encode r = .ok data ∧ (c.send.compress data).length < 2 ^ 32 ∧ WithinLimit app data) :
    (streamingContent ⟨c.codec, some c.send⟩ reqs none).2 = none ∧
    ∃ fs, Splits (streamingContent ⟨c.codec, some c.send⟩ reqs none).1.flatten fs [] ∧
      (serverPolicy app codec k).deliver fs = (reqs, none) := by
  have hw : ∃ bs, streamingContent ⟨c.codec, some c.send⟩ reqs none = (bs, none) ∧
      reqs.map (EnvelopeWriter.write ⟨c.codec, some c.send⟩) = bs.map .ok := by
    clear hk
    induction reqs with
    | nil => exact ⟨[], rfl, rfl⟩
    | cons r reqs ih =>
      obtain ⟨bs, h1, h2⟩ := ih fun x hx => hm x (List.mem_cons_of_mem _ hx)
      obtain ⟨data, h3, h4, _⟩ := hm r List.mem_cons_self
      obtain ⟨h5, _⟩ := C08_write_exact ⟨c.codec, some c.send⟩ r data h3
      refine ⟨_ :: bs, show _ = _ from ?_, by rw [List.map_cons, h5 h4, h2, List.map_cons]⟩
      unfold streamingContent
      rw [h5 h4, h1]
  obtain ⟨bs, h1, h2⟩ := hw
  rw [h1]
  refine ⟨rfl, ?_⟩
  obtain ⟨fs, h3, h4, _, h5⟩ := writeAll_frames (σ := Unit) ⟨c.codec, some c.send⟩
    ⟨codec.req, k, app.readMax, fun s _ _ => (s, .ok false)⟩
    ⟨hcodec.request, by intro k' e; cases e; exact hk⟩ reqs bs h2 (by
      intro n hn r hr d hd
      obtain ⟨data, e1, _, e3⟩ := hm r hr
      rw [show (EnvelopeWriter.mk c.codec (some c.send)).codec = c.codec from rfl, e1] at hd
      cases hd
      exact e3 n hn)
  refine ⟨fs, ⟨?_, h3, incomplete_of_lt_five (by decide)⟩, deliver_all _ fs reqs h5⟩
  rw [h4, List.append_nil, List.flatMap_def]

/-! ### the fields arrive -/

theorem plain_connect_type {n : Str} (h : PlainName n) :
    mediaType (pys! "application/connect+" ++ n) = pys! "application/connect+" ++ n := by
  have hc : ∀ c ∈ pys! "application/connect+" ++ n, c = '+' ∨ ('a' ≤ c ∧ c ≤ 'z') ∨ ('0' ≤ c ∧ c ≤ '9') ∨ c = '-' ∨ c = '/' := by
    intro c hc
    rcases List.mem_append.1 hc with hc | hc
    · have : ∀ c ∈ pys! "application/connect+", c = '+' ∨ ('a' ≤ c ∧ c ≤ 'z') ∨ ('0' ≤ c ∧ c ≤ '9') ∨ c = '-' ∨ c = '/' := by decide
      exact this c hc
    · rcases h.2 c hc with h | h | h
      · exact .inr (.inl h)
      · exact .inr (.inr (.inl h))
      · exact .inr (.inr (.inr (.inl h)))
  unfold mediaType
  rw [takeWhile_self _ (fun c h1 => ?_), strip_no_space _ (fun c h1 => ?_)]
  · unfold lower
    conv => rhs; rw [← List.map_id (pys! "application/connect+" ++ n)]
    refine List.map_congr_left fun c h1 => ?_
    rcases hc c h1 with rfl | h2
    · decide
    · exact (plainChar h2).2.1
  · rcases hc c h1 with rfl | h2
    · decide
    · exact (plainChar h2).1
  · rcases hc c h1 with rfl | h2
    · decide
    · simpa using (plainChar h2).2.2.2.1

theorem connectType_stream (n : Str) : ConnectType (pys! "application/connect+" ++ n) := by
  refine ⟨?_, ?_⟩
  · rintro (h | ⟨x, h⟩) <;> cases h
  · rintro (h | ⟨x, h⟩) <;> cases h

theorem speaks_stream (p : Proto) (n : Str) : Speaks p (streamType p n) := by
  cases p with
  | connect => exact connectType_stream n
  | grpc => exact .inr ⟨n, rfl⟩
  | grpcWeb => exact .inr ⟨n, rfl⟩

theorem streamCodecName (p : Proto) {n : Str} (h : PlainName n) : StreamCodecName p (streamType p n) n := by
  cases p with
  | connect => exact .inl (plain_connect_type h)
  | grpc => exact .inl rfl
  | grpcWeb => exact .inl rfl

theorem not_connectType_stream {p : Proto} (hp : p ≠ .connect) (n : Str) : ¬ ConnectType (streamType p n) := by
  intro h
  cases p with
  | connect => exact hp rfl
  | grpc => exact h.1 (.inr ⟨n, rfl⟩)
  | grpcWeb => exact h.2 (.inr ⟨n, rfl⟩)

/-- what the server makes of the protocol headers of a streamed request -/
structure StreamArrived (c : Client Req Res) (app : App Req Res) (user : UserHeaders) (t : Option Int) (h : Headers) : Prop where
  type : h.getD (pys! "content-type") [] = streamType c.proto c.codec.name
  ready : HeadersReady c.proto h
  reqComp : h.getD (encodingHeader c.proto) (pys! "identity") = c.send.name
  resComp : h.getD (acceptHeader c.proto) [] = c.acceptHeader
  timeout : ∀ told, timeoutOf h told → StreamTimeoutTold c.proto (pickTimeout t c.timeoutMs) told

theorem stream_arrived {c : Client Req Res} {app : App Req Res} {user : UserHeaders} {t : Option Int} (ht : StreamTimeoutFits c user t)
    {hs h : Headers} (hf : StreamRequestFields c user t hs) {fields : HTTPHeaders} (ha : Arrived fields h)
    (hv : ∀ n, fieldValues fields n = hs.getall n) : StreamArrived c app user t h := by
  have fw : ∀ p : Proto, Forwarded (acceptHeader p) ∧ Forwarded (encodingHeader p) ∧ Forwarded (timeoutHeader p) := by
    intro p
    cases p <;> decide +kernel
  have hct := (getall_one (ha.one (pys! "content-type") _ (by decide +kernel) (by rw [hv, hf.type]))).2 []
  have henc := (getall_one (ha.one (encodingHeader c.proto) _ (fw c.proto).2.1 (by rw [hv, hf.encoding]))).2 (pys! "identity")
  have hacc := (getall_one (ha.one (acceptHeader c.proto) _ (fw c.proto).1 (by rw [hv, hf.accept]))).2 []
  have hto : h.get (timeoutHeader c.proto) = (pickTimeout t c.timeoutMs).map (timeoutText c.proto) ∨ False := by
    left
    have h3 := hf.timeout
    cases hp : pickTimeout t c.timeoutMs with
    | some ms =>
      rw [hp] at h3
      rw [(getall_one (ha.one _ _ (fw c.proto).2.2 (by rw [hv, h3]))).1]
      rfl
    | none =>
      rw [hp] at h3
      have hu : given user (timeoutHeader c.proto) = [] := by
        unfold StreamTimeoutFits TimeoutFits at ht
        simp only [callTimeout_eq] at ht
        rw [hp] at ht
        cases hc : c.proto <;> rw [hc] at ht <;> exact ht
      rw [(getall_nil (ha.unset _ (by cases c.proto <;> decide) (by rw [hv, h3]; exact hu))).1]
      rfl
  have hto := hto.resolve_right id
  unfold StreamTimeoutFits at ht
  simp only [callTimeout_eq] at ht
  have hgrpc : c.proto ≠ .connect → (match pickTimeout t c.timeoutMs with
      | some ms => ms < 360000000000000
      | none => given user (pys! "grpc-timeout") = []) →
      h.get (pys! "grpc-timeout") = (pickTimeout t c.timeoutMs).map serializeTimeout →
      (∀ v, h.get (pys! "grpc-timeout") = some v → v = [] ∨ ∃ ms, parseTimeout v = .ok ms) ∧
      ∀ told, timeoutOf h told → match pickTimeout t c.timeoutMs with
        | none => told = none
        | some ms => ∃ ms', told = some ms' ∧ (ms ≤ 0 → ms' = 0) ∧ (0 ≤ ms → 0 ≤ ms' ∧ ms' ≤ ms) ∧
            (0 ≤ ms → ms < 100000000 → ms' = ms) := by
    intro hp ht hto
    refine ⟨?_, ?_⟩
    · intro v e
      rw [hto] at e
      cases hp : pickTimeout t c.timeoutMs with
      | none => rw [hp] at e; cases e
      | some ms =>
        rw [hp] at e ht
        cases e
        obtain ⟨s, h1, _⟩ := C10_never_lengthened ms ht
        exact .inr ⟨s, h1⟩
    · intro told htold
      rw [htold.2 (by rw [hct]; exact not_connectType_stream hp _), hto]
      cases hp : pickTimeout t c.timeoutMs with
      | none => rfl
      | some ms =>
        rw [hp] at ht
        obtain ⟨s, h1, h2, h3, h4⟩ := C10_never_lengthened ms ht
        refine ⟨s, ?_, h2, fun h => ⟨(h3 h).1, (h3 h).2.1⟩, h4⟩
        show (parseTimeout (serializeTimeout ms)).toOption = some s
        rw [h1]
        rfl
  have hboth : HeadersReady c.proto h ∧ ∀ told, timeoutOf h told → StreamTimeoutTold c.proto (pickTimeout t c.timeoutMs) told := by
    cases hc : c.proto with
    | connect =>
      rw [hc] at hto ht hct
      have hver := (getall_one (ha.one (pys! "connect-protocol-version") ['1'] (by decide +kernel) (by rw [hv, hf.version hc]))).1
      refine ⟨⟨?_, ?_⟩, ?_⟩
      · intro v e
        rw [hver] at e
        exact (Option.some.inj e).symm
      · intro v e
        rw [show pys! "connect-timeout-ms" = timeoutHeader .connect from rfl, hto] at e
        cases hp : pickTimeout t c.timeoutMs with
        | none => rw [hp] at e; cases e
        | some ms =>
          rw [hp] at e
          cases e
          unfold TimeoutFits at ht
          rw [callTimeout_eq, hp] at ht
          exact .inr ⟨ht, ms, parseInt_intStr ms⟩
      · intro told htold
        show told = _
        rw [htold.1 (by rw [hct]; exact connectType_stream _), show pys! "connect-timeout-ms" = timeoutHeader .connect from rfl, hto]
        cases pickTimeout t c.timeoutMs with
        | none => rfl
        | some ms => exact parseInt_intStr ms
    | grpc =>
      rw [hc] at hto ht
      exact hgrpc (by rw [hc]; decide) ht hto
    | grpcWeb =>
      rw [hc] at hto ht
      exact hgrpc (by rw [hc]; decide) ht hto
  exact ⟨hct, hboth.1, henc, hacc, hboth.2⟩

/-! ### the request is served -/

theorem wsgi_passes' {address : Str} {rq : HttpRequest} {env : Environ} (h : WsgiSees address rq env) {user : UserHeaders}
    (hu : ∀ n, lower n ∉ transportNames → lower n ∉ protocolNames → lower n ≠ pys! "accept-encoding" → given user n ≠ [] →
      fieldValues rq.headers n = given user n) : Passes user joined (wsgiHeaders env.vars) := by
  intro n hf h1 h2 h3
  have hv := hu n hf.1 h1 h2 h3
  have hg := h.field n hf (by rw [hv]; exact h3)
  rw [hv] at hg
  rw [wsgiHeaders_getall _ h.distinct]
  exact values_one h.distinct (headerOfVar_cgiVar hf.2) hg

theorem arrives_unique {r : List Recv} {b b' : Bytes} {e : Option Exc} (h : AsgiBody r b) (h' : Arrives r b' e) : b' = b ∧ e = none := by
  induction h generalizing b' e with
  | last b r => cases h'; exact ⟨rfl, rfl⟩
  | more b h ih =>
    cases h' with
    | more _ h' =>
      obtain ⟨h1, h2⟩ := ih h'
      exact ⟨by rw [h1], h2⟩

section
variable {c : Client Req Res} {app : App Req Res} {codec : ServerCodec Req Res} {m ms : MethodInfo} {handler : Handler Req Res}
  {reqs : List Req} {user : UserHeaders} {t : Option Int} {stream : Bool}

/-- the compression the server chooses -/
abbrev chosen (c : Client Req Res) (app : App Req Res) : Compression := negotiateCompression c.acceptHeader app.comps

/-- the request of a call -/
abbrev theStream (c : Client Req Res) (m : MethodInfo) (hm : Str) (user : UserHeaders) (t : Option Int) (stream : Bool) (reqs : List Req) :
    HttpRequest := streamRequest c (c.context m hm user t stream) reqs

theorem theStream_fields (c : Client Req Res) (m : MethodInfo) (hm : Str) (user : UserHeaders) (t : Option Int) (stream : Bool)
    (reqs : List Req) (n : Str) : fieldValues (theStream c m hm user t stream reqs).headers n =
      (c.context m hm user t stream).requestHeaders.getall n :=
  fieldValues_allitems (context_inv c m hm user t stream) n

theorem theStream_url (c : Client Req Res) (m : MethodInfo) (hm : Str) (user : UserHeaders) (t : Option Int) (stream : Bool)
    (reqs : List Req) : (theStream c m hm user t stream reqs).url = c.address ++ methodPath m := url_eq c m

theorem wsgi_streamed (hs : StreamCall c app codec m ms handler reqs user t) (hst : c.proto = .connect → stream = true) (hm : Str)
    {env : Environ} (h : WsgiSees c.address (theStream c m hm user t stream reqs) env)
    (htr : c.proto = .grpc → env.sendTrailers = true) :
    ∃ k, WsgiStreamed app env (methodPath m) ⟨ms, handler⟩ c.proto codec k (chosen c app) ∧
      WsgiMessages app env codec k ⟨reqs, none⟩ ∧
      (∀ told, timeoutOf (wsgiHeaders env.vars) told → StreamTimeoutTold c.proto (pickTimeout t c.timeoutMs) told) ∧
      Passes user joined (wsgiHeaders env.vars) ∧ Dict.get? env.vars (pys! "REQUEST_METHOD") = some (pys! "POST") := by
  obtain ⟨k, hk1, hk2⟩ := hs.comps.request
  have ha := stream_arrived (app := app) hs.timeout (stream_context_fields c m hm user t stream hst) (wsgi_arrived h)
    (theStream_fields c m hm user t stream reqs)
  have hp := h.path (methodPath m) hs.path (theStream_url ..)
  obtain ⟨hnone, fs, h1, h2⟩ := request_frames hs.codec hk2 hs.messages
  refine ⟨k, ⟨⟨?_, ⟨_, h.method, .inl rfl⟩, ?_, htr, ha.ready, hs.kind⟩, ⟨c.codec.name, ?_, hs.codec.found⟩, .inl ?_, ?_⟩, ?_, ha.timeout,
    ?_, h.method⟩
  · have := WsgiTarget.direct hp (by rw [rooted_methodPath]; exact hs.endpoint)
    rwa [rooted_methodPath] at this
  · rw [ha.type]; exact speaks_stream _ _
  · rw [ha.type]; exact streamCodecName _ hs.codec.plain
  · rw [ha.reqComp]; exact hk1
  · unfold ResponseCompression; rw [ha.resComp]
  · refine ⟨fs, [], ?_, h2.symm⟩
    rw [h.body]
    exact h1
  · refine wsgi_passes' h fun n hn h3 h4 h5 => ?_
    rw [theStream_fields, stream_context_user c m hm user t stream n hn h3 h4 h5]

theorem asgi_streamed (hs : StreamCall c app codec m ms handler reqs user t) (hst : c.proto = .connect → stream = true) (hm : Str)
    {scope : Scope} {env : Env} (h : AsgiSees c.address (theStream c m hm user t stream reqs) scope env)
    (htr : c.proto = .grpc → scope.trailers = true)
    (hroot : scope.rootPath = [] ∨ Dict.get? app.endpoints (scope.rootPath ++ methodPath m) = none) :
    ∃ k headers, asgiHeaders scope.headers Headers.empty = .ok headers ∧
      AsgiStreamed app scope headers (methodPath m) ⟨ms, handler⟩ c.proto codec k (chosen c app) ∧
      (∀ s, AsgiMessages app env codec k s → s = ⟨reqs, none⟩) ∧
      (∀ told, timeoutOf headers told → StreamTimeoutTold c.proto (pickTimeout t c.timeoutMs) told) ∧
      Passes user id headers ∧ scope.method = pys! "POST" := by
  obtain ⟨k, hk1, hk2⟩ := hs.comps.request
  obtain ⟨headers, hh, ha0, hv⟩ := asgi_arrived h
  have ha := stream_arrived (app := app) hs.timeout (stream_context_fields c m hm user t stream hst) ha0
    (theStream_fields c m hm user t stream reqs)
  have hp := h.path (methodPath m) hs.path (theStream_url ..)
  obtain ⟨hnone, fs, h1, h2⟩ := request_frames hs.codec hk2 hs.messages
  refine ⟨k, headers, hh, ⟨⟨?_, hh, .inl h.method, ?_, htr, ha.ready, hs.kind⟩, ⟨c.codec.name, .inl ⟨?_, ?_⟩, hs.codec.found⟩,
    .inl ?_, ?_⟩, ?_, ha.timeout, ?_, h.method⟩
  · by_cases e : scope.rootPath = []
    · rw [e, List.nil_append] at hp
      have := AsgiTarget.direct (app := app) (scope := scope) (by rw [hp]; exact hs.endpoint)
      rwa [hp] at this
    · rcases hroot with hr | hr
      · exact absurd hr e
      · exact .mounted (by rw [hp]; exact hr) e hp hs.endpoint
  · rw [ha.type]; exact speaks_stream _ _
  · rw [h.method]; show pys! "POST" ≠ pys! "GET"; decide
  · rw [ha.type]; exact streamCodecName _ hs.codec.plain
  · rw [ha.reqComp]; exact hk1
  · unfold ResponseCompression; rw [ha.resComp]
  · rintro ⟨sm, se⟩ ⟨bytes, e, fs', rest, h3, h4, h5, h6⟩
    obtain ⟨e1, e2⟩ := arrives_unique h.body h3
    subst e1
    subst e2
    obtain ⟨e3, _⟩ := splits_unique h1 h4
    subst e3
    rw [h2] at h5 h6
    cases h5
    cases h6
    rfl
  · intro n hf h3 h4 h5
    have e : fieldValues (theStream c m hm user t stream reqs).headers n = given user n := by
      rw [theStream_fields, stream_context_user c m hm user t stream n hf.1 h3 h4 h5]
    rw [hv n hf (by rw [e]; exact h5), e]
    rfl

end

/-! ### the response: what the client makes of it -/

theorem sameError_read {e e' : ConnectErr} (h : SameError e e') : AsRead e e' := by
  intro d' hd
  have hm : (d'.typeUrl, d'.value) ∈ e.details.map fun d => (d.typeUrl, d.value) := by
    rw [← h.details]
    exact List.mem_map.2 ⟨d', hd, rfl⟩
  obtain ⟨d, h1, h2⟩ := List.mem_map.1 hm
  exact ⟨h.bare d' hd, d, h1, (Prod.mk.inj h2).2.symm, .inl (Prod.mk.inj h2).1.symm⟩

theorem sameError_report {e e' : ConnectErr} (h : SameError e e') : report e' = report e := by
  unfold report
  rw [h.code, h.message]
  have : ∀ l : List ErrorDetail, l.map (fun d => (typeNameOf d.typeUrl, d.value)) =
      (l.map fun d => (d.typeUrl, d.value)).map fun q => (typeNameOf q.1, q.2) := by
    intro l
    rw [List.map_map]
    rfl
  rw [this, this e.details, h.details]

theorem seen_of_exactly {error : Option ConnectErr} {exc : Option Exc} (h : SeenExactly error exc) : Seen error exc := by
  cases error with
  | none => exact h
  | some e =>
    obtain ⟨e', h1, h2⟩ := h
    exact ⟨e', h1, sameError_report h2, sameError_read h2⟩

theorem built_empty : Built Headers.empty := ⟨[], rfl⟩

theorem headersAfter_append (h : Headers) (a b : List HOp) : headersAfter h (a ++ b) = headersAfter (headersAfter h a) b := by
  induction a generalizing h with
  | nil => rfl
  | cons x a ih => exact ih _

theorem built_add {h : Headers} (hb : Built h) (k v : Str) : Built (h.add k v) := by
  obtain ⟨ops, rfl⟩ := hb
  exact ⟨ops ++ [.add k v], by rw [headersAfter_append]; rfl⟩

theorem built_sortFields : ∀ (l : HTTPHeaders) (hs ts : Headers), Built ts → Built (sortFields (hs, ts) l).2
  | [], _, _, h => h
  | (k, v) :: l, hs, ts, h => by
    unfold sortFields
    split
    · exact built_sortFields l _ _ (built_add h _ _)
    · exact built_sortFields l _ _ h

theorem built_headers {sink : Sink} (h : ∀ r, sink = some r → Built r.getTrailers) (fields : HTTPHeaders) :
    ∀ r, handleResponseHeaders sink fields = some r → Built r.getTrailers := by
  intro r hr
  cases sink with
  | none => cases hr
  | some r0 =>
    cases hr
    unfold RespMeta.getTrailers
    dsimp only
    cases ht : (sortFields (Headers.empty, Headers.empty) fields).2.truthy with
    | true =>
      rw [if_pos rfl]
      exact built_sortFields _ _ _ built_empty
    | false =>
      rw [if_neg (by decide)]
      exact h r0 rfl

/-- the client side of gRPC, given trailers with the values the server set -/
theorem grpcComplete_received (sc : StatusCodec) (hsc : sc.Lawful) (error : Option ConnectErr) (user : Headers) (hu : user.Inv)
    (herr : ∀ e, error = some e → FitsProtobuf e ∧
      (e.details = [] → user.getall (pys! "grpc-status-details-bin") = [] ∧
      (e.message = [] → user.getall (pys! "grpc-message") = []))) (s : ClientSub)
    (hs : ∀ r, s.sink = some r → r.getTrailers.Inv) (rh t : HTTPHeaders) (hlow : ∀ p ∈ t, lower p.1 = p.1)
    (ht : ∀ n, lower n ∉ transportNames → fieldValues t n = fieldValues (grpcTrailers sc user error).allitems n) :
    SeenExactly error (grpcComplete sc s rh t none).2 ∧
    ∀ r, s.sink = some r → ∃ r', (grpcComplete sc s rh t none).1 = some r' ∧ r'.headers = r.headers ∧
      ∀ k, lower k ∉ grpcReserved → lower k ∉ transportNames → r'.getTrailers.getall k = r.getTrailers.getall k ++ user.getall k := by
  have hi := inv_grpcTrailers sc user error
  have hget : ∀ n, lower n ∉ transportNames → t.get n = HTTPHeaders.get (grpcTrailers sc user error).allitems n := by
    intro n hn
    rw [http_get_eq t hlow, http_get_eq _ (Headers.allitems_low hi), ht n hn]
  have hcomp : (grpcComplete sc s rh t none).2 = (grpcComplete sc s rh (grpcTrailers sc user error).allitems none).2 := by
    unfold grpcComplete
    rw [hget _ (by decide +kernel), get_status sc user hu]
    dsimp only
    unfold errorOfTrailers HTTPHeaders.getD
    rw [hget (pys! "grpc-status-details-bin") (by decide +kernel), hget (pys! "grpc-message") (by decide +kernel)]
  refine ⟨?_, ?_⟩
  · rw [hcomp]
    exact (grpcComplete_outcome sc hsc error user hu herr s hs rh).1
  · intro r hr
    unfold grpcComplete
    rw [hget _ (by decide +kernel), get_status sc user hu]
    dsimp only
    rw [hr]
    refine ⟨_, rfl, storeTrailers_headers _ _, ?_⟩
    intro k hk hkt
    rw [storeTrailers_getall r _ (hs r hr), ← trailers_user sc user hu error k hk, ← fieldValues_allitems hi, ← ht k hkt]
    rfl

/-- the response to a run of the handler -/
structure Wrote (p : Proto) (codec : ServerCodec Req Res) (sc : StatusCodec) (comp : Compression) (i : Meta) (ms : List Res)
    (trailers : Headers) (e : Option Exc) (bs : List Bytes) (r : StreamedResponse) : Prop where
  writes : ms.map (writerOf codec comp).write = bs.map .ok
  status : r.status = 200
  fields : r.fields = streamFields p codec comp i
  ends : ∃ out, EndsWith (writerOf codec comp) p sc trailers e out ∧ match out with
    | .body eb => r.body = bs.flatten ++ eb ∧ r.trailers = []
    | .trailers h => r.body = bs.flatten ∧ r.trailers = h.allitems

section
variable {c : Client Req Res} {app : App Req Res} {codec : ServerCodec Req Res} {sc : StatusCodec} {i : Meta} {ms : List Res}
  {trailers : Headers} {e : Option Exc} {bs : List Bytes} {r : StreamedResponse} {resp : StreamResponse} {comp : Compression}

theorem streamFields_own (p : Proto) (codec : ServerCodec Req Res) (comp : Compression) (i : Meta) (n : Str)
    (h1 : lower n ≠ pys! "content-type") (h2 : lower n ≠ encodingHeader p) :
    fieldValues (streamFields p codec comp i) n = fieldValues i.headers.allitems n := by
  unfold streamFields
  rw [fieldValues_append, fieldValues_none, List.nil_append]
  intro q hq e
  simp only [List.mem_cons, List.not_mem_nil, or_false] at hq
  have h3 : lower (encodingHeader p) = encodingHeader p := by cases p <;> decide +kernel
  have h4 : lower (pys! "content-type") = pys! "content-type" := by decide +kernel
  rcases hq with rfl | rfl
  · rw [show lower _ = _ from h4] at e; exact h1 e.symm
  · rw [show lower _ = _ from h3] at e; exact h2 e.symm

/-- the content type the client sees -/
theorem stream_response_type (hcodec : SameCodec c app codec) (hw : Wrote c.proto codec sc comp i ms trailers e bs r)
    (hrec : ReceivedStream r resp) : resp.headers.getD (pys! "content-type") [] = streamType c.proto c.codec.name := by
  unfold HTTPHeaders.getD
  rw [http_get_eq _ hrec.lower, hrec.field _ (by decide +kernel), hw.fields, ← hcodec.name]
  unfold streamFields
  rw [List.cons_append, fieldValues_cons, if_pos rfl]
  rfl

theorem validateStream_ok (p : Proto) (n : Str) : p.validateStream n (streamType p n) = none := by
  cases p with
  | connect =>
    show connectValidateStream n (pys! "application/connect+" ++ n) = none
    have h : startsWith (pys! "application/connect+") (pys! "application/connect+" ++ n) = true := List.isPrefixOf_iff_prefix.2 ⟨n, rfl⟩
    unfold connectValidateStream
    dsimp only
    rw [if_neg (Decidable.not_not.2 h), if_neg (Decidable.not_not.2 List.drop_left)]
  | grpc =>
    have h : startsWith (pys! "application/grpc+") (pys! "application/grpc+" ++ n) = true := List.isPrefixOf_iff_prefix.2 ⟨n, rfl⟩
    show grpcValidateStream (pys! "application/grpc") (pys! "application/grpc+") n (pys! "application/grpc+" ++ n) = none
    unfold grpcValidateStream
    dsimp only
    rw [if_neg (Decidable.not_not.2 (.inr h)), if_pos h, if_neg (Decidable.not_not.2 List.drop_left)]
  | grpcWeb =>
    have h : startsWith (pys! "application/grpc-web+") (pys! "application/grpc-web+" ++ n) = true := List.isPrefixOf_iff_prefix.2 ⟨n, rfl⟩
    show grpcValidateStream (pys! "application/grpc-web") (pys! "application/grpc-web+") n (pys! "application/grpc-web+" ++ n) = none
    unfold grpcValidateStream
    dsimp only
    rw [if_neg (Decidable.not_not.2 (.inr h)), if_pos h, if_neg (Decidable.not_not.2 List.drop_left)]

theorem chosen_known (hcomps : StreamCompressions c app) :
    ∃ k', Dict.get? c.comps (chosen c app).name = some k' ∧ (chosen c app).name ≠ [] ∧
      (chosen c app ≠ .identity → k' ≠ .identity ∧ ∀ b, k'.decompress ((chosen c app).compress b) = .ok b) := by
  have hid : ∀ {n : Str}, n ∈ Dict.keys c.comps → ∃ k', Dict.get? c.comps n = some k' := by
    intro n hn
    cases h : Dict.get? c.comps n with
    | some k' => exact ⟨k', rfl⟩
    | none => exact absurd hn ((Dict.get?_eq_none_iff _ _).1 h)
  have hne : Dict.keys c.comps ≠ [] := by
    intro h
    have := hcomps.clientIdentity
    have hm : (pys! "identity") ∈ Dict.keys c.comps := by
      cases Decidable.em ((pys! "identity") ∈ Dict.keys c.comps) with
      | inl h => exact h
      | inr h => rw [(Dict.get?_eq_none_iff _ _).2 h] at this; cases this
    rw [h] at hm
    cases hm
  rcases negotiated hcomps.names hne app.comps with h | ⟨n, h1, h2⟩
  · have h : chosen c app = .identity := h
    rw [h]
    exact ⟨_, hcomps.clientIdentity, by decide, fun h => absurd rfl h⟩
  · have h2 : Dict.get? app.comps n = some (chosen c app) := h2
    obtain ⟨k', hk⟩ := hid h1
    rw [hcomps.server n _ h2]
    exact ⟨k', hk, (hcomps.names n h1).1, hcomps.response n _ k' h2 hk⟩

theorem stream_response_compression (hcomps : StreamCompressions c app) (hw : Wrote c.proto codec sc (chosen c app) i ms trailers e bs r)
    (hrec : ReceivedStream r resp) : ∃ k', c.proto.responseCompression resp.headers c.comps true = .ok k' ∧
      (chosen c app ≠ .identity → k' ≠ .identity ∧ ∀ b, k'.decompress ((chosen c app).compress b) = .ok b) := by
  obtain ⟨k', h1, h2, h3⟩ := chosen_known hcomps
  refine ⟨k', ?_, h3⟩
  have h4 : c.proto.requestEncodingHeader true = encodingHeader c.proto := by cases c.proto <;> rfl
  have h5 : lower (encodingHeader c.proto) ∉ transportNames := by cases c.proto <;> decide +kernel
  have h6 : ¬ lower (pys! "content-type") = lower (encodingHeader c.proto) := by cases c.proto <;> decide +kernel
  unfold Proto.responseCompression
  rw [h4, http_get_eq _ hrec.lower, hrec.field _ h5, hw.fields]
  unfold streamFields
  rw [List.cons_append, fieldValues_cons, if_neg h6, List.cons_append, fieldValues_cons, if_pos rfl]
  dsimp only [List.head?]
  rw [if_neg (by simpa using h2), h1]

/-- what the metadata object knows when the headers have arrived -/
theorem stream_told_headers (hw : Wrote c.proto codec sc comp i ms trailers e bs r) (hrec : ReceivedStream r resp) :
    ∃ rm, handleResponseHeaders (some RespMeta.new) resp.headers = some rm ∧
      (∀ n, StreamOwnName c.proto n → rm.getHeaders.getall n = fieldValues i.headers.allitems n) ∧
      ((∀ q ∈ i.headers.allitems, ¬ pys! "trailer-" <+: lower q.1) → ∀ n, rm.getTrailers.getall n = []) := by
  obtain ⟨h1, h2⟩ := sortFields_getall resp.headers hrec.lower Headers.empty Headers.empty Headers.inv_empty Headers.inv_empty
  have e1 : ∀ n, Headers.empty.getall n = [] := fun n => getall_of_falsy rfl n
  refine ⟨_, rfl, ?_, ?_⟩
  · intro n hn
    have hv : fieldValues resp.headers n = fieldValues i.headers.allitems n := by
      rw [hrec.field n hn.1, hw.fields, streamFields_own _ _ _ _ _ hn.2.1 hn.2.2.1]
    have hg := h1 n hn.2.2.2
    rw [e1, List.nil_append, hv] at hg
    unfold RespMeta.getHeaders
    dsimp only
    cases ht : (sortFields (Headers.empty, Headers.empty) resp.headers).1.truthy with
    | true => rw [if_pos rfl]; exact hg
    | false =>
      rw [if_neg (by decide), ← hg, getall_of_falsy ht]
      exact e1 n
  · intro hno n
    have hnt : lower (pys! "trailer-" ++ n) ∉ transportNames := by
      rw [lower_append]
      intro hc
      have : ∀ x ∈ transportNames, ¬ pys! "trailer-" <+: x := by decide +kernel
      exact this _ hc ⟨lower n, rfl⟩
    have hv : fieldValues resp.headers (pys! "trailer-" ++ n) = [] := by
      rw [hrec.field _ hnt, hw.fields, streamFields_own, fieldValues_none]
      · intro p hp e
        refine hno p hp ⟨lower n, ?_⟩
        rw [e, lower_append]
        rfl
      · rw [lower_append]; intro e; cases e
      · rw [lower_append]; intro e; cases hc : c.proto <;> rw [hc] at e <;> cases e
    have hg := h2 n
    rw [e1, List.nil_append, hv] at hg
    unfold RespMeta.getTrailers
    dsimp only
    cases ht : (sortFields (Headers.empty, Headers.empty) resp.headers).2.truthy with
    | true => rw [if_pos rfl]; exact hg
    | false =>
      rw [if_neg (by decide)]
      exact e1 n

/-- the body of the response -/
theorem stream_body (hr : RegularStream c codec sc comp i.headers ms trailers e)
    (hw : Wrote c.proto codec sc comp i ms trailers e bs r) (hrec : ReceivedStream r resp) : resp.chunks.flatten = r.body := by
  refine hrec.body ?_
  rw [hw.fields, streamFields_own, hr.encoding]
  · decide +kernel
  · cases c.proto <;> decide +kernel

theorem readBody_reads {k' : Compression} (hcodec : SameCodec c app codec) (hr : RegularStream c codec sc comp i.headers ms trailers e)
    (hw : Wrote c.proto codec sc comp i ms trailers e bs r) (hrec : ReceivedStream r resp)
    (hk : comp ≠ .identity → k' ≠ .identity ∧ ∀ b, k'.decompress (comp.compress b) = .ok b)
    {sink : Sink} (hsink : ∀ r, sink = some r → Built r.getTrailers) {cs : Circumstances} (hcs : Calm cs) :
    (c.readBody sc sink k' resp cs).messages = ms ∧ Seen (e.map errorOf) (c.readBody sc sink k' resp cs).exc ∧
    ∀ rm, sink = some rm → ∃ rm', (c.readBody sc sink k' resp cs).sink = some rm' ∧ rm'.headers = rm.headers ∧
      ∀ n, StreamOwnTrailer c.proto n → rm'.getTrailers.getall n = rm.getTrailers.getall n ++ trailers.getall n := by
  have hbody := stream_body hr hw hrec
  have ha : Agree (writerOf codec comp) (c.reader k') := ⟨hcodec.response, by
    intro k h1 h2; cases h1; exact hk h2⟩
  have hcan : ∀ n, cancelPoint c.flavor cs.cancelAfter n = none := by
    intro n
    rw [hcs.2]
    cases c.flavor <;> rfl
  obtain ⟨out, hout, hr2⟩ := hw.ends
  have herr : c.proto ≠ .connect → ∀ x, e.map errorOf = some x → FitsProtobuf x ∧
      (x.details = [] → trailers.getall (pys! "grpc-status-details-bin") = [] ∧
      (x.message = [] → trailers.getall (pys! "grpc-message") = [])) := by
    intro hp x hx
    cases e with
    | none => cases hx
    | some y =>
      cases hx
      exact hr.error hp y rfl
  unfold Client.readBody
  dsimp only
  rw [hcan]
  dsimp only
  cases hc : c.proto with
  | connect =>
    unfold EndsWith at hout
    rw [hc] at hout
    have hmap : ∃ eb, out = .body eb := by
      unfold EnvelopeWriter.end' at hout
      dsimp only at hout
      cases hx : (writerOf codec comp).connectEnd trailers (e.map errorOf) with
      | error x => rw [hx] at hout; cases hout
      | ok b => rw [hx] at hout; cases hout; exact ⟨b, rfl⟩
    obtain ⟨eb, rfl⟩ := hmap
    obtain ⟨h1, h2, h3, h4⟩ := C18_connect_stream_end (writerOf codec comp) (c.reader k') ha
      (by unfold Client.reader; rw [hc]; rfl) sc trailers hr.built (e.map errorOf)
      (by
        intro x hx
        cases e with
        | none => cases hx
        | some y => cases hx; exact hr.debug hc y rfl)
      ms bs resp.chunks hw.writes eb hout (by rw [hbody, hr2.1])
      (by
        intro n hn
        obtain ⟨a, b⟩ := hr.limit n hn
        rw [hc] at b
        exact ⟨a, b⟩)
      (ClientSub.init sink) hsink
    cases hs : (feedAll (c.reader k') (ReaderState.init (ClientSub.init sink)) resp.chunks).2.1 with
    | raised x =>
      rw [hs] at h2
      refine ⟨h1, h2, ?_⟩
      intro rm hrm
      obtain ⟨rm', a1, a2, a3, _⟩ := h3 rm hrm
      exact ⟨rm', a1, a2, fun n _ => a3 n⟩
    | done =>
      rw [hs] at h2
      rw [hrec.bodyErr]
      dsimp only
      rw [if_neg (by rw [hcs.1]; simp)]
      refine ⟨h1, h2, ?_⟩
      intro rm hrm
      obtain ⟨rm', a1, a2, a3, _⟩ := h3 rm hrm
      exact ⟨rm', a1, a2, fun n _ => a3 n⟩
  | grpc =>
    unfold EndsWith at hout
    rw [hc] at hout
    cases hout
    obtain ⟨fs, f1, f2, f3, f4⟩ := writeAll_frames (writerOf codec comp) (c.reader k') ha ms bs hw.writes
      (fun n hn => (hr.limit n hn).1)
    let pass : ClientSub → ClientSub := fun s => { s with readMessage := true }
    have hdata : ∀ s d, (c.reader k').handleEnd s (writerOf codec comp).pre d = (pass s, .ok false) := by
      intro s d
      unfold Client.reader
      rw [hc]
      rfl
    have hrun := frameRun_data (c.reader k') pass _ hdata fs ms f3 f4 (ClientSub.init sink)
    have hid : ∀ n (s : ClientSub), (passes pass n s).sink = s.sink := by
      intro n; induction n with
      | zero => intro s; rfl
      | succ n ih => intro s; exact ih (pass s)
    have hsp : Splits resp.chunks.flatten fs [] := by
      refine ⟨?_, f1, incomplete_of_lt_five (by decide)⟩
      rw [hbody, hr2.1, f2, List.append_nil, List.flatMap_def]
    obtain ⟨h1, h2, h3⟩ := feedAll_splits (c.reader k') (.init (ClientSub.init sink)) (by intro n h; cases h) resp.chunks hsp
      (fun _ => incomplete_of_lt_five (by show 0 < 5; decide)) (by
        intro h
        rw [show (ReaderState.init (ClientSub.init sink)).sub = ClientSub.init sink from rfl, hrun] at h
        cases h)
    rw [show (ReaderState.init (ClientSub.init sink)).sub = ClientSub.init sink from rfl, hrun] at h1 h2 h3
    rw [show (feedAll (c.reader k') (ReaderState.init (ClientSub.init sink)) resp.chunks).2.1 = .done from h2, hrec.bodyErr]
    dsimp only
    rw [if_neg (by rw [hcs.1]; simp), h3, h1]
    obtain ⟨g1, g2⟩ := grpcComplete_received sc (hr.status (by rw [hc]; decide)) (e.map errorOf) trailers hr.built.inv
      (herr (by rw [hc]; decide)) (passes pass fs.length (ClientSub.init sink))
      (by rw [hid]; exact fun r h => (hsink r h).inv) resp.headers resp.trailers hrec.trailersLower
      (by intro n hn; rw [hrec.trailer n hn, hr2.2])
    refine ⟨rfl, seen_of_exactly g1, ?_⟩
    intro rm hrm
    obtain ⟨rm', a1, a2, a3⟩ := g2 rm (by rw [hid]; exact hrm)
    exact ⟨rm', a1, a2, fun n hn => a3 n hn.1 hn.2⟩
  | grpcWeb =>
    unfold EndsWith at hout
    rw [hc] at hout
    have hmap : ∃ eb, out = .body eb := by
      unfold EnvelopeWriter.end' at hout
      dsimp only at hout
      cases hx : (writerOf codec comp).grpcWebEnd sc trailers (e.map errorOf) with
      | error x => rw [hx] at hout; cases hout
      | ok b => rw [hx] at hout; cases hout; exact ⟨b, rfl⟩
    obtain ⟨eb, rfl⟩ := hmap
    obtain ⟨h1, h2, h3, h4⟩ := C19_grpc_web_trailers (writerOf codec comp) (c.reader k') ha
      (by unfold Client.reader; rw [hc]; rfl) sc (hr.status (by rw [hc]; decide)) trailers hr.built (hr.legal hc)
      (e.map errorOf) (herr (by rw [hc]; decide))
      ms bs resp.chunks hw.writes eb hout (by rw [hbody, hr2.1])
      (by
        intro n hn
        obtain ⟨a, b⟩ := hr.limit n hn
        rw [hc] at b
        exact ⟨a, b⟩)
      sink hsink ⟨resp.status, resp.headers, resp.trailers⟩
    rw [show (feedAll (c.reader k') (ReaderState.init (ClientSub.init sink)) resp.chunks).2.1 = .done from h2, hrec.bodyErr]
    dsimp only
    rw [if_neg (by rw [hcs.1]; simp)]
    exact ⟨h1, seen_of_exactly h3, fun rm hrm => h4 rm hrm⟩

/-- what the client makes of the response -/
theorem inside_reads (hcodec : SameCodec c app codec) (hcomps : StreamCompressions c app)
    (hr : RegularStream c codec sc (chosen c app) i.headers ms trailers e)
    (hw : Wrote c.proto codec sc (chosen c app) i ms trailers e bs r) (hrec : ReceivedStream r resp)
    {sink : Sink} (hsink : ∀ r, sink = some r → Built r.getTrailers) {cs : Circumstances} (hcs : Calm cs) :
    (c.inside sc sink resp cs).messages = ms ∧ Seen (e.map errorOf) (c.inside sc sink resp cs).exc ∧
    (sink = some RespMeta.new → ∃ rm, (c.inside sc sink resp cs).sink = some rm ∧ StreamTold c.proto i.headers trailers rm) := by
  obtain ⟨k', h1, h2⟩ := stream_response_compression hcomps hw hrec
  obtain ⟨h3, h4, h5⟩ := readBody_reads hcodec hr hw hrec h2 (built_headers hsink resp.headers) hcs
  unfold Client.inside
  dsimp only
  rw [if_pos (by rw [hrec.status, hw.status]; rfl), stream_response_type hcodec hw hrec, validateStream_ok]
  dsimp only
  rw [h1]
  dsimp only
  refine ⟨h3, h4, ?_⟩
  intro hs
  rw [hs] at h5 ⊢
  obtain ⟨rm, g1, g2, g3⟩ := stream_told_headers hw hrec
  obtain ⟨rm', g4, g5, g6⟩ := h5 rm g1
  refine ⟨rm', g4, ?_, ?_⟩
  · intro n hn
    rw [← g2 n hn]
    unfold RespMeta.getHeaders
    rw [g5]
  · intro hno n hn
    rw [g6 n hn, g3 hno n, List.nil_append, fieldValues_allitems hr.built.inv]

/-- what the caller gets -/
theorem bidi_reads (hcodec : SameCodec c app codec) (hcomps : StreamCompressions c app)
    (hr : RegularStream c codec sc (chosen c app) i.headers ms trailers e)
    (hw : Wrote c.proto codec sc (chosen c app) i ms trailers e bs r) (hrec : ReceivedStream r resp)
    {sink : Sink} (hsink : ∀ r, sink = some r → Built r.getTrailers) {cs : Circumstances} (hcs : Calm cs) {ctx : RequestContext}
    {reqs : List Req} {http : HttpClient} (hh : http.stream (streamRequest c ctx reqs) = .ok resp) :
    (c.bidi sc http.stream sink cs ctx reqs none).messages = ms ∧
    Seen (e.map errorOf) (c.bidi sc http.stream sink cs ctx reqs none).exc ∧
    (sink = some RespMeta.new → ∃ rm, (c.bidi sc http.stream sink cs ctx reqs none).sink = some rm ∧
      StreamTold c.proto i.headers trailers rm) := by
  obtain ⟨h1, h2, h3⟩ := inside_reads hcodec hcomps hr hw hrec hsink hcs
  have hb : c.bidi sc http.stream sink cs ctx reqs none =
      ⟨(c.inside sc sink resp cs).sink, (c.inside sc sink resp cs).messages, (c.inside sc sink resp cs).exc⟩ := by
    unfold Client.bidi
    dsimp only
    rw [show http.stream _ = _ from hh]
    dsimp only
    rw [hrec.exitErr]
    cases he : e.map errorOf with
    | none =>
      rw [he] at h2
      have h2 : (c.inside sc sink resp cs).exc = none := h2
      rw [h2]
      unfold leaveWith
      cases c.flavor <;> rfl
    | some x =>
      rw [he] at h2
      obtain ⟨e', h2, _⟩ := h2
      rw [h2]
      unfold leaveWith
      cases c.flavor <;> rfl
  rw [hb]
  exact ⟨h1, h2, h3⟩

end

end Conn
