import Verif.Proofs.StreamTransport
import Verif.Props.EndToEnd
/-
C59, and C58 for gRPC and gRPC-Web: streamed calls from the caller to the handler and back.
-/
namespace Props
open Py Spec Conn

variable {Req Res : Type}

section
variable {c : Client Req Res} {app : App Req Res} {codec : ServerCodec Req Res} {m ms : MethodInfo} {handler : Handler Req Res}
  {reqs : List Req} {user : UserHeaders} {t : Option Int}

/-- a streamed call on the WSGI server; `g` is what the caller's function makes of the stream -/
theorem served_wsgi (h : StreamCall c app codec m ms handler reqs user t) (sc : StatusCodec) (sink : Sink)
    (hsink : ∀ r, sink = some r → Built r.getTrailers) (cs : Circumstances) (hcs : Calm cs) (hm : Str) (stream : Bool)
    (hst : c.proto = .connect → stream = true) {α : Type} (g : StreamResult Res → α)
    {gets : RequestContext → Headers → List Res → Headers → Option Exc → α → Prop}
    (hg : ∀ ctx req h0 script, Starts ⟨reqs, none⟩ ctx handler req h0 script → ∀ close i out h' e,
      (close = none ∨ close = script.closeErr) →
      Runs (writerOf codec (responseComp c app)).write close h0 script.acts script.outcome i out h' e →
      ∀ res, StreamGets c.proto sink i.headers out h'.info.trailers e res → gets ctx i.headers out h'.info.trailers e (g res)) :
    ServedByWsgi c app codec m ms handler reqs user t sc
      (fun http => g (c.bidi sc http.stream sink cs (c.context m hm user t stream) reqs none)) gets := by
  refine ⟨theStream c m hm user t stream reqs, .inl (theStream_url ..), ?_, ?_⟩
  · intro a b hab
    exact congrArg g (bidi_sends_one c sc sink cs _ reqs a b hab)
  intro env hs htr
  obtain ⟨k, h1, h2, h3, h4, h5⟩ := wsgi_streamed h hst hm hs htr
  obtain ⟨hm', ctx, h6, h7, h8⟩ := C35_wsgi app sc env _ _ _ codec k (responseComp c app) h1 hs.pieces _ h2
  rw [h5] at h6
  cases h6
  refine ⟨ctx, ⟨h7, h4, _, timeoutTold_pick _ _, h3 _ ?_⟩, ?_⟩
  · have := h7.timeout
    rwa [h7.headers] at this
  intro req h0 script hstart i out h' e hrun hreg
  obtain ⟨eo, heo⟩ := hreg.ends
  obtain ⟨bs, _, hbs, hev⟩ := h8 req h0 script hstart i out h' e hrun hreg.caught eo heo
  rw [hev]
  refine ⟨rfl, rfl, ?_⟩
  have hfin : ∀ r, Wrote c.proto codec sc (responseComp c app) i out h'.info.trailers e bs r → ∀ resp, ReceivedStream r resp →
      ∀ http : HttpClient, http.stream (theStream c m hm user t stream reqs) = .ok resp →
      gets ctx i.headers out h'.info.trailers e (g (c.bidi sc http.stream sink cs (c.context m hm user t stream) reqs none)) := by
    intro r hw resp hrec http hh
    obtain ⟨a1, a2, a3⟩ := bidi_reads h.codec h.comps hreg hw hrec hsink hcs (http := http) hh
    exact hg ctx req h0 script hstart _ i out h' e (.inl rfl) hrun _ ⟨a1, a2, a3⟩
  cases eo with
  | body b =>
    refine ⟨⟨200, streamFields c.proto codec (responseComp c app) i, bs.flatten ++ b, []⟩, ⟨rfl, bs ++ [b], by simp, .inl ⟨?_, rfl⟩⟩,
      hfin _ ⟨hbs, rfl, rfl, _, heo, rfl, rfl⟩⟩
    simp [wsgiEnding]
  | trailers th =>
    exact ⟨⟨200, streamFields c.proto codec (responseComp c app) i, bs.flatten, th.allitems⟩, ⟨rfl, bs, rfl, .inr rfl⟩,
      hfin _ ⟨hbs, rfl, rfl, _, heo, rfl, rfl⟩⟩

/-- … on the ASGI server -/
theorem served_asgi (h : StreamCall c app codec m ms handler reqs user t) (ho : Spec.Ordinary app) (sc : StatusCodec) (sink : Sink)
    (hsink : ∀ r, sink = some r → Built r.getTrailers) (cs : Circumstances) (hcs : Calm cs) (hm : Str) (stream : Bool)
    (hst : c.proto = .connect → stream = true) {α : Type} (g : StreamResult Res → α)
    {gets : RequestContext → Headers → List Res → Headers → Option Exc → α → Prop}
    (hg : ∀ ctx req h0 script, Starts ⟨reqs, none⟩ ctx handler req h0 script → ∀ close i out h' e,
      (close = none ∨ close = script.closeErr) →
      Runs (writerOf codec (responseComp c app)).write close h0 script.acts script.outcome i out h' e →
      ∀ res, StreamGets c.proto sink i.headers out h'.info.trailers e res → gets ctx i.headers out h'.info.trailers e (g res)) :
    ServedByAsgi c app codec m ms handler reqs user t sc
      (fun http => g (c.bidi sc http.stream sink cs (c.context m hm user t stream) reqs none)) gets := by
  refine ⟨theStream c m hm user t stream reqs, .inl (theStream_url ..), ?_, ?_⟩
  · intro a b hab
    exact congrArg g (bidi_sends_one c sc sink cs _ reqs a b hab)
  intro scope env hs htr hrel hcan hdis hroot
  obtain ⟨k, headers, hh, h1, h2, h3, h4, h5⟩ := asgi_streamed h hst hm hs htr hroot
  obtain ⟨ctx, s, h7, h6, h8⟩ := C35_asgi_partial app sc scope env headers _ _ _ codec k (responseComp c app) h1 hrel
  have := h2 s (h6 hcan ho)
  subst this
  rw [h5] at h7
  refine ⟨ctx, headers, hh, ⟨h7, h4, _, timeoutTold_pick _ _, h3 _ ?_⟩, ?_⟩
  · have := h7.timeout
    rwa [h7.headers] at this
  intro req h0 script hstart i out h' e hrun hreg
  obtain ⟨eo, heo⟩ := hreg.ends
  obtain ⟨bs, hbs, hev⟩ := h8 req h0 script hstart i out h' e hrun (fun _ k hk => by rw [hdis] at hk; cases hk)
    (by rintro rfl; exact absurd (hreg.caught _ rfl) (by decide)) eo heo
  rw [hev]
  refine ⟨rfl, rfl, ?_⟩
  have hfin : ∀ r, Wrote c.proto codec sc (responseComp c app) i out h'.info.trailers e bs r → ∀ resp, ReceivedStream r resp →
      ∀ http : HttpClient, http.stream (theStream c m hm user t stream reqs) = .ok resp →
      gets ctx i.headers out h'.info.trailers e (g (c.bidi sc http.stream sink cs (c.context m hm user t stream) reqs none)) := by
    intro r hw resp hrec http hh
    obtain ⟨a1, a2, a3⟩ := bidi_reads h.codec h.comps hreg hw hrec hsink hcs (http := http) hh
    exact hg ctx req h0 script hstart _ i out h' e (.inr rfl) hrun _ ⟨a1, a2, a3⟩
  cases eo with
  | body b =>
    refine ⟨⟨200, streamFields c.proto codec (responseComp c app) i, bs.flatten ++ b, []⟩, ⟨bs, b, rfl, .inl ⟨?_, rfl⟩⟩,
      hfin _ ⟨hbs, rfl, rfl, _, heo, rfl, rfl⟩⟩
    have : decide (c.proto = .grpc) = false := by
      unfold EndsWith at heo
      cases hc : c.proto with
      | grpc => rw [hc] at heo; cases heo
      | _ => rfl
    rw [this]
    rfl
  | trailers th =>
    refine ⟨⟨200, streamFields c.proto codec (responseComp c app) i, bs.flatten, th.allitems⟩, ⟨bs, [], by simp, .inr ?_⟩,
      hfin _ ⟨hbs, rfl, rfl, _, heo, rfl, rfl⟩⟩
    have : decide (c.proto = .grpc) = true := by
      unfold EndsWith EnvelopeWriter.end' at heo
      cases hc : c.proto with
      | grpc => rfl
      | connect =>
        rw [hc] at heo
        dsimp only at heo
        cases hx : (writerOf codec (responseComp c app)).connectEnd h'.info.trailers (e.map errorOf) with
        | error x => rw [hx] at heo; cases heo
        | ok x => rw [hx] at heo; cases heo
      | grpcWeb =>
        rw [hc] at heo
        dsimp only at heo
        cases hx : (writerOf codec (responseComp c app)).grpcWebEnd sc h'.info.trailers (e.map errorOf) with
        | error x => rw [hx] at heo; cases heo
        | ok x => rw [hx] at heo; cases heo
    rw [this]
    rfl

theorem does_quiet {h h1 : HState Req} {s : Step} {e : Option Exc} (hd : Does h s h1 e) (hq : h.err = none) : e = none ∧ h1.err = none := by
  cases hd with
  | update => exact ⟨rfl, hq⟩
  | message => exact ⟨rfl, hq⟩
  | ended => exact ⟨rfl, rfl⟩
  | failed => cases hq
  | handled => cases hq

theorem runs_steps {write : Res → Except Exc Bytes} {close : Option Exc} {rest : List (Act Res)} {outcome : Option Exc} :
    ∀ {steps : List Step} {h h' : HState Req} {i : Meta} {out : List Res} {e : Option Exc}, h.err = none →
    Runs write close h (steps.map .step ++ rest) outcome i out h' e →
    ∃ h1, h1.err = none ∧ ∃ i', Runs write close h1 rest outcome i' out h' e
  | [], h, h', i, out, e, hq, hr => ⟨h, hq, i, hr⟩
  | s :: steps, h, h', i, out, e, hq, hr => by
    cases hr with
    | step hs hr => exact runs_steps (does_quiet hs hq).2 hr
    | raised hs => cases (does_quiet hs hq).1

/-- the outcome of a run with one response: the response, or the exception -/
theorem responds_runs {run : Call Res} {script : Script Res} (hr : Responds run script) {write : Res → Except Exc Bytes}
    {close : Option Exc} (hc : close = none ∨ close = script.closeErr) {h h' : HState Req} (hq : h.err = none) {i : Meta} {out : List Res}
    {e : Option Exc} (hruns : Runs write close h script.acts script.outcome i out h' e) :
    (∃ r b, run.result = .ok r ∧ write r = .ok b ∧ out = [r] ∧ e = none) ∨
    (∃ r x, run.result = .ok r ∧ write r = .error x ∧ out = [] ∧ e = some x) ∨
    (∃ x, run.result = .error x ∧ out = [] ∧ e = some x) := by
  cases hr with
  | returned steps r =>
    have hc : close = none := by rcases hc with h | h <;> exact h
    subst hc
    obtain ⟨h1, _, i', hr⟩ := runs_steps hq hruns
    cases hr with
    | emit hw hr => cases hr; exact .inl ⟨r, _, rfl, hw, rfl, rfl⟩
    | unwritable hw => exact .inr (.inl ⟨r, _, rfl, hw, rfl, rfl⟩)
  | raised steps x =>
    have hruns : Runs write close h (steps.map .step ++ []) (some x) i out h' e := by
      rw [List.append_nil]
      exact hruns
    obtain ⟨h1, _, i', hr⟩ := runs_steps hq hruns
    cases hr
    exact .inr (.inr ⟨x, rfl, rfl, rfl⟩)

/-- one response, read from the stream -/
theorem single_gets {p : Proto} {sink : Sink} {comp : Compression} {run : Call Res} {script : Script Res} (hr : Responds run script)
    {close : Option Exc} (hc : close = none ∨ close = script.closeErr) {h h' : HState Req} (hq : h.err = none) {i : Meta} {out : List Res}
    {e : Option Exc} (hruns : Runs (writerOf codec comp).write close h script.acts script.outcome i out h' e) {res : StreamResult Res}
    (hg : StreamGets p sink i.headers out h'.info.trailers e res) :
    SingleGets p codec comp sink run i.headers h'.info.trailers (Client.single res) := by
  refine ⟨?_, hg.metadata⟩
  intro hfit
  unfold Client.single consumeSingle
  dsimp only
  rw [hg.messages]
  have hseen := hg.outcome
  rcases responds_runs hr hc hq hruns with ⟨r, b, h1, h2, rfl, rfl⟩ | ⟨r, x, h1, h2, rfl, rfl⟩ | ⟨x, h1, rfl, rfl⟩
  · have : res.exc = none := hseen
    dsimp only
    rw [this]
    cases he : codec.res.encode r with
    | error x =>
      exfalso
      unfold EnvelopeWriter.write at h2
      rw [show (writerOf codec comp).codec.encode r = .error x from he] at h2
      cases h2
    | ok d => exact .returned h1 he
  · obtain ⟨e', h3, h4⟩ := hseen
    dsimp only
    rw [h3]
    refine .failed (e := x) ?_ h4.1 h4.2
    refine .inr ⟨r, h1, ?_⟩
    cases he : codec.res.encode r with
    | error y =>
      unfold EnvelopeWriter.write at h2
      rw [show (writerOf codec comp).codec.encode r = .error y from he] at h2
      exact h2
    | ok d =>
      exfalso
      obtain ⟨h5, _⟩ := C08_write_exact (writerOf codec comp) r d he
      rw [h5 (hfit r d h1 he)] at h2
      cases h2
  · obtain ⟨e', h3, h4⟩ := hseen
    dsimp only
    rw [h3]
    exact .failed (.inl h1) h4.1 h4.2

end

/-! ### C59 -/

/-- **C59, server stream, WSGI.** The handler is called once, with the request and its headers and timeout; the caller receives exactly the
messages the handler produced, in order, then its outcome; and its headers and trailers. For all three protocols. -/
theorem C59_server_stream_wsgi_partial (c : Client Req Res) (app : App Req Res) (codec : ServerCodec Req Res) (m ms : MethodInfo)
    (f : Req → RequestContext → Script Res) (req : Req) (user : UserHeaders) (t : Option Int)
    (h : StreamCall c app codec m ms (.serverStream f) [req] user t) (sc : StatusCodec) (sink : Sink)
    (hsink : ∀ r, sink = some r → Built r.getTrailers) (cs : Circumstances) (hcs : Calm cs) :
    ServedByWsgi c app codec m ms (.serverStream f) [req] user t sc (fun http => c.executeServerStream sc http sink cs req m user t)
      (fun _ headers out trailers e res => StreamGets c.proto sink headers out trailers e res) :=
  served_wsgi h sc sink hsink cs hcs _ true (fun _ => rfl) id fun _ _ _ _ _ _ _ _ _ _ _ _ _ hg => hg

/-- **C59, server stream, ASGI.** -/
theorem C59_server_stream_asgi_partial (c : Client Req Res) (app : App Req Res) (codec : ServerCodec Req Res) (m ms : MethodInfo)
    (f : Req → RequestContext → Script Res) (req : Req) (user : UserHeaders) (t : Option Int)
    (h : StreamCall c app codec m ms (.serverStream f) [req] user t) (ho : Spec.Ordinary app) (sc : StatusCodec) (sink : Sink)
    (hsink : ∀ r, sink = some r → Built r.getTrailers) (cs : Circumstances) (hcs : Calm cs) :
    ServedByAsgi c app codec m ms (.serverStream f) [req] user t sc (fun http => c.executeServerStream sc http sink cs req m user t)
      (fun _ headers out trailers e res => StreamGets c.proto sink headers out trailers e res) :=
  served_asgi h ho sc sink hsink cs hcs _ true (fun _ => rfl) id fun _ _ _ _ _ _ _ _ _ _ _ _ _ hg => hg

/-- **C59, bidirectional streams, WSGI.** The handler can read exactly the caller's messages (`Starts`), the caller receives exactly the
handler's. (The model's HTTP client takes the whole request before it answers.) -/
theorem C59_bidi_wsgi_partial (c : Client Req Res) (app : App Req Res) (codec : ServerCodec Req Res) (m ms : MethodInfo)
    (f : ReqStream Req → RequestContext → Script Res) (reqs : List Req) (user : UserHeaders) (t : Option Int)
    (h : StreamCall c app codec m ms (.bidi f) reqs user t) (sc : StatusCodec) (sink : Sink)
    (hsink : ∀ r, sink = some r → Built r.getTrailers) (cs : Circumstances) (hcs : Calm cs) :
    ServedByWsgi c app codec m ms (.bidi f) reqs user t sc (fun http => c.executeBidiStream sc http sink cs reqs none m user t)
      (fun _ headers out trailers e res => StreamGets c.proto sink headers out trailers e res) :=
  served_wsgi h sc sink hsink cs hcs _ true (fun _ => rfl) id fun _ _ _ _ _ _ _ _ _ _ _ _ _ hg => hg

/-- **C59, bidirectional streams, ASGI.** -/
theorem C59_bidi_asgi_partial (c : Client Req Res) (app : App Req Res) (codec : ServerCodec Req Res) (m ms : MethodInfo)
    (f : ReqStream Req → RequestContext → Script Res) (reqs : List Req) (user : UserHeaders) (t : Option Int)
    (h : StreamCall c app codec m ms (.bidi f) reqs user t) (ho : Spec.Ordinary app) (sc : StatusCodec) (sink : Sink)
    (hsink : ∀ r, sink = some r → Built r.getTrailers) (cs : Circumstances) (hcs : Calm cs) :
    ServedByAsgi c app codec m ms (.bidi f) reqs user t sc (fun http => c.executeBidiStream sc http sink cs reqs none m user t)
      (fun _ headers out trailers e res => StreamGets c.proto sink headers out trailers e res) :=
  served_asgi h ho sc sink hsink cs hcs _ true (fun _ => rfl) id fun _ _ _ _ _ _ _ _ _ _ _ _ _ hg => hg

/-- **C59, client stream, WSGI.** The handler can read exactly the caller's messages; the caller gets its response, or its error. -/
theorem C59_client_stream_wsgi_partial (c : Client Req Res) (app : App Req Res) (codec : ServerCodec Req Res) (m ms : MethodInfo)
    (f : ReqStream Req → RequestContext → Call Res) (reqs : List Req) (user : UserHeaders) (t : Option Int)
    (h : StreamCall c app codec m ms (.clientStream f) reqs user t) (sc : StatusCodec) (sink : Sink)
    (hsink : ∀ r, sink = some r → Built r.getTrailers) (cs : Circumstances) (hcs : Calm cs) :
    ServedByWsgi c app codec m ms (.clientStream f) reqs user t sc (fun http => c.executeClientStream sc http sink cs reqs none m user t)
      (fun ctx headers _ trailers _ res =>
        SingleGets c.proto codec (responseComp c app) sink (f ⟨reqs, none⟩ ctx) headers trailers res) := by
  refine served_wsgi h sc sink hsink cs hcs _ true (fun _ => rfl) Client.single ?_
  intro ctx req h0 script hstart close i out h' e hc hrun res hg
  cases hstart with
  | clientStream _ hr => exact single_gets hr hc rfl hrun hg

/-- **C59, client stream, ASGI.** -/
theorem C59_client_stream_asgi_partial (c : Client Req Res) (app : App Req Res) (codec : ServerCodec Req Res) (m ms : MethodInfo)
    (f : ReqStream Req → RequestContext → Call Res) (reqs : List Req) (user : UserHeaders) (t : Option Int)
    (h : StreamCall c app codec m ms (.clientStream f) reqs user t) (ho : Spec.Ordinary app) (sc : StatusCodec) (sink : Sink)
    (hsink : ∀ r, sink = some r → Built r.getTrailers) (cs : Circumstances) (hcs : Calm cs) :
    ServedByAsgi c app codec m ms (.clientStream f) reqs user t sc (fun http => c.executeClientStream sc http sink cs reqs none m user t)
      (fun ctx headers _ trailers _ res =>
        SingleGets c.proto codec (responseComp c app) sink (f ⟨reqs, none⟩ ctx) headers trailers res) := by
  refine served_asgi h ho sc sink hsink cs hcs _ true (fun _ => rfl) Client.single ?_
  intro ctx req h0 script hstart close i out h' e hc hrun res hg
  cases hstart with
  | clientStream _ hr => exact single_gets hr hc rfl hrun hg

/-! ### C58, gRPC and gRPC-Web -/

/-- **C58, gRPC and gRPC-Web, WSGI.** The handler is called once, with the request the caller passed; the caller gets its response, or its
error. (`useGet` has no effect.) -/
theorem C58_grpc_wsgi_partial (c : Client Req Res) (hp : c.proto ≠ .connect) (app : App Req Res) (codec : ServerCodec Req Res) (m ms : MethodInfo)
    (f : Req → RequestContext → Call Res) (req : Req) (user : UserHeaders) (t : Option Int) (useGet : Bool)
    (h : StreamCall c app codec m ms (.unary f) [req] user t) (sc : StatusCodec) (sink : Sink)
    (hsink : ∀ r, sink = some r → Built r.getTrailers) (cs : Circumstances) (hcs : Calm cs) :
    ServedByWsgi c app codec m ms (.unary f) [req] user t sc (fun http => c.executeUnary sc http sink cs req m user t useGet)
      (fun ctx headers _ trailers _ res => SingleGets c.proto codec (responseComp c app) sink (f req ctx) headers trailers res) := by
  have he : (fun http => c.executeUnary sc http sink cs req m user t useGet) = fun http =>
      Client.single (c.bidi sc http.stream sink cs (c.context m (if useGet then pys! "GET" else pys! "POST") user t false) [req] none) := by
    funext http
    unfold Client.executeUnary
    cases hc : c.proto with
    | connect => exact absurd hc hp
    | _ => rfl
  rw [he]
  refine served_wsgi h sc sink hsink cs hcs _ false (fun hc => absurd hc hp) Client.single ?_
  intro ctx req' h0 script hstart close i out h' e hc hrun res hg
  cases hstart with
  | unary _ m' hm he hr =>
    cases hm
    exact single_gets hr hc rfl hrun hg

/-- **C58, gRPC and gRPC-Web, ASGI.** -/
theorem C58_grpc_asgi_partial (c : Client Req Res) (hp : c.proto ≠ .connect) (app : App Req Res) (codec : ServerCodec Req Res) (m ms : MethodInfo)
    (f : Req → RequestContext → Call Res) (req : Req) (user : UserHeaders) (t : Option Int) (useGet : Bool)
    (h : StreamCall c app codec m ms (.unary f) [req] user t) (ho : Spec.Ordinary app) (sc : StatusCodec) (sink : Sink)
    (hsink : ∀ r, sink = some r → Built r.getTrailers) (cs : Circumstances) (hcs : Calm cs) :
    ServedByAsgi c app codec m ms (.unary f) [req] user t sc (fun http => c.executeUnary sc http sink cs req m user t useGet)
      (fun ctx headers _ trailers _ res => SingleGets c.proto codec (responseComp c app) sink (f req ctx) headers trailers res) := by
  have he : (fun http => c.executeUnary sc http sink cs req m user t useGet) = fun http =>
      Client.single (c.bidi sc http.stream sink cs (c.context m (if useGet then pys! "GET" else pys! "POST") user t false) [req] none) := by
    funext http
    unfold Client.executeUnary
    cases hc : c.proto with
    | connect => exact absurd hc hp
    | _ => rfl
  rw [he]
  refine served_asgi h ho sc sink hsink cs hcs _ false (fun hc => absurd hc hp) Client.single ?_
  intro ctx req' h0 script hstart close i out h' e hc hrun res hg
  cases hstart with
  | unary _ m' hm he hr =>
    cases hm
    exact single_gets hr hc rfl hrun hg

/-- Clients and servers made by their constructors look compressions up by their names: what remains to be asked for is that the names can
be written in a header, and that both sides undo each other's compressions. -/
theorem C59_configured (fl : Flavor) (address : Str) (codec : Codec Req) (resCodec : Codec Res) (p : Proto) (gzip gzip' : Compression)
    (hg : gzip'.name = pys! "gzip") (accept : Option (List Compression)) (send : Option Compression) (timeoutMs readMax : Option Int)
    (ua : Str) (endpoints : Dict Str (Endpoint Req Res)) (path : Str) (readMax' : Option Int) (compressions : Option (List Compression))
    (codecs : List (ServerCodec Req Res)) (hn : ∀ n, (available gzip accept n).isSome = true → PlainName n)
    (hs : ∀ k, send = some k → ∃ k', available gzip' compressions k.name = some k' ∧
      (k ≠ .identity → k' ≠ .identity ∧ ∀ b, k'.decompress (k.compress b) = .ok b))
    (hr : ∀ n k k', available gzip' compressions n = some k → available gzip accept n = some k' → k ≠ .identity →
      k' ≠ .identity ∧ ∀ b, k'.decompress (k.compress b) = .ok b) :
    StreamCompressions (Client.new fl address codec resCodec p gzip accept send timeoutMs readMax ua)
      (App.new endpoints path gzip' readMax' compressions codecs) where
  server n k h := available_name hg (by rw [← resolve_get?]; exact h)
  serverIdentity := by
    show Dict.get? (resolveCompressions gzip' compressions) _ = _
    rw [resolve_get?, available_identity]
  clientIdentity := by
    show Dict.get? (resolveCompressions gzip accept) _ = _
    rw [resolve_get?, available_identity]
  names n h := hn n ((keys_available ..).1 h)
  request := by
    show ∃ k', Dict.get? (resolveCompressions gzip' compressions) _ = _ ∧ _
    rw [resolve_get?]
    cases send with
    | none => exact ⟨.identity, available_identity .., fun h => absurd rfl h⟩
    | some k => exact hs k rfl
  response n k k' h h' := hr n k k' (by rw [← resolve_get?]; exact h) (by rw [← resolve_get?]; exact h')

/-! ### the hypotheses are met -/

/-- reads two messages, sets a header and trailers, produces two messages, and raises an error with details -/
def chatScript (_ : ReqStream Bytes) (_ : RequestContext) : Script Bytes :=
  ⟨[.step (.recv false), .step (.update fun m => { m with headers := m.headers.add (pys! "x-h") (pys! "1") }), .emit [1, 2],
    .step (.recv true), .step (.update fun m => { m with trailers := (m.trailers.add (pys! "x-t") (pys! "2")).add (pys! "X-T") (pys! "3") }),
    .emit [3]], some (.connect demoError), none⟩
def chatClient (p : Proto) : Client Bytes Bytes :=
  .new .async (pys! "http://h") rawCodec rawCodec p revGzip none (some revGzip) (some 5000) (some 1000) (pys! "ua")
def chatAppOf (handler : Handler Bytes Bytes) : App Bytes Bytes :=
  .new [(pys! "/a.S/Echo", ⟨echoInfo, handler⟩)] (pys! "/a.S") revGzip (some 10) none [⟨pys! "raw", rawCodec, rawCodec⟩]
def chatApp : App Bytes Bytes := chatAppOf (.bidi chatScript)
def chatCodec : ServerCodec Bytes Bytes := ⟨pys! "raw", rawCodec, rawCodec⟩
def chatHeaders : Headers := Headers.empty.add (pys! "x-h") (pys! "1")
def chatTrailers : Headers := (Headers.empty.add (pys! "x-t") (pys! "2")).add (pys! "X-T") (pys! "3")

theorem chat_call (p : Proto) (handler : Handler Bytes Bytes) (hk : p = .connect → handler.isUnary = false) (reqs : List Bytes)
    (hreqs : ∀ r ∈ reqs, r = [4, 5] ∨ r = [6]) :
    StreamCall (chatClient p) (chatAppOf handler) chatCodec echoInfo echoInfo handler reqs pairUser (some 1500) where
  codec := ⟨rfl, rfl, (by show PlainName (pys! "raw"); decide +kernel),
    (by show ¬ pys! "grpc" <+: pys! "raw"; decide +kernel), by intro m b h; cases h; rfl, by intro m b h; cases h; rfl⟩
  comps := by
    have hrev : revGzip ≠ .identity ∧ ∀ b, revGzip.decompress (revGzip.compress b) = .ok b :=
      ⟨(by intro h; cases h), by intro b; simp [revGzip, Compression.compress, Compression.decompress]⟩
    refine C59_configured _ _ _ _ _ _ _ rfl _ _ _ _ _ _ _ _ _ _ ?_ ?_ ?_
    · intro n h
      have h1 : n ∈ Dict.keys (resolveCompressions revGzip none) := (keys_available ..).2 h
      have h2 : ∀ n ∈ Dict.keys (resolveCompressions revGzip none), PlainName n := by decide +kernel
      exact h2 n h1
    · intro k h
      cases h
      exact ⟨revGzip, rfl, fun _ => hrev⟩
    · intro n k k' h h' hk
      rw [h] at h'
      cases h'
      have h1 : n ∈ Dict.keys (resolveCompressions revGzip none) := (keys_available ..).2 (by rw [h]; rfl)
      have h2 : ∀ n ∈ Dict.keys (resolveCompressions revGzip none), n = pys! "gzip" ∨ n = pys! "identity" := by decide +kernel
      rcases h2 n h1 with rfl | rfl
      · cases h; exact hrev
      · rw [available_identity] at h
        cases h
        exact absurd rfl hk
  path := ⟨⟨_, rfl⟩, by decide +kernel⟩
  endpoint := rfl
  kind h := hk h
  messages := by
    intro r hr
    refine ⟨r, rfl, ?_, ?_⟩
    · rcases hreqs r hr with rfl | rfl <;> (cases p <;> decide +kernel)
    · intro n hn
      cases hn
      rcases hreqs r hr with rfl | rfl <;> decide
  timeout := by
    cases p with
    | connect =>
      show (intStr 1500).length ≤ 10
      decide +kernel
    | _ =>
      show (1500 : Int) < _
      decide

theorem chat_comp (p : Proto) : responseComp (chatClient p) chatApp = revGzip := by cases p <;> rfl

def chatStream : ReqStream Bytes := ⟨[[4, 5], [6]], none⟩

theorem chat_starts (ctx : RequestContext) : Starts chatStream ctx (.bidi chatScript) none (ready chatStream)
    (chatScript chatStream ctx) := .bidi _

def chatState : HState Bytes := ⟨[], none, ⟨chatHeaders, chatTrailers⟩, [[4, 5], [6]]⟩

theorem chat_runs (ctx : RequestContext) : Runs (writerOf chatCodec revGzip).write none (ready chatStream)
    (chatScript chatStream ctx).acts (chatScript chatStream ctx).outcome ⟨chatHeaders, Headers.empty⟩
    [[1, 2], [3]] chatState (some (.connect demoError)) :=
  .step (.message _ _ _ _ _ _) (.step (.update _ _) (.emit rfl (.step (.message _ _ _ _ _ _) (.step (.update _ _) (.emit rfl (.done _ _))))))

theorem chat_regular (p : Proto) : RegularStream (chatClient p) chatCodec protobufStatus revGzip chatHeaders [[1, 2], [3]] chatTrailers
    (some (.connect demoError)) where
  caught := by intro x h; cases h; rfl
  built := ⟨[.add (pys! "x-t") (pys! "2"), .add (pys! "X-T") (pys! "3")], rfl⟩
  encoding := by decide +kernel
  limit := by
    intro n hn
    cases hn
    refine ⟨?_, ?_⟩
    · intro m hm d hd
      cases hd
      simp only [List.mem_cons, List.not_mem_nil, or_false] at hm
      rcases hm with rfl | rfl <;> decide
    · cases p <;> decide +kernel
  ends := by
    unfold EndsWith
    cases h : (writerOf chatCodec revGzip).end' (chatClient p).proto protobufStatus chatTrailers
      ((some (Exc.connect demoError)).map errorOf) with
    | ok out => exact ⟨out, rfl⟩
    | error x =>
      exfalso
      have h2 : ((writerOf chatCodec revGzip).end' (chatClient p).proto protobufStatus chatTrailers
        ((some (Exc.connect demoError)).map errorOf)).toOption.isSome = true := by cases p <;> decide +kernel
      rw [h] at h2
      cases h2
  debug _ x h := by cases h; exact demoError_debug
  status _ := protobufStatus_lawful
  error _ x h := by cases h; exact ⟨demoError_fits, by intro h; cases h⟩
  legal _ := by
    intro q hq
    have : q = (pys! "x-t", pys! "2") ∨ q = (pys! "x-t", pys! "3") := by
      have h2 : ∀ q ∈ chatTrailers.allitems, q = (pys! "x-t", pys! "2") ∨ q = (pys! "x-t", pys! "3") := by decide +kernel
      exact h2 q hq
    rcases this with rfl | rfl <;> exact ⟨by constructor <;> decide +kernel, by constructor <;> decide +kernel⟩

/-- Calls of all kinds that meet the hypotheses of C58 and C59. A unary handler, and its run. -/
example (p : Proto) (ctx : RequestContext) :
    StreamCall (chatClient p) (chatAppOf (.bidi chatScript)) chatCodec echoInfo echoInfo (.bidi chatScript) [[4, 5], [6]] pairUser (some 1500) ∧
    (let f := fun (r : Bytes) (c : RequestContext) => chatScript ⟨[r], none⟩ c
     StreamCall (chatClient p) (chatAppOf (.serverStream f)) chatCodec echoInfo echoInfo (.serverStream f) [[6]] pairUser (some 1500)) ∧
    (let f := fun (s : ReqStream Bytes) (c : RequestContext) => tellCall s.messages.flatten c
     StreamCall (chatClient p) (chatAppOf (.clientStream f)) chatCodec echoInfo echoInfo (.clientStream f) [[4, 5], [6], [6]] pairUser (some 1500)) ∧
    (p ≠ .connect →
     StreamCall (chatClient p) (chatAppOf (.unary tellCall)) chatCodec echoInfo echoInfo (.unary tellCall) [[6]] pairUser (some 1500)) ∧
    ∃ h0 script, Starts ⟨[[6]], none⟩ ctx (.unary tellCall) (some [6]) h0 script ∧ ∃ i h' e,
      Runs (writerOf chatCodec revGzip).write none h0 script.acts script.outcome i [[6]] h' e ∧
      RegularStream (chatClient p) chatCodec protobufStatus revGzip i.headers [[6]] h'.info.trailers e := by
  refine ⟨chat_call p _ (fun _ => rfl) _ (by simp), chat_call p _ (fun _ => rfl) _ (by simp), chat_call p _ (fun _ => rfl) _ (by simp),
    fun h => chat_call p _ (fun h' => absurd h' h) _ (by simp), ?_⟩
  refine ⟨_, _, .unary tellCall [6] rfl rfl (.returned _ _), ⟨chatHeaders, Headers.empty.add (pys! "x-t") (pys! "2")⟩,
    ⟨[], none, ⟨chatHeaders, Headers.empty.add (pys! "x-t") (pys! "2")⟩, []⟩, none,
    .step (.update _ _) (.step (.update _ _) (.emit rfl (.done _ _))), ?_⟩
  exact {
    caught := by intro x h; cases h
    built := ⟨[.add (pys! "x-t") (pys! "2")], rfl⟩
    encoding := by decide +kernel
    limit := by
      intro n hn
      cases hn
      refine ⟨?_, by cases p <;> decide +kernel⟩
      intro m hm d hd
      cases hd
      rw [List.mem_singleton] at hm
      subst hm
      decide
    ends := by cases p <;> exact ⟨_, rfl⟩
    debug := by intro _ x h; cases h
    status := fun _ => protobufStatus_lawful
    error := by intro _ x h; cases h
    legal := by
      intro _ q hq
      have h2 : ∀ q ∈ (Headers.empty.add (pys! "x-t") (pys! "2")).allitems, q = (pys! "x-t", pys! "2") := by decide +kernel
      rw [h2 q hq]
      exact ⟨by constructor <;> decide +kernel, by constructor <;> decide +kernel⟩ }

/-- every response without a content encoding can be received -/
theorem receivedStream_of (r : StreamedResponse) : ReceivedStream r
    ⟨r.status, r.fields.map fun p => (lower p.1, p.2), [r.body], none, r.trailers.map fun p => (lower p.1, p.2), none⟩ where
  status := rfl
  lower p hp := by
    obtain ⟨q, _, rfl⟩ := List.mem_map.1 hp
    exact Headers.lower_idem _
  field n _ := fieldValues_map_lower _ _
  body _ := by simp
  trailersLower p hp := by
    obtain ⟨q, _, rfl⟩ := List.mem_map.1 hp
    exact Headers.lower_idem _
  trailer n _ := fieldValues_map_lower _ _
  bodyErr := rfl
  exitErr := rfl

/-- Calls that meet the hypotheses of C59, by all three protocols, on both servers: the request arrives, on servers with trailers; the handler is
started on the caller's messages, and its run is regular; a response can be received. -/
example (p : Proto) (ctx : RequestContext) :
    let rq := theStream (chatClient p) echoInfo (pys! "POST") pairUser (some 1500) true [[4, 5], [6]]
    (∃ env, WsgiSees (chatClient p).address rq env ∧ env.sendTrailers = true) ∧
    (∃ scope env, AsgiSees (chatClient p).address rq scope env ∧ scope.trailers = true ∧ Reliable env ∧ env.cancelAfter = none ∧
      env.disconnectAt = none ∧ scope.rootPath = pys! "/root" ∧ Dict.get? chatApp.endpoints (scope.rootPath ++ pys! "/a.S/Echo") = none) ∧
    Spec.Ordinary chatApp ∧ Calm calm ∧
    (∃ req h0 script, Starts chatStream ctx (.bidi chatScript) req h0 script ∧ ∃ i out h' e,
      Runs (writerOf chatCodec (responseComp (chatClient p) chatApp)).write none h0 script.acts script.outcome i out h' e ∧
      RegularStream (chatClient p) chatCodec protobufStatus (responseComp (chatClient p) chatApp) i.headers out h'.info.trailers e) := by
  intro rq
  obtain ⟨q, hq⟩ := hasTarget_of (address := (chatClient p).address) (rq := rq) (path := pys! "/a.S/Echo") ⟨⟨_, rfl⟩, by decide +kernel⟩
    (.inl (by cases p <;> rfl))
  refine ⟨⟨⟨(environOf rq.method (pys! "/a.S/Echo") q rq.headers rq.body).vars,
    (environOf rq.method (pys! "/a.S/Echo") q rq.headers rq.body).input, true⟩, ?_, rfl⟩, ⟨⟨pys! "/root" ++ pys! "/a.S/Echo", pys! "/root", rq.method, none,
    rq.headers.map fun p => (utf8Encode p.1, utf8Encode p.2), none, utf8Encode q, true⟩, demoEnv [.request rq.body.flatten false], ?_, rfl,
    fun _ => rfl, rfl, rfl, rfl, rfl⟩, ⟨?_, ?_⟩, ⟨rfl, rfl⟩,
    ⟨_, _, _, chat_starts ctx, ⟨chatHeaders, Headers.empty⟩, [[1, 2], [3]], chatState, some (.connect demoError), by rw [chat_comp]; exact chat_runs ctx, by rw [chat_comp]; exact chat_regular p⟩⟩
  · have h := wsgiSees_environOf hq
    exact ⟨h.method, h.path, h.query, h.distinct, h.field, h.unset, h.pieces, h.body, h.length⟩
  · have h := asgiSees_of hq (pys! "/root") (demoEnv [.request rq.body.flatten false]) (.last _ _)
    exact ⟨h.method, h.path, h.query, h.fields, h.body⟩
  · intro n c hc b e he
    have hm : (n, c) ∈ [(pys! "raw", chatCodec)] := Dict.get?_some_mem hc
    rw [List.mem_singleton] at hm
    cases hm
    cases he
  · intro n c hc b e he
    have hm : (n, c) ∈ [(pys! "gzip", revGzip), (pys! "identity", .identity)] := Dict.get?_some_mem hc
    rcases List.mem_cons.1 hm with h | h
    · cases h; cases he
    · rw [List.mem_singleton] at h
      cases h
      cases he

/-- C59 is false for Connect timeouts of more than ten digits, which a client announces and a server of this library rejects: no handler is
called. -/
theorem C59_violation_long_timeout :
    let rq := fun t => theStream (chatClient .connect) echoInfo (pys! "POST") pairUser (some t) true [[4, 5], [6]]
    let served := fun t => chatApp.wsgi protobufStatus (environOf (pys! "POST") (pys! "/a.S/Echo") [] (rq t).headers (rq t).body)
    (served 10000000000).calls = [] ∧ (served 9999999999).calls.length = 1 ∧
    WsgiSees (chatClient .connect).address (rq 10000000000)
      (environOf (pys! "POST") (pys! "/a.S/Echo") [] (rq 10000000000).headers (rq 10000000000).body) := by
  refine ⟨by decide +kernel, by decide +kernel, ?_⟩
  refine wsgiSees_environOf (address := (chatClient .connect).address)
    (rq := theStream (chatClient .connect) echoInfo (pys! "POST") pairUser (some 10000000000) true [[4, 5], [6]]) (query := [])
    ⟨⟨⟨_, rfl⟩, by decide +kernel⟩, .inl ⟨?_, rfl⟩⟩
  decide +kernel

end Props
