import Verif.Props.Refusals
import Verif.Props.Rejected
import Verif.Props.Interceptor
import Verif.Props.Unary
/-
Where the code breaks a property, it does so in all cases of a kind, not only in an example: C13 at zero, C35 for cancelled handlers, C42
for cancelled RPCs, C46 by Connect, C61.
-/
namespace Props
open Conn Py Spec

variable {Req Res : Type}

/-! ### C13 -/

/-- **C13 is false at zero, always**: whatever the client, a call with `timeout_ms = 0` is the same as a call without `timeout_ms`, of every
kind. With `C13_default_timeout` it announces the default of the client. -/
theorem C13_violation_zero_all (c : Client Req Res) (sc : StatusCodec) (http : HttpClient) (sink : Sink) (cs : Circumstances)
    (m : MethodInfo) (user : UserHeaders) (req : Req) (reqs : List Req) (srcErr : Option Exc) (useGet : Bool) :
    c.executeUnary sc http sink cs req m user (some 0) useGet = c.executeUnary sc http sink cs req m user none useGet ∧
    c.executeClientStream sc http sink cs reqs srcErr m user (some 0) = c.executeClientStream sc http sink cs reqs srcErr m user none ∧
    c.executeServerStream sc http sink cs req m user (some 0) = c.executeServerStream sc http sink cs req m user none ∧
    c.executeBidiStream sc http sink cs reqs srcErr m user (some 0) = c.executeBidiStream sc http sink cs reqs srcErr m user none :=
  ⟨rfl, rfl, rfl, rfl⟩

/-! ### C35 -/

/-- **C35 is false on ASGI for every handler whose run ends with `CancelledError`**: the client gets the ending of an RPC that succeeded. -/
theorem C35_violation_cancelled_all (app : App Req Res) (sc : StatusCodec) (scope : Scope) (env : Env) (headers : Headers) (key : List Char)
    (ep : Endpoint Req Res) (p : Proto) (codec : ServerCodec Req Res) (reqComp resComp : Compression)
    (h : AsgiStreamed app scope headers key ep p codec reqComp resComp) (hrel : Reliable env) :
    ∃ ctx s, CtxIs ctx ep.method scope.method (asgiScheme scope) headers (scope.client.map fun ca => ca.1 ++ pys! ":" ++ ca.2) ∧
      (env.cancelAfter = none → Spec.Ordinary app → AsgiMessages app env codec reqComp s) ∧
      ∀ req h0 script, Starts s ctx ep.handler req h0 script →
      ∀ i ms h', Runs (writerOf codec resComp).write script.closeErr h0 script.acts script.outcome i ms h' (some .cancelled) →
      ((∃ f, ep.handler = .serverStream f) → ∀ k, env.disconnectAt = some k → ms.length < k) →
      ∀ out, EndsWith (writerOf codec resComp) p sc h'.info.trailers none out →
      ∃ (bs : List (List UInt8)) (ce : ConnectErr), ms.map (writerOf codec resComp).write = bs.map .ok ∧ ce.code = .canceled ∧
        app.asgi sc scope env =
          { calls := [⟨key, ctx, req⟩], received := h'.got
            sends := (.start 200 (streamFields p codec resComp i) (decide (p = .grpc)) :: bs.map (Sent.body · true) ++
              asgiEnding out).map (·, none)
            escaped := some (.connect ce) } := by
  obtain ⟨name, hn, hcodec⟩ := h.codec
  obtain ⟨ctx, hctx, hcases⟩ := asgi_stream_cases h.streams hn hcodec h.resComp
  refine ⟨ctx, app.asgiRequests env codec reqComp, hctx,
    fun hc ho => (asgiMessages_iff hc ho ⟨name, hcodec⟩ (requestCompression_known h.reqComp)).2 rfl, ?_⟩
  intro req h0 script hst i ms h' hr hd out hout
  have htr : decide (p = .grpc) = p.usesTrailers := by cases p <;> rfl
  have hrun := ((hcases sc env).2 reqComp h.reqComp).2 req h0 script (starts_iff.2 hst)
  obtain ⟨bs, h1, h2⟩ := loop_runs (c := asgiCfg p sc codec resComp env ep.handler) hrel [⟨key, ctx, req⟩] hr (out := out) hout
  refine ⟨bs, ⟨.canceled, pys! "Request was cancelled", []⟩, h1, rfl, ?_⟩
  rw [hrun, h2 [] false 0 ?_, streamFields_eq, htr]
  · rfl
  · intro j hj
    rw [Nat.zero_add] at hj
    unfold AsgiCfg.disconnected asgiCfg
    dsimp only
    cases hh : ep.handler with
    | serverStream f =>
      dsimp only
      cases hk : env.disconnectAt with
      | none => rfl
      | some k =>
        have := hd ⟨f, hh⟩ k hk
        exact decide_eq_false (by omega)
    | _ => rfl

/-! ### C38 -/

/-- How the ASGI server tells the client about an exception of a decoder or decompressor: by the code of a `ConnectError`
(here: one without details), otherwise UNKNOWN. -/
inductive ToldAs : Exc → Code → Prop where
  | connect (code : Code) (msg : List Char) : ToldAs (.mk code msg) code
  | other (cls : Cls) (msg : List Char) : ToldAs (.other cls msg) .unknown

theorem asgiFail_toldAs {env : Env} (hr : Reliable env) {e : Exc} {code : Code} (ht : ToldAs e code) (ctx : Option Meta) :
    AsgiRefused (asgiFail env ([] : List (Called Req)) [] e ctx) code := by
  cases ht with
  | connect code msg =>
    obtain ⟨r, h1, h2⟩ := asgiFail_error hr ([] : List (Called Req)) (.inl ⟨code, msg, rfl⟩) ctx
    exact ⟨asgiFail_calls .., r, _, h1, h2, rfl⟩
  | other cls msg =>
    obtain ⟨r, h1, h2⟩ := asgiFail_error hr ([] : List (Called Req)) (.inr ⟨cls, msg, rfl⟩) ctx
    exact ⟨asgiFail_calls .., r, _, h1, h2, rfl⟩

/-- **C38 is false of every ASGI request with a body**: one that cannot be decompressed is told as the decompressor says, or as UNKNOWN. -/
theorem C38_violation_asgi_post_decompress (app : App Req Res) (sc : StatusCodec) (scope : Scope) (env : Env) (headers : Headers)
    (key : List Char) (m : MethodInfo) (f : Req → RequestContext → Call Res) (codec : ServerCodec Req Res)
    (h : AsgiPosted app scope headers key m f codec) (raw : List UInt8) (hraw : AsgiBody env.receive raw) (hne : raw ≠ []) (c : Compression)
    (hc : Dict.get? app.comps (lower (headers.getD (pys! "content-encoding") (pys! "identity"))) = some c) (e : Exc)
    (he : c.decompress raw = .error e) (code : Code) (ht : ToldAs e code) (hr : Reliable env) :
    AsgiRefused (app.asgi sc scope env) code := by
  have he : app.asgiPost env headers codec = .error e := by
    obtain ⟨hb1, hb2⟩ := asgiBody_ok.2 hraw
    rw [asgiPost_eq, hb1]
    dsimp only
    have hi : asgiInflate app (lower (headers.getD (pys! "content-encoding") (pys! "identity"))) raw = .error e := by
      unfold asgiInflate
      rw [hc]
      dsimp only
      rw [if_neg (by simpa using hne), he]
    rw [hb2, hi]
  rw [asgi_posted h sc env he]
  exact asgiFail_toldAs hr ht _

/-- … and one that cannot be decoded, likewise. -/
theorem C38_violation_asgi_post_decode (app : App Req Res) (sc : StatusCodec) (scope : Scope) (env : Env) (headers : Headers)
    (key : List Char) (m : MethodInfo) (f : Req → RequestContext → Call Res) (codec : ServerCodec Req Res)
    (h : AsgiPosted app scope headers key m f codec) (raw data : List UInt8) (hraw : AsgiBody env.receive raw)
    (hdata : AsgiUncompressed app (lower (headers.getD (pys! "content-encoding") (pys! "identity"))) raw data)
    (hlim : WithinLimit app data) (e : Exc) (he : codec.req.decode data = .error e) (code : Code) (ht : ToldAs e code) (hr : Reliable env) :
    AsgiRefused (app.asgi sc scope env) code := by
  have he : app.asgiPost env headers codec = .error e := by
    obtain ⟨hb1, hb2⟩ := asgiBody_ok.2 hraw
    rw [asgiPost_eq, hb1]
    dsimp only
    rw [hb2, asgiInflate_ok.2 hdata]
    dsimp only
    rw [checkSize_ok.2 hlim]
    exact he
  rw [asgi_posted h sc env he]
  exact asgiFail_toldAs hr ht _

/-- The compression of the `message` of a GET request. -/
def QueryCompression (params : List (List Char × List (List Char))) (v : List Char) : Prop :=
  Param params (pys! "compression") v ∨ (v = pys! "identity" ∧ ∀ w, ¬ Param params (pys! "compression") w)

/-- **… and of every ASGI GET request**: a `message` that cannot be decompressed, -/
theorem C38_violation_asgi_get_decompress (app : App Req Res) (sc : StatusCodec) (scope : Scope) (env : Env) (headers : Headers)
    (key : List Char) (m : MethodInfo) (f : Req → RequestContext → Call Res) (params : List (List Char × List (List Char)))
    (codec : ServerCodec Req Res) (h : AsgiQueried app scope headers key m f params codec) (raw : List UInt8)
    (hraw : MessageParam params raw) (hne : raw ≠ []) (v : List Char) (hv : QueryCompression params v) (c : Compression)
    (hc : Dict.get? app.comps v = some c) (e : Exc)
    (he : c.decompress raw = .error e) (code : Code) (ht : ToldAs e code) (hr : Reliable env) :
    AsgiRefused (app.asgi sc scope env) code := by
  have he : app.asgiGet params codec = .error e := by
    rw [asgiGet_eq, asgiGetMessage_ok.2 hraw]
    dsimp only
    unfold asgiInflate
    rw [compressionParam.2 hv, hc]
    dsimp only
    rw [if_neg (by simpa using hne), he]
  rw [asgi_queried h sc env he]
  exact asgiFail_toldAs hr ht _

/-- … or not be decoded. -/
theorem C38_violation_asgi_get_decode (app : App Req Res) (sc : StatusCodec) (scope : Scope) (env : Env) (headers : Headers)
    (key : List Char) (m : MethodInfo) (f : Req → RequestContext → Call Res) (params : List (List Char × List (List Char)))
    (codec : ServerCodec Req Res) (h : AsgiQueried app scope headers key m f params codec) (raw data : List UInt8)
    (hraw : MessageParam params raw) (v : List Char) (hv : QueryCompression params v)
    (hdata : AsgiUncompressed app v raw data) (e : Exc) (he : codec.req.decode data = .error e) (code : Code) (ht : ToldAs e code)
    (hr : Reliable env) : AsgiRefused (app.asgi sc scope env) code := by
  have he : app.asgiGet params codec = .error e := by
    rw [asgiGet_eq, asgiGetMessage_ok.2 hraw]
    dsimp only
    rw [compressionParam.2 hv, asgiInflate_ok.2 hdata]
    exact he
  rw [asgi_queried h sc env he]
  exact asgiFail_toldAs hr ht _

/-! ### C42 -/

theorem call_not_exception {Tok X R A : Type} (bs : List (Behaviour Tok)) (n : Nat) (f : A → RequestContext → Ran (Event Tok X) R) (req : A)
    (ctx : RequestContext) (hb : NeverRaise bs ctx) (e : Exc) (hf : (f req ctx).result = .error e) (he : e.isException = false) :
    let g := stack (fun m f => invokeCall m f) n bs f
    Nested ctx n bs ((f req ctx).effects, none) ((g req ctx).effects, none) ∧ (g req ctx).result = .error e := by
  induction bs generalizing n with
  | nil => exact ⟨.rpc, hf⟩
  | cons b bs ih =>
    obtain ⟨ih1, ih2⟩ := ih (n + 1) (fun b h => hb b (List.mem_cons_of_mem _ h))
    obtain ⟨⟨t, ht⟩, hstop⟩ := hb b List.mem_cons_self
    dsimp only at ih1 ih2 ⊢
    generalize hq : stack (fun m f => invokeCall m f) (n + 1) bs f = q at ih1 ih2
    have hst : stack (fun m f => invokeCall m f) n (b :: bs) f = invokeCall (observed n b) q := by rw [← hq]; rfl
    have hrun : invokeCall (observed n b) q req ctx = ⟨.started n (.ok t) :: ((q req ctx).effects ++ [.ended n t none]), .error e⟩ := by
      unfold invokeCall observed
      dsimp only
      rw [ht, ih2]
      have hc : caughtError (errOf (.error e : Except Exc R)) = none := by
        show caughtError (some e) = none
        unfold caughtError
        dsimp only
        rw [he]
        rfl
      dsimp only
      rw [hc, hstop]
      rfl
    rw [hst, hrun]
    refine ⟨?_, rfl⟩
    have := Nested.around (n := n) ht ih1
    rw [hstop] at this
    exact this

/-- **C42 is false of every RPC that raises something that is not an `Exception`** (such as `CancelledError`), with one response: the
interceptors end as they do around an RPC that succeeds, though the exception goes on to the caller. -/
theorem C42_violation_not_exception {Tok X R A S : Type}
    {inv : MetaCallbacks (Event Tok X) Tok → (k : Kind) → TraceFn (Event Tok X) R A S k → TraceFn (Event Tok X) R A S k}
    (hinv : IsInvoker inv) (bs : List (Behaviour Tok)) (f g : A → RequestContext → Ran (Event Tok X) R)
    (hg : Around inv .unary (metadataList (TraceFn (Event Tok X) R A S) 0 bs) f g) (req : A) (ctx : RequestContext)
    (hb : NeverRaise bs ctx) (e : Exc) (hf : (f req ctx).result = .error e) (he : e.isException = false) :
    Nested ctx 0 bs ((f req ctx).effects, none) ((g req ctx).effects, none) ∧ (g req ctx).result = .error e := by
  rw [around_stack hg]
  have : (fun m => inv m .unary) = fun (m : MetaCallbacks (Event Tok X) Tok) f => invokeCall m f := by
    rcases hinv with rfl | rfl <;> rfl
  rw [this]
  exact call_not_exception bs 0 f req ctx hb e hf he

/-! ### C46 -/

/-- **C46 is false of every response by Connect that is cut off** between messages or inside one: the stream delivers the messages that are
complete and ends as if it were complete; a call with one response succeeds if one message is complete. -/
theorem C46_violation_connect_all (c : Client Req Res) (hp : c.proto = .connect) (sc : StatusCodec) (ms : List Res) (resp : StreamResponse)
    (h : CutStream c ms resp) (http : HttpClient) (hh : ∀ rq, http.stream rq = .ok resp) (sink : Sink) (cs : Circumstances) (hcs : Calm cs)
    (req : Req) (reqs : List Req) (m : MethodInfo) (user : UserHeaders) (t : Option Int) :
    ((c.executeBidiStream sc http sink cs reqs none m user t).messages = ms ∧
      (c.executeBidiStream sc http sink cs reqs none m user t).exc = none) ∧
    ((c.executeServerStream sc http sink cs req m user t).messages = ms ∧
      (c.executeServerStream sc http sink cs req m user t).exc = none) ∧
    (∀ r, ms = [r] → (c.executeClientStream sc http sink cs reqs none m user t).2 = .ok r) := by
  have hin : (c.inside sc sink resp cs).messages = ms ∧ (c.inside sc sink resp cs).exc = none := by
    obtain ⟨comp, fs, rest, hcomp, hsp, hflags, hms⟩ := h.body
    obtain ⟨ct, hct, htype⟩ := h.type
    have henc : c.proto.requestEncodingHeader true = encodingHeader c.proto := by cases c.proto <;> rfl
    have hcan : ∀ n, cancelPoint c.flavor cs.cancelAfter n = none := by
      intro n
      rw [hcs.2]
      cases c.flavor <;> rfl
    unfold Client.inside
    dsimp only
    rw [if_pos h.status, header_getD h.lower (by decide +kernel) (.inl hct), validateStream_type htype]
    dsimp only
    rw [responseCompression_named h.lower (by rw [henc]; exact hcomp)]
    dsimp only
    have hdata : ∀ f ∈ fs, ∀ s d, (c.reader comp).handleEnd s f.flags d = (passOf c s, .ok false) :=
      fun f hf s d => client_data c comp f (hflags f hf) s d
    obtain ⟨h1, h2, h3⟩ := feedAll_cut (c.reader comp) (passOf c) (ClientSub.init (handleResponseHeaders sink resp.headers)) fs rest ms
      resp.chunks hdata (by rw [receives_eq]; exact hms) hsp
    unfold Client.readBody
    dsimp only
    rw [hcan]
    dsimp only
    rw [h2, h1, h3, h.bodyErr]
    dsimp only
    rw [if_neg (by rw [hcs.1]; simp), hp]
    exact ⟨rfl, rfl⟩
  have hb : ∀ ctx reqs, (c.bidi sc http.stream sink cs ctx reqs none).messages = ms ∧
      (c.bidi sc http.stream sink cs ctx reqs none).exc = none := by
    intro ctx reqs
    have hl : leaveWith c.flavor cs none none = none := by cases c.flavor <;> rfl
    unfold Client.bidi
    dsimp only
    rw [hh]
    dsimp only
    rw [h.exitErr, hin.2, hl]
    exact ⟨hin.1, rfl⟩
  refine ⟨hb _ _, hb _ _, ?_⟩
  rintro r rfl
  show consumeSingle (c.bidi sc http.stream sink cs _ reqs none) = _
  unfold consumeSingle
  rw [(hb _ reqs).1, (hb _ reqs).2]

/-! ### C61 -/

theorem requests_unfinished (app : App Req Res) (codec : ServerCodec Req Res) (comp : Compression) {xs ys : List Bytes} {fs : List Frame}
    {rest : Bytes} (hx : Splits xs.flatten fs rest) (hy : ys.flatten = fs.flatMap Frame.bytes) :
    (feedAll (app.reader codec comp) (ReaderState.init ()) xs).1 = (feedAll (app.reader codec comp) (ReaderState.init ()) ys).1 ∧
    (feedAll (app.reader codec comp) (ReaderState.init ()) xs).2.1 = (feedAll (app.reader codec comp) (ReaderState.init ()) ys).2.1 := by
  have hy' : Splits ys.flatten fs [] := ⟨by rw [hy, List.append_nil], hx.ok, incomplete_of_lt_five (by decide)⟩
  obtain ⟨h1, h2⟩ := reader_delivers (app.reader codec comp) () xs hx (fun f _ => reader_data app codec comp f.flags)
  obtain ⟨g1, g2⟩ := reader_delivers (app.reader codec comp) () ys hy' (fun f _ => reader_data app codec comp f.flags)
  exact ⟨h1.trans g1.symm, h2.trans g2.symm⟩

/-- **C61 is false of every WSGI request** that is served as a stream: what follows the last complete envelope makes no difference, to the handler or
to the client. -/
theorem C61_violation_wsgi_all (app : App Req Res) (sc : StatusCodec) (env : Environ) (key : List Char) (ep : Endpoint Req Res) (p : Proto)
    (h : WsgiStreams app env key ep p) (hp : Pieces env.input) (fs : List Frame) (rest : List UInt8) (hs : Splits env.input.flatten fs rest)
    (input : List (List UInt8)) (hp' : Pieces input) (hi : input.flatten = fs.flatMap Frame.bytes) :
    app.wsgi sc env = app.wsgi sc { env with input } := by
  have hreqs : ∀ codec comp, app.wsgiRequests { env with input } codec comp = app.wsgiRequests env codec comp := by
    intro codec comp
    obtain ⟨h1, h2⟩ := requests_unfinished app codec comp (xs := readBody env.input) (ys := readBody input)
      (by rw [readBody_flatten _ hp]; exact hs) (by rw [readBody_flatten _ hp']; exact hi)
    unfold App.wsgiRequests
    simp only [h1, h2]
  obtain ⟨hm, ctx, hr, hctx⟩ := wsgiRoute_streams h
  have hr' : app.wsgiRoute { env with input } = app.wsgiRoute env := rfl
  have key' : ∀ env', app.wsgiRoute env' = app.wsgiRoute env →
      app.wsgi sc env' = app.wsgiStream sc env' key p (wsgiHeaders env.vars) ctx ep.handler := by
    intro env' he
    unfold App.wsgi
    rw [he, hr]
    dsimp only
    have hk := h.kind
    cases hh : ep.handler with
    | unary f =>
      cases p with
      | connect => rw [hh] at hk; exact absurd (hk rfl) (fun h => by cases h)
      | grpc => rfl
      | grpcWeb => rfl
    | _ => rfl
  rw [key' env rfl, key' { env with input } hr']
  unfold App.wsgiStream
  simp only [hreqs]

/-- **… and of every ASGI request**. -/
theorem C61_violation_asgi_all (app : App Req Res) (sc : StatusCodec) (scope : Scope) (env : Env) (headers : Headers) (key : List Char)
    (ep : Endpoint Req Res) (p : Proto) (h : AsgiStreams app scope headers key ep p) (raw : List UInt8) (hb : AsgiBody env.receive raw)
    (fs : List Frame) (rest : List UInt8) (hs : Splits raw fs rest) (receive : List Recv) (hb' : AsgiBody receive (fs.flatMap Frame.bytes)) :
    app.asgi sc scope { env with receive } = app.asgi sc scope env := by
  obtain ⟨h1, h2⟩ := asgiBody_ok.2 hb
  obtain ⟨h1', h2'⟩ := asgiBody_ok.2 hb'
  obtain ⟨ctx, hroute, hctx⟩ := asgiRoute_streams h
  refine asgi_receive_congr app sc scope env receive (fun codec comp => ?_) (.inl ⟨_, hroute, h.kind⟩)
  obtain ⟨g1, g2⟩ := requests_unfinished app codec comp (xs := (asgiBody env.receive).1) (ys := (asgiBody receive).1)
    (by rw [h2]; exact hs) h2'
  unfold App.asgiRequests
  simp only [g1, g2, h1, h1']

/-! ### concrete cases -/

/-- `C35_violation_cancelled_all`: the handler is cancelled after two messages -/
example (ctx : RequestContext) : Runs (Req := Bytes) (writerOf protoCodec .identity).write none (.init ⟨[], none⟩) (listRun [3] ctx).acts
    (listRun [3] ctx).outcome ⟨Headers.empty.add (pys! "x-h") (pys! "1"), Headers.empty.add (pys! "x-t") (pys! "2")⟩ [[3], [3]]
    ⟨[], none, ⟨Headers.empty.add (pys! "x-h") (pys! "1"), Headers.empty.add (pys! "x-t") (pys! "2")⟩, []⟩ (some .cancelled) :=
  list_runs [3] [0, 0, 0, 0, 1, 3] (by decide +kernel) ctx

/-- `C38_violation_asgi_post_decompress`, `C38_violation_asgi_post_decode`: a compression and a codec that refuse some bytes -/
example : (∃ v, Dict.get? pickyApp.comps (pys! "picky") = some pickyComp ∧ pickyComp.decompress [255] = .error v ∧ ToldAs v .unknown) ∧
    (∃ v, pickyCodec.decode [255] = .error v ∧ ToldAs v .unknown) ∧
    (pickyApp.asgi demoStatus (pickyScope [(utf8Encode (pys! "content-encoding"), utf8Encode (pys! "picky"))])
      (demoEnv [.request [255] false])).calls.length = 0 :=
  ⟨⟨_, rfl, rfl, .other _ _⟩, ⟨_, rfl, .other _ _⟩, by decide +kernel⟩

/-- `C42_violation_not_exception`: two interceptors around an RPC that is cancelled -/
example : NeverRaise [quiet 7, quiet 8] someContext ∧ (failing .cancelled 5 someContext).result = .error .cancelled ∧
    (intercepted invokerAsync [quiet 7, quiet 8] .unary (failing .cancelled) 5 someContext).effects =
      [.started 0 (.ok 7), .started 1 (.ok 8), .rpc 5, .ended 1 8 none, .ended 0 7 none] := by
  refine ⟨fun b hb => ?_, rfl, rfl⟩
  simp only [List.mem_cons, List.not_mem_nil, or_false] at hb
  rcases hb with rfl | rfl <;> exact ⟨⟨_, rfl⟩, fun _ _ => rfl⟩

/-- `C46_violation_connect_all`: cut off in the second message -/
example (f : Flavor) : CutStream (demoClient f .connect) [[7]]
    (okStream (pys! "application/connect+raw") [[0, 0, 0, 0, 1], [7, 0, 0, 0, 0, 9, 1]] []) where
  status := rfl
  lower := by decide +kernel
  trailersLower := by decide
  type := ⟨pys! "application/connect+raw", by decide +kernel, rfl⟩
  body := ⟨.identity, [⟨0, [7]⟩], [0, 0, 0, 0, 9, 1], .inl ⟨by cases f <;> decide +kernel, rfl⟩,
    ⟨by decide, by simp [Frame.Ok], incomplete_iff_short.2 (by decide)⟩, by decide, by cases f <;> decide +kernel⟩
  bodyErr := rfl
  exitErr := rfl
  noStatus := ⟨by decide +kernel, fun h => by cases f <;> cases h⟩

/-- `C61_violation_wsgi_all`, `C61_violation_asgi_all`: a message, and the beginning of another -/
example : WsgiStreams flowApp (flowEnviron (pys! "/a.S/List") (pys! "application/grpc") [] [[0, 0, 0, 0, 1, 1, 0], [0, 0, 0, 9, 5]])
      (pys! "/a.S/List") ⟨listInfo, .serverStream listRun⟩ .grpc ∧
    AsgiStreams flowApp (flowScope (pys! "/a.S/List") (pys! "application/grpc") []) (flowHeaders (pys! "application/grpc") [])
      (pys! "/a.S/List") ⟨listInfo, .serverStream listRun⟩ .grpc ∧
    Splits ([[0, 0, 0, 0, 1, 1, 0], [0, 0, 0, 9, 5]] : List Bytes).flatten [⟨0, [1]⟩] [0, 0, 0, 0, 9, 5] ∧
    AsgiBody [.request [0, 0, 0, 0, 1, 1, 0] true, .request [0, 0, 0, 9, 5] false] [0, 0, 0, 0, 1, 1, 0, 0, 0, 0, 9, 5] :=
  ⟨(flow_list_grpc _).streams, flow_asgi_list.streams, ⟨by decide, by simp [Frame.Ok], incomplete_iff_short.2 (by decide)⟩,
    .more _ (.last _ _)⟩

end Props
