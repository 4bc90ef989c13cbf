import Verif.Proofs.Twins
import Verif.Props.Attempts
/-
C91: the synchronous and the asynchronous client do the same.
-/
namespace Props
open Conn Py Spec

section
variable {Req Res : Type}

/-- **C91, calls (partial).** With the same options, the same requests and the same answers of the network, the two clients give the same results, raise the same exceptions and
record the same metadata, for all four kinds of calls; unless the call is cancelled, the deadline passes while the end of a response is read, or leaving a response raises. -/
theorem C91_calls_partial (c : Client Req Res) (sc : StatusCodec) (hd : Decent c sc) (http : HttpClient) (hh : SteadyHttp http) (cs : Circumstances) (ht : InTime cs)
    (sink : Sink) (m : MethodInfo) (user : UserHeaders) (t : Option Int) :
    (∀ req useGet, (clientOf .sync c).executeUnary sc http sink cs req m user t useGet = (clientOf .async c).executeUnary sc http sink cs req m user t useGet) ∧
    (∀ reqs err, (clientOf .sync c).executeClientStream sc http sink cs reqs err m user t = (clientOf .async c).executeClientStream sc http sink cs reqs err m user t) ∧
    (∀ req, (clientOf .sync c).executeServerStream sc http sink cs req m user t = (clientOf .async c).executeServerStream sc http sink cs req m user t) ∧
    (∀ reqs err, (clientOf .sync c).executeBidiStream sc http sink cs reqs err m user t = (clientOf .async c).executeBidiStream sc http sink cs reqs err m user t) := by
  have hb : ∀ ctx reqs err, (clientOf .sync c).bidi sc http.stream sink cs ctx reqs err = (clientOf .async c).bidi sc http.stream sink cs ctx reqs err :=
    fun ctx reqs err => bidi_alike ⟨c, sc, http.stream, cs, ctx, reqs, err⟩ hd ht (hh.stream _) sink
  refine ⟨?_, ?_, ?_, ?_⟩
  · intro req useGet
    unfold Client.executeUnary
    dsimp only
    cases hp : (clientOf .sync c).proto with
    | connect =>
      rw [show (clientOf .async c).proto = .connect from hp]
      exact connectUnary_alike c sc hd http.full hh.full sink _ req
    | grpc =>
      rw [show (clientOf .async c).proto = .grpc from hp]
      exact congrArg Client.single (hb _ _ _)
    | grpcWeb =>
      rw [show (clientOf .async c).proto = .grpcWeb from hp]
      exact congrArg Client.single (hb _ _ _)
  · exact fun reqs err => congrArg Client.single (hb _ _ _)
  · exact fun req => hb _ _ _
  · exact fun reqs err => hb _ _ _

/-- **C91, iteration (partial).** The same for a stream that is read message by message, and may be closed at any time: whatever the caller does with it, the replies are the same,
and so are the metadata and what is done to the HTTP client, and when. -/
theorem C91_iteration_partial (k : StreamCall Req Res) (hd : Decent k.c k.sc) (hh : Steady (k.http k.request)) (ht : k.cs.expiredAtEnd = false) (sink : Sink)
    (us : List Use) (hu : NotCancelled us) :
    repliesTo (callOf .sync k) (.start sink) us = repliesTo (callOf .async k) (.start sink) us ∧
    after (callOf .sync k) (.start sink) us = after (callOf .async k) (.start sink) us := by
  have hr : ∀ (k : StreamCall Req Res) u i, k.use u i = (k.reply u i).1 := by
    intro k u i
    cases u <;> rfl
  have gen : ∀ (us : List Use) (i : Iteration), NotCancelled us → Within k i → repliesTo (callOf .sync k) i us = repliesTo (callOf .async k) i us ∧
      after (callOf .sync k) i us = after (callOf .async k) i us := by
    intro us
    induction us with
    | nil => exact fun i _ _ => ⟨rfl, rfl⟩
    | cons u us ih =>
      intro i hu hi
      obtain ⟨h1, h2⟩ := reply_alike k hd ht hh i hi u (hu u List.mem_cons_self)
      obtain ⟨h3, h4⟩ := ih _ (fun v hv => hu v (List.mem_cons_of_mem _ hv)) h2
      refine ⟨?_, ?_⟩
      · show _ :: _ = _ :: _
        rw [h3, h1]
      · show after (callOf .sync k) ((callOf .sync k).use u i) us = after (callOf .async k) ((callOf .async k).use u i) us
        rw [hr, hr, h4, h1]
  exact gen us _ hu trivial

/-- **C91, interceptors (partial).** The same for unary calls through interceptors that do the same: the requests they lead to are the same, at the same times, and so are the
results. -/
theorem C91_interceptors_partial (c : Client Req Res) (rd : Rat → Rat) (sc : StatusCodec) (hd : Decent c sc) (net : Network)
    (hh : ∀ before, SteadyHttp (net.http before) ∧ InTime (net.cs before)) (interceptors : List (Req → Plan Req Res)) (sink : Sink) (now : Rat) (req : Req)
    (m : MethodInfo) (user : UserHeaders) (t : Option Int) (useGet : Bool) :
    (clientOf .sync c).executeThrough rd sc net interceptors sink now req m user t useGet =
      (clientOf .async c).executeThrough rd sc net interceptors sink now req m user t useGet := by
  have ha : (clientOf .sync c).attempt rd sc net = (clientOf .async c).attempt rd sc net := by
    funext req s
    have hs : (clientOf .sync c).sendUnary sc (net.http (s.sent.map (·.1))) s.sink (net.cs (s.sent.map (·.1))) s.ctx req =
        (clientOf .async c).sendUnary sc (net.http (s.sent.map (·.1))) s.sink (net.cs (s.sent.map (·.1))) s.ctx req := by
      obtain ⟨h1, h2⟩ := hh (s.sent.map (·.1))
      unfold Client.sendUnary
      cases hp : (clientOf .sync c).proto with
      | connect =>
        rw [show (clientOf .async c).proto = .connect from hp]
        exact connectUnary_alike c sc hd _ h1.full _ _ req
      | grpc =>
        rw [show (clientOf .async c).proto = .grpc from hp]
        exact congrArg Client.single (bidi_alike ⟨c, sc, _, _, s.ctx, [req], none⟩ hd h2 (h1.stream _) s.sink)
      | grpcWeb =>
        rw [show (clientOf .async c).proto = .grpcWeb from hp]
        exact congrArg Client.single (bidi_alike ⟨c, sc, _, _, s.ctx, [req], none⟩ hd h2 (h1.stream _) s.sink)
    unfold Client.attempt
    dsimp only
    rw [hs]
    rfl
  unfold Client.executeThrough
  rw [ha]
  rfl

/-! ### where they differ -/

/-- the request of a streaming call -/
def requestOf (c : Client Req Res) (ctx : RequestContext) (reqs : List Req) (err : Option Exc) : HttpRequest :=
  let content := streamingContent ⟨c.codec, some c.send⟩ reqs err
  { method := pys! "POST", url := c.url ctx.method, headers := ctx.requestHeaders.allitems, timeoutMs := ctx.timeoutMs, body := content.1, bodyErr := content.2 }

/-- a stream that has ended well -/
theorem bidi_well (c : Client Req Res) (sc : StatusCodec) (http : HttpRequest → Except Exc StreamResponse) (sink : Sink) (cs : Circumstances) (ctx : RequestContext)
    (reqs : List Req) (err : Option Exc) (ha : (c.bidi sc http sink cs ctx reqs err).exc = none) :
    ∃ resp comp, http (requestOf c ctx reqs err) = .ok resp ∧ resp.status = 200 ∧
      c.proto.validateStream c.codec.name (resp.headers.getD (pys! "content-type") []) = none ∧ c.proto.responseCompression resp.headers c.comps true = .ok comp ∧
      (feedAll (c.reader comp) (ReaderState.init (ClientSub.init (handleResponseHeaders sink resp.headers))) resp.chunks).2.1 = .done ∧ resp.bodyErr = none ∧ resp.exitErr = none ∧
      (c.bidi sc http sink cs ctx reqs err).messages =
        (feedAll (c.reader comp) (ReaderState.init (ClientSub.init (handleResponseHeaders sink resp.headers))) resp.chunks).1 := by
  have hl : ∀ b x, leaveWith c.flavor cs b x = none → b = none ∧ x = none := by
    intro b x h
    unfold leaveWith at h
    dsimp only at h
    cases x with
    | some x => dsimp only at h; repeat' split at h
                all_goals cases h
    | none =>
      cases b with
      | none => exact ⟨rfl, rfl⟩
      | some b => dsimp only at h; repeat' split at h
                  all_goals cases h
  unfold Client.bidi at ha ⊢
  dsimp only at ha ⊢
  rw [show ({ method := pys! "POST", url := c.url ctx.method, headers := ctx.requestHeaders.allitems, timeoutMs := ctx.timeoutMs
              body := (streamingContent ⟨c.codec, some c.send⟩ reqs err).1, bodyErr := (streamingContent ⟨c.codec, some c.send⟩ reqs err).2 } : HttpRequest) =
    requestOf c ctx reqs err from rfl] at ha ⊢
  cases hh : http (requestOf c ctx reqs err) with
  | error e =>
    rw [hh] at ha
    dsimp only at ha
    cases hw : leaveWith c.flavor cs (some e) none with
    | none => cases (hl _ _ hw).1
    | some x => rw [hw] at ha; cases ha
  | ok resp =>
    rw [hh] at ha
    dsimp only at ha ⊢
    cases hw : leaveWith c.flavor cs (c.inside sc sink resp cs).exc resp.exitErr with
    | some x => rw [hw] at ha; cases ha
    | none =>
      obtain ⟨h1, h2⟩ := hl _ _ hw
      dsimp only
      unfold Client.inside at h1 ⊢
      dsimp only at h1 ⊢
      by_cases hs : resp.status = 200
      · rw [if_pos hs] at h1 ⊢
        cases hv : c.proto.validateStream c.codec.name (resp.headers.getD (pys! "content-type") []) with
        | some e => rw [hv] at h1; cases h1
        | none =>
          rw [hv] at h1
          dsimp only at h1 ⊢
          cases hc : c.proto.responseCompression resp.headers c.comps true with
          | error e => rw [hc] at h1; cases h1
          | ok comp =>
            rw [hc] at h1
            dsimp only at h1 ⊢
            refine ⟨resp, comp, rfl, hs, hv, hc, ?_⟩
            unfold Client.readBody at h1 ⊢
            dsimp only at h1 ⊢
            generalize feedAll (c.reader comp) (ReaderState.init (ClientSub.init (handleResponseHeaders sink resp.headers))) resp.chunks = r at h1 ⊢
            cases hp : cancelPoint c.flavor cs.cancelAfter r.1.length with
            | some k => rw [hp] at h1; cases h1
            | none =>
              rw [hp] at h1
              dsimp only at h1 ⊢
              cases hd : r.2.1 with
              | raised e => rw [hd] at h1; cases h1
              | done =>
                rw [hd] at h1
                dsimp only at h1 ⊢
                cases hb : resp.bodyErr with
                | some e => rw [hb] at h1; cases h1
                | none =>
                  rw [hb] at h1
                  dsimp only at h1 ⊢
                  refine ⟨rfl, rfl, h2, ?_⟩
                  split <;> rfl
      · rw [if_neg hs] at h1
        repeat' split at h1
        all_goals cases h1

/-- **C91 is false of responses whose end comes late.** Whenever the asynchronous client takes a stream to have ended well although its deadline has just passed, the synchronous
one gives the same messages, and then raises DEADLINE_EXCEEDED. -/
theorem C91_violation_late (c : Client Req Res) (sc : StatusCodec) (http : HttpRequest → Except Exc StreamResponse) (sink : Sink) (cs : Circumstances) (ctx : RequestContext)
    (reqs : List Req) (err : Option Exc) (hl : cs.expiredAtEnd = true) (ha : ((clientOf .async c).bidi sc http sink cs ctx reqs err).exc = none) :
    ((clientOf .sync c).bidi sc http sink cs ctx reqs err).messages = ((clientOf .async c).bidi sc http sink cs ctx reqs err).messages ∧
    ∃ text, ((clientOf .sync c).bidi sc http sink cs ctx reqs err).exc = some (.connect { code := .deadlineExceeded, message := text }) := by
  obtain ⟨resp, comp, h1, h2, h3, h4, h5, h6, h7, h8⟩ := bidi_well _ sc http sink cs ctx reqs err ha
  rw [h8]
  have h1' : http (requestOf (clientOf .sync c) ctx reqs err) = .ok resp := h1
  have h3' : (clientOf .sync c).proto.validateStream (clientOf .sync c).codec.name (resp.headers.getD (pys! "content-type") []) = none := h3
  have h4' : (clientOf .sync c).proto.responseCompression resp.headers (clientOf .sync c).comps true = .ok comp := h4
  have h5' : (feedAll ((clientOf .sync c).reader comp) (ReaderState.init (ClientSub.init (handleResponseHeaders sink resp.headers))) resp.chunks).2.1 = .done := h5
  unfold Client.bidi
  dsimp only
  rw [show ({ method := pys! "POST", url := (clientOf .sync c).url ctx.method, headers := ctx.requestHeaders.allitems, timeoutMs := ctx.timeoutMs
              body := (streamingContent ⟨(clientOf .sync c).codec, some (clientOf .sync c).send⟩ reqs err).1
              bodyErr := (streamingContent ⟨(clientOf .sync c).codec, some (clientOf .sync c).send⟩ reqs err).2 } : HttpRequest) =
    requestOf (clientOf .sync c) ctx reqs err from rfl, h1']
  dsimp only
  have hi : (clientOf .sync c).inside sc sink resp cs =
      { messages := (feedAll (c.reader comp) (ReaderState.init (ClientSub.init (handleResponseHeaders sink resp.headers))) resp.chunks).1
        exc := some (.other .timeoutError []), fromFeed := false
        reader := some (feedAll (c.reader comp) (ReaderState.init (ClientSub.init (handleResponseHeaders sink resp.headers))) resp.chunks).2.2.sub
        sink := (feedAll (c.reader comp) (ReaderState.init (ClientSub.init (handleResponseHeaders sink resp.headers))) resp.chunks).2.2.sub.sink } := by
    unfold Client.inside
    dsimp only
    rw [if_pos h2, h3']
    dsimp only
    rw [h4']
    unfold Client.readBody
    dsimp only
    rw [show ∀ n, cancelPoint (clientOf .sync c).flavor cs.cancelAfter n = none from fun n => rfl]
    dsimp only
    rw [h5']
    dsimp only
    rw [h6]
    dsimp only
    rw [if_pos ⟨rfl, hl⟩]
    rfl
  rw [hi, h7]
  exact ⟨rfl, _, rfl⟩

/-- The response to a streaming request breaks off: reading its body raises this `ConnectError` (say, of a message beyond the limit). -/
structure BreaksOff (c : Client Req Res) (sink : Sink) (resp : StreamResponse) (ce : ConnectErr) : Prop where
  status : resp.status = 200
  type : c.proto.validateStream c.codec.name (resp.headers.getD (pys! "content-type") []) = none
  reading : ∃ comp, c.proto.responseCompression resp.headers c.comps true = .ok comp ∧
    (feedAll (c.reader comp) (ReaderState.init (ClientSub.init (handleResponseHeaders sink resp.headers))) resp.chunks).2.1 = .raised (.connect ce)

/-- **C91 is false of responses that are left with an exception.** Whenever reading a response raises a `ConnectError` and leaving it then raises something else, the synchronous
client raises that `ConnectError` and the asynchronous one says UNAVAILABLE (or, for a reset, what the reset means). -/
theorem C91_violation_exit (c : Client Req Res) (sc : StatusCodec) (http : HttpRequest → Except Exc StreamResponse) (sink : Sink) (cs : Circumstances) (ctx : RequestContext)
    (reqs : List Req) (err : Option Exc) (hc : cs.cancelAfter = none) (resp : StreamResponse) (hr : http (requestOf c ctx reqs err) = .ok resp) (ce : ConnectErr)
    (hb : BreaksOff c sink resp ce) (cls : Cls) (msg : List Char) (hx : resp.exitErr = some (.other cls msg)) (ht : cls ≠ .timeoutError) :
    ((clientOf .sync c).bidi sc http sink cs ctx reqs err).exc = some (.connect ce) ∧
    ((∀ code, cls ≠ .streamError code) → ((clientOf .async c).bidi sc http sink cs ctx reqs err).exc = some (.connect { code := .unavailable, message := msg })) := by
  obtain ⟨comp, h4, h5⟩ := hb.reading
  have hi : ∀ f, (clientOf f c).inside sc sink resp cs =
      { messages := (feedAll (c.reader comp) (ReaderState.init (ClientSub.init (handleResponseHeaders sink resp.headers))) resp.chunks).1
        exc := some (.connect ce), fromFeed := true
        reader := some (feedAll (c.reader comp) (ReaderState.init (ClientSub.init (handleResponseHeaders sink resp.headers))) resp.chunks).2.2.sub
        sink := (feedAll (c.reader comp) (ReaderState.init (ClientSub.init (handleResponseHeaders sink resp.headers))) resp.chunks).2.2.sub.sink } := by
    intro f
    unfold Client.inside
    dsimp only
    rw [if_pos hb.status, show (clientOf f c).proto.validateStream (clientOf f c).codec.name (resp.headers.getD (pys! "content-type") []) = none from hb.type]
    dsimp only
    rw [show (clientOf f c).proto.responseCompression resp.headers (clientOf f c).comps true = .ok comp from h4]
    unfold Client.readBody
    dsimp only
    rw [show ∀ n, cancelPoint (clientOf f c).flavor cs.cancelAfter n = none from fun n => by rw [hc]; cases f <;> rfl]
    dsimp only
    rw [show (feedAll ((clientOf f c).reader comp) (ReaderState.init (ClientSub.init (handleResponseHeaders sink resp.headers))) resp.chunks).2.1 = .raised (.connect ce) from h5]
    rfl
  have hq : ∀ f, http (requestOf (clientOf f c) ctx reqs err) = .ok resp := fun f => hr
  have hf : ∀ f : Flavor, (HttpRequest.mk (pys! "POST") ((clientOf f c).url ctx.method) ctx.requestHeaders.allitems ctx.timeoutMs
      (streamingContent ⟨(clientOf f c).codec, some (clientOf f c).send⟩ reqs err).1 (streamingContent ⟨(clientOf f c).codec, some (clientOf f c).send⟩ reqs err).2) =
    requestOf (clientOf f c) ctx reqs err := fun f => rfl
  refine ⟨?_, ?_⟩
  · unfold Client.bidi
    dsimp only
    rw [hf, hq]
    dsimp only
    rw [hi, hx]
    cases cls <;> first | rfl | exact absurd rfl ht
  · intro hn
    unfold Client.bidi
    dsimp only
    rw [hf, hq]
    dsimp only
    rw [hi, hx]
    cases cls <;> first | rfl | exact absurd rfl ht | exact absurd rfl (hn _)

end

/-! ### cases -/

/-- A gRPC-Web response of two messages and trailers, in three chunks. -/
def twinHttp (exit : Option Exc) : HttpClient where
  full _ := .ok ⟨200, [(pys! "content-type", pys! "application/raw")], [5]⟩
  stream _ := .ok { okStream (pys! "application/grpc-web+raw") pieces [] with exitErr := exit }

theorem demo_decent (f : Flavor) (p : Proto) : Decent (demoClient f p) demoStatus where
  encode m e h := by cases h
  decode b e h := by cases h
  comps q hq b e h := by
    have h2 : q = (pys! "gzip", flipComp) ∨ q = (pys! "identity", .identity) := by
      rcases List.mem_cons.1 hq with h | h
      · exact .inl h
      · exact .inr (List.mem_singleton.1 h)
    rcases h2 with rfl | rfl <;> cases h
  status b e h := by cases h

theorem twin_steady : SteadyHttp (twinHttp none) where
  full r e h := by cases h
  stream r :=
    { opened := fun e h => by cases h
      body := fun resp e h h' => by cases h; cases h'
      exit := fun resp e h h' => by cases h; cases h' }

/-- Hypotheses met, and what happens: unary calls give the message, the stream of two messages gives both, and a client stream with two responses is refused; by both clients. -/
example (f : Flavor) : Decent (demoClient f .grpcWeb) demoStatus ∧ SteadyHttp (twinHttp none) ∧ InTime calm ∧
    ((clientOf f (demoClient .sync .connect)).executeUnary demoStatus (twinHttp none) none calm [1] demoMethod .none none true).2 = .ok [5] ∧
    ((clientOf f (demoClient .sync .grpcWeb)).executeServerStream demoStatus (twinHttp none) none calm [1] demoMethod .none none).messages = [[7], [9]] ∧
    ((clientOf f (demoClient .sync .grpcWeb)).executeServerStream demoStatus (twinHttp none) none calm [1] demoMethod .none none).exc = none ∧
    ((clientOf f (demoClient .sync .grpcWeb)).executeClientStream demoStatus (twinHttp none) none calm [[1], [2]] none demoMethod .none none).2 = .error multipleMessages := by
  refine ⟨demo_decent f .grpcWeb, twin_steady, ⟨rfl, rfl⟩, ?_⟩
  cases f <;> decide +kernel

/-- Hypotheses met: a stream read once and then closed. -/
example : Decent (piecesCall .sync pieces).c (piecesCall .sync pieces).sc ∧ Steady ((piecesCall .sync pieces).http (piecesCall .sync pieces).request) ∧
    NotCancelled [.next false, .close, .next false] ∧
    (after (callOf .async (piecesCall .sync pieces)) (.start none) [.next false, .close, .next false]).log =
      [.sent (piecesCall .sync pieces).request, .opened, .chunk [0, 0, 0, 0, 1, 7, 0, 0, 0, 0, 1], .released] := by
  refine ⟨demo_decent .sync .grpcWeb, ⟨fun e h => (by cases h), fun resp e h h' => (by cases h; cases h'), fun resp e h h' => (by cases h; cases h')⟩, ?_, ?_⟩
  · intro u hu h
    subst h
    simp at hu
  · decide +kernel

/-- Hypotheses met: a network that answers every request, and an interceptor that repeats a failed call. -/
example : (∀ before : List HttpRequest, SteadyHttp ((⟨fun _ => twinHttp none, fun _ => calm, fun _ => 1⟩ : Network).http before) ∧
      InTime ((⟨fun _ => twinHttp none, fun _ => calm, fun _ => 1⟩ : Network).cs before)) ∧
    ((clientOf .async (demoClient .sync .connect)).executeThrough id demoStatus ⟨fun _ => twinHttp none, fun _ => calm, fun _ => 1⟩ [retrying 1 3] none 0 [1] demoMethod .none none
      false).2.toOption = some [5] := by
  refine ⟨fun _ => ⟨twin_steady, rfl, rfl⟩, ?_⟩
  decide +kernel

/-- Hypotheses met: two messages whose end comes late; the synchronous client raises. -/
example : ((clientOf .async (demoClient .sync .grpcWeb)).executeServerStream demoStatus (twinHttp none) none ⟨true, false, none, false⟩ [1] demoMethod .none none).exc = none ∧
    ((clientOf .sync (demoClient .sync .grpcWeb)).executeServerStream demoStatus (twinHttp none) none ⟨true, false, none, false⟩ [1] demoMethod .none none).exc =
      some (.mk .deadlineExceeded (pys! "Request timed out")) := by
  refine ⟨?_, ?_⟩ <;> decide +kernel

/-- Hypotheses met: a message beyond the limit, and a response that is reset when it is left; one client says RESOURCE_EXHAUSTED, the other CANCELED. -/
example : let c := { demoClient .sync .grpcWeb with readMax := some 0 }
    let x : Exc := .other (.streamError .cancel) (pys! "reset")
    BreaksOff c none { okStream (pys! "application/grpc-web+raw") pieces [] with exitErr := some x } { code := .resourceExhausted, message := pys! "message is larger than configured max 0" } ∧
    ((clientOf .sync c).executeServerStream demoStatus (twinHttp (some x)) none calm [1] demoMethod .none none).exc =
      some (.connect { code := .resourceExhausted, message := pys! "message is larger than configured max 0" }) ∧
    ((clientOf .async c).executeServerStream demoStatus (twinHttp (some x)) none calm [1] demoMethod .none none).exc = some (.connect { code := .canceled, message := pys! "reset" }) := by
  refine ⟨⟨rfl, by decide +kernel, .identity, rfl, by decide +kernel⟩, ?_, ?_⟩ <;> decide +kernel

end Props
