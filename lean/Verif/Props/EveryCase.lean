import Verif.Props.Unary
import Verif.Props.Stream
import Verif.Props.UnaryResponse
import Verif.Proofs.Served
/-
More of the properties the code breaks, in all cases of a kind: C05 for GET requests, C26 by Connect streams, C36 for clients that leave after
the last message, C62 for unary responses.
-/
namespace Props
open Conn Py Spec

variable {Req Res : Type}

/-! ### C05 -/

/-- **C05 is false of every GET on WSGI**: whatever the read limit, the request runs the handler on its message, as it does without a limit. -/
theorem C05_violation_wsgi_get_all (app : App Req Res) (sc : StatusCodec) (env : Environ) (key : List Char) (m : MethodInfo)
    (f : Req → RequestContext → Call Res) (h : WsgiConnectUnary app env key m f (pys! "GET")) (hp : Pieces env.input) (req : Req)
    (hacc : WsgiAcceptable app env m (pys! "GET") req) (limit : Option Int) :
    ∃ ctx, (App.wsgi { app with readMax := limit } sc env).calls = [⟨key, ctx, some req⟩] := by
  have ht : WsgiTarget { app with readMax := limit } env key ⟨m, .unary f⟩ := by
    cases h.target with
    | direct hp hep => exact .direct hp hep
    | mounted hp hno hs hep => exact .mounted (app := { app with readMax := limit }) hp hno hs hep
  refine C34_wsgi_accepted { app with readMax := limit } sc env key (pys! "GET") m f ⟨ht, h.2, h.3⟩ hp req ⟨hacc.1, ?_⟩
  rcases hacc.2 with ⟨h1, _⟩ | ⟨h1, h2, h3⟩
  · exact absurd h1 (by decide)
  · exact .inr ⟨h1, h2, h3⟩

/-- **C05 is false of every GET on ASGI**, likewise. -/
theorem C05_violation_asgi_get_all (app : App Req Res) (sc : StatusCodec) (scope : Scope) (env : Env) (headers : Headers)
    (key : List Char) (m : MethodInfo) (f : Req → RequestContext → Call Res)
    (h : AsgiConnectUnary app scope headers key m f) (hget : scope.method = pys! "GET") (req : Req)
    (hacc : AsgiAcceptable app scope env headers m req) (limit : Option Int) :
    ∃ ctx, (App.asgi { app with readMax := limit } sc scope env).calls = [⟨key, ctx, some req⟩] := by
  have ht : AsgiTarget { app with readMax := limit } scope key ⟨m, .unary f⟩ := by
    cases h.target with
    | direct hep => exact .direct hep
    | mounted hno hroot hp hep => exact .mounted hno hroot hp hep
  refine C34_asgi_accepted { app with readMax := limit } sc scope env headers key m f ⟨ht, h.2, h.3⟩ req ⟨hacc.1, ?_⟩
  rcases hacc.2 with ⟨h1, _⟩ | ⟨h1, h2, h3⟩
  · rw [hget] at h1
    exact absurd h1 (by decide)
  · exact .inr ⟨h1, h2, h3⟩

/-! ### C26 -/

/-- **C26 is false of every Connect stream on WSGI**: a request in a compression the server does not know runs its handler, as if it were not
compressed. -/
theorem C26_violation_wsgi_connect_all (app : App Req Res) (sc : StatusCodec) (env : Environ) (key : List Char) (ep : Endpoint Req Res)
    (h : WsgiStreams app env key ep .connect) (hp : Pieces env.input) (name : List Char) (codec : ServerCodec Req Res)
    (hn : StreamCodecName .connect ((wsgiHeaders env.vars).getD (pys! "content-type") []) name)
    (hcodec : Dict.get? app.codecs name = some codec)
    (hunknown : Dict.get? app.comps ((wsgiHeaders env.vars).getD (pys! "connect-content-encoding") (pys! "identity")) = none) :
    (¬ TakesOne ep.handler → (app.wsgi sc env).calls.map (fun c => (c.path, c.req)) = [(key, none)]) ∧
    (∀ m, TakesOne ep.handler → WsgiMessages app env codec .identity ⟨[m], none⟩ →
      (app.wsgi sc env).calls.map (fun c => (c.path, c.req)) = [(key, some m)]) := by
  obtain ⟨hm, ctx, hctx, hcases⟩ := wsgi_stream_cases h hn hcodec rfl
  have hrc : RequestCompression app .connect (wsgiHeaders env.vars) .identity := .inr ⟨rfl, hunknown, rfl⟩
  have hrun := ((hcases sc).2 .identity hrc).2
  constructor
  · intro hno
    cases hh : ep.handler with
    | unary f => rw [hh] at hno; exact absurd trivial hno
    | serverStream f => rw [hh] at hno; exact absurd trivial hno
    | clientStream f => rw [hrun _ _ _ (by rw [hh]; rfl), wsgiFirst_calls]; rfl
    | bidi f => rw [hrun _ _ _ (by rw [hh]; rfl), wsgiFirst_calls]; rfl
  · intro m ht hs
    rw [wsgiMessages_iff hp] at hs
    cases hh : ep.handler with
    | unary f => rw [hrun (some m) _ _ (by rw [hh, hs]; rfl), wsgiFirst_calls]; rfl
    | serverStream f => rw [hrun (some m) _ _ (by rw [hh, hs]; rfl), wsgiFirst_calls]; rfl
    | clientStream f => rw [hh] at ht; exact ht.elim
    | bidi f => rw [hh] at ht; exact ht.elim

/-- **C26 is false of every Connect stream on ASGI**, likewise. -/
theorem C26_violation_asgi_connect_all (app : App Req Res) (ho : Spec.Ordinary app) (sc : StatusCodec) (scope : Scope) (env : Env)
    (hcan : env.cancelAfter = none) (headers : Headers) (key : List Char) (ep : Endpoint Req Res)
    (h : AsgiStreams app scope headers key ep .connect) (name : List Char) (codec : ServerCodec Req Res)
    (hn : AsgiCodecName scope .connect headers name) (hcodec : Dict.get? app.codecs name = some codec)
    (hunknown : Dict.get? app.comps (headers.getD (pys! "connect-content-encoding") (pys! "identity")) = none) :
    (¬ TakesOne ep.handler → (app.asgi sc scope env).calls.map (fun c => (c.path, c.req)) = [(key, none)]) ∧
    (∀ m, TakesOne ep.handler → AsgiMessages app env codec .identity ⟨[m], none⟩ →
      (app.asgi sc scope env).calls.map (fun c => (c.path, c.req)) = [(key, some m)]) := by
  obtain ⟨ctx, hctx, hcases⟩ := asgi_stream_cases h hn hcodec rfl
  have hrc : RequestCompression app .connect headers .identity := .inr ⟨rfl, hunknown, rfl⟩
  have hrun := ((hcases sc env).2 .identity hrc).2
  constructor
  · intro hno
    cases hh : ep.handler with
    | unary f => rw [hh] at hno; exact absurd trivial hno
    | serverStream f => rw [hh] at hno; exact absurd trivial hno
    | clientStream f => rw [hrun _ _ _ (by rw [hh]; rfl), finish_calls]; rfl
    | bidi f => rw [hrun _ _ _ (by rw [hh]; rfl), finish_calls]; rfl
  · intro m ht hs
    rw [asgiMessages_iff hcan ho ⟨name, hcodec⟩ (requestCompression_known hrc)] at hs
    cases hh : ep.handler with
    | unary f => rw [hrun (some m) _ _ (by rw [hh, hs]; rfl), finish_calls]; rfl
    | serverStream f => rw [hrun (some m) _ _ (by rw [hh, hs]; rfl), finish_calls]; rfl
    | clientStream f => rw [hh] at ht; exact ht.elim
    | bidi f => rw [hh] at ht; exact ht.elim

/-! ### C36 -/

/-- the messages a run of a handler gives to the server -/
def messagesOf (acts : List (Act Res)) : List Res :=
  acts.filterMap fun a => match a with
    | .emit m => some m
    | .step _ => none

theorem ensureStart_env (c : AsgiCfg Res) (sent : Bool) (m : Meta) (log : List (Sent × Option Exc)) (d : Option Nat) :
    AsgiCfg.ensureStart { c with env := { c.env with disconnectAt := d }, disconnectAt := d } sent m log = c.ensureStart sent m log := rfl

theorem loop_undisconnected (c : AsgiCfg Res) (outcome closeErr : Option Exc) (k : Nat) :
    ∀ (acts : List (Act Res)) (h : HState Req) (log : List (Sent × Option Exc)) (sent : Bool) (n : Nat),
      n + (messagesOf acts).length ≤ k →
      AsgiCfg.loop { c with env := { c.env with disconnectAt := some k }, disconnectAt := some k } outcome closeErr acts h log sent n =
        AsgiCfg.loop { c with env := { c.env with disconnectAt := none }, disconnectAt := none } outcome closeErr acts h log sent n
  | [], _, _, _, _, _ => rfl
  | .step s :: as, h, log, sent, n, hn => by
    unfold AsgiCfg.loop
    cases hs : h.step s with
    | mk h' o =>
      cases o with
      | some e => rfl
      | none => exact loop_undisconnected c outcome closeErr k as h' log sent n hn
  | .emit m :: as, h, log, sent, n, hn => by
    have hl : n + ((messagesOf as).length + 1) ≤ k := hn
    unfold AsgiCfg.loop
    have h1 : AsgiCfg.disconnected { c with env := { c.env with disconnectAt := some k }, disconnectAt := some k } n = false :=
      decide_eq_false (by omega)
    have h2 : AsgiCfg.disconnected { c with env := { c.env with disconnectAt := none }, disconnectAt := none } n = false := rfl
    rw [h1, h2, ensureStart_env, ensureStart_env]
    cases he : c.ensureStart sent h.info log with
    | mk log' o =>
      cases o with
      | some e => rfl
      | none =>
        dsimp only
        cases hw : c.writer.write m with
        | error e => rfl
        | ok b =>
          dsimp only [Env.send]
          cases hse : c.env.sendErr log'.length with
          | some e => rfl
          | none => exact loop_undisconnected c outcome closeErr k as h _ true (n + 1) (by omega)

theorem sendAll_env (env : Env) (d : Option Nat) : ∀ (ms : List Sent) (log : List (Sent × Option Exc)),
    Env.sendAll { env with disconnectAt := d } log ms = env.sendAll log ms
  | [], _ => rfl
  | m :: ms, log => by
    unfold Env.sendAll
    dsimp only [Env.send]
    cases env.sendErr log.length with
    | some e => rfl
    | none => exact sendAll_env env d ms _

theorem finish_env (c : AsgiCfg Res) (calls : List (Called Req)) (l : LoopOut Req) (d d' : Option Nat) :
    AsgiCfg.finish { c with env := { c.env with disconnectAt := d }, disconnectAt := d' } calls l = c.finish calls l := by
  unfold AsgiCfg.finish
  cases c.writer.end' c.proto c.sc l.h.info.trailers ((asgiError l.exc).map ConnectErr.fromException) with
  | error x => rfl
  | ok out =>
    dsimp only
    have he : AsgiCfg.ensureStart { c with env := { c.env with disconnectAt := d }, disconnectAt := d' } l.sentHeaders l.h.info l.log =
      c.ensureStart l.sentHeaders l.h.info l.log := rfl
    rw [he]
    cases c.ensureStart l.sentHeaders l.h.info l.log with
    | mk log o =>
      cases o with
      | some x => rfl
      | none =>
        dsimp only
        rw [sendAll_env]

/-- **C36 is false whenever the client leaves after the last message**: if the handler gives no more messages than the client has got when it
disconnects, the RPC goes on to its end as if the client were there. -/
theorem C36_violation_unnoticed_all (app : App Req Res) (sc : StatusCodec) (scope : Scope) (env : Env) (headers : Headers)
    (key : List Char) (info : MethodInfo) (f : Req → RequestContext → Script Res) (p : Proto) (codec : ServerCodec Req Res)
    (reqComp resComp : Compression)
    (h : AsgiStreamed app scope headers key ⟨info, .serverStream f⟩ p codec reqComp resComp) (k : Nat)
    (hk : ∀ req ctx, (messagesOf (f req ctx).acts).length ≤ k) :
    app.asgi sc scope { env with disconnectAt := some k } = app.asgi sc scope { env with disconnectAt := none } := by
  obtain ⟨name, hn, hcodec⟩ := h.codec
  obtain ⟨ctx, hctx, hcases⟩ := asgi_stream_cases h.streams hn hcodec h.resComp
  have hreqs : ∀ d, app.asgiRequests { env with disconnectAt := d } codec reqComp = app.asgiRequests env codec reqComp := fun _ => rfl
  have ha := (hcases sc { env with disconnectAt := some k }).2 reqComp h.reqComp
  have hb := (hcases sc { env with disconnectAt := none }).2 reqComp h.reqComp
  rw [hreqs] at ha hb
  let c := asgiCfg p sc codec resComp env (.serverStream f : Handler Req Res)
  have hc : ∀ d, asgiCfg p sc codec resComp { env with disconnectAt := d } (.serverStream f : Handler Req Res) =
      { c with env := { c.env with disconnectAt := d }, disconnectAt := d } := fun _ => rfl
  dsimp only at ha hb
  rw [hc] at ha hb
  cases hst : (Handler.serverStream f).start (app.asgiRequests env codec reqComp) ctx with
  | error e => exact (ha.1 e hst).trans ((finish_env c [] _ _ _).trans ((finish_env c [] _ _ _).symm.trans (hb.1 e hst).symm))
  | ok r =>
    obtain ⟨req, h0, script⟩ := r
    have hle : 0 + (messagesOf script.acts).length ≤ k := by
      cases starts_iff.1 hst with
      | serverStream _ m hm he => rw [Nat.zero_add]; exact hk m ctx
    refine (ha.2 _ _ _ hst).trans ((finish_env c _ _ _ _).trans ?_)
    refine Eq.trans ?_ ((finish_env c _ _ none none).symm.trans (hb.2 _ _ _ hst).symm)
    exact congrArg (c.finish [⟨key, ctx, req⟩]) (loop_undisconnected c script.outcome script.closeErr k script.acts h0 [] false 0 hle)

/-! ### C62 -/

/-- **C62 is false of every unary response on ASGI whose body the server cannot take**: if the first event is sent and the second raises an
`Exception`, the application starts a second response. -/
theorem C62_violation_second_start_all (app : App Req Res) (sc : StatusCodec) (scope : Scope) (env : Env) (headers : Headers)
    (key : List Char) (m : MethodInfo) (f : Req → RequestContext → Call Res)
    (h : AsgiConnectUnary app scope headers key m f) (codec : ServerCodec Req Res) (req : Req)
    (hacc : AsgiCarries app scope env headers m codec req)
    (hgood : ∀ ctx, ∃ res data, (f req ctx).result = .ok res ∧ codec.res.encode res = .ok data)
    (h0 : env.sendErr 0 = none) (x : Exc) (h1 : env.sendErr 1 = some x) (hx : x.isException = true) (hhttp : ∀ s hs, x ≠ .http s hs) :
    ∃ fields body status fields' rest, 400 ≤ status ∧
      (app.asgi sc scope env).sends =
        (.start 200 fields false, none) :: (.body body false, some x) :: (.start status fields' false, env.sendErr 2) :: rest := by
  obtain ⟨hh, hreq⟩ := hacc
  have hrun : MayRun m (headers.getD (pys! "content-type") []) scope.method := by
    rcases hreq with ⟨h1, _⟩ | ⟨h1, h2, _⟩
    · exact .inl h1
    · exact .inr ⟨h1, h2, h.connect⟩
  rcases asgiRoute_unary h hrun with ⟨_, ctx, hr, hctx⟩ | ⟨hno, _⟩
  rotate_left
  · exact absurd hh hno
  have key' : ∀ params, (if scope.method = pys! "GET" then app.asgiGet params codec else app.asgiPost env headers codec) = .ok req →
      ∃ fields body status fields' rest, 400 ≤ status ∧
        (app.asgiUnary env key scope.method headers codec params ctx f).sends =
          (.start 200 fields false, none) :: (.body body false, some x) :: (.start status fields' false, env.sendErr 2) :: rest := by
    intro params hread
    obtain ⟨h', hc, _⟩ := call_metadata (Req := Req) (f req ctx).steps (f req ctx).result
    obtain ⟨res, data, hres, hdata⟩ := hgood ctx
    have hsend : ∀ a b : Sent, env.sendAll [] [a, b] = ([(a, none), (b, some x)], some x) := by
      intro a b
      simp [Env.sendAll, Env.send, h0, h1]
    have hfail : ∀ (calls : List (Called Req)) (a b : Sent) (ctx : Option Meta), ∃ status fields' rest, 400 ≤ status ∧
        (asgiFail env calls [(a, none), (b, some x)] x ctx).sends =
          (a, none) :: (b, some x) :: (.start status fields' false, env.sendErr 2) :: rest := by
      intro calls a b mctx
      refine ⟨(errorResponse (pys! "content-type") x mctx).1, (errorResponse (pys! "content-type") x mctx).2.1, ?_⟩
      have hst : 400 ≤ (errorResponse (pys! "content-type") x mctx).1 :=
        errorResponse_status (fun s hs he => absurd he (hhttp s hs)) _ _
      unfold asgiFail
      rw [if_pos hx]
      dsimp only
      cases h2 : env.sendErr 2 with
      | some y => exact ⟨[], hst, by simp [Env.sendAll, Env.send, h2]⟩
      | none =>
        cases h3 : env.sendErr 3 with
        | some y => exact ⟨_, hst, by simp [Env.sendAll, Env.send, h2, h3]; rfl⟩
        | none => exact ⟨_, hst, by simp [Env.sendAll, Env.send, h2, h3]; rfl⟩
    unfold App.asgiUnary
    rw [hread]
    dsimp only
    rw [hc, hres]
    dsimp only
    rw [hdata]
    dsimp only
    rw [hsend]
    dsimp only
    obtain ⟨status, fields', rest, hst, heq⟩ := hfail [⟨key, ctx, some req⟩] _ _ (some h'.info)
    exact ⟨_, _, status, fields', rest, hst, heq⟩
  rcases hreq with ⟨hm, name, raw, data, h1, h2, h3⟩ | ⟨hm, _, q, hq, ⟨name, h1, h2⟩, raw, data, enc, h3⟩
  · have hc := asgiCodec_post (app := app) (key := key) (m := m) (f := f) (ctx := ctx) hm h1
    rw [h2] at hc
    rw [(asgi_of_route hr sc env).2 _ hc]
    exact key' _ (by rw [hm, if_neg (by decide)]; exact asgiPost_ok.2 ⟨raw, data, h3⟩)
  · have hc := asgiCodec_get (app := app) (key := key) (m := m) (f := f) (ctx := ctx) (h := headers) hm hq h1
    rw [h2] at hc
    rw [(asgi_of_route hr sc env).2 _ hc]
    exact key' _ (by rw [if_pos hm]; exact asgiGet_ok.2 ⟨raw, data, enc, h3⟩)

/-! ### the hypotheses are met -/

/-- C05: a GET of eleven bytes is acceptable, and reaches the handler under a limit of one byte. -/
example : WsgiConnectUnary pickyApp (pickyQuery (pys! "message=01234567890&encoding=proto")) (pys! "/a.S/Echo") echoInfo echoCall
      (pys! "GET") ∧
    (App.wsgi { pickyApp with readMax := some 1 } demoStatus (pickyQuery (pys! "message=01234567890&encoding=proto"))).calls.map (·.req) =
      [some [48, 49, 50, 51, 52, 53, 54, 55, 56, 57, 48]] :=
  ⟨(picky_queried _).unary, by decide +kernel⟩

/-- C26: an unknown compression by a Connect stream. -/
example : WsgiStreams flowApp (flowEnviron (pys! "/a.S/Chat") (pys! "application/connect+proto")
      [(pys! "HTTP_CONNECT_CONTENT_ENCODING", pys! "br")] chatBody) (pys! "/a.S/Chat") ⟨chatInfo, .bidi chatRun⟩ .connect ∧
    StreamCodecName .connect (pys! "application/connect+proto") (pys! "proto") ∧
    Dict.get? flowApp.comps (pys! "br") = none ∧ ¬ TakesOne (Handler.bidi chatRun) :=
  ⟨⟨wsgiLookup_ok.1 rfl, ⟨pys! "POST", rfl, .inl rfl⟩, (speaks_iff ..).2 (by decide +kernel), fun h => (by cases h),
      connectHeaders_of (by decide +kernel) (by decide +kernel), fun _ => rfl⟩,
    (streamCodecName_iff ..).2 (by decide +kernel), by decide +kernel, id⟩

/-- C36: a client that leaves after the second of two messages. -/
example : AsgiStreamed flowApp (flowScope (pys! "/a.S/List") (pys! "application/grpc") [])
      (flowHeaders (pys! "application/grpc") []) (pys! "/a.S/List") ⟨listInfo, .serverStream listRun⟩ .grpc protoCodec .identity
      .identity ∧ ∀ req ctx, (messagesOf (listRun req ctx).acts).length = 2 :=
  ⟨flow_asgi_list, fun _ _ => rfl⟩

/-- C62: a server that takes the start of a response and not its body. -/
example : AsgiCarries tellApp (pickyScope []) (demoEnv [.request [1] true, .request [2] false]) (pickyHeaders []) echoInfo
      ⟨pys! "proto", rawCodec, rawCodec⟩ [1, 2] ∧
    (∀ ctx, ∃ res data, (tellCall [1, 2] ctx).result = .ok res ∧ rawCodec.encode res = .ok data) ∧
    (Exc.other .runtimeError []).isException = true ∧
    (tellApp.asgi demoStatus (pickyScope []) { demoEnv [.request [1] true, .request [2] false] with
      sendErr := fun n => if n = 1 then some (.other .runtimeError []) else none }).sends.map (fun s => match s.1 with
        | .start status _ _ => status
        | _ => 0) = [200, 0, 500, 0] :=
  ⟨⟨connectHeaders_of (by decide +kernel) (by decide +kernel),
    .inl ⟨rfl, pys! "proto", _, _, (unaryCodecName_iff ..).2 (by decide +kernel), rfl, .more [1] (.last [2] []),
      ⟨.identity, rfl, .inr ⟨by decide, rfl⟩⟩, (fun n h => by cases h), rfl⟩⟩,
    fun _ => ⟨[1, 2], [1, 2], rfl, rfl⟩, rfl, by decide +kernel⟩

end Props
