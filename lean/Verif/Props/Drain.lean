import Verif.Proofs.Drain
import Verif.Props.ErrorLog
/-
C97: on HTTP/1 nothing of a request is left on the connection.
-/
namespace Props
open Conn Py Spec

variable {Req Res : Type}

/-- **C97**: a WSGI request that came by HTTP/1, whatever it is (for an unknown path, in an unknown codec, malformed, cut, over the limit) and whatever its
handler does or raises: when the response is complete nothing is left of the request's body — provided that a handler that takes a stream reads it to its
end (or raises), that a GET request has no body, and that a body is not longer than it says. (`escaped`: an exception that is not an `Exception` has
reached the server.) -/
theorem C97_partial (app : App Req Res) (sc : StatusCodec) (env : Environ) (h1 : ByHttp1 env) (hp : Pieces env.input) (hl : EndsInTime env)
    (hget : env.vars.get? (pys! "REQUEST_METHOD") = some (pys! "GET") → env.input = [])
    (hh : ∀ key ep, WsgiTarget app env key ep → HandlerReads ep.handler) (hx : (app.wsgi sc env).escaped = none) :
    app.wsgiLeft sc env = [] := by
  unfold App.wsgiLeft
  unfold App.wsgi at hx
  cases hr : app.wsgiRoute env with
  | error e =>
    rw [hr] at hx
    exact caught_nil h1 hp (wsgiFail_exception hx)
  | ok r =>
    rw [hr] at hx
    obtain ⟨ht, hm, _⟩ := wsgiRoute_ok hr
    have hreads := hh _ _ ht
    dsimp only at hx ⊢
    cases hk : r.ep.handler with
    | unary f =>
      cases hpr : r.proto with
      | connect =>
        rw [hk, hpr] at hx
        exact wsgiUnaryLeft_nil app h1 hp hl r.key r.httpMethod (fun h => hget (by rw [hm, h])) r.headers r.ctx f hx
      | grpc =>
        rw [hk, hpr] at hx
        exact wsgiStreamLeft_nil app sc h1 hp r.key _ r.headers r.ctx _ trivial hx
      | grpcWeb =>
        rw [hk, hpr] at hx
        exact wsgiStreamLeft_nil app sc h1 hp r.key _ r.headers r.ctx _ trivial hx
    | clientStream f =>
      rw [hk] at hx hreads
      exact wsgiStreamLeft_nil app sc h1 hp r.key _ r.headers r.ctx _ hreads hx
    | serverStream f =>
      rw [hk] at hx
      exact wsgiStreamLeft_nil app sc h1 hp r.key _ r.headers r.ctx _ trivial hx
    | bidi f =>
      rw [hk] at hx hreads
      exact wsgiStreamLeft_nil app sc h1 hp r.key _ r.headers r.ctx _ hreads hx

/-- the response has a status line that says 200 -/
def SaysOk (o : WsgiOut Req) : Prop := ∃ fields, WEvent.start 200 fields ∈ o.events

theorem errorOnly_saysOk {c : StreamCfg Req Res} {h : HState Req} {ev : List WEvent} {e : Exc} (hx : (c.wsgiErrorOnly h ev e).escaped = none) :
    SaysOk (c.wsgiErrorOnly h ev e) := by
  have he := wsgiErrorOnly_exception hx
  unfold StreamCfg.wsgiErrorOnly at hx ⊢
  rw [if_pos he] at hx ⊢
  cases hq : c.writer.end' c.proto c.sc h.info.trailers (some (ConnectErr.fromException e)) with
  | ok out => exact ⟨_, List.mem_append_right _ (List.mem_cons_self ..)⟩
  | error x =>
    rw [hq] at hx
    dsimp only at hx ⊢
    by_cases hx' : x.isException = true
    · rw [if_pos hx']; exact ⟨_, List.mem_append_right _ (List.mem_cons_self ..)⟩
    · rw [if_neg hx'] at hx; cases hx

theorem finish_keeps (c : StreamCfg Req Res) (h : HState Req) (ev : List WEvent) (e : Option Exc) {w : WEvent} (hw : w ∈ ev) :
    w ∈ (c.wsgiFinish h ev e).events := by
  unfold StreamCfg.wsgiFinish
  cases c.writer.end' c.proto c.sc h.info.trailers (e.map ConnectErr.fromException) with
  | ok out => exact List.mem_append_left _ hw
  | error x => exact hw

theorem caught_keeps (c : StreamCfg Req Res) (h : HState Req) (ev : List WEvent) (e : Exc) {w : WEvent} (hw : w ∈ ev) :
    w ∈ (c.wsgiCaught h ev e).events := by
  unfold StreamCfg.wsgiCaught
  by_cases he : e.isException = true
  · rw [if_pos he]; exact finish_keeps c h ev _ hw
  · rw [if_neg he]; exact hw

theorem body_keeps (c : StreamCfg Req Res) (o : Option Exc) (acts : List (Act Res)) (h : HState Req) (ev : List WEvent) {w : WEvent} (hw : w ∈ ev) :
    w ∈ (c.wsgiBody o acts h ev).events := by
  induction acts generalizing h ev with
  | nil =>
    unfold StreamCfg.wsgiBody
    cases o with
    | none => exact finish_keeps c h ev _ hw
    | some e => exact caught_keeps c h ev e hw
  | cons a as ih =>
    unfold StreamCfg.wsgiBody
    cases a with
    | step s =>
      dsimp only
      cases h.step s with
      | mk h' r => cases r with
        | some e => exact caught_keeps c h' ev e hw
        | none => exact ih h' ev hw
    | emit m =>
      dsimp only
      cases c.writer.write m with
      | error e => exact caught_keeps c h ev e hw
      | ok b => exact ih h _ (List.mem_append_left _ hw)

theorem first_saysOk (c : StreamCfg Req Res) (o : Option Exc) (acts : List (Act Res)) (h : HState Req) (hx : (c.wsgiFirst o acts h).escaped = none) :
    SaysOk (c.wsgiFirst o acts h) := by
  induction acts generalizing h with
  | nil =>
    unfold StreamCfg.wsgiFirst at hx ⊢
    cases o with
    | some e => exact errorOnly_saysOk hx
    | none =>
      dsimp only at hx ⊢
      cases hq : c.writer.end' c.proto c.sc h.info.trailers none with
      | ok out => exact ⟨_, List.mem_cons_self ..⟩
      | error e =>
        rw [hq] at hx
        exact errorOnly_saysOk hx
  | cons a as ih =>
    unfold StreamCfg.wsgiFirst at hx ⊢
    cases a with
    | step s =>
      dsimp only at hx ⊢
      cases hq : h.step s with
      | mk h' r =>
        rw [hq] at hx
        cases r with
        | some e => exact errorOnly_saysOk hx
        | none => exact ih h' hx
    | emit m => exact ⟨_, body_keeps c o _ h _ (List.mem_cons_self ..)⟩

theorem streamLeft_refused (app : App Req Res) (sc : StatusCodec) {env : Environ} (h1 : ByHttp1 env) (hp : Pieces env.input) (key : Str) (p : Proto)
    (headers : Headers) (ctx : RequestContext) (handler : Handler Req Res)
    (hx : (app.wsgiStream sc env key p headers ctx handler).escaped = none) (hbad : ¬ SaysOk (app.wsgiStream sc env key p headers ctx handler)) :
    app.wsgiStreamLeft sc env p headers ctx handler = [] := by
  unfold App.wsgiStreamLeft
  unfold App.wsgiStream at hx hbad
  dsimp only at hx hbad ⊢
  cases hc : app.codecs.get? (p.codecNameFromContentType (headers.getD (pys! "content-type") []) true) with
  | none => exact drain_nil h1 hp
  | some codec =>
    rw [hc] at hx hbad
    dsimp only at hx hbad ⊢
    cases hk : (p.negotiateStreamCompression headers app.comps).1 with
    | none => exact drain_nil h1 hp
    | some comp =>
      rw [hk] at hx hbad
      dsimp only at hx hbad
      cases hs : handler.start (app.wsgiRequests env codec comp) ctx with
      | error e =>
        rw [hs] at hx hbad
        exact absurd (errorOnly_saysOk hx) hbad
      | ok r =>
        rw [hs] at hx hbad
        exact absurd (first_saysOk _ _ _ _ hx) hbad

theorem unaryLeft_refused (app : App Req Res) {env : Environ} (h1 : ByHttp1 env) (hp : Pieces env.input) (key httpMethod : Str)
    (headers : Headers) (ctx : RequestContext) (f : Req → RequestContext → Call Res)
    (hx : (app.wsgiUnary env key httpMethod headers ctx f).escaped = none) (hbad : ¬ SaysOk (app.wsgiUnary env key httpMethod headers ctx f)) :
    app.wsgiUnaryLeft env httpMethod headers ctx f = [] := by
  have hpl : Pieces (if httpMethod = pys! "GET" then env.input else app.wsgiPostLeft env headers) := by
    by_cases hg : httpMethod = pys! "GET"
    · rw [if_pos hg]; exact hp
    · rw [if_neg hg]
      unfold App.wsgiPostLeft
      split
      · exact hp
      · exact wsgiRawLeft_pieces hp
  unfold App.wsgiUnaryLeft
  unfold App.wsgiUnary at hx hbad
  dsimp only at hx hbad ⊢
  cases hr : (if httpMethod = pys! "GET" then app.wsgiGet env else app.wsgiPost env headers) with
  | error e =>
    rw [hr] at hx
    exact caught_nil h1 hpl (wsgiFail_exception hx)
  | ok r =>
    rw [hr] at hx hbad
    obtain ⟨req, codec⟩ := r
    dsimp only at hx hbad ⊢
    cases hq : (HState.init ⟨[], none⟩ : HState Req).call (f req ctx).steps (f req ctx).result with
    | mk h res =>
      rw [hq] at hx hbad
      cases res with
      | error e => exact caught_nil h1 hpl (wsgiFail_exception hx)
      | ok response =>
        dsimp only at hx hbad ⊢
        cases he : codec.res.encode response with
        | error e =>
          rw [he] at hx
          exact caught_nil h1 hpl (wsgiFail_exception hx)
        | ok d =>
          rw [he] at hbad
          exact absurd ⟨_, List.mem_cons_self ..⟩ hbad

/-- C97 for every HTTP/1 request whose response has no status line that says 200 — whatever is asked for, with whatever method, body and Content-Length,
and whatever the handler has read: nothing is left of the request's body. -/
theorem C97_refused (app : App Req Res) (sc : StatusCodec) (env : Environ) (h1 : ByHttp1 env) (hp : Pieces env.input)
    (hx : (app.wsgi sc env).escaped = none) (hbad : ∀ fields, WEvent.start 200 fields ∉ (app.wsgi sc env).events) : app.wsgiLeft sc env = [] := by
  have hbad : ¬ SaysOk (app.wsgi sc env) := fun ⟨f, h⟩ => hbad f h
  unfold App.wsgiLeft
  unfold App.wsgi at hx hbad
  cases hr : app.wsgiRoute env with
  | error e =>
    rw [hr] at hx
    exact caught_nil h1 hp (wsgiFail_exception hx)
  | ok r =>
    rw [hr] at hx hbad
    dsimp only at hx hbad ⊢
    cases hk : r.ep.handler with
    | unary f =>
      cases hpr : r.proto with
      | connect =>
        rw [hk, hpr] at hx hbad
        exact unaryLeft_refused app h1 hp r.key r.httpMethod r.headers r.ctx f hx hbad
      | grpc =>
        rw [hk, hpr] at hx hbad
        exact streamLeft_refused app sc h1 hp r.key _ r.headers r.ctx _ hx hbad
      | grpcWeb =>
        rw [hk, hpr] at hx hbad
        exact streamLeft_refused app sc h1 hp r.key _ r.headers r.ctx _ hx hbad
    | clientStream f =>
      rw [hk] at hx hbad
      exact streamLeft_refused app sc h1 hp r.key _ r.headers r.ctx _ hx hbad
    | serverStream f =>
      rw [hk] at hx hbad
      exact streamLeft_refused app sc h1 hp r.key _ r.headers r.ctx _ hx hbad
    | bidi f =>
      rw [hk] at hx hbad
      exact streamLeft_refused app sc h1 hp r.key _ r.headers r.ctx _ hx hbad

theorem take_more {α : Type} (l : List α) (n : Nat) (x : α) : (l ++ List.replicate (n + 1) x).take n = (l ++ List.replicate n x).take n := by
  rw [List.replicate_succ', ← List.append_assoc, List.take_append_of_le_length]
  rw [List.length_append, List.length_replicate]
  omega

theorem puller_told {cfg : ReaderCfg Req Unit} {clean : Prop} (n : Nat) (p : Puller Req) (h : HState Req) (hp : Pulls cfg clean p h) :
    p.answers cfg n = says ⟨h.reqs, h.err⟩ n := by
  induction n generalizing p h with
  | zero => rfl
  | succ n ih =>
    obtain ⟨h1, h2, _⟩ := ask_pulls hp
    unfold Puller.answers
    rw [h1, ih _ _ h2]
    unfold HState.told HState.asked says
    cases hr : h.reqs with
    | cons m ms =>
      dsimp only
      rw [List.map_cons, List.cons_append, List.cons_append, List.take_succ_cons, take_more]
    | nil =>
      cases he : h.err with
      | some e =>
        show Except.error e :: List.take n (List.replicate n _) = Except.error e :: List.take n ([] ++ List.replicate (n + 1) _)
        rw [take_more]
        rfl
      | none =>
        show _ = Except.ok none :: List.take n (List.replicate n _)
        rfl

/-- The model in which the input is followed read by read and the one of the other properties agree on the request stream: asked any number of times, the
stream says the messages of `App.wsgiRequests`, then its exception, then that it has ended. -/
theorem C97_same (app : App Req Res) (env : Environ) (hp : Pieces env.input) (codec : ServerCodec Req Res) (comp : Compression) (n : Nat) :
    Puller.answers (app.reader codec comp) n ⟨env.input, ReaderState.init (), [], none, false⟩ = says (app.wsgiRequests env codec comp) n :=
  puller_told n _ _ (pulls_init app hp codec comp)

theorem leftBody_ignored (c : StreamCfg Req Res) (env : Environ) (cfg : ReaderCfg Req Unit) (hw : ∀ m, ∃ b, c.writer.write m = .ok b)
    (acts : List (Act Res)) (ha : asks acts = 0) (p : Puller Req) (info : Meta) : c.leftBody env cfg none acts p info = p.segs := by
  induction acts generalizing info with
  | nil => rfl
  | cons a as ih =>
    cases a with
    | step s =>
      cases s with
      | recv b => exact absurd ha (Nat.succ_ne_zero _)
      | update f => exact ih ha (f info)
    | emit m =>
      obtain ⟨b, hb⟩ := hw m
      unfold StreamCfg.leftBody
      rw [hb]
      exact ih ha info

theorem leftFirst_ignored (c : StreamCfg Req Res) (env : Environ) (cfg : ReaderCfg Req Unit) (hw : ∀ m, ∃ b, c.writer.write m = .ok b)
    (he : ∀ t, ∃ out, c.writer.end' c.proto c.sc t none = .ok out)
    (acts : List (Act Res)) (ha : asks acts = 0) (p : Puller Req) (info : Meta) : c.leftFirst env cfg none acts p info = p.segs := by
  induction acts generalizing info with
  | nil =>
    obtain ⟨out, ho⟩ := he info.trailers
    unfold StreamCfg.leftFirst
    dsimp only
    rw [ho]
  | cons a as ih =>
    cases a with
    | step s =>
      cases s with
      | recv b => exact absurd ha (Nat.succ_ne_zero _)
      | update f => exact ih ha (f info)
    | emit m => exact leftBody_ignored c env cfg hw _ ha p info

/-- C97 is false of every stream, on every version of HTTP, whose handler succeeds without having asked for its messages (all responses and the end can be
written): the whole body is left. -/
theorem C97_violation_stream (app : App Req Res) (sc : StatusCodec) (env : Environ) (key : List Char) (ep : Endpoint Req Res) (p : Proto)
    (codec : ServerCodec Req Res) (reqComp resComp : Compression) (h : WsgiStreamed app env key ep p codec reqComp resComp)
    (hi : Ignores ep.handler) (hw : ∀ m, ∃ b, (writerOf codec resComp).write m = .ok b)
    (he : ∀ t, ∃ out, (writerOf codec resComp).end' p sc t none = .ok out) :
    app.wsgiLeft sc env = env.input := by
  obtain ⟨name, hn, hcodec⟩ := h.codec
  obtain ⟨hm, ctx, hr, _⟩ := wsgiRoute_streams h.streams
  have hgo : app.wsgiStreamLeft sc env p (wsgiHeaders env.vars) ctx ep.handler = env.input := by
    unfold App.wsgiStreamLeft
    dsimp only
    rw [(streamCodecName_iff ..).1 hn, hcodec]
    dsimp only
    rw [requestCompression_iff.2 h.reqComp, responseCompression_iff.2 h.resComp]
    dsimp only
    unfold Handler.left
    cases hk : ep.handler with
    | unary f => rw [hk] at hi; cases hi
    | serverStream f => rw [hk] at hi; cases hi
    | clientStream f =>
      rw [hk] at hi
      obtain ⟨h1, h2⟩ := hi (app.wsgiRequests env codec reqComp) ctx
      dsimp only
      rw [h2]
      exact leftFirst_ignored _ env _ hw he _ h1 _ _
    | bidi f =>
      rw [hk] at hi
      obtain ⟨h1, h2⟩ := hi (app.wsgiRequests env codec reqComp) ctx
      dsimp only
      rw [h2]
      exact leftFirst_ignored _ env _ hw he _ h1 _ _
  unfold App.wsgiLeft
  rw [hr]
  dsimp only
  cases hk : ep.handler with
  | unary f => rw [hk] at hi; cases hi
  | serverStream f => rw [hk] at hi; cases hi
  | clientStream f => rw [hk] at hgo; exact hgo
  | bidi f => rw [hk] at hgo; exact hgo

/-- C97 is false of every GET request with a body that is answered: the whole body is left. -/
theorem C97_violation_get (app : App Req Res) (sc : StatusCodec) (env : Environ) (key : List Char) (m : MethodInfo)
    (f : Req → RequestContext → Call Res) (h : WsgiConnectUnary app env key m f (pys! "GET"))
    (codec : ServerCodec Req Res) (req : Req) (hacc : WsgiCarries app env m (pys! "GET") codec req)
    (hok : ∀ ctx e, ¬ Fails codec (f req ctx) e) : app.wsgiLeft sc env = env.input := by
  obtain ⟨hh, hreq⟩ := hacc
  rcases hreq with ⟨h1, _⟩ | ⟨_, hside, ⟨name, h1, h2⟩, raw, data, h3, h4, h5⟩
  · exact absurd h1 (by decide)
  · rcases wsgiRoute_unary h (.inr ⟨rfl, hside, h.connect⟩) with ⟨_, ctx, hr, _⟩ | ⟨hno, _⟩
    · unfold App.wsgiLeft
      rw [hr]
      dsimp only
      unfold App.wsgiUnaryLeft
      dsimp only
      rw [if_pos rfl, if_pos rfl, wsgiGet_eq, wsgiGetBody_codec ⟨name, h1, h2⟩ h3 h4 h5]
      dsimp only
      obtain ⟨h', hc, _⟩ := call_metadata (Req := Req) (f req ctx).steps (f req ctx).result
      rw [hc]
      have hnot := hok ctx
      cases hres : (f req ctx).result with
      | error e => exact absurd (.inl hres) (hnot e)
      | ok r =>
        dsimp only
        cases he : codec.res.encode r with
        | error e => exact absurd (.inr ⟨r, hres, he⟩) (hnot e)
        | ok d => rfl
    · exact absurd hh hno

/-! ### the hypotheses are met -/

theorem flow_reads : ∀ p ∈ flowApp.endpoints, HandlerReads p.2.handler := by
  have hasks : ∀ (n : Nat) (l : List (Act Bytes)), asks (List.replicate n (Act.step (.recv false)) ++ l) = n + asks l := by
    intro n l
    induction n with
    | zero => simp
    | succ n ih =>
      rw [List.replicate_succ, List.cons_append]
      show asks _ + 1 = _
      rw [ih]
      omega
  have hchat : ∀ (ms : List Bytes) (l : List (Act Bytes)), asks (ms.flatMap (fun m => [Act.step (.recv false), .emit m]) ++ l) = ms.length + asks l := by
    intro ms l
    induction ms with
    | nil => simp
    | cons m ms ih =>
      rw [List.flatMap_cons, List.append_assoc]
      show asks (ms.flatMap (fun m => [Act.step (.recv false), .emit m]) ++ l) + 1 = _
      rw [ih, List.length_cons]
      omega
  intro p hp
  have hp' : p ∈ [(pys! "/a.S/Echo", (⟨echoInfo, .unary echoCall⟩ : Endpoint Bytes Bytes)), (pys! "/a.S/Count", ⟨countInfo, .clientStream countCall⟩),
    (pys! "/a.S/List", ⟨listInfo, .serverStream listRun⟩), (pys! "/a.S/Chat", ⟨chatInfo, .bidi chatRun⟩)] := hp
  simp only [List.mem_cons, List.not_mem_nil, or_false] at hp'
  rcases hp' with rfl | rfl | rfl | rfl
  · exact trivial
  · intro s ctx
    refine .inr ⟨?_, ?_⟩
    · show s.messages.length < asks ((s.messages.map (fun _ => Step.recv false) ++ [Step.recv false]).map Act.step ++ [.emit _])
      rw [List.map_append, List.map_map, List.append_assoc]
      rw [show List.map (Act.step ∘ fun _ => Step.recv false) s.messages = List.replicate s.messages.length (Act.step (.recv false)) from
        List.map_const' ..]
      rw [hasks]
      show _ < _ + 1
      omega
    · intro _ a ha
      change a ∈ (s.messages.map (fun _ => Step.recv false) ++ [Step.recv false]).map Act.step ++ [.emit _] at ha
      rintro rfl
      simp at ha
  · exact trivial
  · intro s ctx
    refine .inr ⟨?_, ?_⟩
    · show s.messages.length < asks (s.messages.flatMap (fun m => [Act.step (.recv false), .emit m]) ++ [.step (.recv false)])
      rw [hchat]
      show _ < _ + 1
      omega
    · intro _ a ha
      change a ∈ s.messages.flatMap (fun m => [Act.step (.recv false), .emit m]) ++ [.step (.recv false)] at ha
      rintro rfl
      simp at ha

theorem target_mem {app : App Req Res} {env : Environ} {key : Str} {ep : Endpoint Req Res} (h : WsgiTarget app env key ep) :
    (key, ep) ∈ app.endpoints := by
  cases h <;> exact Dict.get?_some_mem (by assumption)

/-- the variables of a request by HTTP/1.1 -/
def drainVars : List (Str × Str) := [(pys! "SERVER_PROTOCOL", pys! "HTTP/1.1")]

/-- an application whose handlers read what they are sent, asked for a bidirectional stream whose body is cut, for an unknown codec and for an unknown
path: nothing is left; on HTTP/2 the body of the unknown path is left to the server -/
example : (∀ key ep, WsgiTarget flowApp (flowEnviron (pys! "/a.S/Chat") (pys! "application/grpc") drainVars [[0, 0, 0], [0, 1, 7, 0, 0]]) key ep →
      HandlerReads ep.handler) ∧
    ByHttp1 (flowEnviron (pys! "/a.S/Chat") (pys! "application/grpc") drainVars [[0, 0, 0], [0, 1, 7, 0, 0]]) ∧
    EndsInTime (flowEnviron (pys! "/a.S/Chat") (pys! "application/grpc") drainVars [[0, 0, 0], [0, 1, 7, 0, 0]]) ∧
    (flowApp.wsgi demoStatus (flowEnviron (pys! "/a.S/Chat") (pys! "application/grpc") drainVars [[0, 0, 0], [0, 1, 7, 0, 0]])).escaped = none ∧
    (flowApp.wsgi demoStatus (flowEnviron (pys! "/a.S/Chat") (pys! "application/grpc") drainVars [[0, 0, 0], [0, 1, 7, 0, 0]])).received = [[7]] ∧
    flowApp.wsgiLeft demoStatus (flowEnviron (pys! "/a.S/Chat") (pys! "application/grpc") drainVars [[0, 0, 0], [0, 1, 7, 0, 0]]) = [] ∧
    flowApp.wsgiLeft demoStatus (flowEnviron (pys! "/a.S/Chat") (pys! "application/grpc+xml") drainVars [[1, 2], [3]]) = [] ∧
    flowApp.wsgiLeft demoStatus (flowEnviron (pys! "/nowhere") (pys! "application/grpc") drainVars [[1, 2], [3]]) = [] ∧
    flowApp.wsgiLeft demoStatus (flowEnviron (pys! "/nowhere") (pys! "application/grpc") [(pys! "SERVER_PROTOCOL", pys! "HTTP/2")] [[1, 2], [3]]) =
      [[1, 2], [3]] :=
  ⟨fun _ _ ht => flow_reads _ (target_mem ht), ⟨pys! ".1", rfl⟩, (fun v n hv => by cases hv), by decide +kernel, by decide +kernel, by decide +kernel,
    by decide +kernel, by decide +kernel, by decide +kernel⟩

/-- answers `[1]` without reading; answers the first message and stops -/
def deafCall (_ : ReqStream Bytes) (_ : RequestContext) : Call Bytes := ⟨[], .ok [1]⟩
def hastyRun (s : ReqStream Bytes) (_ : RequestContext) : Script Bytes := ⟨.step (.recv false) :: (s.messages.take 1).map .emit, none, none⟩
def deafApp : App Bytes Bytes :=
  .new [(pys! "/a.S/Count", ⟨countInfo, .clientStream deafCall⟩), (pys! "/a.S/Chat", ⟨chatInfo, .bidi hastyRun⟩)] (pys! "/a.S") flipComp (some 10) none
    [protoCodec]

theorem deaf_streamed (input : List Bytes) : WsgiStreamed deafApp (flowEnviron (pys! "/a.S/Count") (pys! "application/grpc") drainVars input)
    (pys! "/a.S/Count") ⟨countInfo, .clientStream deafCall⟩ .grpc protoCodec .identity .identity :=
  ⟨⟨wsgiLookup_ok.1 rfl, ⟨pys! "POST", rfl, .inl rfl⟩, (speaks_iff ..).2 (by
        show negotiateServerProtocol ((wsgiHeaders (flowEnviron (pys! "/a.S/Count") (pys! "application/grpc") drainVars []).vars).getD
          (pys! "content-type") []) = .grpc
        decide +kernel), fun _ => rfl, fun v hv => (by cases hv), fun h => (by cases h)⟩,
    ⟨pys! "proto", (streamCodecName_iff ..).2 (by
        show Proto.codecNameFromContentType .grpc ((wsgiHeaders (flowEnviron (pys! "/a.S/Count") (pys! "application/grpc") drainVars
          []).vars).getD (pys! "content-type") []) true = pys! "proto"
        decide +kernel), rfl⟩, .inl rfl, responseCompression_iff.1 rfl⟩

/-- the handler that does not read: its answer is a success, and the body is there still; a handler that stops after the first message leaves what its last
read did not reach -/
example : Ignores (.clientStream deafCall) ∧
    (∀ t : Headers, ∃ out, (writerOf protoCodec .identity).end' .grpc demoStatus t none = .ok out) ∧
    (deafApp.wsgi demoStatus (flowEnviron (pys! "/a.S/Count") (pys! "application/grpc") drainVars [[0, 0, 0, 0, 1, 7]])).events =
      [.start 200 [(pys! "content-type", pys! "application/grpc+proto"), (pys! "grpc-encoding", pys! "identity")], .chunk [0, 0, 0, 0, 1, 1],
       .trailers [(pys! "grpc-status", pys! "0")], .chunk []] ∧
    deafApp.wsgiLeft demoStatus (flowEnviron (pys! "/a.S/Count") (pys! "application/grpc") drainVars [[0, 0, 0, 0, 1, 7]]) = [[0, 0, 0, 0, 1, 7]] ∧
    deafApp.wsgiLeft demoStatus (flowEnviron (pys! "/a.S/Chat") (pys! "application/grpc") drainVars [[0, 0, 0, 0, 1, 7, 0], [0, 0, 0, 1, 8]]) =
      [[0, 0, 0, 1, 8]] :=
  ⟨fun _ _ => ⟨rfl, rfl⟩, fun _ => ⟨_, rfl⟩, by decide +kernel, by decide +kernel, by decide +kernel⟩

/-- a GET request with a body, by HTTP/1.1 -/
def drainQuery : Environ :=
  { pickyQuery (pys! "message=hi&encoding=proto") with
    input := [[1, 2]], vars := (pickyQuery (pys! "message=hi&encoding=proto")).vars ++ drainVars }

example : WsgiConnectUnary pickyApp drainQuery (pys! "/a.S/Echo") echoInfo echoCall (pys! "GET") ∧
    WsgiCarries pickyApp drainQuery echoInfo (pys! "GET") ⟨pys! "proto", pickyCodec, rawCodec⟩ (utf8Encode (pys! "hi")) ∧
    (∀ ctx e, ¬ Fails (⟨pys! "proto", pickyCodec, rawCodec⟩ : ServerCodec Bytes Bytes) (echoCall (utf8Encode (pys! "hi")) ctx) e) ∧
    pickyApp.wsgiLeft demoStatus drainQuery = [[1, 2]] := by
  have hp : ∀ k v, firstParam (wsgiParams drainQuery) k = some v → Param (wsgiParams drainQuery) k v := fun k v h => firstParam_iff.1 h
  have hn : ∀ k v, firstParam (wsgiParams drainQuery) k = none → ¬ Param (wsgiParams drainQuery) k v := by
    intro k v h h'
    rw [firstParam_iff.2 h'] at h
    cases h
  refine ⟨⟨wsgiLookup_ok.1 rfl, rfl, (negotiate_connect _).1 (by decide +kernel)⟩,
    ⟨connectHeaders_of (by decide +kernel) (by decide +kernel), .inr ⟨rfl, rfl, ⟨pys! "proto", .inl (hp _ _ (by decide +kernel)), rfl⟩, _, _,
      ⟨pys! "hi", hp _ _ (by decide +kernel), .inr ⟨hn _ _ (by decide +kernel), rfl⟩⟩, .inl ⟨fun v => hn _ _ (by decide +kernel), rfl⟩, by decide +kernel⟩⟩,
    ?_, by decide +kernel⟩
  rintro ctx e (h | ⟨r, h, h'⟩)
  · cases h
  · cases h'

/-- an endpoint whose function raises -/
def brokenApp : App Bytes Bytes :=
  .new [(pys! "/a.S/Echo", ⟨echoInfo, .unary (fun _ _ => ⟨[], .error (.other .valueError (pys! "no"))⟩)⟩)] (pys! "/a.S") flipComp (some 10) none
    [protoCodec]

/-- asked by a GET request with a body, and by a POST request whose body is longer than it says: the function is called, both answers are refusals, and
nothing is left -/
example : ByHttp1 drainQuery ∧ Pieces drainQuery.input ∧ (brokenApp.wsgi demoStatus drainQuery).calls.length = 1 ∧
    (brokenApp.wsgi demoStatus drainQuery).escaped = none ∧
    (∀ w ∈ (brokenApp.wsgi demoStatus drainQuery).events, ∀ fields, w ≠ .start 200 fields) ∧
    drainQuery.input = [[1, 2]] ∧ brokenApp.wsgiLeft demoStatus drainQuery = [] ∧
    (brokenApp.wsgi demoStatus (flowEnviron (pys! "/a.S/Echo") (pys! "application/proto") (drainVars ++ [(pys! "CONTENT_LENGTH", pys! "1")])
      [[1, 2], [3]])).calls.length = 1 ∧
    brokenApp.wsgiLeft demoStatus (flowEnviron (pys! "/a.S/Echo") (pys! "application/proto") (drainVars ++ [(pys! "CONTENT_LENGTH", pys! "1")])
      [[1, 2], [3]]) = [] := by
  refine ⟨⟨pys! ".1", rfl⟩, ?_, by decide +kernel, by decide +kernel, ?_, rfl, by decide +kernel, by decide +kernel, by decide +kernel⟩
  · intro b hb
    change b ∈ [[1, 2]] at hb
    rw [List.mem_singleton.1 hb]
    decide
  · have hst : (brokenApp.wsgi demoStatus drainQuery).events.all (fun w => match w with
        | .start n _ => n != 200
        | _ => true) = true := by decide +kernel
    intro w hw fields he
    have := List.all_eq_true.1 hst w hw
    rw [he] at this
    cases this

end Props
