import Verif.Proofs.Unary
import Verif.Props.Envelope
import Verif.Spec.Stream
/-
Streamed requests and responses: the models against the declarative descriptions of `Spec/Stream`.
-/
namespace Conn
open Py Spec

variable {Req Res : Type}

/-! ### routing -/

theorem speaks_iff (p : Proto) (ct : Str) : Speaks p ct ↔ negotiateServerProtocol ct = p := by
  cases p with
  | connect => exact (negotiate_connect ct).symm
  | grpc => exact (negotiate_grpc ct).symm
  | grpcWeb => exact (negotiate_grpcWeb ct).symm

theorem grpcTimeout_ok {h : Option Str} :
    (∃ t, grpcTimeout h = .ok t) ↔ ∀ v, h = some v → v = [] ∨ ∃ n, parseTimeout v = .ok n := by
  cases h with
  | none => exact ⟨fun _ v hv => (by cases hv), fun _ => ⟨none, rfl⟩⟩
  | some t =>
    unfold grpcTimeout
    dsimp only
    by_cases e : t = []
    · subst e
      exact ⟨fun _ v hv => .inl (by cases hv; rfl), fun _ => ⟨none, rfl⟩⟩
    · rw [if_neg (by simpa using e)]
      cases hp : parseTimeout t with
      | error x =>
        constructor
        · rintro ⟨_, h⟩; cases h
        · intro h
          rcases h t rfl with h | ⟨n, hn⟩
          · exact absurd h e
          · rw [hp] at hn; cases hn
      | ok n => exact ⟨fun _ v hv => (by cases hv; exact .inr ⟨n, hp⟩), fun _ => ⟨_, rfl⟩⟩

theorem grpcContext {m : MethodInfo} {h : Headers} :
    ((∀ v, h.get (pys! "grpc-timeout") = some v → v = [] ∨ ∃ n, parseTimeout v = .ok n) ∧
      ∀ scheme client, ∃ ctx, grpcServerContext m (pys! "POST") scheme h client = .ok ctx) ∨
    (¬ (∀ v, h.get (pys! "grpc-timeout") = some v → v = [] ∨ ∃ n, parseTimeout v = .ok n) ∧
      ∃ e, ∀ scheme client, grpcServerContext m (pys! "POST") scheme h client = .error e) := by
  have hpost : ∀ scheme client, grpcServerContext m (pys! "POST") scheme h client =
      match grpcTimeout (h.get (pys! "grpc-timeout")) with
      | .error e => .error e
      | .ok t => .ok
        { method := m, httpMethod := pys! "POST", requestHeaders := h, timeoutMs := t
          serverAddress := hostToServerAddress (h.get (pys! "host")) scheme, clientAddress := client } := by
    intro scheme client
    unfold grpcServerContext
    rw [if_neg (fun h => h rfl)]
    cases grpcTimeout (h.get (pys! "grpc-timeout")) <;> rfl
  simp only [hpost]
  cases ht : grpcTimeout (h.get (pys! "grpc-timeout")) with
  | ok t => exact .inl ⟨grpcTimeout_ok.1 ⟨t, ht⟩, fun _ _ => ⟨_, rfl⟩⟩
  | error e =>
    refine .inr ⟨fun hok => ?_, e, fun _ _ => rfl⟩
    obtain ⟨t, ht'⟩ := grpcTimeout_ok.2 hok
    rw [ht] at ht'; cases ht'

/-- The context is created iff the protocol headers are in order. -/
theorem streamContext {p : Proto} {ct : Str} (hp : Speaks p ct) (m : MethodInfo) (hm : Str) (h : Headers)
    (hrun : MayRun m ct hm) :
    (HeadersReady p h ∧ ∀ scheme client, ∃ ctx, p.serverContext m hm scheme h client = .ok ctx) ∨
    (¬ HeadersReady p h ∧ ∃ e, ∀ scheme client, p.serverContext m hm scheme h client = .error e) := by
  have hpost : ¬ ConnectType ct → hm = pys! "POST" := by
    intro hc
    rcases hrun with h | ⟨_, _, h⟩
    · exact h
    · exact absurd h hc
  cases p with
  | connect =>
    rcases connectContext hp m hm h hrun with h | ⟨h1, msg, h2⟩
    · exact .inl h
    · exact .inr ⟨h1, _, h2⟩
  | grpc =>
    rw [hpost fun h => h.1 hp]
    exact grpcContext
  | grpcWeb =>
    rw [hpost fun h => h.2 hp]
    exact grpcContext

theorem wsgiRoute_streams {app : App Req Res} {env : Environ} {key : Str} {ep : Endpoint Req Res} {p : Proto}
    (h : WsgiStreams app env key ep p) : ∃ hm ctx, app.wsgiRoute env = .ok
      { key, ep, httpMethod := hm, headers := wsgiHeaders env.vars, proto := p, ctx } ∧
      Dict.get? env.vars (pys! "REQUEST_METHOD") = some hm ∧ CtxIs ctx ep.method hm (wsgiScheme env.vars) (wsgiHeaders env.vars) (wsgiClient env.vars) := by
  obtain ⟨hm, hmeth, hrun⟩ := h.method
  have hn := (speaks_iff _ _).1 h.proto
  have ht : ¬ (p.usesTrailers = true ∧ ¬ env.sendTrailers = true) := by
    rintro ⟨h1, h2⟩
    cases p with
    | grpc => exact h2 (h.trailers rfl)
    | _ => cases h1
  cases hr : app.wsgiRoute env with
  | ok r =>
    obtain ⟨h1, h2, h3, h4, h5, _⟩ := wsgiRoute_ok hr
    obtain ⟨hk, hep⟩ := WsgiTarget.unique h1 h.target
    have hm' : r.httpMethod = hm := by rw [hmeth] at h2; exact (Option.some.inj h2).symm
    obtain ⟨key', ep', hm'', headers', p', ctx'⟩ := r
    dsimp only at *
    subst hk hep hm' h3
    rw [hn] at h4
    subst h4
    exact ⟨_, ctx', rfl, hmeth, h5⟩
  | error e =>
    exfalso
    unfold App.wsgiRoute at hr
    rw [wsgiLookup_ok.2 h.target] at hr
    dsimp only at hr
    rw [item_ok.2 hmeth] at hr
    dsimp only at hr
    rw [hn, if_neg ht] at hr
    rcases streamContext h.proto ep.method hm (wsgiHeaders env.vars) hrun with ⟨_, hok⟩ | ⟨hno, _⟩
    · split at hr
      · rename_i e' he'
        obtain ⟨ctx, hctx⟩ := hok _ (wsgiClient env.vars)
        rw [hctx] at he'; cases he'
      · cases hr
    · exact hno h.ready

theorem wsgiRoute_streams_conv {app : App Req Res} {env : Environ} {r : Route Req Res} (hr : app.wsgiRoute env = .ok r)
    (hk : r.proto = .connect → r.ep.handler.isUnary = false) : WsgiStreams app env r.key r.ep r.proto := by
  obtain ⟨h1, h2, h3, h4, h5, h6, h7⟩ := wsgiRoute_ok hr
  refine ⟨h1, ⟨_, h2, h6⟩, (speaks_iff _ _).2 h4.symm, h7, ?_, hk⟩
  rcases streamContext ((speaks_iff _ _).2 h4.symm) r.ep.method r.httpMethod (wsgiHeaders env.vars) h6 with
    ⟨h, _⟩ | ⟨_, e, he⟩
  · exact h
  · exfalso
    unfold App.wsgiRoute at hr
    rw [wsgiLookup_ok.2 h1] at hr
    dsimp only at hr
    rw [item_ok.2 h2] at hr
    dsimp only at hr
    rw [← h4] at hr
    split at hr
    · cases hr
    · rw [he] at hr
      cases hr

theorem wsgi_streams {app : App Req Res} {env : Environ} {key : Str} {ep : Endpoint Req Res} {p : Proto}
    (h : WsgiStreams app env key ep p) : ∃ hm ctx, (Dict.get? env.vars (pys! "REQUEST_METHOD") = some hm ∧
      CtxIs ctx ep.method hm (wsgiScheme env.vars) (wsgiHeaders env.vars) (wsgiClient env.vars)) ∧
      ∀ sc, app.wsgi sc env = app.wsgiStream sc env key p (wsgiHeaders env.vars) ctx ep.handler := by
  obtain ⟨hm, ctx, hr, hctx⟩ := wsgiRoute_streams h
  refine ⟨hm, ctx, hctx, fun sc => ?_⟩
  unfold App.wsgi
  rw [hr]
  dsimp only
  have hk := h.kind
  cases hh : ep.handler with
  | unary f =>
    cases p with
    | connect => rw [hh] at hk; cases hk rfl
    | grpc => rfl
    | grpcWeb => rfl
  | _ => rfl

theorem asgiRoute_streams {app : App Req Res} {scope : Scope} {headers : Headers} {key : Str} {ep : Endpoint Req Res} {p : Proto}
    (h : AsgiStreams app scope headers key ep p) : ∃ ctx, app.asgiRoute scope = .ok
      { key, ep, httpMethod := scope.method, headers, proto := p, ctx } ∧
      CtxIs ctx ep.method scope.method (asgiScheme scope) headers (scope.client.map fun ca => ca.1 ++ pys! ":" ++ ca.2) := by
  have hn := (speaks_iff _ _).1 h.proto
  have ht : ¬ (p.usesTrailers = true ∧ ¬ scope.trailers = true) := by
    rintro ⟨h1, h2⟩
    cases p with
    | grpc => exact h2 (h.trailers rfl)
    | _ => cases h1
  cases hr : app.asgiRoute scope with
  | ok r =>
    obtain ⟨h1, h2, h3, h4, h5, _⟩ := asgiRoute_ok hr
    obtain ⟨hk, hep⟩ := AsgiTarget.unique h1 h.target
    rw [h.decoded] at h3
    obtain ⟨key', ep', hm'', headers', p', ctx'⟩ := r
    dsimp only at *
    cases h3
    subst hk hep h2
    rw [hn] at h4
    subst h4
    exact ⟨ctx', rfl, h5⟩
  | error e =>
    exfalso
    unfold App.asgiRoute at hr
    rw [asgiLookup_ok.2 h.target] at hr
    dsimp only at hr
    rw [h.decoded] at hr
    dsimp only at hr
    rw [hn, if_neg ht] at hr
    rcases streamContext h.proto ep.method scope.method headers h.method with ⟨_, hok⟩ | ⟨hno, _⟩
    · split at hr
      · rename_i e' he'
        obtain ⟨ctx, hctx⟩ := hok _ (scope.client.map fun ca => ca.1 ++ pys! ":" ++ ca.2)
        rw [hctx] at he'; cases he'
      · cases hr
    · exact hno h.ready

theorem asgiRoute_streams_conv {app : App Req Res} {scope : Scope} {r : Route Req Res} (hr : app.asgiRoute scope = .ok r)
    (hk : r.proto = .connect → r.ep.handler.isUnary = false) : AsgiStreams app scope r.headers r.key r.ep r.proto := by
  obtain ⟨h1, h2, h3, h4, h5, h6, h7⟩ := asgiRoute_ok hr
  refine ⟨h1, h3, h6, (speaks_iff _ _).2 h4.symm, h7, ?_, hk⟩
  rcases streamContext ((speaks_iff _ _).2 h4.symm) r.ep.method scope.method r.headers h6 with
    ⟨h, _⟩ | ⟨_, e, he⟩
  · exact h
  · exfalso
    unfold App.asgiRoute at hr
    rw [asgiLookup_ok.2 h1] at hr
    dsimp only at hr
    rw [h3] at hr
    dsimp only at hr
    rw [← h4] at hr
    split at hr
    · cases hr
    · rw [he] at hr
      cases hr

/-! ### codecs and compressions -/

theorem prefixed_iff (pre s name : Str) :
    (if startsWith pre s then s.drop pre.length else pys! "proto") = name ↔
      s = pre ++ name ∨ (¬ pre <+: s ∧ name = pys! "proto") := by
  by_cases hs : startsWith pre s = true
  · rw [if_pos hs]
    obtain ⟨r, hr⟩ := (Props.isPrefixOf_iff _ _).1 hs
    rw [hr, List.drop_left]
    constructor
    · rintro rfl; exact .inl rfl
    · rintro (h | ⟨h, _⟩)
      · exact List.append_cancel_left h
      · exact absurd ⟨r, rfl⟩ h
  · rw [if_neg hs]
    have hno : ¬ pre <+: s := by
      rintro ⟨r, hr⟩
      exact hs ((Props.isPrefixOf_iff _ _).2 ⟨r, hr.symm⟩)
    constructor
    · exact fun h => .inr ⟨hno, h.symm⟩
    · rintro (h | ⟨_, h⟩)
      · exact absurd ⟨name, h.symm⟩ hno
      · exact h.symm

theorem streamCodecName_iff (p : Proto) (ct name : Str) :
    StreamCodecName p ct name ↔ p.codecNameFromContentType ct true = name := by
  cases p with
  | connect =>
    have hmt : normalizeContentType ct = mediaType ct := by
      unfold normalizeContentType mediaType
      rw [partitionFst_eq]
    unfold Proto.codecNameFromContentType connectCodecName StreamCodecName
    dsimp only
    rw [hmt, if_pos rfl]
    by_cases hs : startsWith (pys! "application/connect+") (mediaType ct) = true
    · rw [if_pos hs]
      obtain ⟨r, hr⟩ := (Props.isPrefixOf_iff _ _).1 hs
      rw [hr, List.drop_left]
      constructor
      · rintro (h | ⟨h, _⟩)
        · exact List.append_cancel_left h
        · exact absurd ⟨r, rfl⟩ h
      · rintro rfl; exact .inl rfl
    · rw [if_neg hs]
      have hno : ¬ pys! "application/connect+" <+: mediaType ct := by
        rintro ⟨r, hr⟩
        exact hs ((Props.isPrefixOf_iff _ _).2 ⟨r, hr.symm⟩)
      constructor
      · rintro (h | ⟨_, h⟩)
        · exact absurd ⟨name, h.symm⟩ hno
        · exact h
      · exact fun h => .inr ⟨hno, h⟩
  | grpc => exact (prefixed_iff ..).symm
  | grpcWeb => exact (prefixed_iff ..).symm

theorem requestCompression_iff {app : App Req Res} {p : Proto} {h : Headers} {c : Compression} :
    (p.negotiateStreamCompression h app.comps).1 = some c ↔ RequestCompression app p h c := by
  unfold RequestCompression
  cases p with
  | connect =>
    unfold Proto.negotiateStreamCompression
    dsimp only [encodingHeader]
    cases hg : Dict.get? app.comps (h.getD (pys! "connect-content-encoding") (pys! "identity")) with
    | none => simp [eq_comm]
    | some c' => simp
  | grpc =>
    unfold Proto.negotiateStreamCompression
    dsimp only [encodingHeader]
    simp
  | grpcWeb =>
    unfold Proto.negotiateStreamCompression
    dsimp only [encodingHeader]
    simp

theorem responseCompression_iff {app : App Req Res} {p : Proto} {h : Headers} {c : Compression} :
    (p.negotiateStreamCompression h app.comps).2 = c ↔ ResponseCompression app p h c := by
  unfold ResponseCompression
  cases p <;> exact eq_comm

/-! ### the messages of the request -/

theorem serverPolicy_eq (app : App Req Res) (codec : ServerCodec Req Res) (comp : Compression) :
    Props.policyOf (app.reader codec comp) = serverPolicy app codec comp := rfl

theorem reader_data (app : App Req Res) (codec : ServerCodec Req Res) (comp : Compression) (fl : UInt8) :
    Props.TreatsAsData (app.reader codec comp) fl := fun _ _ => rfl

theorem wsgiMessages_iff {app : App Req Res} {env : Environ} (hp : Pieces env.input) {codec : ServerCodec Req Res}
    {comp : Compression} {s : ReqStream Req} :
    WsgiMessages app env codec comp s ↔ app.wsgiRequests env codec comp = s := by
  have key : ∀ fs rest, Splits env.input.flatten fs rest →
      app.wsgiRequests env codec comp = ⟨((serverPolicy app codec comp).deliver fs).1,
        ((serverPolicy app codec comp).deliver fs).2⟩ := by
    intro fs rest hs
    have hd := Props.reader_delivers (app.reader codec comp) () (readBody env.input)
      (by rw [readBody_flatten _ hp]; exact hs) (fun f _ => reader_data app codec comp f.flags)
    rw [serverPolicy_eq] at hd
    unfold App.wsgiRequests
    dsimp only
    rw [hd.1, hd.2]
    cases ((serverPolicy app codec comp).deliver fs).2 <;> rfl
  constructor
  · rintro ⟨fs, rest, hs, he⟩
    rw [key fs rest hs, ← he]
  · rintro rfl
    obtain ⟨fs, rest, hs⟩ := splits_exists env.input.flatten
    exact ⟨fs, rest, hs, by rw [key fs rest hs]⟩

theorem arrives_iff {r : List Recv} {bytes : Bytes} {e : Option Exc} :
    Arrives r bytes e ↔ bytes = (asgiBody r).1.flatten ∧
      e = (asgiBody r).2.map fun x => match x with
        | .cancelled => .mk .canceled (pys! "Request was cancelled")
        | e => e := by
  constructor
  · intro h
    induction h with
    | last b r => simp [asgiBody]
    | more b h ih =>
      obtain ⟨h1, h2⟩ := ih
      simp only [asgiBody, if_true, List.flatten_cons]
      exact ⟨by rw [h1], h2⟩
    | disconnect r => exact ⟨rfl, rfl⟩
    | other r => exact ⟨rfl, rfl⟩
    | cancelled => exact ⟨rfl, rfl⟩
  · rintro ⟨rfl, rfl⟩
    induction r with
    | nil => exact .cancelled
    | cons x r ih =>
      cases x with
      | request b more =>
        cases more with
        | true =>
          simp only [asgiBody, if_true, List.flatten_cons]
          exact .more b ih
        | false => simp [asgiBody]; exact .last b r
      | disconnect => exact .disconnect r
      | other => exact .other r

/-- the reader raises only what decompressing and decoding raise, and errors of the library -/
theorem asgiMessages_iff {app : App Req Res} {env : Env} (hc : env.cancelAfter = none) (ho : Ordinary app)
    {codec : ServerCodec Req Res} {comp : Compression} (hcodec : ∃ n, Dict.get? app.codecs n = some codec)
    (hcomp : comp = .identity ∨ ∃ n, Dict.get? app.comps n = some comp) {s : ReqStream Req} :
    AsgiMessages app env codec comp s ↔ app.asgiRequests env codec comp = s := by
  have hbad : ∀ fs, ((serverPolicy app codec comp).deliver fs).2 ≠ some .cancelled := by
    intro fs
    induction fs with
    | nil => simp [Policy.deliver]
    | cons f fs ih =>
      unfold Policy.deliver
      cases hm : (serverPolicy app codec comp).message f with
      | ok m => exact ih
      | error e =>
        dsimp only
        rintro ⟨⟩
        unfold Policy.message at hm
        split at hm
        · rename_i e' hi
          cases hm
          unfold Policy.inflate at hi
          split at hi
          · cases comp with
            | identity => cases hi
            | custom n c d =>
              dsimp only [serverPolicy] at hi
              rcases hcomp with h | ⟨k, hk⟩
              · cases h
              · obtain ⟨cls, msg, he⟩ := ho.decompress k _ hk _ _ hi
                cases he
          · cases hi
        · split at hm
          · rename_i e' hi
            cases hm
            unfold Policy.checkSize at hi
            repeat' split at hi
            all_goals cases hi
          · obtain ⟨n, hn⟩ := hcodec
            obtain ⟨cls, msg, he⟩ := ho.decode n codec hn _ _ hm
            cases he
  have key : ∀ bytes e fs rest, Arrives env.receive bytes e → Splits bytes fs rest →
      app.asgiRequests env codec comp = ⟨((serverPolicy app codec comp).deliver fs).1,
        (((serverPolicy app codec comp).deliver fs).2.orElse fun _ => e)⟩ := by
    intro bytes e fs rest ha hs
    obtain ⟨h1, h2⟩ := arrives_iff.1 ha
    have hd := Props.reader_delivers (app.reader codec comp) () (asgiBody env.receive).1
      (by rw [← h1]; exact hs) (fun f _ => reader_data app codec comp f.flags)
    rw [serverPolicy_eq] at hd
    unfold App.asgiRequests
    dsimp only
    rw [hc, hd.1, hd.2]
    dsimp only
    cases hx : ((serverPolicy app codec comp).deliver fs).2 with
    | none =>
      dsimp only
      rw [Option.orElse_none, h2]
      rfl
    | some x =>
      cases x with
      | cancelled => exact absurd hx (hbad fs)
      | _ => rfl
  constructor
  · rintro ⟨bytes, e, fs, rest, ha, hs, h1, h2⟩
    rw [key bytes e fs rest ha hs, ← h1, ← h2]
  · rintro rfl
    obtain ⟨fs, rest, hs⟩ := splits_exists (asgiBody env.receive).1.flatten
    have ha := (arrives_iff (r := env.receive)).2 ⟨rfl, rfl⟩
    refine ⟨_, _, fs, rest, ha, hs, ?_, ?_⟩ <;> rw [key _ _ fs rest ha hs]

/-! ### starting the handler -/

theorem responds_iff {c : Call Res} {script : Script Res} : c.toScript = script ↔ Responds c script := by
  obtain ⟨steps, r⟩ := c
  constructor
  · rintro rfl
    cases r with
    | ok r => exact .returned ..
    | error e => exact .raised ..
  · intro h
    cases h <;> rfl

theorem does_iff {h h' : HState Req} {s : Step} {e : Option Exc} : h.step s = (h', e) ↔ Does h s h' e := by
  obtain ⟨reqs, err, i, got⟩ := h
  constructor
  · intro hs
    cases s with
    | update f => cases hs; exact .update ..
    | recv c => cases reqs with
      | cons m ms => cases hs; exact .message ..
      | nil => cases err with
        | none => cases hs; exact .ended ..
        | some e => cases c <;> cases hs <;> constructor
  · intro hs
    cases hs <;> rfl

theorem starts_iff {handler : Handler Req Res} {s : ReqStream Req} {ctx : RequestContext} {req : Option Req} {h : HState Req}
    {script : Script Res} : handler.start s ctx = .ok (req, h, script) ↔ Starts s ctx handler req h script := by
  obtain ⟨ms, er⟩ := s
  constructor
  · intro he
    cases handler with
    | unary f =>
      unfold Handler.start consumeSingleRequest at he
      dsimp only at he
      split at he
      · cases he
      · rename_i m hm
        repeat' split at hm
        all_goals first | (cases hm; done) | (cases hm; cases he; exact .unary f _ rfl rfl (responds_iff.1 rfl))
    | clientStream f => cases he; exact .clientStream f (responds_iff.1 rfl)
    | serverStream f =>
      unfold Handler.start consumeSingleRequest at he
      dsimp only at he
      split at he
      · cases he
      · rename_i m hm
        repeat' split at hm
        all_goals first | (cases hm; done) | (cases hm; cases he; exact .serverStream f _ rfl rfl)
    | bidi f => cases he; exact .bidi f
  · intro hs
    cases hs with
    | unary f m hm he hr => dsimp only at hm he; subst hm he; rw [← responds_iff] at hr; subst hr; rfl
    | clientStream f hr => rw [← responds_iff] at hr; subst hr; rfl
    | serverStream f m hm he => dsimp only at hm he; subst hm he; rfl
    | bidi f => rfl

theorem consume_refuses {s : ReqStream Req} {e : Exc} (he : consumeSingleRequest s = .error e) : Refuses s e := by
  obtain ⟨ms, er⟩ := s
  unfold consumeSingleRequest at he
  dsimp only at he
  match ms, er with
  | [], none => cases he; exact .none rfl rfl _
  | [], some x => cases he; exact .failed (by simp) _ rfl
  | [m], none => cases he
  | [m], some x => cases he; exact .failed (by simp) _ rfl
  | m :: m' :: ms, _ => cases he; exact .several (by simp) _

theorem start_refuses {handler : Handler Req Res} {s : ReqStream Req} {ctx : RequestContext} {e : Exc}
    (he : handler.start s ctx = .error e) : TakesOne handler ∧ Refuses s e := by
  cases handler with
  | unary f =>
    unfold Handler.start at he
    dsimp only at he
    split at he
    · rename_i x hx; cases he; exact ⟨trivial, consume_refuses hx⟩
    · cases he
  | serverStream f =>
    unfold Handler.start at he
    dsimp only at he
    split at he
    · rename_i x hx; cases he; exact ⟨trivial, consume_refuses hx⟩
    · cases he
  | clientStream f => cases he
  | bidi f => cases he

/-! ### the response, WSGI -/

theorem wsgiEnding_eq (out : EndOut) : wsgiEnding out = wsgiEnd out := by cases out <;> rfl
theorem asgiEnding_eq (out : EndOut) : asgiEnding out = asgiEnd out := by cases out <;> rfl

theorem streamFields_eq (p : Proto) (codec : ServerCodec Req Res) (comp : Compression) (m : Meta) :
    streamFields p codec comp m = streamHeaders p codec.name comp.name m := by
  cases p <;> rfl

theorem wsgiCaught_eq {c : StreamCfg Req Res} {h : HState Req} {x : Exc} (hx : x.isException = true) {out : EndOut}
    (hend : EndsWith c.writer c.proto c.sc h.info.trailers (some x) out) (ev : List WEvent) :
    c.wsgiCaught h ev x = { calls := c.calls, received := h.got, events := ev ++ wsgiEnding out, escaped := none } := by
  unfold EndsWith at hend
  rw [errorOf_eq] at hend
  unfold StreamCfg.wsgiCaught StreamCfg.wsgiFinish
  rw [if_pos hx, hend, wsgiEnding_eq]

theorem wsgiBody_runs {c : StreamCfg Req Res} {h h' : HState Req} {acts : List (Act Res)} {o e : Option Exc} {i : Meta}
    {ms : List Res} (hr : Runs c.writer.write none h acts o i ms h' e) (he : Caught e) {out : EndOut}
    (hend : EndsWith c.writer c.proto c.sc h'.info.trailers e out) :
    ∃ bs : List Bytes, ms.map c.writer.write = bs.map .ok ∧ ∀ ev, c.wsgiBody o acts h ev =
      { calls := c.calls, received := h'.got, events := ev ++ bs.map .chunk ++ wsgiEnding out, escaped := none } := by
  induction hr with
  | done h o =>
    refine ⟨[], rfl, fun ev => ?_⟩
    unfold StreamCfg.wsgiBody
    cases o with
    | none =>
      unfold EndsWith at hend
      rw [errorOf_eq] at hend
      dsimp only
      unfold StreamCfg.wsgiFinish
      rw [hend, wsgiEnding_eq]
      simp
    | some x =>
      dsimp only
      rw [wsgiCaught_eq (he x rfl) hend]
      simp
  | step hs hr ih =>
    obtain ⟨bs, h1, h2⟩ := ih he hend
    refine ⟨bs, h1, fun ev => ?_⟩
    unfold StreamCfg.wsgiBody
    rw [does_iff.2 hs]
    exact h2 ev
  | raised hs =>
    refine ⟨[], rfl, fun ev => ?_⟩
    unfold StreamCfg.wsgiBody
    rw [does_iff.2 hs]
    dsimp only
    rw [wsgiCaught_eq (he _ rfl) hend]
    simp
  | emit hw hr ih =>
    obtain ⟨bs, h1, h2⟩ := ih he hend
    refine ⟨_ :: bs, by rw [List.map_cons, List.map_cons, hw, h1], fun ev => ?_⟩
    unfold StreamCfg.wsgiBody
    rw [hw]
    dsimp only
    rw [h2]
    simp
  | unwritable hw =>
    refine ⟨[], rfl, fun ev => ?_⟩
    unfold StreamCfg.wsgiBody
    rw [hw]
    dsimp only
    rw [Option.getD_none] at he hend
    rw [wsgiCaught_eq (he _ rfl) hend]
    simp

theorem wsgiErrorOnly_eq {c : StreamCfg Req Res} {h : HState Req} {x : Exc} (hx : x.isException = true) {out : EndOut}
    (hend : EndsWith c.writer c.proto c.sc h.info.trailers (some x) out) :
    c.wsgiErrorOnly h [] x =
      { calls := c.calls, received := h.got, events := c.wsgiStart h.info :: wsgiEnding out, escaped := none, logged := maybeLog x } := by
  unfold EndsWith at hend
  rw [errorOf_eq] at hend
  rw [Option.map_some] at hend
  unfold StreamCfg.wsgiErrorOnly
  rw [if_pos hx, hend, wsgiEnding_eq]
  rfl

theorem wsgiFirst_runs {c : StreamCfg Req Res} {h h' : HState Req} {acts : List (Act Res)} {o e : Option Exc} {i : Meta}
    {ms : List Res} (hr : Runs c.writer.write none h acts o i ms h' e) (he : Caught e) {out : EndOut}
    (hend : EndsWith c.writer c.proto c.sc h'.info.trailers e out) :
    ∃ bs : List Bytes, ms.map c.writer.write = bs.map .ok ∧ ∃ logged, (Produces h acts → logged = []) ∧ (¬ Produces h acts → logged = e.toList.flatMap maybeLog) ∧
      c.wsgiFirst o acts h =
      { calls := c.calls, received := h'.got, events := c.wsgiStart i :: bs.map .chunk ++ wsgiEnding out, escaped := none, logged } := by
  induction hr with
  | done h o =>
    refine ⟨[], rfl, o.toList.flatMap maybeLog, (fun hp => by cases hp), fun _ => rfl, ?_⟩
    unfold StreamCfg.wsgiFirst
    cases o with
    | none =>
      unfold EndsWith at hend
      rw [errorOf_eq] at hend
      rw [Option.map_none] at hend
      dsimp only
      rw [hend, wsgiEnding_eq]
      rfl
    | some x =>
      dsimp only
      rw [wsgiErrorOnly_eq (he x rfl) hend]
      simp
  | step hs hr ih =>
    obtain ⟨bs, h1, lg, g1, g2, h2⟩ := ih he hend
    refine ⟨bs, h1, lg, ?_, fun hn => g2 fun hp => hn (.later hs hp), ?_⟩
    · intro hp
      cases hp with
      | later hs' hp =>
        have := (does_iff.2 hs').symm.trans (does_iff.2 hs)
        cases this
        exact g1 hp
    · unfold StreamCfg.wsgiFirst
      rw [does_iff.2 hs]
      exact h2
  | raised hs =>
    refine ⟨[], rfl, _, ?_, fun _ => rfl, ?_⟩
    · intro hp
      cases hp with
      | later hs' hp =>
        have := (does_iff.2 hs').symm.trans (does_iff.2 hs)
        cases this
    · unfold StreamCfg.wsgiFirst
      rw [does_iff.2 hs]
      dsimp only
      rw [wsgiErrorOnly_eq (he _ rfl) hend]
      simp
  | emit hw hr ih =>
    obtain ⟨bs, h1, h2⟩ := wsgiBody_runs (.emit hw hr) he hend
    exact ⟨bs, h1, [], fun _ => rfl, fun hn => absurd .now hn, h2 _⟩
  | unwritable hw =>
    obtain ⟨bs, h1, h2⟩ := wsgiBody_runs (.unwritable hw) he hend
    exact ⟨bs, h1, [], fun _ => rfl, fun hn => absurd .now hn, h2 _⟩

/-- every run of a handler is described by `Runs` -/
theorem runs_exists (write : Res → Except Exc Bytes) (close : Option Exc) (h : HState Req) (acts : List (Act Res))
    (o : Option Exc) : ∃ i ms h' e, Runs write close h acts o i ms h' e := by
  induction acts generalizing h with
  | nil => exact ⟨_, _, _, _, .done h o⟩
  | cons a as ih =>
    cases a with
    | step s =>
      cases hs : h.step s with
      | mk h1 x =>
        cases x with
        | some x => exact ⟨_, _, _, _, .raised (does_iff.1 hs)⟩
        | none =>
          obtain ⟨i, ms, h', e, hr⟩ := ih h1
          exact ⟨_, _, _, _, .step (does_iff.1 hs) hr⟩
    | emit m =>
      cases hw : write m with
      | error x => exact ⟨_, _, _, _, .unwritable hw⟩
      | ok b =>
        obtain ⟨i, ms, h', e, hr⟩ := ih h
        exact ⟨_, _, _, _, .emit hw hr⟩

/-! ### the response, ASGI -/

theorem finish_eq (c : AsgiCfg Res) (calls : List (Called Req)) (h : HState Req) (log : List (Sent × Option Exc)) (sent : Bool)
    (exc : Option Exc) {out : EndOut}
    (hend : EndsWith c.writer c.proto c.sc h.info.trailers (asgiError exc) out) (hr : Reliable c.env) :
    c.finish calls ⟨h, log, sent, exc⟩ =
      { calls, received := h.got,
        sends := log ++ ((if sent then [] else [c.startEvent h.info]) ++ asgiEnding out).map (·, none),
        escaped := asgiRaised exc } := by
  unfold EndsWith at hend
  rw [errorOf_eq] at hend
  unfold AsgiCfg.finish
  dsimp only
  rw [hend]
  dsimp only
  unfold AsgiCfg.ensureStart
  cases sent with
  | true =>
    rw [if_pos rfl]
    dsimp only
    rw [sendAll_ok hr, ← asgiEnding_eq]
    dsimp only
    rw [if_pos rfl]
    rfl
  | false =>
    rw [if_neg (by decide), send_ok hr]
    dsimp only
    rw [sendAll_ok hr, ← asgiEnding_eq]
    dsimp only
    rw [if_neg (by decide)]
    simp

/-- the sends of one run -/
theorem loop_runs {c : AsgiCfg Res} (hrel : Reliable c.env) {close : Option Exc} (calls : List (Called Req)) {h h' : HState Req}
    {acts : List (Act Res)} {o e : Option Exc} {i : Meta} {ms : List Res}
    (hr : Runs c.writer.write close h acts o i ms h' e) {out : EndOut}
    (hend : EndsWith c.writer c.proto c.sc h'.info.trailers (asgiError e) out) :
    ∃ bs : List Bytes, ms.map c.writer.write = bs.map .ok ∧ ∀ log sent n, (∀ j, j ≤ n + ms.length → c.disconnected j = false) →
      c.finish calls (c.loop o close acts h log sent n) =
      { calls, received := h'.got,
        sends := log ++ ((if sent then [] else [c.startEvent i]) ++ bs.map (Sent.body · true) ++ asgiEnding out).map (·, none),
        escaped := asgiRaised e } := by
  induction hr with
  | done h o =>
    refine ⟨[], rfl, fun log sent n hd => ?_⟩
    unfold AsgiCfg.loop
    rw [finish_eq c calls _ _ _ _ hend hrel]
    simp
  | step hs hr ih =>
    obtain ⟨bs, h1, h2⟩ := ih hend
    refine ⟨bs, h1, fun log sent n hd => ?_⟩
    unfold AsgiCfg.loop
    rw [does_iff.2 hs]
    exact h2 log sent n hd
  | raised hs =>
    refine ⟨[], rfl, fun log sent n hd => ?_⟩
    unfold AsgiCfg.loop
    rw [does_iff.2 hs]
    dsimp only
    rw [finish_eq c calls _ _ _ _ hend hrel]
    simp
  | @emit h h' m as o e i ms b hw hr ih =>
    obtain ⟨bs, h1, h2⟩ := ih hend
    refine ⟨b :: bs, by rw [List.map_cons, List.map_cons, hw, h1], fun log sent n hd => ?_⟩
    unfold AsgiCfg.loop
    rw [if_neg (by rw [hd n (by omega)]; decide)]
    unfold AsgiCfg.ensureStart
    have hd' : ∀ j, j ≤ n + 1 + ms.length → c.disconnected j = false := by
      intro j hj
      exact hd j (by rw [List.length_cons]; omega)
    cases sent with
    | true =>
      rw [if_pos rfl]
      dsimp only
      rw [hw]
      dsimp only
      rw [send_ok hrel]
      dsimp only
      rw [h2 _ _ _ hd']
      simp
    | false =>
      rw [if_neg (by decide), send_ok hrel]
      dsimp only
      rw [hw]
      dsimp only
      rw [send_ok hrel]
      dsimp only
      rw [h2 _ _ _ hd']
      simp
  | @unwritable h m as o x hw =>
    refine ⟨[], rfl, fun log sent n hd => ?_⟩
    unfold AsgiCfg.loop
    rw [if_neg (by rw [hd n (by omega)]; decide)]
    unfold AsgiCfg.ensureStart
    have ha : afterClose close x = close.getD x := by
      cases close <;> rfl
    cases sent with
    | true =>
      rw [if_pos rfl]
      dsimp only
      rw [hw]
      dsimp only
      rw [ha]
      rw [finish_eq c calls _ _ _ _ hend hrel]
      simp
    | false =>
      rw [if_neg (by decide), send_ok hrel]
      dsimp only
      rw [hw]
      dsimp only
      rw [ha]
      rw [finish_eq c calls _ _ _ _ hend hrel]
      simp

/-- a disconnect noticed before the next message -/
theorem loop_disconnect {c : AsgiCfg Res} (hrel : Reliable c.env) {close : Option Exc} (calls : List (Called Req))
    {h h' : HState Req} {pre post : List (Act Res)} {m : Res} {o e : Option Exc} {i : Meta} {ms : List Res}
    (hr : Runs c.writer.write close h pre o i ms h' e) (ho : o = none) (hee : e = none) {out : EndOut} (outcome : Option Exc)
    (hend : EndsWith c.writer c.proto c.sc h'.info.trailers (asgiError (some (afterClose close clientDisconnected))) out) :
    ∃ bs : List Bytes, ms.map c.writer.write = bs.map .ok ∧ ∀ log sent n,
      (∀ j, j < n + ms.length → c.disconnected j = false) → c.disconnected (n + ms.length) = true →
      c.finish calls (c.loop outcome close (pre ++ .emit m :: post) h log sent n) =
      { calls, received := h'.got,
        sends := log ++ ((if sent then [] else [c.startEvent i]) ++ bs.map (Sent.body · true) ++ asgiEnding out).map (·, none),
        escaped := asgiRaised (some (afterClose close clientDisconnected)) } := by
  induction hr with
  | done h o =>
    refine ⟨[], rfl, fun log sent n _ hd => ?_⟩
    rw [List.nil_append]
    unfold AsgiCfg.loop
    rw [if_pos (by simpa using hd)]
    rw [finish_eq c calls _ _ _ _ hend hrel]
    simp
  | step hs hr ih =>
    obtain ⟨bs, h1, h2⟩ := ih ho hee hend
    refine ⟨bs, h1, fun log sent n hd hd2 => ?_⟩
    rw [List.cons_append]
    unfold AsgiCfg.loop
    rw [does_iff.2 hs]
    exact h2 log sent n hd hd2
  | raised hs => cases hee
  | @emit h h' m as o e i ms b hw hr ih =>
    obtain ⟨bs, h1, h2⟩ := ih ho hee hend
    refine ⟨b :: bs, by rw [List.map_cons, List.map_cons, hw, h1], fun log sent n hd hd2 => ?_⟩
    rw [List.cons_append]
    unfold AsgiCfg.loop
    rw [List.length_cons] at hd hd2
    rw [if_neg (by rw [hd n (by omega)]; decide)]
    unfold AsgiCfg.ensureStart
    have hd' : ∀ j, j < n + 1 + ms.length → c.disconnected j = false := fun j hj => hd j (by omega)
    have hd2' : c.disconnected (n + 1 + ms.length) = true := by
      rw [show n + 1 + ms.length = n + (ms.length + 1) by omega]; exact hd2
    cases sent with
    | true =>
      rw [if_pos rfl]
      dsimp only
      rw [hw]
      dsimp only
      rw [send_ok hrel]
      dsimp only
      rw [h2 _ _ _ hd' hd2']
      simp
    | false =>
      rw [if_neg (by decide), send_ok hrel]
      dsimp only
      rw [hw]
      dsimp only
      rw [send_ok hrel]
      dsimp only
      rw [h2 _ _ _ hd' hd2']
      simp
  | unwritable hw => cases hee

/-! ### the order of events, whatever the environment does -/

theorem delivered_ok (log : List (Sent × Option Exc)) (m : Sent) : delivered (log ++ [(m, none)]) = delivered log ++ [m] := by
  unfold delivered; simp

theorem delivered_failed (log : List (Sent × Option Exc)) (m : Sent) (e : Exc) :
    delivered (log ++ [(m, some e)]) = delivered log := by
  unfold delivered; simp

theorem delivered_all {log : List (Sent × Option Exc)} (h : ∀ s ∈ log, s.2 = none) : delivered log = log.map (·.1) := by
  unfold delivered
  rw [List.filter_eq_self.2 (fun s hs => by rw [h s hs]; rfl)]

/-- the events delivered while the handler runs -/
def Opening (tr sent : Bool) (log : List (Sent × Option Exc)) : Prop :=
  (sent = false → delivered log = []) ∧
  (sent = true → ∃ fields, ∃ chunks : List Bytes, delivered log = .start 200 fields tr :: chunks.map (Sent.body · true))

theorem ensureStart_opening {c : AsgiCfg Res} {sent : Bool} {log : List (Sent × Option Exc)} (m : Meta)
    (h : Opening c.proto.usesTrailers sent log) :
    (∀ l, c.ensureStart sent m log = (l, none) → Opening c.proto.usesTrailers true l) ∧
    (∀ l e, c.ensureStart sent m log = (l, some e) → Opening c.proto.usesTrailers sent l ∧ ∃ s ∈ l, s.2 ≠ none) := by
  unfold AsgiCfg.ensureStart
  cases sent with
  | true =>
    rw [if_pos rfl]
    exact ⟨fun l hl => (by cases hl; exact h), fun l e hl => (by cases hl)⟩
  | false =>
    rw [if_neg (by decide)]
    unfold Env.send
    dsimp only
    constructor
    · intro l hl
      obtain ⟨h1, h2⟩ := Prod.mk.injEq .. ▸ hl
      rw [h2] at h1
      subst h1
      refine ⟨fun hh => (by cases hh), fun _ => ⟨streamHeaders c.proto c.codecName c.comp.name m, [], ?_⟩⟩
      rw [delivered_ok, h.1 rfl]
      rfl
    · intro l e hl
      obtain ⟨h1, h2⟩ := Prod.mk.injEq .. ▸ hl
      rw [h2] at h1
      subst h1
      refine ⟨⟨fun _ => ?_, fun hh => (by cases hh)⟩, _, List.mem_append_right _ (List.mem_singleton.2 rfl), by simp⟩
      rw [delivered_failed]
      exact h.1 rfl

theorem loop_opening {c : AsgiCfg Res} (outcome close : Option Exc) (acts : List (Act Res)) (h : HState Req)
    (log : List (Sent × Option Exc)) (sent : Bool) (n : Nat) (ho : Opening c.proto.usesTrailers sent log) :
    Opening c.proto.usesTrailers (c.loop outcome close acts h log sent n).sentHeaders
      (c.loop outcome close acts h log sent n).log := by
  induction acts generalizing h log sent n with
  | nil => exact ho
  | cons a as ih =>
    cases a with
    | step s =>
      unfold AsgiCfg.loop
      cases hs : h.step s with
      | mk h1 x =>
        cases x with
        | some x => exact ho
        | none => exact ih h1 log sent n ho
    | emit m =>
      unfold AsgiCfg.loop
      split
      · exact ho
      · split
        · rename_i l e he
          exact ((ensureStart_opening h.info ho).2 l e he).1
        · rename_i l he
          have h1 := (ensureStart_opening h.info ho).1 l he
          split
          · exact h1
          · rename_i b hb
            obtain ⟨f, chunks, hd⟩ := h1.2 rfl
            split
            · rename_i l' e hl'
              unfold Env.send at hl'
              obtain ⟨h2, h3⟩ := Prod.mk.injEq .. ▸ hl'
              rw [h3] at h2
              subst h2
              refine ⟨fun hh => (by cases hh), fun _ => ⟨f, chunks, ?_⟩⟩
              rw [delivered_failed]; exact hd
            · rename_i l' hl'
              unfold Env.send at hl'
              obtain ⟨h2, h3⟩ := Prod.mk.injEq .. ▸ hl'
              rw [h3] at h2
              subst h2
              refine ih h _ true (n + 1) ⟨fun hh => (by cases hh), fun _ => ⟨f, chunks ++ [b], ?_⟩⟩
              rw [delivered_ok, hd]
              simp

/-- the ending of a response: complete, or cut at a send that failed -/
theorem sendAll_delivered (env : Env) (ms : List Sent) (log : List (Sent × Option Exc)) :
    (∀ l, env.sendAll log ms = (l, none) → delivered l = delivered log ++ ms) ∧
    (∀ l e, env.sendAll log ms = (l, some e) → delivered l <+: delivered log ++ ms ∧ ∃ s ∈ l, s.2 ≠ none) := by
  induction ms generalizing log with
  | nil =>
    unfold Env.sendAll
    exact ⟨fun l hl => (by cases hl; simp), fun l e hl => (by cases hl)⟩
  | cons m ms ih =>
    unfold Env.sendAll Env.send
    dsimp only
    cases he : env.sendErr log.length with
    | some e =>
      dsimp only
      refine ⟨fun l hl => (by cases hl), fun l e' hl => ?_⟩
      cases hl
      refine ⟨?_, _, List.mem_append_right _ (List.mem_singleton.2 rfl), by simp⟩
      rw [delivered_failed]
      exact List.prefix_append _ _
    | none =>
      dsimp only
      obtain ⟨h1, h2⟩ := ih (log ++ [(m, none)])
      constructor
      · intro l hl
        rw [h1 l hl, delivered_ok]
        simp
      · intro l e hl
        obtain ⟨h3, h4⟩ := h2 l e hl
        rw [delivered_ok, List.append_assoc] at h3
        exact ⟨h3, h4⟩

theorem end_error {w : EnvelopeWriter Res} {p : Proto} {sc : StatusCodec} {tr : Headers} {e : Option ConnectErr} {x : Exc}
    (h : w.end' p sc tr e = .error x) : p ≠ .grpc ∧ ∃ msg, x = .other .structError msg := by
  unfold EnvelopeWriter.end' at h
  cases p with
  | grpc => cases h
  | connect =>
    refine ⟨by decide, ?_⟩
    unfold EnvelopeWriter.connectEnd packEnvelope at h
    dsimp only at h
    split at h
    · cases h
    · cases h; exact ⟨_, rfl⟩
  | grpcWeb =>
    refine ⟨by decide, ?_⟩
    unfold EnvelopeWriter.grpcWebEnd packEnvelope at h
    dsimp only at h
    split at h
    · cases h
    · cases h; exact ⟨_, rfl⟩

theorem end_kind {w : EnvelopeWriter Res} {p : Proto} {sc : StatusCodec} {tr : Headers} {e : Option ConnectErr} {out : EndOut}
    (h : w.end' p sc tr e = .ok out) :
    (p.usesTrailers = true ∧ ∃ t, out = .trailers t) ∨ (p.usesTrailers = false ∧ ∃ b, out = .body b) := by
  unfold EnvelopeWriter.end' at h
  cases p with
  | grpc => cases h; exact .inl ⟨rfl, _, rfl⟩
  | connect =>
    dsimp only at h
    cases hc : w.connectEnd tr e with
    | error x => rw [hc] at h; cases h
    | ok b => rw [hc] at h; cases h; exact .inr ⟨rfl, _, rfl⟩
  | grpcWeb =>
    dsimp only at h
    cases hc : w.grpcWebEnd sc tr e with
    | error x => rw [hc] at h; cases h
    | ok b => rw [hc] at h; cases h; exact .inr ⟨rfl, _, rfl⟩

/-- Everything `_handle_stream` sends: a prefix of a complete response; complete when no send fails, unless the end of
the body is too long to be written. -/
theorem finish_complete {c : AsgiCfg Res} (calls : List (Called Req)) {l : LoopOut Req}
    (ho : Opening c.proto.usesTrailers l.sentHeaders l.log) :
    ∃ full, AsgiComplete c.proto.usesTrailers full ∧ delivered (c.finish calls l).sends <+: full ∧
      ((∀ s ∈ (c.finish calls l).sends, s.2 = none) → delivered (c.finish calls l).sends = full ∨
        (c.proto ≠ .grpc ∧ ∃ msg, (c.finish calls l).escaped = some (.other .structError msg))) := by
  -- a completion of what was sent before the end
  have hcomp : ∀ (f : List (Str × Str)) (chunks : List Bytes), AsgiComplete c.proto.usesTrailers
      (.start 200 f c.proto.usesTrailers :: chunks.map (Sent.body · true) ++ [.body [] false] ++
        (if c.proto.usesTrailers = true then [.trailers [] false] else [])) :=
    fun f chunks => ⟨200, f, chunks, [], [], rfl⟩
  have hopen : ∀ {sent log}, Opening c.proto.usesTrailers sent log → ∃ full, AsgiComplete c.proto.usesTrailers full ∧
      delivered log <+: full := by
    intro sent log hop
    cases sent with
    | false => exact ⟨_, hcomp [] [], by rw [hop.1 rfl]; exact List.nil_prefix⟩
    | true =>
      obtain ⟨f, chunks, hd⟩ := hop.2 rfl
      refine ⟨_, hcomp f chunks, ?_⟩
      rw [hd, List.append_assoc]
      exact List.prefix_append _ _
  unfold AsgiCfg.finish
  cases hend : c.writer.end' c.proto c.sc l.h.info.trailers ((asgiError l.exc).map ConnectErr.fromException) with
  | error x =>
    dsimp only
    obtain ⟨full, h1, h2⟩ := hopen ho
    obtain ⟨h3, msg, rfl⟩ := end_error hend
    exact ⟨full, h1, h2, fun _ => .inr ⟨h3, msg, rfl⟩⟩
  | ok out =>
    dsimp only
    cases hs : c.ensureStart l.sentHeaders l.h.info l.log with
    | mk log x =>
      cases x with
      | some x =>
        dsimp only
        obtain ⟨h1, s, hs1, hs2⟩ := (ensureStart_opening l.h.info ho).2 _ _ hs
        obtain ⟨full, h3, h4⟩ := hopen h1
        exact ⟨full, h3, h4, fun hall => absurd (hall s hs1) hs2⟩
      | none =>
        dsimp only
        have h1 := (ensureStart_opening l.h.info ho).1 _ hs
        obtain ⟨f, chunks, hd⟩ := h1.2 rfl
        have hfull : AsgiComplete c.proto.usesTrailers (delivered log ++ asgiEnd out) := by
          rw [hd]
          rcases end_kind hend with ⟨ht, t, rfl⟩ | ⟨ht, b, rfl⟩
          · rw [ht]; exact ⟨200, f, chunks, [], t.allitems, by simp [asgiEnd]⟩
          · rw [ht]; exact ⟨200, f, chunks, b, [], by simp [asgiEnd]⟩
        cases ha : c.env.sendAll log (asgiEnd out) with
        | mk log' x =>
          obtain ⟨h2, h3⟩ := sendAll_delivered c.env (asgiEnd out) log
          cases x with
          | none =>
            dsimp only
            refine ⟨_, hfull, (by rw [h2 _ ha]; exact List.prefix_rfl), fun _ => .inl (h2 _ ha)⟩
          | some x =>
            dsimp only
            obtain ⟨h4, s, hs1, hs2⟩ := h3 _ _ ha
            exact ⟨_, hfull, h4, fun hall => absurd (hall s hs1) hs2⟩

/-! ### messages received -/

theorem step_got (h : HState Req) (s : Step) :
    (h.step s).1.got ++ (h.step s).1.reqs = h.got ++ h.reqs := by
  unfold HState.step
  cases s with
  | update f => rfl
  | recv c =>
    dsimp only
    cases hr : h.reqs with
    | cons m ms => simp
    | nil => cases he : h.err <;> simp [hr]

theorem runs_got {write : Res → Except Exc Bytes} {close : Option Exc} {h h' : HState Req} {acts : List (Act Res)}
    {o e : Option Exc} {i : Meta} {ms : List Res} (hr : Runs write close h acts o i ms h' e) :
    h'.got ++ h'.reqs = h.got ++ h.reqs := by
  induction hr with
  | done h o => rfl
  | @step h h1 h' s as o e i ms hs hr ih => rw [ih, ← step_got h s, does_iff.2 hs]
  | @raised h h' s as o e hs => rw [← step_got h s, does_iff.2 hs]
  | emit hw hr ih => exact ih
  | unwritable hw => rfl

theorem wsgiBody_received (c : StreamCfg Req Res) (o : Option Exc) (acts : List (Act Res)) (h : HState Req) (ev : List WEvent) :
    (c.wsgiBody o acts h ev).received <+: h.got ++ h.reqs := by
  have hcaught : ∀ (h : HState Req) ev e, (c.wsgiCaught h ev e).received = h.got := by
    intro h ev e
    unfold StreamCfg.wsgiCaught StreamCfg.wsgiFinish
    repeat' split
    all_goals rfl
  induction acts generalizing h ev with
  | nil =>
    unfold StreamCfg.wsgiBody StreamCfg.wsgiFinish
    repeat' split
    all_goals first | rw [hcaught] | skip
    all_goals exact List.prefix_append _ _
  | cons a as ih =>
    unfold StreamCfg.wsgiBody
    cases a with
    | step s =>
      dsimp only
      have hg := step_got h s
      split
      · rename_i h1 e hs
        rw [hs] at hg
        rw [hcaught, ← hg]
        exact List.prefix_append _ _
      · rename_i h1 hs
        rw [hs] at hg
        rw [← hg]
        exact ih h1 ev
    | emit m =>
      dsimp only
      split
      · rw [hcaught]; exact List.prefix_append _ _
      · exact ih h _

theorem wsgiErrorOnly_received (c : StreamCfg Req Res) (h : HState Req) (ev : List WEvent) (e : Exc) :
    (c.wsgiErrorOnly h ev e).received = h.got := by
  unfold StreamCfg.wsgiErrorOnly
  dsimp only
  repeat' split
  all_goals rfl

theorem wsgiFirst_received (c : StreamCfg Req Res) (o : Option Exc) (acts : List (Act Res)) (h : HState Req) :
    (c.wsgiFirst o acts h).received <+: h.got ++ h.reqs := by
  induction acts generalizing h with
  | nil =>
    unfold StreamCfg.wsgiFirst
    repeat' split
    all_goals first | rw [wsgiErrorOnly_received] | skip
    all_goals exact List.prefix_append _ _
  | cons a as ih =>
    unfold StreamCfg.wsgiFirst
    cases a with
    | step s =>
      dsimp only
      have hg := step_got h s
      split
      · rename_i h1 e hs
        rw [hs] at hg
        rw [wsgiErrorOnly_received, ← hg]
        exact List.prefix_append _ _
      · rename_i h1 hs
        rw [hs] at hg
        rw [← hg]
        exact ih h1
    | emit m => exact wsgiBody_received ..

theorem finish_received (c : AsgiCfg Res) (calls : List (Called Req)) (l : LoopOut Req) :
    (c.finish calls l).received = l.h.got := by
  unfold AsgiCfg.finish
  repeat' split
  all_goals rfl

theorem loop_received (c : AsgiCfg Res) (o close : Option Exc) (acts : List (Act Res)) (h : HState Req)
    (log : List (Sent × Option Exc)) (sent : Bool) (n : Nat) :
    (c.loop o close acts h log sent n).h.got <+: h.got ++ h.reqs := by
  induction acts generalizing h log sent n with
  | nil => exact List.prefix_append _ _
  | cons a as ih =>
    unfold AsgiCfg.loop
    cases a with
    | step s =>
      dsimp only
      have hg := step_got h s
      split
      · rename_i h1 e hs
        rw [hs] at hg
        rw [← hg]
        exact List.prefix_append _ _
      · rename_i h1 hs
        rw [hs] at hg
        rw [← hg]
        exact ih h1 _ _ _
    | emit m =>
      dsimp only
      repeat' split
      all_goals first | exact ih h _ _ _ | exact List.prefix_append _ _

/-- what a handler is started with comes from the request stream -/
theorem starts_reqs {s : ReqStream Req} {ctx : RequestContext} {handler : Handler Req Res} {req : Option Req} {h : HState Req}
    {script : Script Res} (hs : Starts s ctx handler req h script) :
    (∀ m, req = some m → m ∈ s.messages) ∧ h.got = [] ∧ (∀ m ∈ h.reqs, m ∈ s.messages) := by
  cases hs with
  | unary f m hm he hr =>
    exact ⟨fun m' h' => (by cases h'; rw [hm]; exact List.mem_singleton.2 rfl), rfl, fun m' h' => (by cases h')⟩
  | clientStream f hr => exact ⟨fun m' h' => (by cases h'), rfl, fun m' h' => h'⟩
  | serverStream f m hm he =>
    exact ⟨fun m' h' => (by cases h'; rw [hm]; exact List.mem_singleton.2 rfl), rfl, fun m' h' => (by cases h')⟩
  | bidi f => exact ⟨fun m' h' => (by cases h'), rfl, fun m' h' => h'⟩

end Conn
