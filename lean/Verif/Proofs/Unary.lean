import Verif.Proofs.ServerSync
import Verif.Proofs.ServerAsync
import Verif.Proofs.MediaType
/-
Reading unary Connect requests: the models against the declarative descriptions of `Spec/Server`.
-/
namespace Conn
open Py Spec

variable {Req Res : Type}

/-! ### protocol headers -/

theorem connectTimeout_ok {h : Option Str} :
    (∃ t, connectTimeout h = .ok t) ↔ ∀ v, h = some v → v = [] ∨ (v.length ≤ 10 ∧ ∃ n, parseInt v = some n) := by
  cases h with
  | none => exact ⟨fun _ v hv => (by cases hv), fun _ => ⟨none, rfl⟩⟩
  | some t =>
    unfold connectTimeout
    dsimp only
    by_cases e : t = []
    · subst e
      exact ⟨fun _ v hv => .inl (by cases hv; rfl), fun _ => ⟨none, rfl⟩⟩
    · rw [if_neg (by simpa using e)]
      by_cases e2 : t.length > 10
      · rw [if_pos e2]
        constructor
        · rintro ⟨_, h⟩; cases h
        · intro h
          rcases h t rfl with h | h
          · exact absurd h e
          · omega
      · rw [if_neg e2]
        cases hp : parseInt t with
        | none =>
          constructor
          · rintro ⟨_, h⟩; cases h
          · intro h
            rcases h t rfl with h | ⟨_, n, hn⟩
            · exact absurd h e
            · rw [hp] at hn; cases hn
        | some n => exact ⟨fun _ v hv => (by cases hv; exact .inr ⟨by omega, n, hp⟩), fun _ => ⟨_, rfl⟩⟩

theorem connectTimeout_error {h : Option Str} {e : Exc} (he : connectTimeout h = .error e) :
    ∃ msg, e = .mk .invalidArgument msg := by
  unfold connectTimeout at he
  repeat' split at he
  all_goals first | (cases he; exact ⟨_, rfl⟩) | cases he

theorem version_iff (h : Headers) : h.getD (pys! "connect-protocol-version") (pys! "1") = pys! "1" ↔
    ∀ v, h.get (pys! "connect-protocol-version") = some v → v = ['1'] := by
  rw [Headers.getD_eq, Headers.get_eq]
  cases (h.getall (pys! "connect-protocol-version")).head? <;> simp

/-- The context of a Connect request: it is created iff the method may run and the headers are in order; the failures. -/
theorem connectContext {ct : Str} (hct : ConnectType ct) (m : MethodInfo) (hm : Str) (h : Headers) (hrun : MayRun m ct hm) :
    (ConnectHeaders h ∧ ∀ scheme client, ∃ ctx, connectServerContext m hm scheme h client = .ok ctx) ∨
    (¬ ConnectHeaders h ∧ ∃ msg, ∀ scheme client, connectServerContext m hm scheme h client = .error (.mk .invalidArgument msg)) := by
  have hck : connectMethodCheck m.idempotency hm = none := by
    unfold connectMethodCheck
    rcases hrun with rfl | ⟨rfl, hi, _⟩
    · by_cases hi : m.idempotency = .noSideEffects
      · rw [if_pos hi, if_pos (.inr rfl)]
      · rw [if_neg hi, if_pos rfl]
    · rw [if_pos hi, if_pos (.inl rfl)]
  by_cases hv : h.getD (pys! "connect-protocol-version") (pys! "1") = pys! "1"
  · cases ht : connectTimeout (h.get (pys! "connect-timeout-ms")) with
    | ok t =>
      refine .inl ⟨⟨(version_iff h).1 hv, connectTimeout_ok.1 ⟨t, ht⟩⟩, fun scheme client => ?_⟩
      unfold connectServerContext
      rw [hck]
      dsimp only
      rw [if_neg (by rw [hv]; exact fun h => h rfl), ht]
      exact ⟨_, rfl⟩
    | error e =>
      obtain ⟨msg, rfl⟩ := connectTimeout_error ht
      refine .inr ⟨fun hc => ?_, msg, fun scheme client => ?_⟩
      · obtain ⟨t, ht'⟩ := connectTimeout_ok.2 hc.timeout
        rw [ht] at ht'; cases ht'
      · unfold connectServerContext
        rw [hck]
        dsimp only
        rw [if_neg (by rw [hv]; exact fun h => h rfl), ht]
  · refine .inr ⟨fun hc => hv ((version_iff h).2 hc.version),
      pys! "connect-protocol-version must be '1': got '" ++ h.getD (pys! "connect-protocol-version") (pys! "1") ++ pys! "'",
      fun scheme client => ?_⟩
    · unfold connectServerContext
      rw [hck]
      dsimp only
      rw [if_pos hv]

/-- Routing of a unary Connect request whose method may run. -/
theorem wsgiRoute_unary {app : App Req Res} {env : Environ} {key : Str} {m : MethodInfo}
    {f : Req → RequestContext → Call Res} {hm : Str} (h : WsgiConnectUnary app env key m f hm)
    (hrun : MayRun m ((wsgiHeaders env.vars).getD (pys! "content-type") []) hm) :
    (ConnectHeaders (wsgiHeaders env.vars) ∧ ∃ ctx, app.wsgiRoute env = .ok
        { key, ep := ⟨m, .unary f⟩, httpMethod := hm, headers := wsgiHeaders env.vars, proto := .connect, ctx } ∧
        CtxIs ctx m hm (wsgiScheme env.vars) (wsgiHeaders env.vars) (wsgiClient env.vars)) ∨
    (¬ ConnectHeaders (wsgiHeaders env.vars) ∧ ∃ msg, app.wsgiRoute env = .error (.mk .invalidArgument msg)) := by
  have hn := (negotiate_connect _).2 h.connect
  have hc := connectContext h.connect m hm (wsgiHeaders env.vars) hrun
  cases hr : app.wsgiRoute env with
  | ok r =>
    obtain ⟨h1, h2, h3, h4, h5, _⟩ := wsgiRoute_ok hr
    obtain ⟨hk, hep⟩ := WsgiTarget.unique h1 h.target
    have hm' : r.httpMethod = hm := by rw [h.method] at h2; exact (Option.some.inj h2).symm
    obtain ⟨key', ep', hm'', headers', p', ctx'⟩ := r
    dsimp only at *
    subst hk hep hm' h3
    rw [hn] at h4
    subst h4
    rcases hc with ⟨hc, _⟩ | ⟨_, msg, he⟩
    · exact .inl ⟨hc, ctx', rfl, h5⟩
    · exfalso
      unfold App.wsgiRoute at hr
      rw [wsgiLookup_ok.2 h.target] at hr
      dsimp only at hr
      rw [item_ok.2 h.method] at hr
      dsimp only at hr
      rw [hn] at hr
      dsimp only [Proto.serverContext] at hr
      rw [he, if_neg (by simp [Proto.usesTrailers])] at hr
      cases hr
  | error e =>
    unfold App.wsgiRoute at hr
    rw [wsgiLookup_ok.2 h.target] at hr
    dsimp only at hr
    rw [item_ok.2 h.method] at hr
    dsimp only at hr
    rw [hn] at hr
    dsimp only [Proto.serverContext] at hr
    rw [if_neg (by simp [Proto.usesTrailers])] at hr
    rcases hc with ⟨_, hok⟩ | ⟨hc, msg, he⟩
    · split at hr
      · rename_i e' he'
        obtain ⟨ctx, hctx⟩ := hok _ (wsgiClient env.vars)
        rw [hctx] at he'; cases he'
      · cases hr
    · rw [he] at hr
      cases hr
      exact .inr ⟨hc, msg, rfl⟩

theorem asgiRoute_unary {app : App Req Res} {scope : Scope} {headers : Headers} {key : Str} {m : MethodInfo}
    {f : Req → RequestContext → Call Res} (h : AsgiConnectUnary app scope headers key m f)
    (hrun : MayRun m (headers.getD (pys! "content-type") []) scope.method) :
    (ConnectHeaders headers ∧ ∃ ctx, app.asgiRoute scope = .ok
        { key, ep := ⟨m, .unary f⟩, httpMethod := scope.method, headers, proto := .connect, ctx } ∧
        CtxIs ctx m scope.method (asgiScheme scope) headers (scope.client.map fun ca => ca.1 ++ pys! ":" ++ ca.2)) ∨
    (¬ ConnectHeaders headers ∧ ∃ msg, app.asgiRoute scope = .error (.mk .invalidArgument msg)) := by
  have hn := (negotiate_connect _).2 h.connect
  have hc := connectContext h.connect m scope.method headers hrun
  cases hr : app.asgiRoute scope with
  | ok r =>
    obtain ⟨h1, h2, h3, h4, h5, _⟩ := asgiRoute_ok hr
    obtain ⟨hk, hep⟩ := AsgiTarget.unique h1 h.target
    rw [h.decoded] at h3
    obtain ⟨key', ep', hm'', headers', p', ctx'⟩ := r
    dsimp only at *
    cases h3
    subst hk hep h2
    rw [hn] at h4
    subst h4
    rcases hc with ⟨hc, _⟩ | ⟨_, msg, he⟩
    · exact .inl ⟨hc, ctx', rfl, h5⟩
    · exfalso
      unfold App.asgiRoute at hr
      rw [asgiLookup_ok.2 h.target] at hr
      dsimp only at hr
      rw [h.decoded] at hr
      dsimp only at hr
      rw [hn] at hr
      dsimp only [Proto.serverContext] at hr
      rw [he, if_neg (by simp [Proto.usesTrailers])] at hr
      cases hr
  | error e =>
    unfold App.asgiRoute at hr
    rw [asgiLookup_ok.2 h.target] at hr
    dsimp only at hr
    rw [h.decoded] at hr
    dsimp only at hr
    rw [hn] at hr
    dsimp only [Proto.serverContext] at hr
    rw [if_neg (by simp [Proto.usesTrailers])] at hr
    rcases hc with ⟨_, hok⟩ | ⟨hc, msg, he⟩
    · split at hr
      · rename_i e' he'
        obtain ⟨ctx, hctx⟩ := hok _ (scope.client.map fun ca => ca.1 ++ pys! ":" ++ ca.2)
        rw [hctx] at he'; cases he'
      · cases hr
    · rw [he] at hr
      cases hr
      exact .inr ⟨hc, msg, rfl⟩

/-! ### codec names -/

theorem partitionFst_eq (v : Str) : partitionFst ';' v = v.takeWhile (· != ';') := by
  first | rfl | (unfold partitionFst; rfl)

theorem unaryCodecName_iff (ct name : Str) : UnaryCodecName ct name ↔ connectCodecName ct false = name := by
  have hmt : normalizeContentType ct = mediaType ct := by
    unfold normalizeContentType mediaType
    rw [partitionFst_eq]
  unfold connectCodecName UnaryCodecName
  rw [hmt]
  dsimp only
  rw [if_neg (show ¬ (false = true) by decide)]
  by_cases hs : startsWith (pys! "application/") (mediaType ct) = true
  · rw [if_pos hs]
    obtain ⟨r, hr⟩ := (Props.isPrefixOf_iff _ _).1 hs
    rw [hr, List.drop_left]
    constructor
    · rintro (h | ⟨h, _⟩)
      · exact List.append_cancel_left h
      · exact absurd ⟨r, rfl⟩ h
    · rintro rfl; exact .inl rfl
  · rw [if_neg hs]
    have hno : ¬ pys! "application/" <+: mediaType ct := by
      rintro ⟨r, hr⟩
      exact hs ((Props.isPrefixOf_iff _ _).2 ⟨r, hr.symm⟩)
    constructor
    · rintro (h | ⟨_, h⟩)
      · exact absurd ⟨name, h.symm⟩ hno
      · exact h
    · exact fun h => .inr ⟨hno, h⟩

/-! ### WSGI bodies -/

theorem readWhole {env : Environ} (hp : Pieces env.input) : (readBody env.input).flatten = env.input.flatten :=
  readBody_flatten _ hp

/-- what reading the raw body gives -/
theorem wsgiRawBody_cases {env : Environ} (hp : Pieces env.input) :
    (NoLength env ∧ wsgiRawBody env = .ok env.input.flatten) ∨
    (∃ n, DeclaredLength env n ∧ n ≤ env.input.flatten.length ∧ wsgiRawBody env = .ok (env.input.flatten.take n)) ∨
    (∃ n, DeclaredLength env n ∧ env.input.flatten.length < n ∧
      wsgiRawBody env = .error (truncated n env.input.flatten.length)) ∨
    (∃ s cls msg, Dict.get? env.vars (pys! "CONTENT_LENGTH") = some s ∧ s ≠ [] ∧ parseInt s = none ∧
      wsgiRawBody env = .error (.other cls msg)) := by
  unfold wsgiRawBody
  cases hg : Dict.get? env.vars (pys! "CONTENT_LENGTH") with
  | none =>
    refine .inl ⟨fun s hs => (by rw [hg] at hs; cases hs), ?_⟩
    dsimp only
    rw [if_neg (by decide), readWhole hp]
  | some s =>
    dsimp only
    by_cases he : s = []
    · subst he
      refine .inl ⟨fun s hs => (by rw [hg] at hs; cases hs; exact .inl rfl), ?_⟩
      rw [if_pos (by rfl)]
      dsimp only
      rw [if_neg (by decide), readWhole hp]
    · rw [if_neg (by simpa using he)]
      cases hi : parseInt s with
      | none => exact .inr (.inr (.inr ⟨s, _, _, rfl, he, hi, rfl⟩))
      | some n =>
        dsimp only
        by_cases hpos : n > 0
        · rw [if_pos hpos]
          have hd : DeclaredLength env n.toNat :=
            ⟨by omega, s, hg, he, by rw [hi]; congr 1; omega⟩
          rw [readBodyWithLength_eq _ hp]
          by_cases hl : n.toNat ≤ env.input.flatten.length
          · rw [if_pos hl]; exact .inr (.inl ⟨_, hd, hl, rfl⟩)
          · rw [if_neg hl]; exact .inr (.inr (.inl ⟨_, hd, by omega, rfl⟩))
        · rw [if_neg hpos]
          refine .inl ⟨fun s' hs => ?_, by rw [readWhole hp]⟩
          rw [hg] at hs; cases hs
          exact .inr ⟨n, hi, by omega⟩

theorem declared_unique {env : Environ} {n n' : Nat} (h : DeclaredLength env n) (h' : DeclaredLength env n') : n = n' := by
  obtain ⟨_, s, h1, _, h2⟩ := h
  obtain ⟨_, s', h1', _, h2'⟩ := h'
  rw [h1] at h1'; cases h1'
  rw [h2] at h2'
  have := Option.some.inj h2'
  omega

theorem declared_not_none {env : Environ} {n : Nat} (h : DeclaredLength env n) : ¬ NoLength env := by
  obtain ⟨hp, s, h1, hne, h2⟩ := h
  intro hn
  rcases hn s h1 with h | ⟨k, hk, hk0⟩
  · exact hne h
  · rw [h2] at hk
    have := Option.some.inj hk
    omega

theorem wsgiRawBody_ok {env : Environ} (hp : Pieces env.input) {raw : Bytes} :
    wsgiRawBody env = .ok raw ↔ WsgiBody env raw := by
  rcases wsgiRawBody_cases hp with ⟨h, e⟩ | ⟨n, h, hl, e⟩ | ⟨n, h, hl, e⟩ | ⟨s, cls, msg, h1, h2, h3, e⟩
  · rw [e]
    constructor
    · intro h'; cases h'; exact .whole h
    · intro h'
      cases h' with
      | whole => rfl
      | declared hd _ => exact absurd h (declared_not_none hd)
  · rw [e]
    constructor
    · intro h'; cases h'; exact .declared h hl
    · intro h'
      cases h' with
      | whole h' => exact absurd h' (declared_not_none h)
      | declared hd _ => rw [declared_unique h hd]
  · rw [e]
    constructor
    · intro h'; cases h'
    · intro h'
      cases h' with
      | whole h' => exact absurd h' (declared_not_none h)
      | declared hd hl' => rw [declared_unique h hd] at hl; omega
  · rw [e]
    constructor
    · intro h'; cases h'
    · intro h'
      cases h' with
      | whole h' =>
        rcases h' s h1 with h | ⟨k, hk, _⟩
        · exact absurd h h2
        · rw [h3] at hk; cases hk
      | declared hd _ =>
        obtain ⟨_, s', h1', _, h2'⟩ := hd
        rw [h1] at h1'; cases h1'
        rw [h3] at h2'; cases h2'

theorem wsgiEncoding_eq (env : Environ) : lower (match Dict.get? env.vars (pys! "HTTP_CONTENT_ENCODING") with
    | some v => v
    | none => pys! "identity") = wsgiEncoding env := by
  unfold wsgiEncoding
  cases Dict.get? env.vars (pys! "HTTP_CONTENT_ENCODING") <;> rfl

theorem wsgiDecompress_eq (app : App Req Res) (env : Environ) (raw : Bytes) :
    app.wsgiDecompress env raw =
      if wsgiEncoding env = pys! "identity" then .ok raw
      else match Dict.get? app.comps (wsgiEncoding env) with
        | none => .error (unknownCompression (wsgiEncoding env) app.comps)
        | some c => match c.decompress raw with
          | .ok b => .ok b
          | .error e => .error (wrapExc .invalidArgument (pys! "Failed to decompress request body: ") e) := by
  rw [← wsgiEncoding_eq]
  rfl

theorem wsgiDecompress_ok {app : App Req Res} {env : Environ} {raw data : Bytes} :
    app.wsgiDecompress env raw = .ok data ↔ Uncompressed app (wsgiEncoding env) raw data := by
  rw [wsgiDecompress_eq]
  unfold Uncompressed
  by_cases hi : wsgiEncoding env = pys! "identity"
  · rw [if_pos hi]
    constructor
    · intro h; cases h; exact .inl ⟨hi, rfl⟩
    · rintro (⟨_, rfl⟩ | ⟨h, _⟩)
      · rfl
      · exact absurd hi h
  · rw [if_neg hi]
    constructor
    · intro h
      split at h
      · cases h
      · rename_i c hc
        split at h
        · rename_i b hb
          cases h
          exact .inr ⟨hi, c, hc, hb⟩
        · cases h
    · rintro (⟨h, _⟩ | ⟨_, c, hc, hb⟩)
      · exact absurd h hi
      · rw [hc]
        dsimp only
        rw [hb]

theorem checkSize_ok {app : App Req Res} {data : Bytes} : checkSize app.readMax data = .ok () ↔ WithinLimit app data := by
  unfold checkSize WithinLimit
  cases app.readMax with
  | none => exact ⟨fun _ n h => (by cases h), fun _ => rfl⟩
  | some n =>
    dsimp only
    by_cases h : (data.length : Int) > n
    · rw [if_pos h]
      exact ⟨fun h => (by cases h), fun h' => absurd (h' n rfl) (by omega)⟩
    · rw [if_neg h]
      exact ⟨fun _ n' h' => (by cases h'; omega), fun _ => rfl⟩

theorem wsgiPostBody_ok {app : App Req Res} {env : Environ} (hp : Pieces env.input) {codec : ServerCodec Req Res} {req : Req} :
    app.wsgiPostBody env codec = .ok req ↔ ∃ raw data, WsgiBody env raw ∧ Uncompressed app (wsgiEncoding env) raw data ∧
      WithinLimit app data ∧ codec.req.decode data = .ok req := by
  constructor
  · intro h
    unfold App.wsgiPostBody at h
    split at h
    · cases h
    · rename_i raw hraw
      split at h
      · cases h
      · rename_i data hdata
        split at h
        · cases h
        · rename_i hsize
          split at h
          · rename_i m hm
            cases h
            exact ⟨raw, data, (wsgiRawBody_ok hp).1 hraw, wsgiDecompress_ok.1 hdata, checkSize_ok.1 hsize, hm⟩
          · cases h
  · rintro ⟨raw, data, h1, h2, h3, h4⟩
    unfold App.wsgiPostBody
    rw [(wsgiRawBody_ok hp).2 h1]
    dsimp only
    rw [wsgiDecompress_ok.2 h2]
    dsimp only
    rw [checkSize_ok.2 h3]
    dsimp only
    rw [h4]

theorem wsgiPost_ok {app : App Req Res} {env : Environ} (hp : Pieces env.input) {headers : Headers} {req : Req} :
    (∃ codec, app.wsgiPost env headers = .ok (req, codec)) ↔
      WsgiPostOk app env (headers.getD (pys! "content-type") []) req := by
  unfold WsgiPostOk
  constructor
  · rintro ⟨codec, h⟩
    unfold App.wsgiPost at h
    split at h
    · cases h
    · rename_i codec' hc
      split at h
      · rename_i m hm
        cases h
        obtain ⟨raw, data, h1, h2, h3, h4⟩ := (wsgiPostBody_ok hp).1 hm
        exact ⟨_, codec, raw, data, (unaryCodecName_iff _ _).2 rfl, hc, h1, h2, h3, h4⟩
      · cases h
  · rintro ⟨name, codec, raw, data, hn, hc, h⟩
    rw [unaryCodecName_iff] at hn
    refine ⟨codec, ?_⟩
    unfold App.wsgiPost
    rw [hn, hc]
    dsimp only
    rw [(wsgiPostBody_ok hp).2 ⟨raw, data, h⟩]

/-! ### WSGI GET -/

theorem firstParam_iff {params : Dict Str (List Str)} {k v : Str} : firstParam params k = some v ↔ Param params k v := by
  unfold firstParam Param
  split
  · rename_i x xs h
    rw [h]
    constructor
    · intro e; cases e; exact ⟨xs, rfl⟩
    · rintro ⟨vs, e⟩; cases e; rfl
  · rename_i h
    constructor
    · intro e; cases e
    · rintro ⟨vs, e⟩; exact absurd e (h v vs)

theorem firstParam_none {params : Dict Str (List Str)} {k : Str} : firstParam params k = none ↔ ∀ v, ¬ Param params k v := by
  constructor
  · intro h v hv
    rw [firstParam_iff.2 hv] at h; cases h
  · intro h
    cases hf : firstParam params k with
    | none => rfl
    | some v => exact absurd (firstParam_iff.1 hf) (h v)

theorem wsgiGetMessage_ok {params : Dict Str (List Str)} {raw : Bytes} :
    wsgiGetMessage params = .ok raw ↔ MessageParam params raw := by
  unfold wsgiGetMessage MessageParam
  cases hm : firstParam params (pys! "message") with
  | none =>
    rw [firstParam_none] at hm
    exact ⟨fun h => (by cases h), fun ⟨t, ht, _⟩ => absurd ht (hm t)⟩
  | some text =>
    have ht := firstParam_iff.1 hm
    have huniq : ∀ t, Param params (pys! "message") t → t = text := by
      intro t h
      rw [firstParam_iff.2 h] at hm; exact Option.some.inj hm
    dsimp only
    by_cases hb : firstParam params (pys! "base64") = some (pys! "1")
    · rw [if_pos hb]
      have hb' := firstParam_iff.1 hb
      constructor
      · intro h
        split at h
        · rename_i b hd
          cases h
          exact ⟨text, ht, .inl ⟨hb', hd⟩⟩
        · cases h
      · rintro ⟨t, h1, ⟨_, h2⟩ | ⟨h2, _⟩⟩
        · rw [← huniq t h1, h2]
        · exact absurd hb' h2
    · rw [if_neg hb]
      have hb' : ¬ Param params (pys! "base64") ['1'] := fun h => hb (firstParam_iff.2 h)
      constructor
      · intro h; cases h; exact ⟨text, ht, .inr ⟨hb', rfl⟩⟩
      · rintro ⟨t, h1, ⟨h2, _⟩ | ⟨_, h2⟩⟩
        · exact absurd h2 hb'
        · rw [h2, huniq t h1]

/-- the `encoding` parameter -/
theorem encodingParam {params : Dict Str (List Str)} {name : Str} :
    (match firstParam params (pys! "encoding") with
      | some v => v
      | none => []) = name ↔ (Param params (pys! "encoding") name ∨ (name = [] ∧ ∀ v, ¬ Param params (pys! "encoding") v)) := by
  cases hf : firstParam params (pys! "encoding") with
  | none =>
    rw [firstParam_none] at hf
    constructor
    · rintro rfl; exact .inr ⟨rfl, hf⟩
    · rintro (h | ⟨h, _⟩)
      · exact absurd h (hf _)
      · exact h.symm
  | some v =>
    have hv := firstParam_iff.1 hf
    constructor
    · rintro rfl; exact .inl hv
    · rintro (h | ⟨_, h⟩)
      · rw [firstParam_iff.2 h] at hf; exact (Option.some.inj hf).symm
      · exact absurd hv (h v)

/-- the data of a GET request after decompression -/
def wsgiGetData (app : App Req Res) (params : Dict Str (List Str)) (raw : Bytes) : Except Exc Bytes :=
  match firstParam params (pys! "compression") with
  | none => .ok raw
  | some name => match app.comps.get? name with
    | none => .error (unknownCompression name app.comps)
    | some c => c.decompress raw

theorem wsgiGetData_ok {app : App Req Res} {params : Dict Str (List Str)} {raw data : Bytes} :
    wsgiGetData app params raw = .ok data ↔ ((∀ v, ¬ Param params (pys! "compression") v) ∧ data = raw ∨
      ∃ v c, Param params (pys! "compression") v ∧ Dict.get? app.comps v = some c ∧ c.decompress raw = .ok data) := by
  unfold wsgiGetData
  cases hf : firstParam params (pys! "compression") with
  | none =>
    rw [firstParam_none] at hf
    constructor
    · intro h; cases h; exact .inl ⟨hf, rfl⟩
    · rintro (⟨_, rfl⟩ | ⟨v, _, h, _⟩)
      · rfl
      · exact absurd h (hf v)
  | some name =>
    have hv := firstParam_iff.1 hf
    dsimp only
    constructor
    · intro h
      split at h
      · cases h
      · rename_i c hc
        exact .inr ⟨name, c, hv, hc, h⟩
    · rintro (⟨h, _⟩ | ⟨v, c, h1, h2, h3⟩)
      · exact absurd hv (h _)
      · rw [firstParam_iff.2 h1] at hf
        cases hf
        rw [h2]
        exact h3

theorem wsgiGetBody_eq (app : App Req Res) (params : Dict Str (List Str)) : app.wsgiGetBody params =
    match wsgiGetMessage params with
    | .error e => .error e
    | .ok raw => match wsgiGetData app params raw with
      | .error e => .error e
      | .ok data => match app.codecs.get? (match firstParam params (pys! "encoding") with
          | some v => v
          | none => []) with
        | none => .error (.mk .unimplemented (pys! "invalid message encoding: '" ++ (match firstParam params (pys! "encoding") with
          | some v => v
          | none => []) ++ pys! "'"))
        | some codec => match codec.req.decode data with
          | .ok m => .ok (m, codec)
          | .error e => .error (wrapExc .invalidArgument (pys! "Failed to decode message: ") e) := rfl

theorem wsgiGetBody_ok {app : App Req Res} {params : Dict Str (List Str)} {req : Req} :
    (∃ codec, app.wsgiGetBody params = .ok (req, codec)) ↔ WsgiGetOk app params req := by
  unfold WsgiGetOk
  rw [wsgiGetBody_eq]
  constructor
  · rintro ⟨codec, h⟩
    split at h
    · cases h
    · rename_i raw hraw
      split at h
      · cases h
      · rename_i data hdata
        split at h
        · cases h
        · rename_i codec' hc
          split at h
          · rename_i m hm
            cases h
            exact ⟨_, codec, raw, data, encodingParam.1 rfl, hc, wsgiGetMessage_ok.1 hraw, wsgiGetData_ok.1 hdata, hm⟩
          · cases h
  · rintro ⟨name, codec, raw, data, h1, h2, h3, h4, h5⟩
    refine ⟨codec, ?_⟩
    rw [wsgiGetMessage_ok.2 h3]
    dsimp only
    rw [wsgiGetData_ok.2 h4]
    dsimp only
    rw [encodingParam.2 h1, h2]
    dsimp only
    rw [h5]

theorem wsgiParams_eq (env : Environ) : parseQs (match Dict.get? env.vars (pys! "QUERY_STRING") with
    | some q => q
    | none => []) = wsgiParams env := by
  unfold wsgiParams
  cases Dict.get? env.vars (pys! "QUERY_STRING") <;> rfl

theorem wsgiGet_eq (app : App Req Res) (env : Environ) : app.wsgiGet env = match app.wsgiGetBody (wsgiParams env) with
    | .ok r => .ok r
    | .error e => .error (internalUnlessConnect e) := by
  rw [← wsgiParams_eq]; rfl

theorem wsgiGet_ok {app : App Req Res} {env : Environ} {req : Req} :
    (∃ codec, app.wsgiGet env = .ok (req, codec)) ↔ WsgiGetOk app (wsgiParams env) req := by
  rw [← wsgiGetBody_ok, wsgiGet_eq]
  constructor
  · rintro ⟨codec, h⟩
    split at h
    · rename_i r hr
      cases h
      exact ⟨codec, hr⟩
    · cases h
  · rintro ⟨codec, h⟩
    rw [h]
    exact ⟨codec, rfl⟩

/-! ### errors of reading -/

/-- An error of the library with the given code and no details, or a bare 415. -/
def Refusal (e : Exc) : Prop := (∃ c msg, e = .mk c msg) ∨ ∃ a, e = unsupportedMedia a

theorem internal_refusal {e : Exc} (h : (∃ c msg, e = .mk c msg) ∨ ∃ cls msg, e = .other cls msg) :
    ∃ c msg, internalUnlessConnect e = .mk c msg := by
  rcases h with ⟨c, msg, rfl⟩ | ⟨cls, msg, rfl⟩
  · exact ⟨c, msg, rfl⟩
  · exact ⟨.internal, _, rfl⟩

theorem wrap_other (c : Code) (t : Str) {e : Exc} (h : ∃ cls msg, e = .other cls msg) : ∃ msg, wrapExc c t e = .mk c msg := by
  obtain ⟨cls, msg, rfl⟩ := h
  exact ⟨_, rfl⟩

theorem wsgiPost_error {app : App Req Res} (ho : Ordinary app) {env : Environ} (hp : Pieces env.input) {headers : Headers}
    {e : Exc} (h : app.wsgiPost env headers = .error e) : Refusal e := by
  unfold App.wsgiPost at h
  split at h
  · cases h; exact .inr ⟨_, rfl⟩
  · rename_i codec hc
    split at h
    · cases h
    · rename_i e' he'
      cases h
      refine .inl (internal_refusal ?_)
      unfold App.wsgiPostBody at he'
      split at he'
      · rename_i e'' he''
        cases he'
        rcases wsgiRawBody_cases hp with ⟨_, h⟩ | ⟨_, _, _, h⟩ | ⟨_, _, _, h⟩ | ⟨_, cls, msg, _, _, _, h⟩
        all_goals rw [h] at he''; cases he''
        · exact .inl ⟨_, _, rfl⟩
        · exact .inr ⟨_, _, rfl⟩
      · split at he'
        · rename_i raw _ _ e'' he''
          cases he'
          rw [wsgiDecompress_eq] at he''
          split at he''
          · cases he''
          · split at he''
            · cases he''; exact .inl ⟨_, _, rfl⟩
            · rename_i c hcomp
              split at he''
              · cases he''
              · rename_i x hx
                cases he''
                obtain ⟨msg, hw⟩ := wrap_other .invalidArgument (pys! "Failed to decompress request body: ")
                  (ho.decompress _ _ hcomp _ _ hx)
                exact .inl ⟨_, msg, hw⟩
        · split at he'
          · rename_i hsz
            cases he'
            unfold checkSize at hsz
            repeat' split at hsz
            all_goals first | (cases hsz; exact .inl ⟨_, _, rfl⟩) | cases hsz
          · split at he'
            · cases he'
            · rename_i x hx
              cases he'
              obtain ⟨msg, hw⟩ := wrap_other .invalidArgument (pys! "Failed to decode request body: ")
                (ho.decode _ _ hc _ _ hx)
              exact .inl ⟨_, msg, hw⟩

theorem wsgiGet_error {app : App Req Res} (ho : Ordinary app) {env : Environ} {e : Exc} (h : app.wsgiGet env = .error e) :
    Refusal e := by
  rw [wsgiGet_eq, wsgiGetBody_eq] at h
  split at h
  · cases h
  · rename_i e' he'
    cases h
    refine .inl (internal_refusal ?_)
    split at he'
    · rename_i hm
      cases he'
      unfold wsgiGetMessage at hm
      repeat' split at hm
      all_goals first | (cases hm; exact .inl ⟨_, _, rfl⟩) | cases hm
    · split at he'
      · rename_i hd
        cases he'
        unfold wsgiGetData at hd
        split at hd
        · cases hd
        · split at hd
          · cases hd; exact .inl ⟨_, _, rfl⟩
          · rename_i c hc
            exact .inr (ho.decompress _ _ hc _ _ hd)
      · split at he'
        · cases he'; exact .inl ⟨_, _, rfl⟩
        · rename_i codec hc
          split at he'
          · cases he'
          · rename_i x hx
            cases he'
            obtain ⟨msg, hw⟩ := wrap_other .invalidArgument (pys! "Failed to decode message: ")
              (ho.decode _ _ hc _ _ hx)
            exact .inl ⟨_, msg, hw⟩

theorem wsgiFail_mk (calls : List (Called Req)) (c : Code) (msg : Str) (ctx : Option Meta) :
    ∃ r, WsgiGave (wsgiFail calls (.mk c msg) ctx) r ∧ ErrorResponse r { code := c, message := msg } := by
  let e := errorResponse (pys! "Content-Type") (.mk c msg) ctx
  refine ⟨⟨e.1, e.2.1, e.2.2.flatten⟩, ⟨rfl, e.2.2, rfl, rfl⟩, ?_⟩
  exact errorResponse_complete (pys! "Content-Type") (by decide +kernel) (.mk c msg) (by intro _ _ h; cases h)
    (by intro d hd; cases hd) ctx

theorem wsgiFail_refused (c : Code) (msg : Str) (ctx : Option Meta) : WsgiRefused (wsgiFail [] (.mk c msg) ctx : WsgiOut Req) c := by
  obtain ⟨r, h1, h2⟩ := wsgiFail_mk ([] : List (Called Req)) c msg ctx
  exact ⟨wsgiFail_calls .., r, _, h1, h2, rfl⟩

theorem wsgiFail_refusal {e : Exc} (h : Refusal e) (ctx : Option Meta) :
    ∃ r, WsgiGave (wsgiFail [] e ctx : WsgiOut Req) r ∧ CompleteRefusal r := by
  rcases h with ⟨c, msg, rfl⟩ | ⟨a, rfl⟩
  · obtain ⟨r, h1, h2⟩ := wsgiFail_mk ([] : List (Called Req)) c msg ctx
    exact ⟨r, h1, .inl ⟨_, h2⟩⟩
  · exact ⟨_, wsgiFail_http .., .inr (.inr ⟨rfl, rfl, a, by simp⟩)⟩

/-! ### ASGI -/

theorem asgiBody_ok {r : List Recv} {raw : Bytes} :
    ((asgiBody r).2 = none ∧ (asgiBody r).1.flatten = raw) ↔ AsgiBody r raw := by
  induction r generalizing raw with
  | nil => exact ⟨fun h => (by cases h.1), fun h => (by cases h)⟩
  | cons x r ih =>
    cases x with
    | disconnect => exact ⟨fun h => (by cases h.1), fun h => (by cases h)⟩
    | other => exact ⟨fun h => (by cases h.1), fun h => (by cases h)⟩
    | request b more =>
      cases more with
      | false =>
        constructor
        · rintro ⟨_, h⟩
          have : raw = b := by rw [← h]; simp [asgiBody]
          rw [this]; exact .last b r
        · intro h; cases h; simp [asgiBody]
      | true =>
        constructor
        · rintro ⟨h1, h2⟩
          have e : raw = b ++ (asgiBody r).1.flatten := by rw [← h2]; simp [asgiBody]
          rw [e]
          refine .more b (ih.1 ⟨?_, rfl⟩)
          simpa [asgiBody] using h1
        · intro h
          cases h with
          | more _ h =>
            obtain ⟨h1, h2⟩ := ih.2 h
            simp [asgiBody, h1, h2]

theorem asgiBody_disconnect {r : List Recv} (h : Disconnects r) :
    (asgiBody r).2 = some (.mk .canceled (pys! "Client disconnected before request completion")) := by
  induction h with
  | now r => rfl
  | later b h ih => simpa [asgiBody] using ih

theorem asgiBody_err {r : List Recv} {e : Exc} (h : (asgiBody r).2 = some e) : (∃ c msg, e = .mk c msg) ∨ (e = .cancelled ∧ ¬ Reported r) := by
  induction r with
  | nil => cases h; exact .inr ⟨rfl, fun ⟨x, hx, _⟩ => (by cases hx)⟩
  | cons x r ih =>
    cases x with
    | disconnect => cases h; exact .inl ⟨_, _, rfl⟩
    | other => cases h; exact .inl ⟨_, _, rfl⟩
    | request b more =>
      cases more with
      | false => simp [asgiBody] at h
      | true =>
        have h' : (asgiBody r).2 = some e := by simpa [asgiBody] using h
        rcases ih h' with h | ⟨h1, h2⟩
        · exact .inl h
        · refine .inr ⟨h1, ?_⟩
          rintro ⟨x, hx, hne⟩
          rcases List.mem_cons.1 hx with rfl | hx
          · exact hne b rfl
          · exact h2 ⟨x, hx, hne⟩

/-- decompression on the ASGI server -/
def asgiInflate (app : App Req Res) (name : Str) (raw : Bytes) : Except Exc Bytes :=
  match app.comps.get? name with
  | none => .error (unknownCompression name app.comps)
  | some c => if raw.isEmpty then .ok [] else c.decompress raw

theorem asgiInflate_ok {app : App Req Res} {name : Str} {raw data : Bytes} :
    asgiInflate app name raw = .ok data ↔ AsgiUncompressed app name raw data := by
  unfold asgiInflate AsgiUncompressed
  cases hc : Dict.get? app.comps name with
  | none => exact ⟨fun h => (by cases h), fun ⟨c, h, _⟩ => (by cases h)⟩
  | some c =>
    dsimp only
    by_cases hr : raw = []
    · subst hr
      rw [if_pos (by rfl)]
      constructor
      · intro h; cases h; exact ⟨c, rfl, .inl ⟨rfl, rfl⟩⟩
      · rintro ⟨c', _, ⟨_, rfl⟩ | ⟨h, _⟩⟩
        · rfl
        · exact absurd rfl h
    · rw [if_neg (by simpa using hr)]
      constructor
      · intro h; exact ⟨c, rfl, .inr ⟨hr, h⟩⟩
      · rintro ⟨c', hc', ⟨h, _⟩ | ⟨_, h⟩⟩
        · exact absurd h hr
        · cases hc'; exact h

theorem asgiPost_eq (app : App Req Res) (env : Env) (headers : Headers) (codec : ServerCodec Req Res) :
    app.asgiPost env headers codec = match (asgiBody env.receive).2 with
      | some e => .error e
      | none =>
        match asgiInflate app (lower (headers.getD (pys! "content-encoding") (pys! "identity"))) (asgiBody env.receive).1.flatten with
        | .error e => .error e
        | .ok data => match checkSize app.readMax data with
          | .error e => .error e
          | .ok _ => codec.req.decode data := by
  unfold App.asgiPost asgiInflate
  generalize asgiBody env.receive = b
  obtain ⟨chunks, err⟩ := b
  cases err with
  | some e => rfl
  | none =>
    dsimp only
    cases Dict.get? app.comps (lower (headers.getD (pys! "content-encoding") (pys! "identity"))) <;> rfl

theorem asgiPost_ok {app : App Req Res} {env : Env} {headers : Headers} {codec : ServerCodec Req Res} {req : Req} :
    app.asgiPost env headers codec = .ok req ↔ ∃ raw data, AsgiBody env.receive raw ∧
      AsgiUncompressed app (lower (headers.getD (pys! "content-encoding") (pys! "identity"))) raw data ∧
      WithinLimit app data ∧ codec.req.decode data = .ok req := by
  rw [asgiPost_eq]
  constructor
  · intro h
    split at h
    · cases h
    · rename_i hb
      split at h
      · cases h
      · rename_i data hdata
        split at h
        · cases h
        · rename_i hsize
          exact ⟨_, data, asgiBody_ok.1 ⟨hb, rfl⟩, asgiInflate_ok.1 hdata, checkSize_ok.1 hsize, h⟩
  · rintro ⟨raw, data, h1, h2, h3, h4⟩
    obtain ⟨hb1, hb2⟩ := asgiBody_ok.2 h1
    rw [hb1]
    dsimp only
    rw [hb2, asgiInflate_ok.2 h2]
    dsimp only
    rw [checkSize_ok.2 h3]
    exact h4

theorem asgiGetMessage_ok {params : Dict Str (List Str)} {raw : Bytes} :
    asgiGetMessage params = .ok raw ↔ MessageParam params raw := by
  rw [← wsgiGetMessage_ok]
  unfold asgiGetMessage wsgiGetMessage
  cases firstParam params (pys! "message") with
  | none => exact ⟨fun h => (by cases h), fun h => (by cases h)⟩
  | some text =>
    dsimp only
    by_cases hb : firstParam params (pys! "base64") = some (pys! "1")
    · rw [if_pos hb, if_pos hb]
      cases urlsafeB64decode (text ++ pys! "===") with
      | none => exact ⟨fun h => (by cases h), fun h => (by cases h)⟩
      | some b => rfl
    · rw [if_neg hb, if_neg hb]

/-- the `compression` parameter on the ASGI server -/
theorem compressionParam {params : Dict Str (List Str)} {enc : Str} :
    (match firstParam params (pys! "compression") with
      | some n => n
      | none => pys! "identity") = enc ↔
    (Param params (pys! "compression") enc ∨ (enc = pys! "identity" ∧ ∀ v, ¬ Param params (pys! "compression") v)) := by
  cases hf : firstParam params (pys! "compression") with
  | none =>
    rw [firstParam_none] at hf
    constructor
    · rintro rfl; exact .inr ⟨rfl, hf⟩
    · rintro (h | ⟨h, _⟩)
      · exact absurd h (hf _)
      · exact h.symm
  | some v =>
    have hv := firstParam_iff.1 hf
    constructor
    · rintro rfl; exact .inl hv
    · rintro (h | ⟨_, h⟩)
      · rw [firstParam_iff.2 h] at hf; exact (Option.some.inj hf).symm
      · exact absurd hv (h v)

theorem asgiGet_eq (app : App Req Res) (params : Dict Str (List Str)) (codec : ServerCodec Req Res) :
    app.asgiGet params codec = match asgiGetMessage params with
      | .error e => .error e
      | .ok raw => match asgiInflate app (match firstParam params (pys! "compression") with
          | some n => n
          | none => pys! "identity") raw with
        | .error e => .error e
        | .ok data => codec.req.decode data := by
  unfold App.asgiGet asgiInflate
  cases asgiGetMessage params with
  | error e => rfl
  | ok raw =>
    cases firstParam params (pys! "compression") with
    | none => dsimp only; cases Dict.get? app.comps (pys! "identity") <;> rfl
    | some n => dsimp only; cases Dict.get? app.comps n <;> rfl

theorem asgiGet_ok {app : App Req Res} {params : Dict Str (List Str)} {codec : ServerCodec Req Res} {req : Req} :
    app.asgiGet params codec = .ok req ↔ ∃ raw data enc, MessageParam params raw ∧
      (Param params (pys! "compression") enc ∨ (enc = pys! "identity" ∧ ∀ v, ¬ Param params (pys! "compression") v)) ∧
      AsgiUncompressed app enc raw data ∧ codec.req.decode data = .ok req := by
  rw [asgiGet_eq]
  constructor
  · intro h
    split at h
    · cases h
    · rename_i raw hraw
      split at h
      · cases h
      · rename_i data hdata
        exact ⟨raw, data, _, asgiGetMessage_ok.1 hraw, compressionParam.1 rfl, asgiInflate_ok.1 hdata, h⟩
  · rintro ⟨raw, data, enc, h1, h2, h3, h4⟩
    rw [asgiGetMessage_ok.2 h1]
    dsimp only
    rw [compressionParam.2 h2, asgiInflate_ok.2 h3]
    exact h4

/-- an error of reading on the ASGI server -/
def AsgiRefusal (e : Exc) : Prop := (∃ c msg, e = .mk c msg) ∨ (∃ cls msg, e = .other cls msg) ∨ ∃ a, e = unsupportedMedia a

theorem asgiInflate_error {app : App Req Res} (ho : Ordinary app) {name : Str} {raw : Bytes} {e : Exc}
    (h : asgiInflate app name raw = .error e) : AsgiRefusal e := by
  unfold asgiInflate at h
  split at h
  · cases h; exact .inl ⟨_, _, rfl⟩
  · rename_i c hc
    split at h
    · cases h
    · exact .inr (.inl (ho.decompress _ _ hc _ _ h))

theorem asgiPost_error {app : App Req Res} (ho : Ordinary app) {env : Env} (hrep : Reported env.receive) {headers : Headers}
    {name : Str} {codec : ServerCodec Req Res} (hc : Dict.get? app.codecs name = some codec)
    {e : Exc} (h : app.asgiPost env headers codec = .error e) : AsgiRefusal e := by
  rw [asgiPost_eq] at h
  split at h
  · rename_i e' he'
    cases h
    rcases asgiBody_err he' with h | ⟨_, h⟩
    · exact .inl h
    · exact absurd hrep h
  · split at h
    · rename_i hi
      cases h
      exact asgiInflate_error ho hi
    · split at h
      · rename_i hsz
        cases h
        unfold checkSize at hsz
        repeat' split at hsz
        all_goals first | (cases hsz; exact .inl ⟨_, _, rfl⟩) | cases hsz
      · exact .inr (.inl (ho.decode _ _ hc _ _ h))

theorem asgiGet_error {app : App Req Res} (ho : Ordinary app) {params : Dict Str (List Str)}
    {name : Str} {codec : ServerCodec Req Res} (hc : Dict.get? app.codecs name = some codec)
    {e : Exc} (h : app.asgiGet params codec = .error e) : AsgiRefusal e := by
  rw [asgiGet_eq] at h
  split at h
  · rename_i hm
    cases h
    unfold asgiGetMessage at hm
    repeat' split at hm
    all_goals first | (cases hm; exact .inl ⟨_, _, rfl⟩) | cases hm
  · split at h
    · rename_i hi
      cases h
      exact asgiInflate_error ho hi
    · exact .inr (.inl (ho.decode _ _ hc _ _ h))

theorem asgiFail_error {env : Env} (hr : Reliable env) (calls : List (Called Req)) {e : Exc}
    (he : (∃ c msg, e = .mk c msg) ∨ (∃ cls msg, e = .other cls msg)) (ctx : Option Meta) :
    ∃ r, AsgiGave (asgiFail env calls [] e ctx) r ∧ ErrorResponse r (errorOf e) := by
  have h1 : e.isException = true := by rcases he with ⟨_, _, rfl⟩ | ⟨_, _, rfl⟩ <;> rfl
  refine ⟨_, asgiFail_sends hr calls h1 ctx, ?_⟩
  refine errorResponse_complete (pys! "content-type") (by decide +kernel) e ?_ ?_ ctx
  · rcases he with ⟨_, _, rfl⟩ | ⟨_, _, rfl⟩ <;> intro _ _ h <;> cases h
  · rcases he with ⟨_, _, rfl⟩ | ⟨_, _, rfl⟩ <;> intro d hd <;> cases hd

theorem asgiFail_refused {env : Env} (hr : Reliable env) (c : Code) (msg : Str) (ctx : Option Meta) :
    AsgiRefused (asgiFail env [] [] (.mk c msg) ctx : AsgiOut Req) c := by
  obtain ⟨r, h1, h2⟩ := asgiFail_error hr ([] : List (Called Req)) (.inl ⟨c, msg, rfl⟩) ctx
  exact ⟨asgiFail_calls .., r, _, h1, h2, rfl⟩

theorem asgiFail_refusal {env : Env} (hr : Reliable env) {e : Exc} (h : AsgiRefusal e) (ctx : Option Meta) :
    ∃ r, AsgiGave (asgiFail env [] [] e ctx : AsgiOut Req) r ∧ CompleteRefusal r := by
  rcases h with h | h | ⟨a, rfl⟩
  · obtain ⟨r, h1, h2⟩ := asgiFail_error hr ([] : List (Called Req)) (.inl h) ctx
    exact ⟨r, h1, .inl ⟨_, h2⟩⟩
  · obtain ⟨r, h1, h2⟩ := asgiFail_error hr ([] : List (Called Req)) (.inr h) ctx
    exact ⟨r, h1, .inl ⟨_, h2⟩⟩
  · exact ⟨_, asgiFail_http hr .., .inr (.inr ⟨rfl, rfl, a, by simp⟩)⟩

end Conn
