import Verif.Proofs.Alike
/-
Lemmas for C90: unary requests and streams.
-/
namespace Conn
open Py Spec Props

/-! ### body and encoding of a unary request -/

theorem rawBody_same {r : HttpIn} {env : Environ} (hw : WsgiGets r env) : wsgiRawBody env = .ok r.body := by
  rw [wsgiRawBody_ok hw.pieces, ← hw.body]
  have hl := hw.length
  cases hd : r.declared with
  | false =>
    rw [hd] at hl
    refine .whole fun s hs => ?_
    rw [hl] at hs
    cases hs
  | true =>
    rw [hd, if_pos rfl] at hl
    by_cases h0 : r.body.length = 0
    · refine .whole fun s hs => ?_
      rw [hl] at hs
      cases hs
      exact .inr ⟨_, parseInt_natDigits _, by omega⟩
    · have := WsgiBody.declared (env := env) (n := r.body.length) ⟨by omega, _, hl, natDigits_ne_nil _, parseInt_natDigits _⟩ (by rw [hw.body]; exact Nat.le_refl _)
      rw [hw.body, List.take_length] at this
      rw [hw.body]
      exact this

theorem upper_lowerChar (c : Char) : upperChar (lowerChar c) = upperChar c := by
  unfold lowerChar
  by_cases h : 'A' ≤ c ∧ c ≤ 'Z'
  · rw [if_pos h]
    have h1 : 65 ≤ c.toNat := h.1
    have h2 : c.toNat ≤ 90 := h.2
    have ht : (Char.ofNat (c.toNat + 32)).toNat = c.toNat + 32 := ofNat_toNat' (by omega)
    rcases upperChar_cases c with ⟨e, _⟩ | ⟨h3, _⟩
    · rw [e]
      rcases upperChar_cases (Char.ofNat (c.toNat + 32)) with ⟨_, h4⟩ | ⟨_, _, h5⟩
      · exact absurd ⟨by omega, by omega⟩ h4
      · rw [ht] at h5
        exact Char.toNat_inj.1 (by omega)
    · omega
  · rw [if_neg h]

theorem cgiVar_case {n m : Str} (h : lower n = lower m) : cgiVar n = cgiVar m := by
  unfold cgiVar
  rw [h]
  have key : ∀ n : Str, (n.map fun c => if c = '-' then '_' else upperChar c) = (lower n).map fun c => if c = '-' then '_' else upperChar c := by
    intro n
    unfold lower
    rw [List.map_map]
    refine List.map_congr_left fun c _ => ?_
    dsimp only [Function.comp]
    rw [upper_lowerChar]
    by_cases e : c = '-'
    · subst e; rfl
    · rw [if_neg e]
      by_cases e' : lowerChar c = '-'
      · exfalso
        unfold lowerChar at e'
        by_cases h : 'A' ≤ c ∧ c ≤ 'Z'
        · rw [if_pos h] at e'
          have h1 : 65 ≤ c.toNat := h.1
          have h2 : c.toNat ≤ 90 := h.2
          have ht : (Char.ofNat (c.toNat + 32)).toNat = c.toNat + 32 := ofNat_toNat' (by omega)
          rw [e'] at ht
          have : ('-' : Char).toNat = 45 := rfl
          omega
        · rw [if_neg h] at e'
          exact e e'
      · rw [if_neg e']
  rw [key n, key m, h]

theorem get?_filterKey (c : Str → Bool) {k : Str} (hk : c k = true) : ∀ d : List (Str × Str), Dict.get? (d.filter fun p => c p.1) k = Dict.get? d k
  | [] => rfl
  | (a, b) :: d => by
    rw [List.filter_cons]
    cases hc : c a with
    | true =>
      rw [if_pos rfl]
      unfold Dict.get?
      rw [get?_filterKey c hk d]
    | false =>
      rw [if_neg (by decide), get?_filterKey c hk d]
      conv => rhs; unfold Dict.get?
      rw [if_neg (by intro e; rw [e, hk] at hc; cases hc)]

theorem get?_cgi {n : Str} (hn : '_' ∉ n) : ∀ l : List (Str × Str), (∀ p ∈ l, '_' ∉ p.1) →
    Dict.get? (l.map fun p => (cgiVar p.1, p.2)) (cgiVar n) = (fieldValues l n).head?
  | [], _ => rfl
  | (a, b) :: l, h => by
    rw [List.map_cons]
    unfold Dict.get? fieldValues
    rw [List.filter_cons]
    by_cases e : lower a = lower n
    · rw [if_pos (cgiVar_case e), if_pos (by simpa using e)]
      rfl
    · rw [if_neg, if_neg (by simpa using e)]
      · exact get?_cgi hn l fun p hp => h p (List.mem_cons_of_mem _ hp)
      · intro hv
        have h1 := headerOfVar_cgiVar (h _ (List.mem_cons_self ..))
        have h2 := headerOfVar_cgiVar hn
        dsimp only at h1 hv
        rw [hv, h2] at h1
        exact e (Option.some.inj h1).symm

theorem encoding_same {r : HttpIn} (hr : r.Plain) {env : Environ} (hw : WsgiGets r env) :
    Dict.get? env.vars (pys! "HTTP_CONTENT_ENCODING") = r.value (pys! "content-encoding") := by
  have h1 := get?_filterKey (fun k => decide (k.take 5 = pys! "HTTP_")) (k := pys! "HTTP_CONTENT_ENCODING") (by decide) env.vars
  rw [hw.fields] at h1
  rw [← h1]
  have h2 := get?_cgi (n := pys! "content-encoding") (by decide) r.others fun p hp => (hr.names p hp).1
  have hv : cgiVar (pys! "content-encoding") = pys! "HTTP_CONTENT_ENCODING" := by decide
  rw [hv] at h2
  rw [h2]
  unfold HttpIn.value HttpIn.fields
  rw [fieldValues_append, fieldValues_append]
  cases r.contentType <;> cases r.declared <;> rfl

section
variable {Req Res : Type}

/-- the message of a unary POST -/
theorem post_same {app : App Req Res} (hcfg : Configured app) {r : HttpIn} (hr : r.Plain) {env : Environ} (hw : WsgiGets r env) {scope : Scope} {aenv : Env}
    (ha : AsgiGets r scope aenv) (hclear : PostClear app r) {codec : ServerCodec Req Res} {name : Str} (hn : UnaryCodecName r.type name)
    (hcodec : Dict.get? app.codecs name = some codec) :
    (match app.wsgiPostBody env codec with
      | .ok m => Except.ok m
      | .error e => .error (internalUnlessConnect e)) = app.asgiPost aenv (addAll Headers.empty r.fields) codec := by
  obtain ⟨hb1, hb2⟩ := asgiBody_ok.2 ha.body
  rw [asgiPost_eq, hb1, hb2, addAll_getD]
  unfold App.wsgiPostBody
  rw [rawBody_same hw]
  dsimp only
  have he : wsgiEncoding env = lower ((r.value (pys! "content-encoding")).getD (pys! "identity")) := by
    rw [← wsgiEncoding_eq, encoding_same hr hw]
    cases r.value (pys! "content-encoding") <;> rfl
  rw [wsgiDecompress_eq, he]
  have hcl := fun comp h => hclear name codec comp hn hcodec h
  revert hcl
  generalize lower ((r.value (pys! "content-encoding")).getD (pys! "identity")) = enc
  intro hcl
  unfold asgiInflate
  have hsize : ∀ data : Bytes, (WithinLimit app data → ∃ m, codec.req.decode data = .ok m) →
      (match (match checkSize app.readMax data with
        | .error e => (.error e : Except Exc Req)
        | .ok _ => match codec.req.decode data with
          | .ok m => .ok m
          | .error e => .error (wrapExc .invalidArgument (pys! "Failed to decode request body: ") e)) with
        | .ok m => Except.ok m
        | .error e => .error (internalUnlessConnect e)) = (match checkSize app.readMax data with
        | .error e => (.error e : Except Exc Req)
        | .ok _ => codec.req.decode data) := by
    intro data hd
    cases hs : checkSize app.readMax data with
    | error e =>
      dsimp only
      unfold checkSize at hs
      cases hm : app.readMax with
      | none => rw [hm] at hs; cases hs
      | some n =>
        rw [hm] at hs
        dsimp only at hs
        split at hs
        · cases hs; rfl
        · cases hs
    | ok u =>
      obtain ⟨m, hm⟩ := hd (checkSize_ok.1 hs)
      dsimp only
      rw [hm]
  by_cases hi : enc = pys! "identity"
  · rw [if_pos hi]
    subst hi
    rw [hcfg.identity]
    dsimp only
    obtain ⟨data, h1, h2, h3⟩ := hcl _ hcfg.identity
    have h1 : data = r.body := by cases h1; rfl
    subst h1
    refine (hsize _ h3).trans ?_
    by_cases h0 : r.body = []
    · rw [h0]; rfl
    · rw [if_neg (by simpa using h0)]; rfl
  · rw [if_neg hi]
    cases hc : Dict.get? app.comps enc with
    | none => rfl
    | some comp =>
      dsimp only
      obtain ⟨data, h1, h2, h3⟩ := hcl _ hc
      rw [h1]
      dsimp only
      refine (hsize _ h3).trans ?_
      by_cases h0 : r.body = []
      · rw [h2 h0, h0]; rfl
      · rw [if_neg (by simpa using h0)]; rfl

theorem getMessage_same {params : Dict Str (List Str)} (h : ∀ text, Param params (pys! "message") text → ∃ raw, MessageParam params raw) :
    (wsgiGetMessage params = .error messageRequired ∧ asgiGetMessage params = .error messageRequired) ∨
    ∃ raw, MessageParam params raw ∧ wsgiGetMessage params = .ok raw ∧ asgiGetMessage params = .ok raw := by
  cases hm : firstParam params (pys! "message") with
  | none =>
    refine .inl ⟨?_, ?_⟩
    · unfold wsgiGetMessage; rw [hm]
    · unfold asgiGetMessage; rw [hm]
  | some t =>
    obtain ⟨raw, hraw⟩ := h t (firstParam_iff.1 hm)
    exact .inr ⟨raw, hraw, wsgiGetMessage_ok.2 hraw, asgiGetMessage_ok.2 hraw⟩

/-- the message of a unary GET -/
theorem get_same {app : App Req Res} (hcfg : Configured app) {params : Dict Str (List Str)} (hc : GetClear app params) :
    ∃ name codec, (Param params (pys! "encoding") name ∨ (name = [] ∧ ∀ v, ¬ Param params (pys! "encoding") v)) ∧ Dict.get? app.codecs name = some codec ∧
    (match app.wsgiGetBody params with
      | .ok m => Except.ok m
      | .error e => .error (internalUnlessConnect e)) = (app.asgiGet params codec).map (·, codec) := by
  obtain ⟨name, codec, hname, hcodec, hdata⟩ := hc.codec
  refine ⟨name, codec, hname, hcodec, ?_⟩
  rw [← encodingParam] at hname
  rw [wsgiGetBody_eq, asgiGet_eq, hname, hcodec]
  rcases getMessage_same hc.message with ⟨h1, h2⟩ | ⟨raw, hraw, h1, h2⟩
  · rw [h1, h2]; rfl
  · rw [h1, h2]
    dsimp only
    unfold wsgiGetData asgiInflate
    have hd := fun enc comp => hdata raw enc comp hraw
    cases hf : firstParam params (pys! "compression") with
    | none =>
      dsimp only
      rw [hcfg.identity]
      dsimp only
      obtain ⟨data, m, h3, h4, h5⟩ := hd (pys! "identity") .identity (.inr ⟨rfl, firstParam_none.1 hf⟩) hcfg.identity
      have h3 : data = raw := by cases h3; rfl
      subst h3
      rw [h5]
      by_cases h0 : data = []
      · subst h0; rw [if_pos (by rfl)]; dsimp only; rw [h5]; rfl
      · rw [if_neg (by simpa using h0)]
        show _ = Except.map _ (codec.req.decode data)
        rw [h5]; rfl
    | some n =>
      dsimp only
      cases hk : Dict.get? app.comps n with
      | none => rfl
      | some comp =>
        dsimp only
        obtain ⟨data, m, h3, h4, h5⟩ := hd n comp (.inl (firstParam_iff.1 hf)) hk
        rw [h3]
        dsimp only
        rw [h5]
        by_cases h0 : raw = []
        · have h4 := h4 h0
          subst h4
          rw [if_pos (by simpa using h0)]
          dsimp only
          rw [h5]; rfl
        · rw [if_neg (by simpa using h0)]
          dsimp only
          rw [h5]; rfl

/-! ### unary answers -/

theorem negotiate_same {app : App Req Res} (hcfg : Configured app) (v : Option Str) :
    negotiateCompression (v.getD (pys! "identity")) app.comps = negotiateCompression (v.getD []) app.comps := by
  cases v with
  | some v => rfl
  | none =>
    unfold negotiateCompression
    have h1 : split ',' ((none : Option Str).getD (pys! "identity")) = [pys! "identity"] := by decide
    have h2 : split ',' ((none : Option Str).getD []) = [[]] := by decide
    have h3 : strip (pys! "identity") = pys! "identity" := by decide
    have h4 : strip [] = [] := by decide
    rw [h1, h2]
    unfold negotiateFrom
    rw [h3, h4, hcfg.identity, hcfg.noEmpty]
    rfl

/-- the same message: the same call and the same answer -/
theorem answer_alike {app : App Req Res} (hcfg : Configured app) (r : HttpIn) {env : Environ} {aenv : Env} (hrel : Reliable aenv) (key hm : Str)
    {codec : ServerCodec Req Res} {params : Dict Str (List Str)} (ctx : RequestContext) (f : Req → RequestContext → Call Res)
    (hread : (if hm = pys! "GET" then app.wsgiGet env else app.wsgiPost env (addAll Headers.empty r.fields)) =
      (if hm = pys! "GET" then app.asgiGet params codec else app.asgiPost aenv (addAll Headers.empty r.fields) codec).map (·, codec)) :
    Alike (app.wsgiUnary env key hm (addAll Headers.empty r.fields) ctx f) (app.asgiUnary aenv key hm (addAll Headers.empty r.fields) codec params ctx f) := by
  unfold App.wsgiUnary App.asgiUnary
  dsimp only
  rw [hread]
  cases (if hm = pys! "GET" then app.asgiGet params codec else app.asgiPost aenv (addAll Headers.empty r.fields) codec) with
  | error e => exact fail_alike hrel [] e _
  | ok req =>
    dsimp only [Except.map]
    cases hc : (HState.init ⟨[], none⟩ : HState Req).call (f req ctx).steps (f req ctx).result with
    | mk h res =>
      cases res with
      | error e => exact fail_alike hrel _ e _
      | ok response =>
        dsimp only
        cases codec.res.encode response with
        | error e => exact fail_alike hrel _ e _
        | ok data =>
          dsimp only
          rw [sendAll_reliable hrel, addAll_getD, addAll_getD, negotiate_same hcfg]
          refine ⟨rfl, rfl, .inl ⟨⟨200, _, _, []⟩, ⟨200, _, _, []⟩, ⟨rfl, _, rfl, ?_, rfl, rfl⟩, ⟨false, _, rfl, ?_, rfl, rfl⟩, ⟨rfl, rfl, rfl, rfl⟩⟩⟩
          · intro s f h
            cases List.mem_singleton.1 h
          · intro s f t h
            cases List.mem_singleton.1 h

theorem unary_alike {app : App Req Res} (hcfg : Configured app) {r : HttpIn} (hr : r.Plain) {env : Environ} (hw : WsgiGets r env) {scope : Scope} {aenv : Env}
    (ha : AsgiGets r scope aenv) {m : MethodInfo} {f : Req → RequestContext → Call Res}
    (hclear : (r.method = pys! "POST" → PostClear app r) ∧ (r.method = pys! "GET" → GetClear app (parseQs r.query)))
    (hm : r.method = pys! "POST" ∨ r.method = pys! "GET") (key : Str) (ctx : RequestContext) (rt : Route Req Res)
    (hrt : rt = { key, ep := ⟨m, .unary f⟩, httpMethod := r.method, headers := addAll Headers.empty r.fields, proto := .connect, ctx }) :
    Alike (app.wsgiUnary env key r.method (addAll Headers.empty r.fields) ctx f) (match app.asgiCodec scope rt with
      | .error e => asgiFail aenv [] [] e (some .empty)
      | .ok (params, codec) => app.asgiUnary aenv key r.method (addAll Headers.empty r.fields) codec params ctx f) := by
  subst hrt
  unfold App.asgiCodec
  dsimp only
  rw [addAll_getD, value_type hr]
  by_cases hg : r.method = pys! "GET"
  · obtain ⟨name, codec, hname, hcodec, hread⟩ := get_same hcfg (hclear.2 hg)
    have hn : asgiCodecName .connect scope r.type (Handler.unary f).isUnary = .ok (parseQs r.query, name) := by
      unfold asgiCodecName
      rw [ha.method, ha.query, utf8Decode_encode, if_pos hg]
      exact congrArg (fun n => Except.ok (parseQs r.query, n)) ((encoding_iff ..).2 hname)
    rw [hn]
    dsimp only
    rw [hcodec]
    refine answer_alike hcfg r ha.calm.1 key r.method ctx f ?_
    rw [if_pos hg, if_pos hg, ← hread, wsgiGet_eq]
    have : wsgiParams env = parseQs r.query := by
      rw [← wsgiParams_eq, hw.query]
    rw [this]
    cases app.wsgiGetBody (parseQs r.query) <;> rfl
  · have hpost := hclear.1 (hm.resolve_right hg)
    have hname := (unaryCodecName_iff r.type _).2 rfl
    have hn : asgiCodecName .connect scope r.type (Handler.unary f).isUnary = .ok ([], connectCodecName r.type false) := by
      unfold asgiCodecName
      rw [ha.method, if_neg hg]
      rfl
    rw [hn]
    dsimp only
    cases hcodec : Dict.get? app.codecs (connectCodecName r.type false) with
    | none =>
      unfold App.wsgiUnary
      dsimp only
      rw [if_neg hg]
      unfold App.wsgiPost
      rw [addAll_getD, value_type hr, hcodec]
      exact fail_alike ha.calm.1 [] _ _
    | some codec =>
      refine answer_alike hcfg r ha.calm.1 key r.method ctx f ?_
      rw [if_neg hg, if_neg hg, ← post_same hcfg hr hw ha hpost hname hcodec]
      unfold App.wsgiPost
      rw [addAll_getD, value_type hr, hcodec]
      dsimp only
      cases app.wsgiPostBody env codec <;> rfl

/-! ### streams -/

/-- both servers hand the same messages to the handler -/
theorem requests_same {app : App Req Res} (hcfg : Configured app) {r : HttpIn} {env : Environ} (hw : WsgiGets r env) {scope : Scope} {aenv : Env}
    (ha : AsgiGets r scope aenv) {codec : ServerCodec Req Res} {comp : Compression} (hcodec : ∃ n, Dict.get? app.codecs n = some codec)
    (hcomp : comp = .identity ∨ ∃ n, Dict.get? app.comps n = some comp) : app.wsgiRequests env codec comp = app.asgiRequests aenv codec comp := by
  obtain ⟨fs, rest, hs, he⟩ := (wsgiMessages_iff hw.pieces (app := app) (codec := codec) (comp := comp)).2 rfl
  refine ((asgiMessages_iff ha.calm.2.2 hcfg.ordinary hcodec hcomp).1 ⟨r.body, none, fs, rest, ?_, by rw [← hw.body]; exact hs, ?_, ?_⟩).symm
  · obtain ⟨h1, h2⟩ := asgiBody_ok.2 ha.body
    rw [arrives_iff, h1, h2]
    exact ⟨rfl, rfl⟩
  · exact congrArg Prod.fst he
  · refine (congrArg Prod.snd he).trans ?_
    cases ((serverPolicy app codec comp).deliver fs).2 <;> rfl

theorem wsgiBytes_stream (bs : List Bytes) (out : EndOut) : wsgiBytes (bs.map .chunk ++ wsgiEnding out) = asgiBytes (bs.map (Sent.body · true) ++ asgiEnding out) ∧
    wsgiTrailers (bs.map .chunk ++ wsgiEnding out) = asgiTrailers (bs.map (Sent.body · true) ++ asgiEnding out) := by
  unfold wsgiBytes asgiBytes wsgiTrailers asgiTrailers
  rw [List.map_append, List.map_append, List.map_map, List.map_map, List.filterMap_append, List.filterMap_append, List.filterMap_map, List.filterMap_map]
  constructor
  · rw [List.flatten_append, List.flatten_append]
    congr 1
    cases out <;> rfl
  · congr 1
    cases out <;> rfl

theorem noStart_wsgi (bs : List Bytes) (out : EndOut) (s : Nat) (f : List (Str × Str)) : WEvent.start s f ∉ bs.map .chunk ++ wsgiEnding out := by
  intro h
  rcases List.mem_append.1 h with h | h
  · obtain ⟨b, _, hb⟩ := List.mem_map.1 h
    cases hb
  · cases out <;> simp [wsgiEnding] at h

theorem noStart_asgi (bs : List Bytes) (out : EndOut) (s : Nat) (f : List (Str × Str)) (t : Bool) : Sent.start s f t ∉ bs.map (Sent.body · true) ++ asgiEnding out := by
  intro h
  rcases List.mem_append.1 h with h | h
  · obtain ⟨b, _, hb⟩ := List.mem_map.1 h
    cases hb
  · cases out <;> simp [asgiEnding] at h

theorem stream_answers {calls : List (Called Req)} {received : List Req} {i : Meta} {bs : List Bytes} {out : EndOut} {logged : List Exc} {escaped : Option Exc}
    (p : Proto) (cn : Str) (c : Str) (t : Bool) :
    Alike ({ calls, received, events := .start 200 (streamHeaders p cn c i) :: bs.map .chunk ++ wsgiEnding out, escaped := none, logged } : WsgiOut Req)
      { calls, received, sends := ([Sent.start 200 (streamHeaders p cn c i) t] ++ bs.map (Sent.body · true) ++ asgiEnding out).map (·, none), escaped } := by
  obtain ⟨h1, h2⟩ := wsgiBytes_stream bs out
  refine ⟨rfl, rfl, .inl ⟨⟨200, _, _, _⟩, ⟨200, _, _, _⟩, ⟨rfl, _, rfl, noStart_wsgi bs out, rfl, rfl⟩, ⟨t, _, ?_, noStart_asgi bs out, rfl, rfl⟩, ⟨rfl, rfl, h1, h2⟩⟩⟩
  rw [List.append_assoc]
  rfl

theorem asgiError_caught {e : Option Exc} (h : Caught e) : asgiError e = e := by
  cases e with
  | none => rfl
  | some x =>
    cases x with
    | cancelled => cases h _ rfl
    | _ => rfl

theorem stream_alike {app : App Req Res} (hcfg : Configured app) {r : HttpIn} (hr : r.Plain) {env : Environ} (hw : WsgiGets r env) {scope : Scope} {aenv : Env}
    (ha : AsgiGets r scope aenv) {sc : StatusCodec} {ep : Endpoint Req Res} {p : Proto} (hclear : StreamClear app sc env r ep p)
    (hu : p = .connect → ep.handler.isUnary = false) (key : Str) (ctx : RequestContext) (rt : Route Req Res)
    (hrt : rt = { key, ep, httpMethod := r.method, headers := addAll Headers.empty r.fields, proto := p, ctx }) :
    Alike (app.wsgiStream sc env key p (addAll Headers.empty r.fields) ctx ep.handler) (match app.asgiCodec scope rt with
      | .error e => asgiFail aenv [] [] e (some .empty)
      | .ok (_, codec) => app.asgiStream sc aenv key p (addAll Headers.empty r.fields) codec ctx ep.handler) := by
  subst hrt
  obtain ⟨name, codec, hname, hcodec, hrep⟩ := hclear.codec
  have hct : (addAll Headers.empty r.fields).getD (pys! "content-type") [] = r.type := by rw [addAll_getD, value_type hr]
  have hcn : app.asgiCodec scope ({ key, ep, httpMethod := r.method, headers := addAll Headers.empty r.fields, proto := p, ctx } : Route Req Res) = .ok ([], codec) := by
    unfold App.asgiCodec asgiCodecName
    dsimp only
    rw [ha.method, if_neg hclear.method, hct]
    dsimp only
    have hs : p.codecNameFromContentType r.type (!ep.handler.isUnary) = p.codecNameFromContentType r.type true := by
      cases p with
      | connect => rw [hu rfl]; rfl
      | grpc => rfl
      | grpcWeb => rfl
    rw [hs, (streamCodecName_iff ..).1 hname, hcodec]
  rw [hcn]
  dsimp only
  have hH : wsgiHeaders env.vars = addAll Headers.empty r.fields := wsgiHeaders_same hr hw
  have hrq : ∀ {c}, (p.negotiateStreamCompression (addAll Headers.empty r.fields) app.comps).1 = some c → RequestCompression app p (wsgiHeaders env.vars) c := by
    intro c h
    rw [hH]
    exact requestCompression_iff.1 h
  have hrc : ResponseCompression app p (wsgiHeaders env.vars) (p.negotiateStreamCompression (addAll Headers.empty r.fields) app.comps).2 := by
    rw [hH]
    exact responseCompression_iff.1 rfl
  unfold App.wsgiStream App.asgiStream
  dsimp only
  rw [hct, (streamCodecName_iff ..).1 hname, hcodec]
  dsimp only
  have hno : ∀ (c : AsgiCfg Res), c.disconnectAt = none → ∀ n, c.disconnected n = false := by
    intro c h n
    unfold AsgiCfg.disconnected
    rw [h]
  cases hc : (p.negotiateStreamCompression (addAll Headers.empty r.fields) app.comps).1 with
  | none =>
    dsimp only
    have hnc : ∀ c, ¬ RequestCompression app p (wsgiHeaders env.vars) c := by
      intro c h
      rw [hH, ← requestCompression_iff, hc] at h
      cases h
    have hz : WsgiReports app env ep p codec (p.negotiateStreamCompression (addAll Headers.empty r.fields) app.comps).2 Headers.empty (some unrecognizedCompression) :=
      .compression hnc _
    obtain ⟨hcaught, out, hout⟩ := hrep _ _ _ hrc hz
    rw [wsgiErrorOnly_eq (hcaught _ rfl) hout, finish_eq _ _ _ _ _ _ hout ha.calm.1]
    exact stream_answers (bs := []) p codec.name _ _
  | some rc =>
    dsimp only
    have hcomp : rc = .identity ∨ ∃ n, Dict.get? app.comps n = some rc := by
      rcases requestCompression_iff.1 hc with h | ⟨_, _, h⟩
      · exact .inr ⟨_, h⟩
      · exact .inl h
    have hreq := requests_same hcfg hw ha (comp := rc) ⟨name, hcodec⟩ hcomp
    have hmsgs : WsgiMessages app env codec rc (app.wsgiRequests env codec rc) := (wsgiMessages_iff hw.pieces).2 rfl
    rw [← hreq]
    cases hs : ep.handler.start (app.wsgiRequests env codec rc) ctx with
    | error e =>
      dsimp only
      obtain ⟨ht, hx⟩ := start_refuses hs
      obtain ⟨hcaught, out, hout⟩ := hrep _ _ _ hrc (.refused (hrq hc) hmsgs ht hx)
      rw [wsgiErrorOnly_eq (hcaught _ rfl) hout, finish_eq _ _ _ _ _ _ (by rw [asgiError_caught hcaught]; exact hout) ha.calm.1]
      exact stream_answers (bs := []) p codec.name _ _
    | ok x =>
      obtain ⟨req, h, script⟩ := x
      dsimp only
      have hst := starts_iff.1 hs
      rw [hclear.close _ _ _ _ _ hst]
      obtain ⟨i, ms, h', e, hrun⟩ := runs_exists (writerOf codec (p.negotiateStreamCompression (addAll Headers.empty r.fields) app.comps).2).write none h script.acts script.outcome
      obtain ⟨hcaught, out, hout⟩ := hrep _ _ _ hrc (.ran (hrq hc) hmsgs hst hrun)
      obtain ⟨bs, hb, lg, _, _, h2⟩ := wsgiFirst_runs (c := streamCfg p sc codec (p.negotiateStreamCompression (addAll Headers.empty r.fields) app.comps).2 [⟨key, ctx, req⟩]) hrun hcaught hout
      obtain ⟨bs', hb', h2'⟩ := loop_runs (c := asgiCfg p sc codec (p.negotiateStreamCompression (addAll Headers.empty r.fields) app.comps).2 aenv ep.handler) ha.calm.1
        [⟨key, ctx, req⟩] hrun (by rw [asgiError_caught hcaught]; exact hout)
      have hbs : bs' = bs := by
        have := hb.symm.trans hb'
        exact ((List.map_inj_right (fun _ _ h => by cases h; rfl)).1 this).symm
      subst hbs
      have h3 := h2' [] false 0 fun j _ => hno _ (by
        unfold asgiCfg
        dsimp only
        cases ep.handler <;> first | rfl | exact ha.calm.2.1) j
      refine Eq.mpr (congr (congrArg Alike h2) h3) ?_
      exact stream_answers p codec.name _ _

/-! ### whole requests -/

theorem alike {app : App Req Res} (hcfg : Configured app) {r : HttpIn} (hr : r.Plain) {env : Environ} (hw : WsgiGets r env) {scope : Scope} {aenv : Env}
    (ha : AsgiGets r scope aenv) {sc : StatusCodec} (hclear : Clear app sc env r) : Alike (app.wsgi sc env) (app.asgi sc scope aenv) := by
  have hroute := route_same app hr hw ha hclear.trailers
  unfold App.wsgi App.asgi
  rw [hroute]
  cases hrt : app.asgiRoute scope with
  | error e => exact fail_alike ha.calm.1 [] e none
  | ok rt =>
    dsimp only
    obtain ⟨h1, h2, h3, h4, _, h6, _⟩ := asgiRoute_ok hrt
    rw [ha.fields, asgiHeaders_addAll] at h3
    replace h3 : rt.headers = addAll Headers.empty r.fields := (Except.ok.inj h3).symm
    rw [ha.method] at h2 h6
    rw [h3, addAll_getD, value_type hr] at h4 h6
    have hep : Dict.get? app.endpoints r.path = some rt.ep := by
      rw [← ha.path]
      generalize hk : rt.key = k at h1
      generalize rt.ep = ep at h1
      cases h1 with
      | direct h => exact h
      | mounted _ h _ _ => exact absurd ha.mount h
    obtain ⟨key, ep, hm, headers, p, ctx⟩ := rt
    dsimp only at h2 h3 h4 h6 hep ⊢
    subst h2 h3
    have hp : Speaks p r.type := (speaks_iff _ _).2 h4.symm
    have hstream : (p = .connect → ep.handler.isUnary = false) → Alike (app.wsgiStream sc env key p (addAll Headers.empty r.fields) ctx ep.handler) (match app.asgiCodec scope
        ({ key, ep, httpMethod := r.method, headers := addAll Headers.empty r.fields, proto := p, ctx } : Route Req Res) with
      | .error e => asgiFail aenv [] [] e (some .empty)
      | .ok (_, codec) => app.asgiStream sc aenv key p (addAll Headers.empty r.fields) codec ctx ep.handler) :=
      fun hu => stream_alike hcfg hr hw ha (hclear.stream ep p hep hp hu h6) hu key ctx _ rfl
    obtain ⟨m, handler⟩ := ep
    cases handler with
    | unary f =>
      cases p with
      | connect =>
        have hct : ConnectType r.type := hp
        refine unary_alike hcfg hr hw ha (hclear.unary m f hep hct) ?_ key ctx _ rfl
        rcases h6 with h | ⟨h, _⟩
        · exact .inl h
        · exact .inr h
      | grpc => exact hstream fun h => by cases h
      | grpcWeb => exact hstream fun h => by cases h
    | clientStream f => exact hstream fun _ => rfl
    | serverStream f => exact hstream fun _ => rfl
    | bidi f => exact hstream fun _ => rfl

end
end Conn
