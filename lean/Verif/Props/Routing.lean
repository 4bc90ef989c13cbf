import Verif.Proofs.ServerSync
import Verif.Proofs.ServerAsync
import Verif.Props.Envelope
/-
C29 (which HTTP methods run), C30 (which endpoint runs) and C60 (which headers the handler sees), for the WSGI and the ASGI
application.
-/
namespace Props
open Conn Py Spec

variable {Req Res : Type}

/-! ### a small application, for the examples -/

/-- echo, free of side effects -/
def echoInfo : MethodInfo := ⟨pys! "Echo", pys! "a.S", .noSideEffects⟩
/-- counts messages -/
def countInfo : MethodInfo := ⟨pys! "Count", pys! "a.S", .unknown⟩
def echoCall (b : Bytes) (_ : RequestContext) : Call Bytes :=
  ⟨[.update fun m => { m with headers := m.headers.add (pys! "x-h") (pys! "1") }], .ok b⟩
def countCall (s : ReqStream Bytes) (_ : RequestContext) : Call Bytes :=
  ⟨s.messages.map (fun _ => .recv false) ++ [.recv false], .ok [UInt8.ofNat s.messages.length]⟩
def demoApp : App Bytes Bytes :=
  .new [(pys! "/a.S/Echo", ⟨echoInfo, .unary echoCall⟩), (pys! "/a.S/Count", ⟨countInfo, .clientStream countCall⟩)]
    (pys! "/a.S") flipComp (some 10) none [⟨pys! "proto", rawCodec, rawCodec⟩]
def demoStatus : StatusCodec := ⟨fun _ => [], fun _ => .ok ⟨0, [], []⟩⟩
def demoEnviron (method path : Str) (ct : Str) (input : List Bytes) : Environ :=
  ⟨[(pys! "REQUEST_METHOD", method), (pys! "PATH_INFO", path), (pys! "SCRIPT_NAME", []), (pys! "CONTENT_TYPE", ct),
    (pys! "HTTP_X_A", pys! "v")], input, false⟩
def demoScope (method path : Str) (ct : Str) : Scope :=
  { path, rootPath := [], method, scheme := none, headers := [(utf8Encode (pys! "content-type"), utf8Encode ct)]
    client := none, query := [], trailers := false }
def demoEnv (receive : List Recv) : Env := ⟨receive, fun _ => none, none, none⟩

/-! ### C30 -/

/-- C30, WSGI: whatever function is called, it is called for the endpoint of the request (`WsgiTarget`), at most once, and its
context carries that endpoint's method. -/
theorem C30_wsgi_target (app : App Req Res) (sc : StatusCodec) (env : Environ) :
    (app.wsgi sc env).calls.length ≤ 1 ∧
    ∀ c ∈ (app.wsgi sc env).calls, ∃ ep, WsgiTarget app env c.path ep ∧ c.ctx.method = ep.method := by
  rcases wsgi_calls app sc env with h | ⟨r, req, hr, h⟩
  · rw [h]; exact ⟨by simp, by simp⟩
  · rw [h]
    obtain ⟨h1, _, _, _, h5, _⟩ := wsgiRoute_ok hr
    refine ⟨by simp, ?_⟩
    intro c hc
    rw [List.mem_singleton] at hc
    subst hc
    exact ⟨r.ep, h1, h5.method⟩

/-- C30, ASGI. -/
theorem C30_asgi_target (app : App Req Res) (sc : StatusCodec) (scope : Scope) (env : Env) :
    (app.asgi sc scope env).calls.length ≤ 1 ∧
    ∀ c ∈ (app.asgi sc scope env).calls, ∃ ep, AsgiTarget app scope c.path ep ∧ c.ctx.method = ep.method := by
  rcases asgi_calls app sc scope env with h | ⟨r, req, hr, h⟩
  · rw [h]; exact ⟨by simp, by simp⟩
  · rw [h]
    obtain ⟨h1, _, _, _, h5, _⟩ := asgiRoute_ok hr
    refine ⟨by simp, ?_⟩
    intro c hc
    rw [List.mem_singleton] at hc
    subst hc
    exact ⟨r.ep, h1, h5.method⟩

theorem wsgi_of_lookup {app app' : App Req Res} (h1 : app'.readMax = app.readMax) (h2 : app'.comps = app.comps)
    (h3 : app'.codecs = app.codecs) {env : Environ} (hl : app.wsgiLookup env = app'.wsgiLookup env) (sc : StatusCodec) :
    app.wsgi sc env = app'.wsgi sc env := by
  cases app with
  | mk e p r c k =>
  cases app' with
  | mk e' p' r' c' k' =>
    cases h1; cases h2; cases h3
    have hr : App.wsgiRoute ⟨e, p, r, c, k⟩ env = App.wsgiRoute ⟨e', p', r, c, k⟩ env := by
      unfold App.wsgiRoute; rw [hl]
    unfold App.wsgi
    rw [hr]
    rfl

/-- C30, WSGI: the whole response, the calls and what the handler received are those of an application that has
nothing but the endpoint of the request: no other endpoint plays a role. -/
theorem C30_wsgi_only_target (app : App Req Res) (sc : StatusCodec) (env : Environ) (key : List Char)
    (ep : Endpoint Req Res) (h : WsgiTarget app env key ep) :
    app.wsgi sc env = App.wsgi { app with endpoints := [(key, ep)] } sc env := by
  apply wsgi_of_lookup (by rfl) (by rfl) (by rfl)
  rw [wsgiLookup_ok.2 h]
  symm
  rw [wsgiLookup_ok]
  have hget : ∀ (k k' : Str), Dict.get? [(k, ep)] k' = if k = k' then some ep else none := by
    intro k k'
    simp [Dict.get?]
  cases h with
  | direct hp hep => exact .direct hp (by rw [hget, if_pos rfl])
  | mounted hp hno hs hep =>
    refine .mounted hp ?_ hs (by rw [hget, if_pos rfl])
    rw [hget, if_neg]
    intro e
    rw [e] at hep
    rw [hno] at hep
    cases hep

theorem asgi_of_lookup {app app' : App Req Res} (h1 : app'.readMax = app.readMax) (h2 : app'.comps = app.comps)
    (h3 : app'.codecs = app.codecs) {scope : Scope} (hl : app.asgiLookup scope = app'.asgiLookup scope) (sc : StatusCodec)
    (env : Env) : app.asgi sc scope env = app'.asgi sc scope env := by
  cases app with
  | mk e p r c k =>
  cases app' with
  | mk e' p' r' c' k' =>
    cases h1; cases h2; cases h3
    have hr : App.asgiRoute ⟨e, p, r, c, k⟩ scope = App.asgiRoute ⟨e', p', r, c, k⟩ scope := by
      unfold App.asgiRoute; rw [hl]
    unfold App.asgi
    rw [hr]
    rfl

/-- C30, ASGI: no other endpoint plays a role. -/
theorem C30_asgi_only_target (app : App Req Res) (sc : StatusCodec) (scope : Scope) (env : Env) (key : List Char)
    (ep : Endpoint Req Res) (h : AsgiTarget app scope key ep) :
    app.asgi sc scope env = App.asgi { app with endpoints := [(key, ep)] } sc scope env := by
  apply asgi_of_lookup (by rfl) (by rfl) (by rfl)
  rw [asgiLookup_ok.2 h]
  symm
  rw [asgiLookup_ok]
  have hget : ∀ (k k' : Str), Dict.get? [(k, ep)] k' = if k = k' then some ep else none := by
    intro k k'
    simp [Dict.get?]
  cases h with
  | direct hep => exact .direct (by rw [hget, if_pos rfl])
  | mounted hno hroot hp hep =>
    refine .mounted ?_ hroot hp (by rw [hget, if_pos rfl])
    rw [hget, if_neg]
    intro e
    rw [← e, hep] at hno
    cases hno

/-- C30, WSGI: a request without endpoint is answered 404 and no function is called. -/
theorem C30_wsgi_not_found (app : App Req Res) (sc : StatusCodec) (env : Environ)
    (hp : ∃ p, Dict.get? env.vars (pys! "PATH_INFO") = some p) (hs : ∃ s, Dict.get? env.vars (pys! "SCRIPT_NAME") = some s)
    (h : ∀ key ep, ¬ WsgiTarget app env key ep) :
    (app.wsgi sc env).calls = [] ∧ WsgiGave (app.wsgi sc env) ⟨404, [], []⟩ := by
  have hl : app.wsgiLookup env = .error notFound := by
    obtain ⟨p, hp⟩ := hp
    obtain ⟨s, hs⟩ := hs
    cases he : app.wsgiLookup env with
    | ok r => exact absurd (wsgiLookup_ok.1 he) (h r.1 r.2)
    | error e =>
      unfold App.wsgiLookup at he
      rw [item_ok.2 hp, item_ok.2 hs] at he
      dsimp only at he
      repeat' split at he
      all_goals first | (cases he; rfl) | cases he
  have : app.wsgi sc env = wsgiFail [] notFound none := by
    unfold App.wsgi App.wsgiRoute
    rw [hl]
  rw [this]
  exact ⟨wsgiFail_calls .., wsgiFail_http ..⟩

/-- C30, ASGI. -/
theorem C30_asgi_not_found (app : App Req Res) (sc : StatusCodec) (scope : Scope) (env : Env)
    (h : ∀ key ep, ¬ AsgiTarget app scope key ep) :
    (app.asgi sc scope env).calls = [] ∧ (Reliable env → AsgiGave (app.asgi sc scope env) ⟨404, [], []⟩) := by
  have hl : app.asgiLookup scope = .error notFound := by
    cases he : app.asgiLookup scope with
    | ok r => exact absurd (asgiLookup_ok.1 he) (h r.1 r.2)
    | error e => rw [asgiLookup_error he]
  have : app.asgi sc scope env = asgiFail env [] [] notFound none := by
    unfold App.asgi App.asgiRoute
    rw [hl]
  rw [this]
  exact ⟨asgiFail_calls .., fun hr => asgiFail_http hr ..⟩

/-! ### C29 -/

/-- C29, WSGI: whatever function is called, the HTTP method of the request is one its RPC method may run on. -/
theorem C29_wsgi_runs (app : App Req Res) (sc : StatusCodec) (env : Environ) (c : Called Req)
    (hc : c ∈ (app.wsgi sc env).calls) :
    ∃ ep httpMethod, WsgiTarget app env c.path ep ∧ Dict.get? env.vars (pys! "REQUEST_METHOD") = some httpMethod ∧
      MayRun ep.method (c.ctx.requestHeaders.getD (pys! "content-type") []) httpMethod ∧ c.ctx.httpMethod = httpMethod := by
  rcases wsgi_calls app sc env with h | ⟨r, req, hr, h⟩
  · rw [h] at hc; cases hc
  · rw [h, List.mem_singleton] at hc
    subst hc
    obtain ⟨h1, h2, _, _, h5, h6, _⟩ := wsgiRoute_ok hr
    exact ⟨r.ep, r.httpMethod, h1, h2, by rw [h5.headers]; exact h6, h5.httpMethod⟩

/-- C29, ASGI. -/
theorem C29_asgi_runs (app : App Req Res) (sc : StatusCodec) (scope : Scope) (env : Env) (c : Called Req)
    (hc : c ∈ (app.asgi sc scope env).calls) :
    ∃ ep, AsgiTarget app scope c.path ep ∧
      MayRun ep.method (c.ctx.requestHeaders.getD (pys! "content-type") []) scope.method ∧
      c.ctx.httpMethod = scope.method := by
  rcases asgi_calls app sc scope env with h | ⟨r, req, hr, h⟩
  · rw [h] at hc; cases hc
  · rw [h, List.mem_singleton] at hc
    subst hc
    obtain ⟨h1, _, _, _, h5, h6, _⟩ := asgiRoute_ok hr
    exact ⟨r.ep, h1, by rw [h5.headers]; exact h6, h5.httpMethod⟩

/-- C29, WSGI: any other HTTP method is answered 405 with the methods that are allowed, and no function is called.  (A gRPC
request needs an application server with trailers.) -/
theorem C29_wsgi_not_allowed (app : App Req Res) (sc : StatusCodec) (env : Environ) (key : List Char)
    (ep : Endpoint Req Res) (ht : WsgiTarget app env key ep) (m : List Char)
    (hm : Dict.get? env.vars (pys! "REQUEST_METHOD") = some m) (ct : List Char)
    (hct : (wsgiHeaders env.vars).getD (pys! "content-type") [] = ct) (htr : GrpcType ct → env.sendTrailers = true)
    (hno : ¬ MayRun ep.method ct m) :
    (app.wsgi sc env).calls = [] ∧
    ∃ a, Allow ep.method ct a ∧ WsgiGave (app.wsgi sc env) ⟨405, [(pys! "allow", a)], []⟩ := by
  obtain ⟨a, ha, he⟩ := serverContext_405 hno
  have hr : app.wsgiRoute env = .error (methodNotAllowed a) := by
    unfold App.wsgiRoute
    rw [wsgiLookup_ok.2 ht]
    dsimp only
    rw [item_ok.2 hm]
    dsimp only
    rw [hct, if_neg (by rw [usesTrailers_iff]; rintro ⟨h1, h2⟩; exact h2 (htr h1)), he]
  have : app.wsgi sc env = wsgiFail [] (methodNotAllowed a) none := by
    unfold App.wsgi
    rw [hr]
  rw [this]
  exact ⟨wsgiFail_calls .., a, ha, wsgiFail_http ..⟩

/-- C29, ASGI. -/
theorem C29_asgi_not_allowed (app : App Req Res) (sc : StatusCodec) (scope : Scope) (env : Env) (key : List Char)
    (ep : Endpoint Req Res) (ht : AsgiTarget app scope key ep) (headers : Headers)
    (hh : asgiHeaders scope.headers Headers.empty = .ok headers) (ct : List Char)
    (hct : headers.getD (pys! "content-type") [] = ct) (htr : GrpcType ct → scope.trailers = true)
    (hno : ¬ MayRun ep.method ct scope.method) :
    (app.asgi sc scope env).calls = [] ∧
    (Reliable env → ∃ a, Allow ep.method ct a ∧ AsgiGave (app.asgi sc scope env) ⟨405, [(pys! "allow", a)], []⟩) := by
  obtain ⟨a, ha, he⟩ := serverContext_405 hno
  have hr : app.asgiRoute scope = .error (methodNotAllowed a) := by
    unfold App.asgiRoute
    rw [asgiLookup_ok.2 ht]
    dsimp only
    rw [hh]
    dsimp only
    rw [hct, if_neg (by rw [usesTrailers_iff]; rintro ⟨h1, h2⟩; exact h2 (htr h1)), he]
  have : app.asgi sc scope env = asgiFail env [] [] (methodNotAllowed a) none := by
    unfold App.asgi
    rw [hr]
  rw [this]
  exact ⟨asgiFail_calls .., fun hrel => ⟨a, ha, asgiFail_http hrel ..⟩⟩

/-! ### C60 -/

theorem headerOf_http {v k : Str} (hs : startsWith (pys! "HTTP_") v = true) (hk : lower (wsgiHeaderName v) = lower k) :
    headerOfVar v = some (lower k) := by
  obtain ⟨r, rfl⟩ := (isPrefixOf_iff _ _).1 hs
  unfold headerOfVar
  rw [if_neg (by simp), if_neg (by simp), if_pos ⟨r, rfl⟩, ← hk]
  rfl

/-- the loop of `_process_headers` -/
def httpFold (vars : List (Str × Str)) (h : Headers) : Headers :=
  vars.foldl (fun h p => if startsWith (pys! "HTTP_") p.1 then h.setItem (wsgiHeaderName p.1) p.2 else h) h

/-- the values of the `HTTP_` variables for a header -/
def httpVals (vars : List (Str × Str)) (k : Str) : List Str :=
  (vars.filter fun p => startsWith (pys! "HTTP_") p.1 && decide (lower (wsgiHeaderName p.1) = lower k)).map (·.2)

theorem distinct_tail {p : Str × Str} {vars : List (Str × Str)} (hd : DistinctHeaders (p :: vars)) : DistinctHeaders vars := by
  unfold DistinctHeaders at hd ⊢
  rw [List.filterMap_cons] at hd
  split at hd
  · exact hd
  · exact (List.nodup_cons.1 hd).2

theorem httpFold_inv (vars : List (Str × Str)) (h : Headers) (hi : h.Inv) : (httpFold vars h).Inv := by
  induction vars generalizing h with
  | nil => exact hi
  | cons p vars ih =>
    show (httpFold vars _).Inv
    apply ih
    dsimp only
    split
    · exact Headers.inv_setItem hi _ _
    · exact hi

theorem httpFold_getall (vars : List (Str × Str)) (hd : DistinctHeaders vars) (k : Str) (h : Headers) (hi : h.Inv) :
    (httpFold vars h).getall k = if httpVals vars k = [] then h.getall k else httpVals vars k := by
  induction vars generalizing h with
  | nil => rfl
  | cons p vars ih =>
    have hd' := distinct_tail hd
    by_cases hs : startsWith (pys! "HTTP_") p.1 = true
    · have e : httpFold (p :: vars) h = httpFold vars (h.setItem (wsgiHeaderName p.1) p.2) := by
        unfold httpFold
        rw [List.foldl_cons, if_pos hs]
      rw [e, ih hd' _ (Headers.inv_setItem hi _ _), Headers.getall_setItem hi]
      by_cases hk : lower (wsgiHeaderName p.1) = lower k
      · have hnone : httpVals vars k = [] := by
          unfold httpVals
          rw [List.map_eq_nil_iff, List.filter_eq_nil_iff]
          intro q hq hq'
          simp only [Bool.and_eq_true, decide_eq_true_eq] at hq'
          have e1 : headerOfVar p.1 = some (lower k) := headerOf_http hs hk
          have e2 : headerOfVar q.1 = some (lower k) := headerOf_http hq'.1 hq'.2
          unfold DistinctHeaders at hd
          rw [List.filterMap_cons, e1] at hd
          exact (List.nodup_cons.1 hd).1 (List.mem_filterMap.2 ⟨q, hq, e2⟩)
        have hv : httpVals (p :: vars) k = [p.2] := by
          have : httpVals (p :: vars) k = p.2 :: httpVals vars k := by
            unfold httpVals
            rw [List.filter_cons, if_pos (by simp [hs, hk])]
            rfl
          rw [this, hnone]
        rw [hnone, if_pos rfl, if_pos hk, hv, if_neg (by simp)]
      · have hv : httpVals (p :: vars) k = httpVals vars k := by
          unfold httpVals
          rw [List.filter_cons, if_neg (by simp [hk])]
        rw [hv, if_neg hk]
    · have e : httpFold (p :: vars) h = httpFold vars h := by
        unfold httpFold
        rw [List.foldl_cons, if_neg hs]
      have hv : httpVals (p :: vars) k = httpVals vars k := by
        unfold httpVals
        rw [List.filter_cons, if_neg (by simp [hs])]
      rw [e, hv, ih hd' _ hi]

theorem filter_le_one {α β : Type} [DecidableEq β] (f : α → Option β) (l : List α) (h : (l.filterMap f).Nodup) (b : β) :
    (l.filter fun x => f x = some b).length ≤ 1 := by
  have hc : ∀ l : List α, (l.filterMap f).count b = (l.filter fun x => f x = some b).length := by
    intro l
    induction l with
    | nil => rfl
    | cons x l ih =>
      rw [List.filterMap_cons, List.filter_cons]
      cases hx : f x with
      | none => simp [ih]
      | some y =>
        by_cases hy : y = b
        · subst hy; simp [ih]
        · simp [ih, hy]
  rw [← hc]
  exact List.nodup_iff_count.1 h b

theorem wsgiHeaders_getall (vars : List (Str × Str)) (hd : DistinctHeaders vars) (k : Str) :
    (wsgiHeaders vars).getall k = wsgiValues vars k := by
  let h1 : Headers := match Dict.get? vars (pys! "CONTENT_TYPE") with
    | some v => Headers.empty.setItem (pys! "content-type") v
    | none => Headers.empty
  let h2 : Headers := match Dict.get? vars (pys! "CONTENT_LENGTH") with
    | some v => h1.setItem (pys! "content-length") v
    | none => h1
  have hw : wsgiHeaders vars = httpFold vars h2 := rfl
  have i1 : h1.Inv := by
    show Headers.Inv (match Dict.get? vars (pys! "CONTENT_TYPE") with
      | some v => Headers.empty.setItem (pys! "content-type") v
      | none => Headers.empty)
    split
    · exact Headers.inv_setItem Headers.inv_empty _ _
    · exact Headers.inv_empty
  have i2 : h2.Inv := by
    show Headers.Inv (match Dict.get? vars (pys! "CONTENT_LENGTH") with
      | some v => h1.setItem (pys! "content-length") v
      | none => h1)
    split
    · exact Headers.inv_setItem i1 _ _
    · exact i1
  have g1 : h1.getall k = if lower k = pys! "content-type" then (Dict.get? vars (pys! "CONTENT_TYPE")).toList else [] := by
    show Headers.getall (match Dict.get? vars (pys! "CONTENT_TYPE") with
      | some v => Headers.empty.setItem (pys! "content-type") v
      | none => Headers.empty) k = _
    cases Dict.get? vars (pys! "CONTENT_TYPE") with
    | none => simp
    | some v =>
      show Headers.getall (Headers.empty.setItem (pys! "content-type") v) k = _
      rw [Headers.getall_setItem Headers.inv_empty]
      have : lower (pys! "content-type") = pys! "content-type" := by decide +kernel
      rw [this]
      simp only [eq_comm, Headers.getall_empty, Option.toList]
  have g2 : h2.getall k = if lower k = pys! "content-length" then (Dict.get? vars (pys! "CONTENT_LENGTH")).toList
      else h1.getall k := by
    show Headers.getall (match Dict.get? vars (pys! "CONTENT_LENGTH") with
      | some v => h1.setItem (pys! "content-length") v
      | none => h1) k = _
    cases Dict.get? vars (pys! "CONTENT_LENGTH") with
    | none =>
      show h1.getall k = _
      split
      · rename_i e
        rw [g1, if_neg (by rw [e]; decide)]; rfl
      · rfl
    | some v =>
      show Headers.getall (h1.setItem (pys! "content-length") v) k = _
      rw [Headers.getall_setItem i1]
      have : lower (pys! "content-length") = pys! "content-length" := by decide +kernel
      rw [this]
      simp only [eq_comm, Option.toList]
  have hlen : (wsgiValues vars k).length ≤ 1 := by
    unfold wsgiValues
    rw [List.length_map]
    exact filter_le_one (fun p : Str × Str => headerOfVar p.1) vars hd (lower k)
  have hsub : ∀ v, v ∈ httpVals vars k → v ∈ wsgiValues vars k := by
    intro v hv
    unfold httpVals at hv
    unfold wsgiValues
    rw [List.mem_map] at hv ⊢
    obtain ⟨p, hp, rfl⟩ := hv
    rw [List.mem_filter] at hp
    simp only [Bool.and_eq_true, decide_eq_true_eq] at hp
    exact ⟨p, List.mem_filter.2 ⟨hp.1, by simpa using headerOf_http hp.2.1 hp.2.2⟩, rfl⟩
  have hone : ∀ v, v ∈ wsgiValues vars k → wsgiValues vars k = [v] := by
    intro v hv
    match hl : wsgiValues vars k with
    | [] => rw [hl] at hv; cases hv
    | [x] => rw [hl] at hv; rw [List.mem_singleton] at hv; rw [hv]
    | _ :: _ :: _ => rw [hl] at hlen; simp at hlen
  have hlen' : (httpVals vars k).length ≤ 1 := by
    unfold httpVals
    rw [List.length_map]
    refine Nat.le_trans ?_ (filter_le_one (fun p : Str × Str => headerOfVar p.1) vars hd (lower k))
    rw [← List.countP_eq_length_filter, ← List.countP_eq_length_filter]
    refine List.countP_mono_left ?_
    intro p _ hp
    simp only [Bool.and_eq_true, decide_eq_true_eq] at hp
    simpa using headerOf_http hp.1 hp.2
  rw [hw, httpFold_getall vars hd k h2 i2]
  by_cases hA : httpVals vars k = []
  · rw [if_pos hA, g2, g1]
    -- the variables `CONTENT_…`
    have hcase : ∀ p ∈ vars, headerOfVar p.1 = some (lower k) →
        (p.1 = pys! "CONTENT_TYPE" ∧ lower k = pys! "content-type") ∨
        (p.1 = pys! "CONTENT_LENGTH" ∧ lower k = pys! "content-length") := by
      intro p hp he
      by_cases e1 : p.1 = pys! "CONTENT_TYPE"
      · refine .inl ⟨e1, ?_⟩
        rw [e1] at he
        have : headerOfVar (pys! "CONTENT_TYPE") = some (pys! "content-type") := rfl
        rw [this] at he
        exact (Option.some.inj he).symm
      · by_cases e2 : p.1 = pys! "CONTENT_LENGTH"
        · refine .inr ⟨e2, ?_⟩
          rw [e2] at he
          have : headerOfVar (pys! "CONTENT_LENGTH") = some (pys! "content-length") := rfl
          rw [this] at he
          exact (Option.some.inj he).symm
        · exfalso
          unfold headerOfVar at he
          rw [if_neg e1, if_neg e2] at he
          split at he
          · rename_i hpre
            have hm : p.2 ∈ httpVals vars k := by
              unfold httpVals
              rw [List.mem_map]
              refine ⟨p, List.mem_filter.2 ⟨hp, ?_⟩, rfl⟩
              simp only [Bool.and_eq_true, decide_eq_true_eq]
              refine ⟨?_, Option.some.inj he⟩
              unfold startsWith
              rw [List.isPrefixOf_iff_prefix]
              exact hpre
            rw [hA] at hm
            cases hm
          · cases he
    have hval : ∀ (var name : Str), headerOfVar var = some name → lower k = name →
        (∀ p ∈ vars, headerOfVar p.1 = some (lower k) → p.1 = var) →
        (Dict.get? vars var).toList = wsgiValues vars k := by
      intro var name hvar hk hall
      cases hg : Dict.get? vars var with
      | none =>
        have : wsgiValues vars k = [] := by
          unfold wsgiValues
          rw [List.map_eq_nil_iff, List.filter_eq_nil_iff]
          intro p hp he
          have he := hall p hp (by simpa using he)
          rw [Dict.get?_eq_none_iff] at hg
          exact hg (List.mem_map.2 ⟨p, hp, he⟩)
        rw [this]; rfl
      | some v =>
        have hm := Dict.get?_some_mem hg
        rw [hone v]
        · rfl
        · unfold wsgiValues
          rw [List.mem_map]
          exact ⟨_, List.mem_filter.2 ⟨hm, by simp [hvar, hk]⟩, rfl⟩
    by_cases e1 : lower k = pys! "content-length"
    · rw [if_pos e1]
      refine hval _ _ rfl e1 ?_
      intro p hp he
      rcases hcase p hp he with h | h
      · rw [e1] at h; exact absurd h.2 (by decide)
      · exact h.1
    · rw [if_neg e1]
      by_cases e2 : lower k = pys! "content-type"
      · rw [if_pos e2]
        refine hval _ _ rfl e2 ?_
        intro p hp he
        rcases hcase p hp he with h | h
        · exact h.1
        · exact absurd h.2 e1
      · rw [if_neg e2]
        symm
        unfold wsgiValues
        rw [List.map_eq_nil_iff, List.filter_eq_nil_iff]
        intro p hp he
        rcases hcase p hp (by simpa using he) with h | h
        · exact e2 h.2
        · exact e1 h.2
  · rw [if_neg hA]
    match hl : httpVals vars k with
    | [] => exact absurd hl hA
    | [v] => rw [hone v (hsub v (by rw [hl]; simp))]
    | _ :: _ :: _ => rw [hl] at hlen'; simp at hlen'

/-- C60, WSGI: a handler sees, for every header name, exactly the values of the variables that stand for it, provided no two
variables stand for the same header. -/
theorem C60_wsgi_headers (app : App Req Res) (sc : StatusCodec) (env : Environ) (hd : DistinctHeaders env.vars)
    (c : Called Req) (hc : c ∈ (app.wsgi sc env).calls) (name : List Char) :
    c.ctx.requestHeaders.getall name = wsgiValues env.vars name := by
  rcases wsgi_calls app sc env with h | ⟨r, req, hr, h⟩
  · rw [h] at hc; cases hc
  · rw [h, List.mem_singleton] at hc
    subst hc
    obtain ⟨_, _, _, _, h5, _⟩ := wsgiRoute_ok hr
    rw [h5.headers, wsgiHeaders_getall _ hd]

theorem asgiHeaders_ok (l : List (Bytes × Bytes)) (h h' : Headers) (hi : h.Inv) (he : asgiHeaders l h = .ok h') :
    ∃ fields : List (Str × Str), l.map (fun p => (utf8Decode p.1, utf8Decode p.2)) = fields.map (fun p => (some p.1, some p.2)) ∧
      ∀ name, h'.getall name = h.getall name ++ fieldValues fields name := by
  induction l generalizing h with
  | nil => cases he; exact ⟨[], rfl, by simp [fieldValues]⟩
  | cons p l ih =>
    obtain ⟨k, v⟩ := p
    unfold asgiHeaders at he
    split at he
    · rename_i k' v' hk hv
      obtain ⟨fields, h1, h2⟩ := ih _ (Headers.inv_add hi k' v') he
      refine ⟨(k', v') :: fields, by simp [hk, hv, h1], ?_⟩
      intro name
      rw [h2, Headers.getall_add hi]
      unfold fieldValues
      rw [List.filter_cons]
      by_cases e : lower k' = lower name
      · simp [e]
      · simp [e]
    · cases he

/-- C60, ASGI: a handler sees, for every header name, exactly the values the request has for it, in order.  (Names and values are
UTF-8; a request with others runs no handler.) -/
theorem C60_asgi_headers (app : App Req Res) (sc : StatusCodec) (scope : Scope) (env : Env)
    (c : Called Req) (hc : c ∈ (app.asgi sc scope env).calls) :
    ∃ fields : List (List Char × List Char),
      scope.headers.map (fun p => (utf8Decode p.1, utf8Decode p.2)) = fields.map (fun p => (some p.1, some p.2)) ∧
      ∀ name, c.ctx.requestHeaders.getall name = fieldValues fields name := by
  rcases asgi_calls app sc scope env with h | ⟨r, req, hr, h⟩
  · rw [h] at hc; cases hc
  · rw [h, List.mem_singleton] at hc
    subst hc
    obtain ⟨_, _, h3, _, h5, _⟩ := asgiRoute_ok hr
    rw [h5.headers]
    obtain ⟨fields, h1, h2⟩ := asgiHeaders_ok _ _ _ Headers.inv_empty h3
    exact ⟨fields, h1, fun name => by rw [h2]; simp⟩

/-! ### the hypotheses are met -/

/-- a POST and a GET that run the echo handler, and a mounted request -/
example : (demoApp.wsgi demoStatus (demoEnviron (pys! "POST") (pys! "/a.S/Echo") (pys! "application/proto") [[1, 2], [3]])).calls.map
    (fun c => (c.path, c.ctx.method, c.req)) = [(pys! "/a.S/Echo", echoInfo, some [1, 2, 3])] := by decide +kernel
example : (demoApp.wsgi demoStatus ⟨[(pys! "REQUEST_METHOD", pys! "GET"), (pys! "PATH_INFO", pys! "/Echo"),
    (pys! "SCRIPT_NAME", pys! "/a.S"), (pys! "QUERY_STRING", pys! "message=hi&encoding=proto")], [], false⟩).calls.map
    (fun c => (c.path, c.ctx.httpMethod, c.req)) = [(pys! "/a.S/Echo", pys! "GET", some [104, 105])] := by decide +kernel
example : (demoApp.asgi demoStatus { demoScope (pys! "POST") (pys! "/m/a.S/Echo") (pys! "application/proto") with
      rootPath := pys! "/m" } (demoEnv [.request [1] true, .request [2] false])).calls.map
    (fun c => (c.path, c.ctx.method, c.req)) = [(pys! "/a.S/Echo", echoInfo, some [1, 2])] := by decide +kernel
/-- a client stream -/
example : (demoApp.wsgi demoStatus (demoEnviron (pys! "POST") (pys! "/a.S/Count") (pys! "application/connect+proto")
      [[0, 0, 0, 0, 1, 9, 0], [0, 0, 0, 0]])).received = [[9], []] := by decide +kernel

/-- no endpoint -/
example : (∀ key ep, ¬ WsgiTarget demoApp (demoEnviron (pys! "POST") (pys! "/a.S/Nope") (pys! "application/proto") []) key ep) ∧
    (∀ key ep, ¬ AsgiTarget demoApp (demoScope (pys! "POST") (pys! "/a.S/Nope") (pys! "application/proto")) key ep) := by
  refine ⟨fun key ep h => ?_, fun key ep h => ?_⟩
  · have := wsgiLookup_ok.2 h
    have h' : demoApp.wsgiLookup (demoEnviron (pys! "POST") (pys! "/a.S/Nope") (pys! "application/proto") []) =
      .error notFound := rfl
    rw [h'] at this; cases this
  · have := asgiLookup_ok.2 h
    have h' : demoApp.asgiLookup (demoScope (pys! "POST") (pys! "/a.S/Nope") (pys! "application/proto")) =
      .error notFound := rfl
    rw [h'] at this; cases this

/-- a method that may not run on GET -/
example : WsgiTarget demoApp (demoEnviron (pys! "GET") (pys! "/a.S/Count") (pys! "application/proto") []) (pys! "/a.S/Count")
      ⟨countInfo, .clientStream countCall⟩ ∧
    AsgiTarget demoApp (demoScope (pys! "GET") (pys! "/a.S/Count") (pys! "application/proto")) (pys! "/a.S/Count")
      ⟨countInfo, .clientStream countCall⟩ ∧
    ¬ MayRun countInfo (pys! "application/proto") (pys! "GET") ∧
    (demoApp.wsgi demoStatus (demoEnviron (pys! "GET") (pys! "/a.S/Count") (pys! "application/proto") [])).events =
      [.start 405 [(pys! "allow", pys! "POST")]] := by
  refine ⟨wsgiLookup_ok.1 rfl, asgiLookup_ok.1 rfl, ?_, by decide +kernel⟩
  rintro (h | ⟨_, h, _⟩) <;> exact absurd h (by decide)

/-- distinct headers -/
example : DistinctHeaders (demoEnviron (pys! "POST") (pys! "/a.S/Echo") (pys! "application/proto") []).vars ∧
    wsgiValues (demoEnviron (pys! "POST") (pys! "/a.S/Echo") (pys! "application/proto") []).vars (pys! "X-A") = [pys! "v"] :=
  ⟨by unfold DistinctHeaders; decide +kernel, by decide +kernel⟩

end Props
