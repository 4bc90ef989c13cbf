import Verif.Proofs.Server
/-
Lemmas about the model of the WSGI server.
-/
namespace Conn
open Py Spec

/-! ### reading the body -/

theorem readInput_append (n : Nat) (segs : List Bytes) :
    (readInput n segs).1 ++ (readInput n segs).2.flatten = segs.flatten := by
  unfold readInput
  split
  · rfl
  · split
    · simp
    · simp only [List.flatten_cons, ← List.append_assoc, List.take_append_drop]

theorem readInput_pieces {n : Nat} {segs : List Bytes} (h : Pieces segs) : Pieces (readInput n segs).2 := by
  unfold readInput
  split
  · exact h
  · rename_i s r
    split
    · exact fun x hx => h x (by simp [hx])
    · intro x hx
      rcases List.mem_cons.1 hx with rfl | hx
      · intro e
        have := congrArg List.length e
        simp at this
        omega
      · exact h x (by simp [hx])

theorem readInput_nil {n : Nat} (hn : 0 < n) {segs : List Bytes} (h : Pieces segs) (he : (readInput n segs).1 = []) :
    segs = [] := by
  unfold readInput at he
  split at he
  · rfl
  · rename_i s r
    have hs := h s (by simp)
    split at he
    · exact absurd he hs
    · exfalso
      have h1 := congrArg List.length he
      have h2 := List.length_pos_iff.mpr hs
      rw [List.length_take] at h1
      simp only [List.length_nil] at h1
      omega

theorem take_append_long {α : Type} {a b : List α} {n : Nat} (h : a.length ≤ n) :
    (a ++ b).take n = a ++ b.take (n - a.length) := by
  rw [List.take_append, List.take_of_length_le h]

theorem readRest_eq (segs : List Bytes) (h : Pieces segs) (todo : Nat) : readRest todo segs = segs.flatten.take todo := by
  induction todo using Nat.strongRecOn generalizing segs with
  | ind todo ih =>
    unfold readRest
    split
    · rename_i e; simp [e]
    · rename_i e
      split
      · rename_i e'
        rw [readInput_nil (by omega) h e']; simp
      · rename_i e'
        have hl : 0 < (readInput todo segs).1.length := List.length_pos_iff.mpr e'
        rw [ih _ (by omega) _ (readInput_pieces h)]
        have ha := readInput_append todo segs
        have hle := readInput_length todo segs
        rw [← take_append_long hle, ha]

theorem readBodyWithLength_eq (segs : List Bytes) (h : Pieces segs) (n : Nat) :
    readBodyWithLength segs n =
      if n ≤ segs.flatten.length then .ok (segs.flatten.take n) else .error (truncated n segs.flatten.length) := by
  unfold readBodyWithLength
  dsimp only
  have ha := readInput_append n segs
  have hle := readInput_length n segs
  by_cases e : (readInput n segs).1.length = n
  · rw [if_pos e]
    have hlen := congrArg List.length ha
    rw [List.length_append] at hlen
    rw [if_pos (by omega), ← ha, take_append_long hle, e, Nat.sub_self, List.take_zero, List.append_nil]
  · rw [if_neg e, readRest_eq _ (readInput_pieces h)]
    have hall : (readInput n segs).1 ++ List.take (n - (readInput n segs).1.length) (readInput n segs).2.flatten =
        segs.flatten.take n := by
      rw [← take_append_long hle, ha]
    rw [hall, List.length_take]
    by_cases e2 : n ≤ segs.flatten.length
    · rw [if_neg (by omega), if_pos e2]
    · rw [if_pos (by omega), if_neg e2]
      congr 2
      omega

theorem readBodyAux_flatten (fuel : Nat) (segs : List Bytes) (h : Pieces segs) (hf : segs.flatten.length < fuel) :
    (readBodyAux fuel segs).flatten = segs.flatten := by
  induction fuel generalizing segs with
  | zero => omega
  | succ fuel ih =>
    unfold readBodyAux
    dsimp only
    split
    · rename_i e
      have : (readInput 4096 segs).1 = [] := by simpa using e
      rw [readInput_nil (by omega) h this]
    · rename_i e
      have hne : (readInput 4096 segs).1 ≠ [] := by simpa using e
      have hl := List.length_pos_iff.mpr hne
      have ha := readInput_append 4096 segs
      have hlen := congrArg List.length ha
      rw [List.length_append] at hlen
      rw [List.flatten_cons, ih _ (readInput_pieces h) (by omega), ha]

theorem readBody_flatten (segs : List Bytes) (h : Pieces segs) : (readBody segs).flatten = segs.flatten :=
  readBodyAux_flatten _ _ h (Nat.lt_succ_self _)

/-! ### which functions are called -/

section
variable {Req Res : Type}

theorem wsgiFail_calls (calls : List (Called Req)) (e : Exc) (ctx : Option Meta) : (wsgiFail calls e ctx).calls = calls := by
  unfold wsgiFail
  split <;> rfl

theorem wsgiFinish_calls (c : StreamCfg Req Res) (h : HState Req) (ev : List WEvent) (e : Option Exc) :
    (c.wsgiFinish h ev e).calls = c.calls := by
  unfold StreamCfg.wsgiFinish
  split <;> rfl

theorem wsgiCaught_calls (c : StreamCfg Req Res) (h : HState Req) (ev : List WEvent) (e : Exc) :
    (c.wsgiCaught h ev e).calls = c.calls := by
  unfold StreamCfg.wsgiCaught
  split
  · exact wsgiFinish_calls ..
  · rfl

theorem wsgiBody_calls (c : StreamCfg Req Res) (o : Option Exc) (as : List (Act Res)) (h : HState Req) (ev : List WEvent) :
    (c.wsgiBody o as h ev).calls = c.calls := by
  induction as generalizing h ev with
  | nil =>
    unfold StreamCfg.wsgiBody
    split
    · exact wsgiFinish_calls ..
    · exact wsgiCaught_calls ..
  | cons a as ih =>
    cases a with
    | step s =>
      unfold StreamCfg.wsgiBody
      split
      · exact wsgiCaught_calls ..
      · exact ih ..
    | emit m =>
      unfold StreamCfg.wsgiBody
      split
      · exact wsgiCaught_calls ..
      · exact ih ..

theorem wsgiErrorOnly_calls (c : StreamCfg Req Res) (h : HState Req) (ev : List WEvent) (e : Exc) :
    (c.wsgiErrorOnly h ev e).calls = c.calls := by
  unfold StreamCfg.wsgiErrorOnly
  split
  · split
    · rfl
    · dsimp only; split <;> rfl
  · rfl

theorem wsgiFirst_calls (c : StreamCfg Req Res) (o : Option Exc) (as : List (Act Res)) (h : HState Req) :
    (c.wsgiFirst o as h).calls = c.calls := by
  induction as generalizing h with
  | nil =>
    unfold StreamCfg.wsgiFirst
    split
    · exact wsgiErrorOnly_calls ..
    · split
      · rfl
      · exact wsgiErrorOnly_calls ..
  | cons a as ih =>
    cases a with
    | step s =>
      unfold StreamCfg.wsgiFirst
      split
      · exact wsgiErrorOnly_calls ..
      · exact ih ..
    | emit m => exact wsgiBody_calls ..

/-- the calls of a streaming or gRPC request -/
theorem wsgiStream_calls (app : App Req Res) (sc : StatusCodec) (env : Environ) (key : Str) (p : Proto) (headers : Headers)
    (ctx : RequestContext) (handler : Handler Req Res) :
    (app.wsgiStream sc env key p headers ctx handler).calls = [] ∨
    ∃ codec comp req h script,
      app.codecs.get? (p.codecNameFromContentType (headers.getD (pys! "content-type") []) true) = some codec ∧
      (p.negotiateStreamCompression headers app.comps).1 = some comp ∧
      handler.start (app.wsgiRequests env codec comp) ctx = .ok (req, h, script) ∧
      (app.wsgiStream sc env key p headers ctx handler).calls = [⟨key, ctx, req⟩] := by
  unfold App.wsgiStream
  dsimp only
  split
  · exact .inl (wsgiFail_calls ..)
  · rename_i codec hcodec
    split
    · exact .inl (wsgiErrorOnly_calls ..)
    · rename_i comp hcomp
      split
      · exact .inl (wsgiErrorOnly_calls ..)
      · rename_i req h script hs
        exact .inr ⟨codec, comp, req, h, script, hcodec, hcomp, hs, wsgiFirst_calls ..⟩

/-- the calls of a unary Connect request -/
theorem wsgiUnary_calls (app : App Req Res) (env : Environ) (key httpMethod : Str) (headers : Headers)
    (ctx : RequestContext) (f : Req → RequestContext → Call Res) :
    (∃ e, (if httpMethod = pys! "GET" then app.wsgiGet env else app.wsgiPost env headers) = .error e ∧
      app.wsgiUnary env key httpMethod headers ctx f = wsgiFail [] e (some .empty)) ∨
    ∃ req codec, (if httpMethod = pys! "GET" then app.wsgiGet env else app.wsgiPost env headers) = .ok (req, codec) ∧
      (app.wsgiUnary env key httpMethod headers ctx f).calls = [⟨key, ctx, some req⟩] := by
  unfold App.wsgiUnary
  dsimp only
  cases he : (if httpMethod = pys! "GET" then app.wsgiGet env else app.wsgiPost env headers) with
  | error e => exact .inl ⟨e, rfl, rfl⟩
  | ok rc =>
    obtain ⟨req, codec⟩ := rc
    refine .inr ⟨req, codec, rfl, ?_⟩
    dsimp only
    split
    · exact wsgiFail_calls ..
    · split
      · exact wsgiFail_calls ..
      · rfl

/-! ### routing -/

theorem item_ok {env : Environ} {k v : Str} : env.item k = .ok v ↔ Dict.get? env.vars k = some v := by
  unfold Environ.item
  split
  · rename_i h; rw [h]; simp
  · rename_i h; rw [h]; simp

theorem rooted_eq (p : Str) : (if p.isEmpty then pys! "/" else p) = rooted p := by
  cases p <;> rfl

theorem wsgiLookup_ok {app : App Req Res} {env : Environ} {key : Str} {ep : Endpoint Req Res} :
    app.wsgiLookup env = .ok (key, ep) ↔ WsgiTarget app env key ep := by
  constructor
  · intro h
    unfold App.wsgiLookup at h
    split at h
    · cases h
    · rename_i p hp
      rw [item_ok] at hp
      dsimp only at h
      rw [rooted_eq] at h
      split at h
      · rename_i ep' hep
        cases h
        exact .direct hp hep
      · rename_i hno
        split at h
        · cases h
        · rename_i s hs
          rw [item_ok] at hs
          split at h
          · rename_i e
            subst e
            split at h
            · rename_i hep
              cases h
              exact .mounted hp hno hs hep
            · cases h
          · cases h
  · intro h
    unfold App.wsgiLookup
    cases h with
    | direct hp hep =>
      rw [item_ok.2 hp]
      dsimp only
      rw [rooted_eq, hep]
    | mounted hp hno hs hep =>
      rw [item_ok.2 hp]
      dsimp only
      rw [rooted_eq, hno]
      dsimp only
      rw [item_ok.2 hs]
      dsimp only
      rw [if_pos rfl, hep]

/-- the target is unique -/
theorem WsgiTarget.unique {app : App Req Res} {env : Environ} {k k' : Str} {ep ep' : Endpoint Req Res}
    (h : WsgiTarget app env k ep) (h' : WsgiTarget app env k' ep') : k = k' ∧ ep = ep' := by
  have := (wsgiLookup_ok.2 h).symm.trans (wsgiLookup_ok.2 h')
  cases this
  exact ⟨rfl, rfl⟩

theorem WsgiTarget.registered {app : App Req Res} {env : Environ} {k : Str} {ep : Endpoint Req Res}
    (h : WsgiTarget app env k ep) : Dict.get? app.endpoints k = some ep := by
  cases h with
  | direct hp hep => exact hep
  | mounted hp hno hs hep => exact hep

theorem wsgiRoute_ok {app : App Req Res} {env : Environ} {r : Route Req Res} (h : app.wsgiRoute env = .ok r) :
    WsgiTarget app env r.key r.ep ∧ Dict.get? env.vars (pys! "REQUEST_METHOD") = some r.httpMethod ∧
    r.headers = wsgiHeaders env.vars ∧
    r.proto = negotiateServerProtocol ((wsgiHeaders env.vars).getD (pys! "content-type") []) ∧
    CtxIs r.ctx r.ep.method r.httpMethod (wsgiScheme env.vars) (wsgiHeaders env.vars) (wsgiClient env.vars) ∧
    MayRun r.ep.method ((wsgiHeaders env.vars).getD (pys! "content-type") []) r.httpMethod ∧
    (r.proto = .grpc → env.sendTrailers = true) := by
  unfold App.wsgiRoute at h
  split at h
  · cases h
  · rename_i key ep hl
    split at h
    · cases h
    · rename_i hm hmeq
      dsimp only at h
      split at h
      · cases h
      · rename_i htr
        split at h
        · cases h
        · rename_i ctx hctx
          cases h
          obtain ⟨h1, h2⟩ := serverContext_ok rfl hctx
          have h1 : CtxIs ctx ep.method hm (wsgiScheme env.vars) (wsgiHeaders env.vars) (wsgiClient env.vars) := by
            unfold wsgiScheme
            cases hs : Dict.get? env.vars (pys! "wsgi.url_scheme") <;> (rw [hs] at h1; exact h1)
          refine ⟨wsgiLookup_ok.1 hl, item_ok.1 hmeq, rfl, rfl, h1, h2, ?_⟩
          intro hp
          dsimp only at hp
          rw [hp] at htr
          simpa [Proto.usesTrailers] using htr

/-- the calls of a request -/
theorem wsgi_calls (app : App Req Res) (sc : StatusCodec) (env : Environ) :
    (app.wsgi sc env).calls = [] ∨ ∃ r req, app.wsgiRoute env = .ok r ∧ (app.wsgi sc env).calls = [⟨r.key, r.ctx, req⟩] := by
  unfold App.wsgi
  split
  · exact .inl (wsgiFail_calls ..)
  · rename_i r hr
    split
    · rename_i f _ _
      rcases wsgiUnary_calls app env r.key r.httpMethod r.headers r.ctx f with ⟨e, _, h⟩ | ⟨req, codec, _, h⟩
      · rw [h]; exact .inl (wsgiFail_calls ..)
      · exact .inr ⟨r, some req, hr, h⟩
    · rcases wsgiStream_calls app sc env r.key r.proto r.headers r.ctx r.ep.handler with
        h | ⟨_, _, req, _, _, _, _, _, h⟩
      · exact .inl h
      · exact .inr ⟨r, req, hr, h⟩

theorem wsgiFail_http (calls : List (Called Req)) (status : Nat) (hs : List (Str × Str)) (ctx : Option Meta) :
    WsgiGave (wsgiFail calls (.http status hs) ctx)
      ⟨status, hs ++ (match ctx with | some m => m.contextHeaders | none => []), []⟩ :=
  ⟨rfl, [], rfl, rfl⟩

end

end Conn
