import Verif.Proofs.Server
/-
Lemmas about the model of the ASGI server.
-/
namespace Conn
open Py Spec

section
variable {Req Res : Type}

theorem asgiFail_calls (env : Env) (calls : List (Called Req)) (log : List (Sent × Option Exc)) (e : Exc) (ctx : Option Meta) :
    (asgiFail env calls log e ctx).calls = calls := by
  unfold asgiFail
  split
  · dsimp only; split <;> rfl
  · rfl

theorem finish_calls (c : AsgiCfg Res) (calls : List (Called Req)) (l : LoopOut Req) : (c.finish calls l).calls = calls := by
  unfold AsgiCfg.finish
  split
  · rfl
  · split
    · rfl
    · split <;> rfl

/-- the calls of a streaming or gRPC request -/
theorem asgiStream_calls (app : App Req Res) (sc : StatusCodec) (env : Env) (key : Str) (p : Proto) (headers : Headers)
    (codec : ServerCodec Req Res) (ctx : RequestContext) (handler : Handler Req Res) :
    (app.asgiStream sc env key p headers codec ctx handler).calls = [] ∨
    ∃ comp req h script,
      (p.negotiateStreamCompression headers app.comps).1 = some comp ∧
      handler.start (app.asgiRequests env codec comp) ctx = .ok (req, h, script) ∧
      (app.asgiStream sc env key p headers codec ctx handler).calls = [⟨key, ctx, req⟩] := by
  unfold App.asgiStream
  dsimp only
  cases hc : (p.negotiateStreamCompression headers app.comps).1 with
  | none => exact .inl (finish_calls ..)
  | some comp =>
    dsimp only
    cases hs : handler.start (app.asgiRequests env codec comp) ctx with
    | error e => exact .inl (finish_calls ..)
    | ok r =>
      obtain ⟨req, h, script⟩ := r
      exact .inr ⟨comp, req, h, script, rfl, hs, finish_calls ..⟩

/-- the calls of a unary Connect request -/
theorem asgiUnary_calls (app : App Req Res) (env : Env) (key httpMethod : Str) (headers : Headers)
    (codec : ServerCodec Req Res) (params : Dict Str (List Str)) (ctx : RequestContext)
    (f : Req → RequestContext → Call Res) :
    (∃ e, (if httpMethod = pys! "GET" then app.asgiGet params codec else app.asgiPost env headers codec) = .error e ∧
      app.asgiUnary env key httpMethod headers codec params ctx f = asgiFail env [] [] e (some .empty)) ∨
    ∃ req, (if httpMethod = pys! "GET" then app.asgiGet params codec else app.asgiPost env headers codec) = .ok req ∧
      (app.asgiUnary env key httpMethod headers codec params ctx f).calls = [⟨key, ctx, some req⟩] := by
  unfold App.asgiUnary
  dsimp only
  cases he : (if httpMethod = pys! "GET" then app.asgiGet params codec else app.asgiPost env headers codec) with
  | error e => exact .inl ⟨e, rfl, rfl⟩
  | ok req =>
    refine .inr ⟨req, rfl, ?_⟩
    dsimp only
    split
    · exact asgiFail_calls ..
    · split
      · exact asgiFail_calls ..
      · split
        · exact asgiFail_calls ..
        · rfl

/-! ### routing -/

theorem asgiLookup_ok {app : App Req Res} {scope : Scope} {key : Str} {ep : Endpoint Req Res} :
    app.asgiLookup scope = .ok (key, ep) ↔
      AsgiTarget app scope key ep := by
  constructor
  · intro h
    unfold App.asgiLookup at h
    split at h
    · rename_i hep; cases h; exact .direct hep
    · rename_i hno
      split at h
      · cases h
      · rename_i hr
        dsimp only at h
        split at h
        · rename_i hep
          cases h
          have hr' : scope.rootPath ≠ [] := by simpa using hr
          by_cases hs : startsWith scope.rootPath scope.path = true
          · obtain ⟨rest, hrest⟩ := (Props.isPrefixOf_iff _ _).1 hs
            have : removePrefix scope.rootPath scope.path = rest := by
              unfold removePrefix
              rw [if_pos hs, hrest, List.drop_left]
            rw [this] at hep ⊢
            exact .mounted hno hr' hrest hep
          · have : removePrefix scope.rootPath scope.path = scope.path := by
              unfold removePrefix
              rw [if_neg hs]
            rw [this, hno] at hep
            cases hep
        · cases h
  · intro h
    unfold App.asgiLookup
    cases h with
    | direct hep => rw [hep]
    | mounted hno hroot hp hep =>
      rw [hno]
      dsimp only
      rw [if_neg (by simpa using hroot)]
      have : removePrefix scope.rootPath scope.path = key := by
        unfold removePrefix
        rw [if_pos ((Props.isPrefixOf_iff _ _).2 ⟨_, hp⟩), hp, List.drop_left]
      rw [this, hep]

theorem asgiLookup_error {app : App Req Res} {scope : Scope} {e : Exc} (h : app.asgiLookup scope = .error e) :
    e = notFound := by
  unfold App.asgiLookup at h
  dsimp only at h
  repeat' split at h
  all_goals first | (cases h; rfl) | cases h

theorem AsgiTarget.unique {app : App Req Res} {scope : Scope} {k k' : Str} {ep ep' : Endpoint Req Res}
    (h : AsgiTarget app scope k ep) (h' : AsgiTarget app scope k' ep') : k = k' ∧ ep = ep' := by
  have := (asgiLookup_ok.2 h).symm.trans (asgiLookup_ok.2 h')
  cases this
  exact ⟨rfl, rfl⟩

theorem AsgiTarget.registered {app : App Req Res} {scope : Scope} {k : Str} {ep : Endpoint Req Res}
    (h : AsgiTarget app scope k ep) : Dict.get? app.endpoints k = some ep := by
  cases h with
  | direct hep => exact hep
  | mounted _ _ _ hep => exact hep

theorem asgiRoute_ok {app : App Req Res} {scope : Scope} {r : Route Req Res} (h : app.asgiRoute scope = .ok r) :
    AsgiTarget app scope r.key r.ep ∧ r.httpMethod = scope.method ∧
    asgiHeaders scope.headers Headers.empty = .ok r.headers ∧
    r.proto = negotiateServerProtocol (r.headers.getD (pys! "content-type") []) ∧
    CtxIs r.ctx r.ep.method scope.method (asgiScheme scope) r.headers (scope.client.map fun ca => ca.1 ++ pys! ":" ++ ca.2) ∧
    MayRun r.ep.method (r.headers.getD (pys! "content-type") []) scope.method ∧
    (r.proto = .grpc → scope.trailers = true) := by
  unfold App.asgiRoute at h
  split at h
  · cases h
  · rename_i key ep hl
    dsimp only at h
    split at h
    · cases h
    · rename_i headers hh
      split at h
      · cases h
      · rename_i htr
        split at h
        · cases h
        · rename_i ctx hctx
          cases h
          obtain ⟨h1, h2⟩ := serverContext_ok rfl hctx
          have h1 : CtxIs ctx ep.method scope.method (asgiScheme scope) headers (scope.client.map fun ca => ca.1 ++ pys! ":" ++ ca.2) := by
            unfold asgiScheme
            cases hs : scope.scheme <;> (rw [hs] at h1; exact h1)
          refine ⟨asgiLookup_ok.1 hl, rfl, hh, rfl, h1, h2, ?_⟩
          intro hp
          dsimp only at hp
          rw [hp] at htr
          simpa [Proto.usesTrailers] using htr

/-- the calls of a request -/
theorem asgi_calls (app : App Req Res) (sc : StatusCodec) (scope : Scope) (env : Env) :
    (app.asgi sc scope env).calls = [] ∨
    ∃ r req, app.asgiRoute scope = .ok r ∧ (app.asgi sc scope env).calls = [⟨r.key, r.ctx, req⟩] := by
  unfold App.asgi
  split
  · exact .inl (asgiFail_calls ..)
  · rename_i r hr
    split
    · exact .inl (asgiFail_calls ..)
    · rename_i params codec _
      split
      · rename_i f _ _
        rcases asgiUnary_calls app env r.key r.httpMethod r.headers codec params r.ctx f with ⟨e, _, h⟩ | ⟨req, _, h⟩
        · rw [h]; exact .inl (asgiFail_calls ..)
        · exact .inr ⟨r, some req, hr, h⟩
      · rcases asgiStream_calls app sc env r.key r.proto r.headers codec r.ctx r.ep.handler with
          h | ⟨_, req, _, _, _, _, h⟩
        · exact .inl h
        · exact .inr ⟨r, req, hr, h⟩

/-! ### sends that succeed -/

theorem send_ok {env : Env} (hr : Reliable env) (log : List (Sent × Option Exc)) (m : Sent) :
    env.send log m = (log ++ [(m, none)], none) := by
  unfold Env.send
  dsimp only
  rw [hr]

theorem sendAll_ok {env : Env} (hr : Reliable env) (ms : List Sent) (log : List (Sent × Option Exc)) :
    env.sendAll log ms = (log ++ ms.map fun m => (m, none), none) := by
  induction ms generalizing log with
  | nil => simp [Env.sendAll]
  | cons m ms ih =>
    unfold Env.sendAll
    rw [send_ok hr]
    dsimp only
    rw [ih]
    simp

theorem asgiFail_http {env : Env} (hr : Reliable env) (calls : List (Called Req)) (status : Nat) (hs : List (Str × Str))
    (ctx : Option Meta) :
    AsgiGave (asgiFail env calls [] (.http status hs) ctx)
      ⟨status, hs ++ (match ctx with | some m => m.contextHeaders | none => []), []⟩ := by
  unfold AsgiGave asgiFail
  dsimp only [Exc.isException, errorResponse]
  rw [sendAll_ok hr]
  rfl

theorem asgiFail_sends {env : Env} (hr : Reliable env) (calls : List (Called Req)) {e : Exc} (he : e.isException = true)
    (ctx : Option Meta) :
    AsgiGave (asgiFail env calls [] e ctx)
      ⟨(errorResponse (pys! "content-type") e ctx).1, (errorResponse (pys! "content-type") e ctx).2.1,
        (errorResponse (pys! "content-type") e ctx).2.2.flatten⟩ := by
  unfold AsgiGave asgiFail
  rw [if_pos he]
  dsimp only
  rw [sendAll_ok hr]
  rfl

end

end Conn
