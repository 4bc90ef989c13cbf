import Verif.Proofs.Served
import Verif.Props.Refusals
/-
C98: every request is given to the endpoint's function once, or is refused.
-/
namespace Props
open Conn Py Spec

variable {Req Res : Type}

/-- C98, WSGI: whatever the request, one function is called, once; or none is, and then the client is told that the call failed. -/
theorem C98_wsgi_partial (app : App Req Res) (sc : StatusCodec) (env : Environ) :
    (∃ call, (app.wsgi sc env).calls = [call]) ∨ ((app.wsgi sc env).calls = [] ∧ WsgiFailed app sc env (app.wsgi sc env)) := by
  have stream : ∀ (r : Route Req Res), app.wsgiRoute env = .ok r → ∀ handler : Handler Req Res,
      (∃ call, (app.wsgiStream sc env r.key r.proto r.headers r.ctx handler).calls = [call]) ∨
      ((app.wsgiStream sc env r.key r.proto r.headers r.ctx handler).calls = [] ∧
        WsgiFailed app sc env (app.wsgiStream sc env r.key r.proto r.headers r.ctx handler)) := by
    intro r hr handler
    obtain ⟨h1, h2⟩ := wsgiRoute_proto hr
    rw [h1] at h2
    unfold App.wsgiStream
    dsimp only
    split
    · exact .inr ⟨wsgiFail_calls .., wsgiFail_failed (told_http (by decide)) _⟩
    · rename_i codec hc
      split
      · exact .inr ⟨wsgiErrorOnly_calls .., wsgiErrorOnly_failed h2 codec ⟨_, hc⟩ _ _⟩
      · split
        · exact .inr ⟨wsgiErrorOnly_calls .., wsgiErrorOnly_failed h2 codec ⟨_, hc⟩ _ _⟩
        · exact .inl ⟨_, wsgiFirst_calls ..⟩
  unfold App.wsgi
  split
  · rename_i he
    exact .inr ⟨wsgiFail_calls .., wsgiFail_failed (told_wsgiRoute he) _⟩
  · rename_i r hr
    split
    · unfold App.wsgiUnary
      dsimp only
      split
      · rename_i he
        refine .inr ⟨wsgiFail_calls .., wsgiFail_failed ?_ _⟩
        split at he
        · exact told_wsgiGet he
        · exact told_wsgiPost he
      · refine .inl ?_
        split
        · exact ⟨_, wsgiFail_calls ..⟩
        · split
          · exact ⟨_, wsgiFail_calls ..⟩
          · exact ⟨_, rfl⟩
    · exact stream r hr _

/-- C98, ASGI. -/
theorem C98_asgi_partial (app : App Req Res) (sc : StatusCodec) (scope : Scope) (env : Env) :
    (∃ call, (app.asgi sc scope env).calls = [call]) ∨
    ((app.asgi sc scope env).calls = [] ∧ (Spec.Ordinary app → Reliable env → AsgiFailed app sc scope (app.asgi sc scope env))) := by
  have stream : ∀ (r : Route Req Res), app.asgiRoute scope = .ok r → ∀ (params : Dict Str (List Str)) (codec : ServerCodec Req Res),
      app.asgiCodec scope r = .ok (params, codec) → ∀ handler : Handler Req Res,
      (∃ call, (app.asgiStream sc env r.key r.proto r.headers codec r.ctx handler).calls = [call]) ∨
      ((app.asgiStream sc env r.key r.proto r.headers codec r.ctx handler).calls = [] ∧
        (Spec.Ordinary app → Reliable env → AsgiFailed app sc scope (app.asgiStream sc env r.key r.proto r.headers codec r.ctx handler))) := by
    intro r hr params codec hc handler
    obtain ⟨h1, h2⟩ := asgiRoute_proto hr
    have hk := asgiCodec_known hc
    unfold App.asgiStream
    dsimp only
    split
    · exact .inr ⟨finish_calls .., fun _ hrel => asgiFinish_failed hrel h1 h2 codec hk _ (by intro h; cases h) _⟩
    · split
      · rename_i e he
        refine .inr ⟨finish_calls .., fun _ hrel => asgiFinish_failed hrel h1 h2 codec hk _ ?_ _⟩
        rintro rfl
        obtain ⟨_, h⟩ := start_refuses he
        cases h with
        | failed _ _ h => exact asgiRequests_err h
      · exact .inl ⟨_, finish_calls ..⟩
  unfold App.asgi
  split
  · rename_i he
    exact .inr ⟨asgiFail_calls .., fun _ hrel => asgiFail_failed hrel (told_asgiRoute he) _⟩
  · rename_i r hr
    split
    · rename_i he
      exact .inr ⟨asgiFail_calls .., fun _ hrel => asgiFail_failed hrel (told_asgiCodec he) _⟩
    · rename_i params codec hc
      split
      · unfold App.asgiUnary
        dsimp only
        split
        · rename_i he
          refine .inr ⟨asgiFail_calls .., fun ho hrel => asgiFail_failed hrel ?_ _⟩
          split at he
          · exact told_asgiGet ho (asgiCodec_known hc) he
          · exact told_asgiPost ho (asgiCodec_known hc) he
        · refine .inl ?_
          split
          · exact ⟨_, asgiFail_calls ..⟩
          · split
            · exact ⟨_, asgiFail_calls ..⟩
            · split
              · exact ⟨_, asgiFail_calls ..⟩
              · exact ⟨_, rfl⟩
      · exact stream r hr params codec hc _

/-- The failure of C98 on WSGI: a gRPC or gRPC-Web request whose timeout is malformed is not told so in its protocol.  Every such request is answered as if the
server had failed: HTTP status 500 with a JSON body and the code UNKNOWN, no gRPC status, and an exception in the server's log. -/
theorem C98_violation_wsgi_timeout (app : App Req Res) (sc : StatusCodec) (env : Environ) (key : List Char) (ep : Endpoint Req Res)
    (ht : WsgiTarget app env key ep) (hm : Dict.get? env.vars (pys! "REQUEST_METHOD") = some (pys! "POST"))
    (hct : ¬ ConnectType ((wsgiHeaders env.vars).getD (pys! "content-type") [])) (htr : env.sendTrailers = true)
    (v : List Char) (hv : (wsgiHeaders env.vars).get (pys! "grpc-timeout") = some v) (hbad : BadGrpcTimeout v) :
    WsgiRefused (app.wsgi sc env) .unknown ∧
    (∃ r, WsgiGave (app.wsgi sc env) r ∧ r.status = 500 ∧ r.fields = [(pys! "Content-Type", pys! "application/json")]) ∧
    ∃ msg, (app.wsgi sc env).logged = [.other .valueError msg] := by
  have hr : ∃ msg, app.wsgiRoute env = .error (.other .valueError msg) := by
    unfold App.wsgiRoute
    rw [wsgiLookup_ok.2 ht]
    dsimp only
    rw [item_ok.2 hm]
    dsimp only
    have hp : negotiateServerProtocol ((wsgiHeaders env.vars).getD (pys! "content-type") []) ≠ .connect := fun h => hct ((negotiate_connect _).1 h)
    rw [htr, if_neg (by rintro ⟨_, h⟩; exact h rfl)]
    split
    · rename_i e he
      obtain ⟨msg, h⟩ := serverContext_badGrpc hp ep.method hv hbad _ _
      exact ⟨msg, he.symm.trans h |> fun h => by cases h; rfl⟩
    · rename_i ctx he
      obtain ⟨msg, h⟩ := serverContext_badGrpc hp ep.method hv hbad _ _
      cases he.symm.trans h
  obtain ⟨msg, hr⟩ := hr
  rw [wsgi_refused_route hr]
  refine ⟨⟨wsgiFail_calls .., ⟨_, _, _⟩, _, ⟨rfl, _, rfl, rfl⟩,
    errorResponse_complete (pys! "Content-Type") (by decide +kernel) (.other .valueError msg) (by intro _ _ h; cases h)
      (by intro d hd; cases hd) none, rfl⟩, ⟨⟨500, _, _⟩, ⟨rfl, _, rfl, rfl⟩, rfl, rfl⟩, msg, rfl⟩

/-- … on ASGI; the exception is raised to the application server as well. -/
theorem C98_violation_asgi_timeout (app : App Req Res) (sc : StatusCodec) (scope : Scope) (env : Env) (hrel : Reliable env) (key : List Char)
    (ep : Endpoint Req Res) (ht : AsgiTarget app scope key ep) (headers : Headers) (hd : asgiHeaders scope.headers Headers.empty = .ok headers)
    (hm : scope.method = pys! "POST") (hct : ¬ ConnectType (headers.getD (pys! "content-type") [])) (htr : scope.trailers = true)
    (v : List Char) (hv : headers.get (pys! "grpc-timeout") = some v) (hbad : BadGrpcTimeout v) :
    AsgiRefused (app.asgi sc scope env) .unknown ∧
    (∃ r, AsgiGave (app.asgi sc scope env) r ∧ r.status = 500 ∧ r.fields = [(pys! "content-type", pys! "application/json")]) ∧
    ∃ msg, (app.asgi sc scope env).escaped = some (.other .valueError msg) := by
  have hr : ∃ msg, app.asgiRoute scope = .error (.other .valueError msg) := by
    unfold App.asgiRoute
    rw [asgiLookup_ok.2 ht]
    dsimp only
    rw [hd]
    dsimp only
    have hp : negotiateServerProtocol (headers.getD (pys! "content-type") []) ≠ .connect := fun h => hct ((negotiate_connect _).1 h)
    rw [htr, if_neg (by rintro ⟨_, h⟩; exact h rfl), hm]
    split
    · rename_i e he
      obtain ⟨msg, h⟩ := serverContext_badGrpc hp ep.method hv hbad _ _
      exact ⟨msg, he.symm.trans h |> fun h => by cases h; rfl⟩
    · rename_i ctx he
      obtain ⟨msg, h⟩ := serverContext_badGrpc hp ep.method hv hbad _ _
      cases he.symm.trans h
  obtain ⟨msg, hr⟩ := hr
  rw [asgi_refused_route hr]
  have h1 := asgiFail_sends hrel ([] : List (Called Req)) (e := .other .valueError msg) rfl none
  refine ⟨⟨asgiFail_calls .., _, _, h1,
    errorResponse_complete (pys! "content-type") (by decide +kernel) (.other .valueError msg) (by intro _ _ h; cases h)
      (by intro d hd; cases hd) none, rfl⟩, ⟨_, h1, rfl, rfl⟩, msg, ?_⟩
  unfold asgiFail
  rw [if_pos (show (Exc.other .valueError msg).isException = true from rfl)]
  dsimp only
  rw [sendAll_ok hrel]

/-! ### the hypotheses are met -/

example : BadGrpcTimeout (pys! "10s") ∧ BadGrpcTimeout (pys! "tenS") ∧ BadGrpcTimeout (pys! "100000000m") := by
  refine ⟨⟨pys! "10", 's', rfl, .inl (by decide)⟩, ⟨pys! "ten", 'S', rfl, .inr (.inl ((parseInt_none _).1 (by decide +kernel)))⟩,
    ⟨pys! "100000000", 'm', rfl, .inr (.inr ⟨100000000, (parseInt_iff _ _).1 (by decide +kernel), by decide⟩)⟩⟩

def timeoutEnviron : Environ := flowEnviron (pys! "/a.S/Chat") (pys! "application/grpc+proto") [(pys! "HTTP_GRPC_TIMEOUT", pys! "10s")] []
def timeoutScope : Scope := flowScope (pys! "/a.S/Chat") (pys! "application/grpc-web+proto") [(utf8Encode (pys! "grpc-timeout"), utf8Encode (pys! "tenS"))]
def timeoutHeaders : Headers := flowHeaders (pys! "application/grpc-web+proto") [(pys! "grpc-timeout", pys! "tenS")]

example : WsgiTarget flowApp timeoutEnviron (pys! "/a.S/Chat") ⟨chatInfo, .bidi chatRun⟩ ∧
    Dict.get? timeoutEnviron.vars (pys! "REQUEST_METHOD") = some (pys! "POST") ∧
    ¬ ConnectType ((wsgiHeaders timeoutEnviron.vars).getD (pys! "content-type") []) ∧ timeoutEnviron.sendTrailers = true ∧
    (wsgiHeaders timeoutEnviron.vars).get (pys! "grpc-timeout") = some (pys! "10s") :=
  ⟨wsgiLookup_ok.1 rfl, by decide +kernel, fun h => absurd ((negotiate_connect _).2 h) (by decide +kernel), rfl, by decide +kernel⟩

example : AsgiTarget flowApp timeoutScope (pys! "/a.S/Chat") ⟨chatInfo, .bidi chatRun⟩ ∧
    asgiHeaders timeoutScope.headers Headers.empty = .ok timeoutHeaders ∧ timeoutScope.method = pys! "POST" ∧
    ¬ ConnectType (timeoutHeaders.getD (pys! "content-type") []) ∧ timeoutScope.trailers = true ∧
    timeoutHeaders.get (pys! "grpc-timeout") = some (pys! "tenS") :=
  ⟨asgiLookup_ok.1 rfl, by decide +kernel, rfl, fun h => absurd ((negotiate_connect _).2 h) (by decide +kernel), rfl, by decide +kernel⟩

/-- Both cases of C98: a unary call whose function is called, and one with two messages, which is not and ends with an error. -/
example : ((flowApp.wsgi demoStatus (flowEnviron (pys! "/a.S/Echo") (pys! "application/grpc+proto") [] [[0, 0, 0, 0, 1, 7]])).calls.length = 1) ∧
    ((flowApp.wsgi demoStatus (flowEnviron (pys! "/a.S/Echo") (pys! "application/grpc+proto") []
      [[0, 0, 0, 0, 1, 7, 0, 0, 0, 0, 1, 7]])).calls.length = 0) := by
  constructor <;> decide +kernel

end Props
