import Verif.Props.Stream
import Verif.Props.Protocol
import Verif.Proofs.IntText
/-
C12 on the servers: requests whose Connect timeout is malformed are refused, whatever they ask for.
-/
namespace Props
open Conn Py Spec

variable {Req Res : Type}

/-- A value of the Connect timeout header that is too long, or is not the text of an integer. -/
def BadTimeout (v : List Char) : Prop := v ≠ [] ∧ (10 < v.length ∨ ∀ n, ¬ IntText v n)

theorem connectMethodCheck_mayRun {m : MethodInfo} {ct hm : Str} (h : MayRun m ct hm) : connectMethodCheck m.idempotency hm = none := by
  rcases h with rfl | ⟨rfl, h, _⟩
  · exact connectMethodCheck_post _
  · rw [h]; decide

theorem connectTimeout_bad {v : Str} (h : BadTimeout v) : ∃ msg, connectTimeout (some v) = .error (.mk .invalidArgument msg) := by
  obtain ⟨hne, h⟩ := h
  unfold connectTimeout
  dsimp only
  have : v.isEmpty = false := by
    cases v with
    | nil => exact absurd rfl hne
    | cons c v => rfl
  rw [this, if_neg (by simp)]
  by_cases hl : v.length > 10
  · rw [if_pos hl]; exact ⟨_, rfl⟩
  · rw [if_neg hl, (parseInt_none v).2 (h.resolve_left hl)]; exact ⟨_, rfl⟩

theorem serverContext_bad {m : MethodInfo} {ct hm : Str} (hrun : MayRun m ct hm) {headers : Headers} {v : Str}
    (hv : headers.get (pys! "connect-timeout-ms") = some v) (hbad : BadTimeout v) (scheme : Str) (peer : Option Str) :
    ∃ msg, Proto.serverContext .connect m hm scheme headers peer = .error (.mk .invalidArgument msg) := by
  show ∃ msg, connectServerContext _ _ _ _ _ = _
  unfold connectServerContext
  rw [connectMethodCheck_mayRun hrun]
  dsimp only
  by_cases hver : headers.getD (pys! "connect-protocol-version") (pys! "1") = pys! "1"
  · rw [if_neg (by simpa using hver), hv]
    obtain ⟨msg, hm⟩ := connectTimeout_bad hbad
    rw [hm]
    exact ⟨msg, rfl⟩
  · rw [if_pos hver]; exact ⟨_, rfl⟩

/-- C12, WSGI: a Connect request for any kind of endpoint with such a timeout header is refused with INVALID_ARGUMENT, and no handler runs. -/
theorem C12_wsgi_refused (app : App Req Res) (sc : StatusCodec) (env : Environ) (key : List Char) (ep : Endpoint Req Res)
    (ht : WsgiTarget app env key ep) (httpMethod : List Char) (hm : Dict.get? env.vars (pys! "REQUEST_METHOD") = some httpMethod)
    (hct : ConnectType ((wsgiHeaders env.vars).getD (pys! "content-type") []))
    (hrun : MayRun ep.method ((wsgiHeaders env.vars).getD (pys! "content-type") []) httpMethod)
    (v : List Char) (hv : (wsgiHeaders env.vars).get (pys! "connect-timeout-ms") = some v) (hbad : BadTimeout v) :
    WsgiRefused (app.wsgi sc env) .invalidArgument := by
  have hr : ∃ msg, app.wsgiRoute env = .error (.mk .invalidArgument msg) := by
    unfold App.wsgiRoute
    rw [wsgiLookup_ok.2 ht]
    dsimp only
    rw [item_ok.2 hm]
    dsimp only
    rw [(negotiate_connect _).2 hct, if_neg (by rintro ⟨h, _⟩; exact absurd h (by decide))]
    split
    · rename_i e he
      obtain ⟨msg, h⟩ := serverContext_bad hrun hv hbad _ _
      exact ⟨msg, he.symm.trans h |> fun h => by cases h; rfl⟩
    · rename_i ctx he
      obtain ⟨msg, h⟩ := serverContext_bad hrun hv hbad _ _
      cases he.symm.trans h
  obtain ⟨msg, hr⟩ := hr
  rw [wsgi_refused_route hr]
  exact wsgiFail_refused ..

/-- C12, ASGI. -/
theorem C12_asgi_refused (app : App Req Res) (sc : StatusCodec) (scope : Scope) (env : Env) (key : List Char) (ep : Endpoint Req Res)
    (ht : AsgiTarget app scope key ep) (headers : Headers) (hd : asgiHeaders scope.headers Headers.empty = .ok headers)
    (hct : ConnectType (headers.getD (pys! "content-type") []))
    (hrun : MayRun ep.method (headers.getD (pys! "content-type") []) scope.method)
    (v : List Char) (hv : headers.get (pys! "connect-timeout-ms") = some v) (hbad : BadTimeout v) :
    (app.asgi sc scope env).calls = [] ∧ (Reliable env → AsgiRefused (app.asgi sc scope env) .invalidArgument) := by
  have hr : ∃ msg, app.asgiRoute scope = .error (.mk .invalidArgument msg) := by
    unfold App.asgiRoute
    rw [asgiLookup_ok.2 ht]
    dsimp only
    rw [hd]
    dsimp only
    rw [(negotiate_connect _).2 hct, if_neg (by rintro ⟨h, _⟩; exact absurd h (by decide))]
    split
    · rename_i e he
      obtain ⟨msg, h⟩ := serverContext_bad hrun hv hbad _ _
      exact ⟨msg, he.symm.trans h |> fun h => by cases h; rfl⟩
    · rename_i ctx he
      obtain ⟨msg, h⟩ := serverContext_bad hrun hv hbad _ _
      cases he.symm.trans h
  obtain ⟨msg, hr⟩ := hr
  rw [asgi_refused_route hr]
  exact ⟨asgiFail_calls .., fun hrel => asgiFail_refused hrel ..⟩

/-- C12: on both servers the timeout of a Connect request is what the header says, and no other text is taken for a timeout: if a handler is called, there
is no header, or it is empty, or it is the text of an integer of at most ten characters, which is the timeout the handler is told. -/
theorem C12_told (m : MethodInfo) (httpMethod scheme : List Char) (headers : Headers) (peer : Option (List Char)) (ctx : RequestContext)
    (h : Proto.serverContext .connect m httpMethod scheme headers peer = .ok ctx) :
    (ctx.timeoutMs = none ∧ (headers.get (pys! "connect-timeout-ms") = none ∨ headers.get (pys! "connect-timeout-ms") = some [])) ∨
    ∃ v n, headers.get (pys! "connect-timeout-ms") = some v ∧ v.length ≤ 10 ∧ IntText v n ∧ ctx.timeoutMs = some n := by
  change connectServerContext _ _ _ _ _ = _ at h
  unfold connectServerContext at h
  cases hm : connectMethodCheck m.idempotency httpMethod with
  | some e => rw [hm] at h; cases h
  | none =>
    rw [hm] at h
    dsimp only at h
    by_cases hver : headers.getD (pys! "connect-protocol-version") (pys! "1") = pys! "1"
    · rw [if_neg (by simpa using hver)] at h
      cases hv : headers.get (pys! "connect-timeout-ms") with
      | none =>
        rw [hv] at h
        cases h
        exact .inl ⟨rfl, .inl rfl⟩
      | some v =>
        rw [hv] at h
        unfold connectTimeout at h
        dsimp only at h
        by_cases he : v = []
        · subst he
          cases h
          exact .inl ⟨rfl, .inr rfl⟩
        · have : v.isEmpty = false := by
            cases v with
            | nil => exact absurd rfl he
            | cons c v => rfl
          rw [this, if_neg (by simp)] at h
          by_cases hl : v.length > 10
          · rw [if_pos hl] at h; cases h
          · rw [if_neg hl] at h
            cases hp : parseInt v with
            | none => rw [hp] at h; cases h
            | some n =>
              rw [hp] at h
              cases h
              exact .inr ⟨v, n, rfl, by omega, (parseInt_iff v n).1 hp, rfl⟩
    · rw [if_pos hver] at h; cases h

/-! ### the hypotheses are met -/

/-- a Connect stream whose timeout is not a number, and one whose timeout is too long -/
example : WsgiTarget flowApp (flowEnviron (pys! "/a.S/Chat") (pys! "application/connect+proto") [(pys! "HTTP_CONNECT_TIMEOUT_MS", pys! "10s")] [])
      (pys! "/a.S/Chat") ⟨chatInfo, .bidi chatRun⟩ ∧
    ConnectType ((wsgiHeaders (flowEnviron (pys! "/a.S/Chat") (pys! "application/connect+proto") [(pys! "HTTP_CONNECT_TIMEOUT_MS", pys! "10s")]
      []).vars).getD (pys! "content-type") []) ∧
    (wsgiHeaders (flowEnviron (pys! "/a.S/Chat") (pys! "application/connect+proto") [(pys! "HTTP_CONNECT_TIMEOUT_MS", pys! "10s")] []).vars).get
      (pys! "connect-timeout-ms") = some (pys! "10s") ∧
    BadTimeout (pys! "10s") ∧ BadTimeout (pys! "00000000001") :=
  ⟨wsgiLookup_ok.1 rfl, (negotiate_connect _).1 (by decide +kernel), by decide +kernel,
    ⟨by decide, .inr ((parseInt_none _).1 (by decide +kernel))⟩, ⟨by decide, .inl (by decide)⟩⟩

/-- and by ASGI; there `１０`, with full-width digits, is a timeout of ten milliseconds -/
example : AsgiTarget flowApp (flowScope (pys! "/a.S/Chat") (pys! "application/connect+proto") [(utf8Encode (pys! "connect-timeout-ms"), utf8Encode (pys! "1__0"))])
      (pys! "/a.S/Chat") ⟨chatInfo, .bidi chatRun⟩ ∧ BadTimeout (pys! "1__0") ∧ IntText (pys! "１０") 10 ∧
    (∃ headers, asgiHeaders (flowScope (pys! "/a.S/Chat") (pys! "application/connect+proto")
        [(utf8Encode (pys! "connect-timeout-ms"), utf8Encode (pys! "１０"))]).headers Headers.empty = .ok headers ∧
      ∃ ctx, Proto.serverContext .connect chatInfo (pys! "POST") (pys! "http") headers none = .ok ctx ∧ ctx.timeoutMs = some 10) :=
  ⟨asgiLookup_ok.1 rfl, ⟨by decide, .inr ((parseInt_none _).1 (by decide +kernel))⟩, (parseInt_iff _ _).1 (by decide +kernel),
    ⟨_, rfl, _, rfl, by decide +kernel⟩⟩

end Props
