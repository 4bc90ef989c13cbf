import Verif.Props.Protocol
import Verif.Proofs.ServerSync
import Verif.Proofs.ServerAsync
import Verif.Props.Client
import Verif.Props.Routing
/-
C55 (server address) and C68 (what a context says about the request) on the contexts that handlers and interceptors are given.
-/
namespace Props
open Conn Py Spec
variable {Req Res : Type}

/-! ### C55 -/

/-- what `ServerAddress` gives for the addresses considered -/
theorem serverAddress_hostPort {scheme host : List Char} {address : Option (List Char)} (ha : ServerAddress scheme (some host) address)
    (hs : scheme = pys! "http" ∨ scheme = pys! "https") (h : PlainHost host ∨ HostPort host) :
    ∃ s, address = some s ∧ HostPort s ∧ (HostPort host → s = host) ∧
      (PlainHost host → s = host ++ (if scheme = pys! "https" then pys! ":443" else pys! ":80")) := by
  obtain ⟨_, ha⟩ := ha
  obtain ⟨h1, h2⟩ := ha host rfl
  have hex : ∀ p : List Char, p ≠ [] → (∀ c ∈ p, IsDigit c) → PlainHost host → HostPort (host ++ (':' :: p)) := fun p e1 e2 hh =>
    ⟨host, p, by simp, hh.1, hh.2.1, e1, e2, .inl hh.2.2⟩
  rcases h with h | h
  · have hn : ¬ HostPort host := fun hp => h.2.2 (HostPort.colon hp)
    rcases hs with rfl | rfl
    · exact ⟨_, (h2 h).1 rfl, hex (pys! "80") (by decide) (by decide) h, fun hp => absurd hp hn, fun _ => rfl⟩
    · exact ⟨_, (h2 h).2 rfl, hex (pys! "443") (by decide) (by decide) h, fun hp => absurd hp hn, fun _ => rfl⟩
  · exact ⟨host, h1 h, h, fun _ => rfl, fun hp => absurd (HostPort.colon h) hp.2.2⟩

/-- C55 on WSGI, partial (Host headers with a bracketed IPv6 address and no port are excluded, see `C55_violation_ipv6_host`): in the context
of a handler the server address is `address:port`, from the Host header and with the default port of the scheme. -/
theorem C55_wsgi_partial (app : App Req Res) (sc : StatusCodec) (env : Environ) (host : List Char)
    (hh : (wsgiHeaders env.vars).get (pys! "host") = some host) (h : PlainHost host ∨ HostPort host)
    (hs : wsgiScheme env.vars = pys! "http" ∨ wsgiScheme env.vars = pys! "https") (call : Called Req)
    (hc : call ∈ (app.wsgi sc env).calls) :
    ∃ s, call.ctx.serverAddress = some s ∧ HostPort s ∧ (HostPort host → s = host) ∧
      (PlainHost host → s = host ++ (if wsgiScheme env.vars = pys! "https" then pys! ":443" else pys! ":80")) := by
  rcases wsgi_calls app sc env with e | ⟨r, req, hr, e⟩
  · rw [e] at hc; cases hc
  · rw [e, List.mem_singleton] at hc
    subst hc
    obtain ⟨_, _, _, _, hctx, _⟩ := wsgiRoute_ok hr
    have := hctx.server
    rw [hctx.headers, hh] at this
    exact serverAddress_hostPort this hs h

/-- C55 on ASGI, partial in the same way. -/
theorem C55_asgi_partial (app : App Req Res) (sc : StatusCodec) (scope : Scope) (env : Env) (headers : Headers) (host : List Char)
    (hd : asgiHeaders scope.headers Headers.empty = .ok headers) (hh : headers.get (pys! "host") = some host)
    (h : PlainHost host ∨ HostPort host) (hs : asgiScheme scope = pys! "http" ∨ asgiScheme scope = pys! "https") (call : Called Req)
    (hc : call ∈ (app.asgi sc scope env).calls) :
    ∃ s, call.ctx.serverAddress = some s ∧ HostPort s ∧ (HostPort host → s = host) ∧
      (PlainHost host → s = host ++ (if asgiScheme scope = pys! "https" then pys! ":443" else pys! ":80")) := by
  rcases asgi_calls app sc scope env with e | ⟨r, req, hr, e⟩
  · rw [e] at hc; cases hc
  · rw [e, List.mem_singleton] at hc
    subst hc
    obtain ⟨_, _, hhd, _, hctx, _⟩ := asgiRoute_ok hr
    rw [hd] at hhd
    cases hhd
    have := hctx.server
    rw [hctx.headers, hh] at this
    exact serverAddress_hostPort this hs h

/-- C55 on the client, partial (URLs with a path are excluded, see `C55_violation_url_path`): the context of every call, in all protocols. -/
theorem C55_client_partial (c : Client Req Res) (host scheme : List Char) (ha : c.address = scheme ++ pys! "://" ++ host)
    (hs : scheme = pys! "http" ∨ scheme = pys! "https") (h : PlainHost host ∨ HostPort host) (m : MethodInfo) (httpMethod : Str)
    (user : UserHeaders) (t : Option Int) (stream : Bool) :
    ∃ s, (c.context m httpMethod user t stream).serverAddress = some s ∧ HostPort s ∧ (HostPort host → s = host) ∧
      (PlainHost host → s = host ++ (if scheme = pys! "https" then pys! ":443" else pys! ":80")) := by
  show ∃ s, urlToServerAddress c.address = some s ∧ _
  rw [ha]
  exact C55_client_side_partial host scheme hs h

/-- a request with a Host header, from a peer that is told -/
def hostEnviron (host : Str) : Environ :=
  { demoEnviron (pys! "POST") (pys! "/a.S/Echo") (pys! "application/proto") [[5]] with
    vars := [(pys! "HTTP_HOST", host), (pys! "wsgi.url_scheme", pys! "https"), (pys! "REMOTE_ADDR", pys! "::1"), (pys! "REMOTE_PORT", pys! "99")] ++
      (demoEnviron (pys! "POST") (pys! "/a.S/Echo") (pys! "application/proto") [[5]]).vars }
def hostScope (host : Str) : Scope :=
  { demoScope (pys! "POST") (pys! "/a.S/Echo") (pys! "application/proto") with
    scheme := some (pys! "https"), client := some (pys! "::1", pys! "99")
    headers := [(utf8Encode (pys! "content-type"), utf8Encode (pys! "application/proto")), (utf8Encode (pys! "host"), utf8Encode host)] }

/-- what the handlers of these requests are told -/
example : (demoApp.wsgi demoStatus (hostEnviron (pys! "h.example"))).calls.map (fun c => (c.ctx.serverAddress, c.ctx.clientAddress)) =
      [(some (pys! "h.example:443"), some (pys! "::1:99"))] ∧
    (demoApp.asgi demoStatus (hostScope (pys! "h.example")) (demoEnv [.request [5] false])).calls.map
      (fun c => (c.ctx.serverAddress, c.ctx.clientAddress)) = [(some (pys! "h.example:443"), some (pys! "::1:99"))] ∧
    wsgiScheme (hostEnviron (pys! "h.example")).vars = pys! "https" ∧ asgiScheme (hostScope []) = pys! "https" ∧
    (wsgiHeaders (hostEnviron (pys! "h.example")).vars).get (pys! "host") = some (pys! "h.example") := by decide +kernel

/-- C55 fails for the contexts of handlers too: a Host header `[::1]` is not completed. -/
theorem C55_violation_context : ∃ (host : List Char) (call : Called Bytes),
    call ∈ (demoApp.wsgi demoStatus (hostEnviron host)).calls ∧ call.ctx.serverAddress = some host ∧ ¬ HostPort host := by
  obtain ⟨c, hc, hs⟩ : ∃ c ∈ (demoApp.wsgi demoStatus (hostEnviron (pys! "[::1]"))).calls, c.ctx.serverAddress = some (pys! "[::1]") := by
    decide +kernel
  exact ⟨_, c, hc, hs, not_hostPort_ipv6⟩

/-! ### C68 -/

/-- C68 on WSGI: the context of a handler has the RPC method that is registered under its path, the HTTP method and the headers of the request, and the
peer's address and port; no client address if the server does not tell it. -/
theorem C68_wsgi (app : App Req Res) (sc : StatusCodec) (env : Environ) (call : Called Req) (hc : call ∈ (app.wsgi sc env).calls) :
    (∃ h, Dict.get? app.endpoints call.path = some ⟨call.ctx.method, h⟩) ∧
    Dict.get? env.vars (pys! "REQUEST_METHOD") = some call.ctx.httpMethod ∧
    call.ctx.requestHeaders = wsgiHeaders env.vars ∧
    (∀ a p, a ≠ [] → Dict.get? env.vars (pys! "REMOTE_ADDR") = some a → Dict.get? env.vars (pys! "REMOTE_PORT") = some p →
      call.ctx.clientAddress = some (a ++ [':'] ++ p)) ∧
    (∀ a, a ≠ [] → Dict.get? env.vars (pys! "REMOTE_ADDR") = some a → Dict.get? env.vars (pys! "REMOTE_PORT") = none →
      call.ctx.clientAddress = some (a ++ pys! ":0")) ∧
    (Dict.get? env.vars (pys! "REMOTE_ADDR") = none ∨ Dict.get? env.vars (pys! "REMOTE_ADDR") = some [] →
      call.ctx.clientAddress = none) := by
  rcases wsgi_calls app sc env with e | ⟨r, req, hr, e⟩
  · rw [e] at hc; cases hc
  · rw [e, List.mem_singleton] at hc
    subst hc
    obtain ⟨ht, hm, _, _, hctx, _⟩ := wsgiRoute_ok hr
    refine ⟨⟨r.ep.handler, ?_⟩, ?_, hctx.headers, ?_, ?_, ?_⟩
    · rw [hctx.method]; exact WsgiTarget.registered ht
    · rw [hctx.httpMethod]; exact hm
    · intro a p ha h1 h2
      rw [hctx.client]
      unfold wsgiClient
      rw [h1, h2]
      dsimp only
      rw [if_neg (by simpa using ha)]
    · intro a ha h1 h2
      rw [hctx.client]
      unfold wsgiClient
      rw [h1, h2]
      dsimp only
      rw [if_neg (by simpa using ha)]
      rw [List.append_assoc]
      rfl
    · intro h
      rw [hctx.client]
      unfold wsgiClient
      rcases h with h | h <;> rw [h]
      rfl

/-- C68 on ASGI. -/
theorem C68_asgi (app : App Req Res) (sc : StatusCodec) (scope : Scope) (env : Env) (call : Called Req)
    (hc : call ∈ (app.asgi sc scope env).calls) :
    (∃ h, Dict.get? app.endpoints call.path = some ⟨call.ctx.method, h⟩) ∧ call.ctx.httpMethod = scope.method ∧
    asgiHeaders scope.headers Headers.empty = .ok call.ctx.requestHeaders ∧
    (∀ a p, scope.client = some (a, p) → call.ctx.clientAddress = some (a ++ [':'] ++ p)) ∧
    (scope.client = none → call.ctx.clientAddress = none) := by
  rcases asgi_calls app sc scope env with e | ⟨r, req, hr, e⟩
  · rw [e] at hc; cases hc
  · rw [e, List.mem_singleton] at hc
    subst hc
    obtain ⟨ht, hm, hhd, _, hctx, _⟩ := asgiRoute_ok hr
    refine ⟨⟨r.ep.handler, ?_⟩, hctx.httpMethod, ?_, ?_, ?_⟩
    · rw [hctx.method]; exact AsgiTarget.registered ht
    · rw [hctx.headers]; exact hhd
    · intro a p h
      rw [hctx.client, h]
      rfl
    · intro h
      rw [hctx.client, h]
      rfl

/-- C68 on the client: the context of a call has the method and the HTTP method of the call, and no client address. -/
theorem C68_client (c : Client Req Res) (m : MethodInfo) (httpMethod : Str) (user : UserHeaders) (t : Option Int) (stream : Bool) :
    (c.context m httpMethod user t stream).method = m ∧ (c.context m httpMethod user t stream).httpMethod = httpMethod ∧
    (c.context m httpMethod user t stream).clientAddress = none := ⟨rfl, rfl, rfl⟩

end Props
