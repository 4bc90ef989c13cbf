import Verif.Proofs.Relay
import Verif.Props.Wire
/-
C95: errors and responses pass through chains of services of this library.
-/
namespace Props
open Conn Py Spec

variable {Req Res : Type}

/-- **C95, unary methods**: a handler `f` that answers by a chain of calls, of any length, over Connect, gRPC and gRPC-Web, to WSGI and ASGI applications, is itself called over any
such hop: the caller gets what `origin`, at the end of the chain, returned or raised for that request: the same response, or a `ConnectError` with the same
code, message and details (type names and bytes). For streams see `C95_streams`. -/
theorem C95_unary (sc : StatusCodec) (req : Req) (origin f : Req → RequestContext → Call Res) (horigin : ∀ ctx, Sendable (origin req ctx))
    (hc : Chain sc req origin (fun _ => True) f) (hop : Hop Req Res) (hs : hop.Serves sc req f)
    (hr : hop.Carries sc req origin f) (ctx : RequestContext) :
    ∃ ctx', Relayed (origin req ctx').result (hop.outcome sc req ctx) := by
  obtain ⟨_, ctx', _, _, h, _⟩ := ended_call (chain_ended (fun _ _ => True) (fun _ => trivial) (fun _ _ _ _ _ _ _ => trivial) horigin hc) hs hr ctx
  exact ⟨ctx', h.1⟩

/-- what a hop that passes on the time left tells the next handler -/
theorem heeds_told {hop : Hop Req Res} {t : Int} {ctx ctx1 : RequestContext} (ht : hop.timeout ctx = some t) (h0 : t ≠ 0)
    (h : HopTimeout hop ctx ctx1) : ∃ t1, ctx1.timeoutMs = some t1 ∧ t1 ≤ max t 0 := by
  obtain ⟨meant, h1, h2⟩ := h
  have hm := h1.1 t ht h0
  subst hm
  cases hp : hop.client.proto with
  | connect =>
    rw [hp] at h2
    exact ⟨t, h2, by omega⟩
  | grpc =>
    rw [hp] at h2
    obtain ⟨t1, h3, h4, h5, _⟩ := h2
    refine ⟨t1, h3, ?_⟩
    by_cases hneg : t ≤ 0
    · rw [h4 hneg]; omega
    · have := h5 (by omega); omega
  | grpcWeb =>
    rw [hp] at h2
    obtain ⟨t1, h3, h4, h5, _⟩ := h2
    refine ⟨t1, h3, ?_⟩
    by_cases hneg : t ≤ 0
    · rw [h4 hneg]; omega
    · have := h5 (by omega); omega

/-- **C95, deadlines**: if every handler of the chain passes on no more than the time it was given, then the handler at its end is told a timeout no longer
than that of the first call. (A timeout of 0 is taken as none: see C13 and C66.) -/
theorem C95_deadline (sc : StatusCodec) (req : Req) (origin f : Req → RequestContext → Call Res) (horigin : ∀ ctx, Sendable (origin req ctx))
    (hc : Chain sc req origin Hop.Heeds f) (hop : Hop Req Res) (hs : hop.Serves sc req f)
    (hr : hop.Carries sc req origin f) (ctx : RequestContext) (t : Int) (ht : hop.timeout ctx = some t) (h0 : t ≠ 0) :
    ∃ ctx', Relayed (origin req ctx').result (hop.outcome sc req ctx) ∧ ∃ t', ctx'.timeoutMs = some t' ∧ t' ≤ max t 0 := by
  have hR := chain_ended (fun a b : RequestContext => ∀ ms, a.timeoutMs = some ms → ∃ t', b.timeoutMs = some t' ∧ t' ≤ max ms 0)
    (fun a ms h => ⟨ms, h, by omega⟩) (fun hop a b c hp ht hbc ms hms => by
      obtain ⟨t1, h1, h2, h3⟩ := hp a ms hms
      obtain ⟨t2, h4, h5⟩ := heeds_told h1 h2 ht
      obtain ⟨t3, h6, h7⟩ := hbc t2 h4
      exact ⟨t3, h6, by omega⟩) horigin hc
  obtain ⟨ctx1, ctx', h1, h2, h3, _⟩ := ended_call hR hs hr ctx
  obtain ⟨t1, h4, h5⟩ := heeds_told ht h0 h1
  obtain ⟨t2, h6, h7⟩ := h2 t1 h4
  exact ⟨ctx', h3.1, t2, h6, by omega⟩

/-! ### networks exist -/

theorem chunks_inj : ∀ {a b : List Bytes}, a.map WEvent.chunk = b.map WEvent.chunk → a = b
  | [], [], _ => rfl
  | [], _ :: _, h => by cases h
  | _ :: _, [], h => by cases h
  | x :: a, y :: b, h => by
    rw [List.map_cons, List.map_cons] at h
    obtain ⟨h1, h2⟩ := List.cons.inj h
    cases h1
    rw [chunks_inj h2]

theorem bodies_inj : ∀ {a b : List Bytes}, a.map (Sent.body · true) = b.map (Sent.body · true) → a = b
  | [], [], _ => rfl
  | [], _ :: _, h => by cases h
  | _ :: _, [], h => by cases h
  | x :: a, y :: b, h => by
    rw [List.map_cons, List.map_cons] at h
    obtain ⟨h1, h2⟩ := List.cons.inj h
    cases h1
    rw [bodies_inj h2]

theorem wsgiGave_unique {o : WsgiOut Req} {r r' : Response} (h : WsgiGave o r) (h' : WsgiGave o r') : r = r' := by
  obtain ⟨_, c, h1, h2⟩ := h
  obtain ⟨_, c', h3, h4⟩ := h'
  rw [h1] at h3
  obtain ⟨h5, h6⟩ := List.cons.inj h3
  have := chunks_inj h6
  subst this
  obtain ⟨s, f, b⟩ := r
  obtain ⟨s', f', b'⟩ := r'
  cases h5
  dsimp only at h2 h4
  rw [← h2, ← h4]

theorem asgiGave_unique {o : AsgiOut Req} {r r' : Response} (h : AsgiGave o r) (h' : AsgiGave o r') : r = r' := by
  unfold AsgiGave at h h'
  rw [h] at h'
  obtain ⟨s, f, b⟩ := r
  obtain ⟨s', f', b'⟩ := r'
  cases h'
  rfl

theorem trailers_chunks {a b : List Bytes} {t : List (Str × Str)} (h : a.map WEvent.chunk = b.map WEvent.chunk ++ [.trailers t, .chunk []]) : False := by
  have : WEvent.trailers t ∈ a.map WEvent.chunk := by rw [h]; simp
  obtain ⟨x, _, hx⟩ := List.mem_map.1 this
  cases hx

theorem wsgiStreamGave_unique {o : WsgiOut Req} {r r' : StreamedResponse} (h : WsgiStreamGave o r) (h' : WsgiStreamGave o r') : r = r' := by
  obtain ⟨_, c, h2, h1⟩ := h
  obtain ⟨_, c', h4, h3⟩ := h'
  obtain ⟨s, f, b, t⟩ := r
  obtain ⟨s', f', b', t'⟩ := r'
  dsimp only at h1 h2 h3 h4
  subst h2 h4
  rcases h1 with ⟨h1, h5⟩ | h1 <;> rcases h3 with ⟨h3, h6⟩ | h3
  · rw [h1] at h3
    obtain ⟨h7, h8⟩ := List.cons.inj h3
    have := chunks_inj h8
    subst this
    cases h7
    rw [h5, h6]
  · rw [h1] at h3
    exact (trailers_chunks (List.cons.inj h3).2).elim
  · rw [h1] at h3
    exact (trailers_chunks (List.cons.inj h3).2.symm).elim
  · rw [h1] at h3
    obtain ⟨h7, h8⟩ := List.cons.inj h3
    obtain ⟨h9, h10⟩ := List.append_inj' h8 rfl
    have := chunks_inj h9
    subst this
    cases h7
    cases h10
    rfl

theorem map_none_inj {a b : List Sent} (h : a.map (fun s => (s, (none : Option Exc))) = b.map (·, none)) : a = b := by
  have := congrArg (List.map Prod.fst) h
  simpa [List.map_map, Function.comp_def] using this

theorem asgiStreamGave_unique {o : AsgiOut Req} {r r' : StreamedResponse} (h : AsgiStreamGave o r) (h' : AsgiStreamGave o r') : r = r' := by
  obtain ⟨c, l, h2, h1⟩ := h
  obtain ⟨c', l', h4, h3⟩ := h'
  obtain ⟨s, f, b, t⟩ := r
  obtain ⟨s', f', b', t'⟩ := r'
  dsimp only at h1 h2 h3 h4
  subst h2 h4
  rcases h1 with ⟨h1, h5⟩ | h1 <;> rcases h3 with ⟨h3, h6⟩ | h3
  · rw [h1] at h3
    obtain ⟨h7, h8⟩ := List.cons.inj (map_none_inj h3)
    obtain ⟨h9, h10⟩ := List.append_inj' h8 rfl
    have := bodies_inj h9
    subst this
    cases h7
    cases h10
    rw [h5, h6]
  · rw [h1] at h3
    obtain ⟨h7, _⟩ := List.cons.inj (map_none_inj h3)
    cases h7
  · rw [h1] at h3
    obtain ⟨h7, _⟩ := List.cons.inj (map_none_inj h3)
    cases h7
  · rw [h1] at h3
    obtain ⟨h7, h8⟩ := List.cons.inj (map_none_inj h3)
    obtain ⟨h9, h10⟩ := List.append_inj' h8 rfl
    have := bodies_inj h9
    subst this
    cases h7
    cases h10
    rfl

/-- what an HTTP client that can undo all encodings makes of a response -/
theorem received_exists {undo : Undo} (hu : ∀ n b, ∃ x, undo n b = some x) (r : Response) : ∃ resp, Received undo r resp := by
  cases h : fieldValues r.fields (pys! "content-encoding") with
  | nil => exact ⟨_, received_of (content := r.body) (.inl ⟨h, rfl⟩)⟩
  | cons enc rest =>
    cases rest with
    | nil =>
      by_cases he : enc = pys! "identity"
      · subst he
        exact ⟨_, received_of (content := r.body) (.inr (.inl ⟨h, rfl⟩))⟩
      · obtain ⟨x, hx⟩ := hu enc r.body
        exact ⟨_, received_of (content := x) (.inr (.inr ⟨enc, h, he, hx⟩))⟩
    | cons e2 rest =>
      refine ⟨⟨r.status, r.fields.map fun p => (lower p.1, p.2), []⟩, rfl, ?_, fun n _ _ => fieldValues_map_lower _ _, .inr (fieldValues_map_lower _ _), ?_, ?_⟩
      · intro p hp
        obtain ⟨q, _, rfl⟩ := List.mem_map.1 hp
        exact Headers.lower_idem _
      · intro h0; rw [h] at h0; cases h0
      · intro e h0; rw [h] at h0; cases h0

/-- an HTTP client that answers requests as told -/
theorem http_exists (undo : Undo) (hu : ∀ n b, ∃ x, undo n b = some x) (full : HttpRequest → Response → Prop) (stream : HttpRequest → StreamedResponse → Prop)
    (h1 : ∀ rq r r', full rq r → full rq r' → r = r') (h2 : ∀ rq r r', stream rq r → stream rq r' → r = r') :
    ∃ http : HttpClient, ∀ rq, (∀ r, full rq r → ∃ resp, Received undo r resp ∧ http.full rq = .ok resp) ∧
      ∀ r, stream rq r → ∃ resp, ReceivedStream r resp ∧ http.stream rq = .ok resp := by
  have hf : ∀ rq, ∃ x : Except Exc FullResponse, ∀ r, full rq r → ∃ resp, Received undo r resp ∧ x = .ok resp := by
    intro rq
    by_cases h : ∃ r, full rq r
    · obtain ⟨r, hr⟩ := h
      obtain ⟨resp, h3⟩ := received_exists hu r
      refine ⟨.ok resp, fun r' hr' => ?_⟩
      rw [h1 rq r' r hr' hr]
      exact ⟨resp, h3, rfl⟩
    · exact ⟨.error .cancelled, fun r hr => absurd ⟨r, hr⟩ h⟩
  have hs : ∀ rq, ∃ x : Except Exc StreamResponse, ∀ r, stream rq r → ∃ resp, ReceivedStream r resp ∧ x = .ok resp := by
    intro rq
    by_cases h : ∃ r, stream rq r
    · obtain ⟨r, hr⟩ := h
      refine ⟨.ok ⟨r.status, r.fields.map fun p => (lower p.1, p.2), [r.body], none, r.trailers.map fun p => (lower p.1, p.2), none⟩, fun r' hr' => ?_⟩
      rw [h2 rq r' r hr' hr]
      exact ⟨_, receivedStream_of r, rfl⟩
    · exact ⟨.error .cancelled, fun r hr => absurd ⟨r, hr⟩ h⟩
  exact ⟨⟨fun rq => Classical.choose (hf rq), fun rq => Classical.choose (hs rq)⟩, fun rq => ⟨Classical.choose_spec (hf rq), Classical.choose_spec (hs rq)⟩⟩

/-- For every WSGI application there is an HTTP client that brings it all requests and brings all its responses back. -/
theorem overWsgi_exists (hop : Hop Req Res) (sc : StatusCodec) (hp : PlainPath (methodPath hop.method)) (hu : ∀ n b, ∃ x, hop.undo n b = some x) :
    ∃ http, OverWsgi hop sc http := by
  have he : ∀ rq, ∃ env, Addressed hop.client.address rq (methodPath hop.method) → WsgiSees hop.client.address rq env ∧ env.sendTrailers = true := by
    intro rq
    by_cases ha : Addressed hop.client.address rq (methodPath hop.method)
    · obtain ⟨q, hq⟩ := hasTarget_of hp ha
      have h := wsgiSees_environOf hq
      refine ⟨⟨(environOf rq.method (methodPath hop.method) q rq.headers rq.body).vars,
        (environOf rq.method (methodPath hop.method) q rq.headers rq.body).input, true⟩, fun _ => ⟨?_, rfl⟩⟩
      exact ⟨h.method, h.path, h.query, h.distinct, h.field, h.unset, h.pieces, h.body, h.length⟩
    · exact ⟨⟨[], [], true⟩, fun h => absurd h ha⟩
  obtain ⟨http, h1⟩ := http_exists hop.undo hu (fun rq r => WsgiGave (hop.app.wsgi sc (Classical.choose (he rq))) r)
    (fun rq r => WsgiStreamGave (hop.app.wsgi sc (Classical.choose (he rq))) r) (fun _ _ _ => wsgiGave_unique) (fun _ _ _ => wsgiStreamGave_unique)
  refine ⟨http, fun rq ha => ?_⟩
  obtain ⟨h2, h3⟩ := Classical.choose_spec (he rq) ha
  exact ⟨_, h2, fun _ => h3, (h1 rq).1, (h1 rq).2⟩

/-- The same for every ASGI application. -/
theorem overAsgi_exists (hop : Hop Req Res) (sc : StatusCodec) (hp : PlainPath (methodPath hop.method)) (hu : ∀ n b, ∃ x, hop.undo n b = some x) :
    ∃ http, OverAsgi hop sc http := by
  have he : ∀ rq, ∃ w : Scope × Env, Addressed hop.client.address rq (methodPath hop.method) → AsgiSees hop.client.address rq w.1 w.2 ∧
      w.1.trailers = true ∧ Reliable w.2 ∧ w.2.cancelAfter = none ∧ w.2.disconnectAt = none ∧ w.1.rootPath = [] := by
    intro rq
    by_cases ha : Addressed hop.client.address rq (methodPath hop.method)
    · obtain ⟨q, hq⟩ := hasTarget_of hp ha
      have h := asgiSees_of hq [] (demoEnv [.request rq.body.flatten false]) (.last _ _)
      refine ⟨⟨⟨[] ++ methodPath hop.method, [], rq.method, none, rq.headers.map fun p => (utf8Encode p.1, utf8Encode p.2), none,
        utf8Encode q, true⟩, demoEnv [.request rq.body.flatten false]⟩, fun _ => ⟨?_, rfl, fun _ => rfl, rfl, rfl, rfl⟩⟩
      exact ⟨h.method, h.path, h.query, h.fields, h.body⟩
    · exact ⟨⟨demoScope [] [] [], demoEnv []⟩, fun h => absurd h ha⟩
  obtain ⟨http, h1⟩ := http_exists hop.undo hu (fun rq r => AsgiGave (hop.app.asgi sc (Classical.choose (he rq)).1 (Classical.choose (he rq)).2) r)
    (fun rq r => AsgiStreamGave (hop.app.asgi sc (Classical.choose (he rq)).1 (Classical.choose (he rq)).2) r)
    (fun _ _ _ => asgiGave_unique) (fun _ _ _ => asgiStreamGave_unique)
  refine ⟨http, fun rq ha => ?_⟩
  obtain ⟨h2, h3, h4, h5, h6, h7⟩ := Classical.choose_spec (he rq) ha
  exact ⟨_, _, h2, fun _ => h3, h4, h5, h6, .inl h7, (h1 rq).1, (h1 rq).2⟩

/-! ### the hypotheses are met -/

/-- the handler at the end of the chain: it sets a trailer and fails, with two details -/
def originCall (_ : Bytes) (_ : RequestContext) : Call Bytes :=
  ⟨[.update fun m => { m with trailers := m.trailers.add (pys! "x-t") (pys! "1") }], .error (.connect demoError)⟩

/-- less than the time left, and no more than 1500 ms -/
def lessTime (ctx : RequestContext) : Option Int :=
  match ctx.timeoutMs with
  | some ms => some (if ms ≤ 0 then -1 else if ms < 1500 then 1 else 1500)
  | none => some 1500

theorem lessTime_cases (ctx : RequestContext) : (lessTime ctx = some (-1) ∨ lessTime ctx = some 1 ∨ lessTime ctx = some 1500) ∧
    ∀ ms, ctx.timeoutMs = some ms → ∃ t, lessTime ctx = some t ∧ t ≠ 0 ∧ t ≤ max ms 0 := by
  unfold lessTime
  cases ctx.timeoutMs with
  | none => exact ⟨.inr (.inr rfl), fun ms h => by cases h⟩
  | some ms =>
    dsimp only
    by_cases h : ms ≤ 0
    · rw [if_pos h]
      exact ⟨.inl rfl, fun ms' h' => by cases h'; exact ⟨_, rfl, by omega, by omega⟩⟩
    · rw [if_neg h]
      by_cases h2 : ms < 1500
      · rw [if_pos h2]
        exact ⟨.inr (.inl rfl), fun ms' h' => by cases h'; exact ⟨_, rfl, by omega, by omega⟩⟩
      · rw [if_neg h2]
        exact ⟨.inr (.inr rfl), fun ms' h' => by cases h'; exact ⟨_, rfl, by omega, by omega⟩⟩

def relayHop (p : Proto) (f : Bytes → RequestContext → Call Bytes) (http : HttpClient) : Hop Bytes Bytes :=
  ⟨chatClient p, chatAppOf (.unary f), chatCodec, echoInfo, echoInfo, fun _ b => some b.reverse, true, fun _ => pairUser, lessTime,
    fun _ => calm, fun _ => http⟩

theorem relay_serves (p : Proto) (f : Bytes → RequestContext → Call Bytes) (http : HttpClient)
    (hn : OverWsgi (relayHop p f http) protobufStatus http ∨ OverAsgi (relayHop p f http) protobufStatus http) :
    (relayHop p f http).Serves protobufStatus [4, 5] f where
  connect := by
    intro hc ctx
    have hc : p = .connect := hc
    subst hc
    exact {
      connect := rfl
      codec := ⟨rfl, rfl, (by show PlainName (pys! "raw"); decide +kernel),
        (by show ¬ pys! "grpc" <+: pys! "raw"; decide +kernel), by intro m b h; cases h; rfl, by intro m b h; cases h; rfl⟩
      comps := by
        show Compressions (chatClient .connect) (chatAppOf (.unary f))
        refine C58_configured _ _ _ _ _ _ revGzip rfl _ _ _ _ _ _ _ _ _ _ ?_ ?_
        · intro n h
          have h1 : n ∈ Dict.keys (resolveCompressions revGzip none) := (keys_available ..).2 h
          have h2 : ∀ n ∈ Dict.keys (resolveCompressions revGzip none), PlainName n := by decide +kernel
          exact h2 n h1
        · intro k h
          cases h
          refine ⟨by decide +kernel, ?_, revGzip, rfl, ?_⟩
          · intro b h; simpa [revGzip, Compression.compress] using h
          · intro b; simp [revGzip, Compression.compress, Compression.decompress]
      path := ⟨⟨_, rfl⟩, by show ∀ c ∈ methodPath echoInfo, PathChar c; decide +kernel⟩
      endpoint := rfl
      get := fun _ => rfl
      message := ⟨[4, 5], rfl, fun h => by cases h⟩
      timeout := by
        show TimeoutFits _ _ (lessTime ctx)
        rcases (lessTime_cases ctx).1 with h | h | h <;> rw [h]
        · show (intStr (-1)).length ≤ 10
          decide +kernel
        · show (intStr 1).length ≤ 10
          decide +kernel
        · show (intStr 1500).length ≤ 10
          decide +kernel }
  grpc := by
    intro hc
    have hc : p ≠ .connect := hc
    refine ⟨protobufStatus_lawful, ⟨?_, ?_⟩, fun ctx => ⟨⟨rfl, rfl⟩, ?_⟩⟩
    · intro n c hc b e he
      have hm : (n, c) ∈ [(pys! "raw", chatCodec)] := Dict.get?_some_mem hc
      rw [List.mem_singleton] at hm
      cases hm
      cases he
    · intro n c hc b e he
      have hm : (n, c) ∈ [(pys! "gzip", revGzip), (pys! "identity", .identity)] := Dict.get?_some_mem hc
      rcases List.mem_cons.1 hm with h | h
      · cases h; cases he
      · rw [List.mem_singleton] at h
        cases h
        cases he
    · have h := chat_call p (.unary f) (fun h => absurd h hc) [[4, 5]] (fun r hr => by rw [List.mem_singleton] at hr; exact .inl hr)
      refine ⟨h.codec, h.comps, h.path, h.endpoint, h.kind, h.messages, ?_⟩
      show StreamTimeoutFits _ _ (lessTime ctx)
      cases p with
      | connect => exact absurd rfl hc
      | _ =>
        rcases (lessTime_cases ctx).1 with h | h | h <;> rw [h]
        · show (-1 : Int) < _
          decide
        · show (1 : Int) < _
          decide
        · show (1500 : Int) < _
          decide
  undoes := by
    intro n k hn hk hne b
    have h1 : n = pys! "gzip" := by
      have : ∀ x ∈ Dict.keys (chatClient p).comps, x = pys! "gzip" ∨ x = pys! "identity" := by cases p <;> decide +kernel
      rcases this n hn with h | h
      · exact h
      · exact absurd h hne
    subst h1
    have h2 : k = revGzip := by
      have : Dict.get? (chatAppOf (.unary f)).comps (pys! "gzip") = some revGzip := rfl
      rw [show Dict.get? (chatAppOf (.unary f)).comps (pys! "gzip") = some k from hk] at this
      exact Option.some.inj this
    subst h2
    show some (revGzip.compress b).reverse = some b
    simp [revGzip, Compression.compress]
  limit := by
    intro n hn
    have : (chatClient p).readMax = some 1000 := by cases p <;> rfl
    rw [show (relayHop p f http).client.readMax = _ from this] at hn
    cases hn
    decide
  network := fun _ => hn

theorem origin_sendable (ctx : RequestContext) : Sendable (originCall [4, 5] ctx) where
  modest := ⟨by show fieldValues (metadataFields (Spec.metadataOf (originCall [] default).steps)) _ = []; decide +kernel,
    ⟨[.add (pys! "x-t") (pys! "1")], rfl⟩,
    by show ∀ n ∈ grpcReserved, (Spec.metadataOf (originCall [] default).steps).trailers.getall n = []; decide +kernel⟩
  errors := by
    intro e he
    cases he
    refine ⟨rfl, (fun s hs h => by cases h), demoError_debug, by decide +kernel, ?_⟩
    · intro d hd
      simp only [errorOf, demoError, List.mem_cons, List.not_mem_nil, or_false] at hd
      rcases hd with rfl | rfl <;> exact ⟨by decide +kernel, by decide +kernel⟩

/-- the error of `originCall` as its handler gives it, and as clients read it by gRPC and by Connect -/
def originReadings : List ConnectErr :=
  [demoError, ⟨demoError.code, demoError.message, [⟨pys! "type.googleapis.com/a.B", [1, 2, 255], none⟩, ⟨pys! "c.D", [], none⟩]⟩,
    ⟨demoError.code, demoError.message, [⟨pys! "type.googleapis.com/a.B", [1, 2, 255], none⟩, ⟨pys! "type.googleapis.com/c.D", [], none⟩]⟩]

/-- whatever a client reads of the error of `originCall`, it is one of these -/
theorem origin_readings {e : Option ConnectErr} (ctx : RequestContext) (h : ReadingOf (failureOf (originCall [4, 5] ctx)) e) :
    e ∈ (originReadings.map some) := by
  obtain ⟨x, rfl, hr, h⟩ := h
  rcases h with rfl | h
  · exact List.mem_map.2 ⟨_, .head _, rfl⟩
  obtain ⟨c, m, ds⟩ := x
  have h1 := congrArg Prod.fst hr
  have h2 := congrArg (fun x => x.2.1) hr
  have h3 := congrArg (fun x => x.2.2) hr
  change c = _ at h1
  change m = _ at h2
  change ds.map (fun d => (typeNameOf d.typeUrl, d.value)) = [(pys! "a.B", [1, 2, 255]), (pys! "c.D", [])] at h3
  subst h1 h2
  match ds, h3, h with
  | [⟨u1, v1, b1⟩, ⟨u2, v2, b2⟩], h3, h =>
    simp only [List.map_cons, List.map_nil, List.cons.injEq, Prod.mk.injEq, and_true] at h3
    obtain ⟨⟨ht1, hv1⟩, ht2, hv2⟩ := h3
    obtain ⟨hb1, d1, hd1, _, hu1⟩ := h _ (.head _)
    obtain ⟨hb2, d2, hd2, _, hu2⟩ := h _ (.tail _ (.head _))
    have hd1 : d1 ∈ [(⟨pys! "type.googleapis.com/a.B", [1, 2, 255], none⟩ : ErrorDetail), ⟨pys! "c.D", [], some (.obj [])⟩] := hd1
    have hd2 : d2 ∈ [(⟨pys! "type.googleapis.com/a.B", [1, 2, 255], none⟩ : ErrorDetail), ⟨pys! "c.D", [], some (.obj [])⟩] := hd2
    simp only [List.mem_cons, List.not_mem_nil, or_false] at hd1 hd2
    dsimp only at hb1 hb2 hv1 hv2 hu1 hu2 ht1 ht2
    subst hb1 hb2 hv1 hv2
    have k1 : u1 = pys! "type.googleapis.com/a.B" := by
      rcases hd1 with rfl | rfl <;> rcases hu1 with rfl | rfl <;> first | decide +kernel | exact absurd ht1 (by decide +kernel)
    have k2 : u2 = pys! "c.D" ∨ u2 = pys! "type.googleapis.com/c.D" := by
      rcases hd2 with rfl | rfl <;> rcases hu2 with rfl | rfl <;> first | decide +kernel | exact absurd ht2 (by decide +kernel)
    subst k1
    rcases k2 with rfl | rfl
    · exact List.mem_map.2 ⟨_, .tail _ (.head _), rfl⟩
    · exact List.mem_map.2 ⟨_, .tail _ (.tail _ (.head _)), rfl⟩
  | [_], h3, _ => exact absurd (congrArg List.length h3) (by simp)
  | _ :: _ :: _ :: _, h3, _ => exact absurd (congrArg List.length h3) (by simp)

/-- A chain of three services, over gRPC on ASGI, Connect on WSGI and gRPC-Web on ASGI, for an error with details: all hypotheses of C95 are met. -/
example : ∃ (f : Bytes → RequestContext → Call Bytes) (hop : Hop Bytes Bytes), (∀ ctx, Sendable (originCall [4, 5] ctx)) ∧
    f ≠ originCall ∧ Chain protobufStatus [4, 5] originCall Hop.Heeds f ∧ hop.Serves protobufStatus [4, 5] f ∧
    hop.Carries protobufStatus [4, 5] originCall f ∧ hop.client.proto = .grpcWeb ∧ ∀ ctx, ∃ t, hop.timeout ctx = some t ∧ t ≠ 0 := by
  have hpath : PlainPath (methodPath echoInfo) := ⟨⟨_, rfl⟩, by decide +kernel⟩
  have hmod : ∀ r : Except Exc Bytes, Modest (⟨[], r⟩ : Call Bytes) := fun r =>
    ⟨rfl, ⟨[], rfl⟩, by show ∀ n ∈ grpcReserved, Headers.empty.getall n = []; decide +kernel⟩
  obtain ⟨http1, hn1⟩ := overAsgi_exists (relayHop .grpc originCall ⟨fun _ => .error .cancelled, fun _ => .error .cancelled⟩) protobufStatus hpath
    (fun _ b => ⟨b.reverse, rfl⟩)
  let hop1 := relayHop .grpc originCall http1
  let f1 : Bytes → RequestContext → Call Bytes := fun req ctx => ⟨[], hop1.outcome protobufStatus req ctx⟩
  obtain ⟨http2, hn2⟩ := overWsgi_exists (relayHop .connect f1 ⟨fun _ => .error .cancelled, fun _ => .error .cancelled⟩) protobufStatus hpath
    (fun _ b => ⟨b.reverse, rfl⟩)
  let hop2 := relayHop .connect f1 http2
  let f2 : Bytes → RequestContext → Call Bytes := fun req ctx => ⟨[], hop2.outcome protobufStatus req ctx⟩
  obtain ⟨http3, hn3⟩ := overAsgi_exists (relayHop .grpcWeb f2 ⟨fun _ => .error .cancelled, fun _ => .error .cancelled⟩) protobufStatus hpath
    (fun _ b => ⟨b.reverse, rfl⟩)
  refine ⟨f2, relayHop .grpcWeb f2 http3, origin_sendable, ?_, ?_, relay_serves .grpcWeb f2 http3 (.inr hn3), ⟨(fun _ _ h => by cases h), ?_⟩, rfl, ?_⟩
  · intro h
    have := congrArg Call.steps (congrFun (congrFun h [4, 5]) default)
    cases this
  · refine .relay hop2 ?_ (.relay hop1 ?_ .origin (relay_serves .grpc originCall http1 (.inr hn1)) ⟨(fun _ _ h => by cases h), (fun h => by cases h)⟩
      (fun ctx => hmod _) (fun _ => rfl)) (relay_serves .connect f1 http2 (.inl hn2)) ⟨(fun _ _ h => by cases h), (fun h => by cases h)⟩
      (fun ctx => hmod _) (fun _ => rfl)
    · intro ctx ms h
      exact (lessTime_cases ctx).2 ms h
    · intro ctx ms h
      exact (lessTime_cases ctx).2 ms h
  · intro _ ctx ctx' e he
    have h1 := origin_readings ctx he
    have h2 : ∀ e ∈ originReadings.map some, (endSize .grpcWeb protobufStatus Headers.empty e) ≤ 1000 := by decide +kernel
    refine ⟨(fun _ p hp => by cases hp), ?_, ?_⟩
    · intro n hn
      have : (1000 : Int) = n := Option.some.inj hn
      subst this
      exact Int.ofNat_le.2 (h2 e h1)
    · have h3 : ∀ e ∈ originReadings.map some, ((writerOf chatCodec revGzip).end' .grpcWeb protobufStatus Headers.empty e).isOk = true := by decide +kernel
      have h4 : (((writerOf chatCodec revGzip).end' .grpcWeb protobufStatus Headers.empty ((e.map Exc.connect).map errorOf))).isOk = true := by
        rw [map_connect]; exact h3 e h1
      show ∃ out, (writerOf chatCodec revGzip).end' .grpcWeb protobufStatus Headers.empty ((e.map Exc.connect).map errorOf) = .ok out
      cases hx : (writerOf chatCodec revGzip).end' .grpcWeb protobufStatus Headers.empty ((e.map Exc.connect).map errorOf) with
      | ok o => exact ⟨o, rfl⟩
      | error x => rw [hx] at h4; cases h4
  · intro ctx
    show ∃ t, lessTime ctx = some t ∧ t ≠ 0
    rcases (lessTime_cases ctx).1 with h | h | h <;> exact ⟨_, h, by decide⟩

end Props
