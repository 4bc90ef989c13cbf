import Verif.Proofs.AlikeServe
import Verif.Props.ErrorLog
/-
C90: the WSGI and the ASGI application answer the same request in the same way.
-/
namespace Props
open Conn Py Spec

section
variable {Req Res : Type}

/-- C90: with the same endpoints and options, a plain request that is clear to both servers leads to the same calls of endpoint functions, with the same message and the same context,
the same messages of the request stream, and the same answer: status, header fields, body and trailers. -/
theorem C90_alike_partial (app : App Req Res) (sc : StatusCodec) (r : HttpIn) (env : Environ) (scope : Scope) (aenv : Env) (hcfg : Configured app) (hr : r.Plain)
    (hw : WsgiGets r env) (ha : AsgiGets r scope aenv) (hclear : Clear app sc env r) : Alike (app.wsgi sc env) (app.asgi sc scope aenv) :=
  alike hcfg hr hw ha hclear

/-! ### every plain request can be given to both -/

/-- what a WSGI server makes of a request -/
def environFor (r : HttpIn) : Environ :=
  { vars := [(pys! "REQUEST_METHOD", r.method), (pys! "PATH_INFO", r.path), (pys! "SCRIPT_NAME", []), (pys! "QUERY_STRING", r.query), (pys! "wsgi.url_scheme", r.scheme)] ++
      ((match r.client with
        | some (h, p) => [(pys! "REMOTE_ADDR", h), (pys! "REMOTE_PORT", p)]
        | none => []) ++ ((r.contentType.map fun v => (pys! "CONTENT_TYPE", v)).toList ++
      ((if r.declared then [(pys! "CONTENT_LENGTH", natDigits r.body.length)] else []) ++ r.others.map fun p => (cgiVar p.1, p.2))))
    input := if r.body = [] then [] else [r.body]
    sendTrailers := r.trailers }

/-- what an ASGI server makes of it -/
def scopeFor (r : HttpIn) : Scope :=
  { path := r.path, rootPath := [], method := r.method, scheme := some r.scheme, headers := r.fields.map fun p => (utf8Encode p.1, utf8Encode p.2)
    client := r.client, query := utf8Encode r.query, trailers := r.trailers }

def envFor (r : HttpIn) : Env := ⟨[.request r.body false], fun _ => none, none, none⟩

theorem get?_noHttp {k : Str} (hk : k.take 5 ≠ pys! "HTTP_") : ∀ l : List (Str × Str), (∀ p ∈ l, p.1.take 5 = pys! "HTTP_") → Dict.get? l k = none
  | [], _ => rfl
  | (a, b) :: l, h => by
    unfold Dict.get?
    rw [if_neg (by intro e; subst e; exact hk (h (_, _) (List.mem_cons_self ..)))]
    exact get?_noHttp hk l fun p hp => h p (List.mem_cons_of_mem _ hp)

theorem http_vars {r : HttpIn} (hr : r.Plain) : ∀ p ∈ r.others.map (fun p => (cgiVar p.1, p.2)), p.1.take 5 = pys! "HTTP_" := by
  intro p hp
  obtain ⟨q, hq, rfl⟩ := List.mem_map.1 hp
  dsimp only
  unfold cgiVar
  rw [if_neg (hr.names q hq).2.1]
  exact List.take_left' rfl

theorem environ_gets {r : HttpIn} (hr : r.Plain) : WsgiGets r (environFor r) := by
  have hv := http_vars hr
  have hno : ∀ k : Str, k.take 5 ≠ pys! "HTTP_" → Dict.get? (r.others.map fun p => (cgiVar p.1, p.2)) k = none := fun k hk => get?_noHttp hk _ hv
  have hf : (r.others.map fun p => (cgiVar p.1, p.2)).filter (fun p => p.1.take 5 = pys! "HTTP_") = r.others.map fun p => (cgiVar p.1, p.2) :=
    List.filter_eq_self.2 fun p hp => decide_eq_true (hv p hp)
  obtain ⟨method, path, query, scheme, client, contentType, declared, others, body, trailers⟩ := r
  dsimp only at *
  have h1 := hno (pys! "REMOTE_ADDR") (by decide)
  have h2 := hno (pys! "REMOTE_PORT") (by decide)
  have h3 := hno (pys! "CONTENT_TYPE") (by decide)
  have h4 := hno (pys! "CONTENT_LENGTH") (by decide)
  unfold environFor
  refine ⟨rfl, rfl, rfl, rfl, rfl, ?_, ?_, ?_, ?_, ?_, ?_, ?_, rfl⟩
  · rcases client with _ | ⟨h, p⟩ <;> cases contentType <;> cases declared <;> first | rfl | exact h1
  · rcases client with _ | ⟨h, p⟩ <;> cases contentType <;> cases declared <;> first | rfl | exact h2
  · rcases client with _ | ⟨h, p⟩ <;> cases contentType <;> cases declared <;> first | rfl | exact h3
  · rcases client with _ | ⟨h, p⟩ <;> cases contentType <;> cases declared <;> first | rfl | exact h4
  · rcases client with _ | ⟨h, p⟩ <;> cases contentType <;> cases declared <;> exact hf
  · by_cases hb : body = []
    · rw [if_pos hb]; intro s hs; cases hs
    · rw [if_neg hb]; intro s hs; rw [List.mem_singleton.1 hs]; exact hb
  · by_cases hb : body = []
    · rw [if_pos hb, hb]; rfl
    · rw [if_neg hb]; simp

theorem scope_gets (r : HttpIn) : AsgiGets r (scopeFor r) (envFor r) :=
  ⟨rfl, rfl, rfl, rfl, rfl, rfl, rfl, .last _ _, rfl, fun _ => rfl, rfl, rfl⟩

/-- the options every application has, if its compressions have names and its codecs and compressions raise ordinary exceptions -/
theorem C90_configured (endpoints : Dict Str (Endpoint Req Res)) (path : Str) (gzip : Compression) (readMax : Option Int) (compressions : Option (List Compression))
    (codecs : List (ServerCodec Req Res)) (hn : ∀ cs, compressions = some cs → ∀ c ∈ cs, c.name ≠ [])
    (ho : Spec.Ordinary (App.new endpoints path gzip readMax compressions codecs)) : Configured (App.new endpoints path gzip readMax compressions codecs) := by
  refine ⟨(resolve_get? ..).trans rfl, (resolve_get? ..).trans ?_, ho⟩
  unfold available
  rw [if_neg (by decide)]
  cases compressions with
  | none => rfl
  | some cs =>
    dsimp only
    rw [List.filter_eq_nil_iff.2 fun c hc => by simpa using hn cs rfl c hc]
    rfl

end

/-! ### the hypotheses are met -/

/-- a compression that refuses what it did not write, also nothing at all (as brotli does) -/
def frailComp : Compression := .custom (pys! "frail") (fun b => 1 :: b) fun b => match b with
  | 1 :: b => .ok b
  | _ => .error (.other .valueError (pys! "bad data"))

def twinApp : App Bytes Bytes :=
  .new [(pys! "/a.S/Echo", ⟨echoInfo, .unary echoCall⟩), (pys! "/a.S/Count", ⟨countInfo, .clientStream countCall⟩), (pys! "/a.S/Peek", ⟨echoInfo, .clientStream countCall⟩)]
    (pys! "/a.S") flipComp (some 10) (some [frailComp]) [⟨pys! "proto", pickyCodec, rawCodec⟩]

theorem twin_configured : Configured twinApp := by
  refine ⟨rfl, rfl, ?_, ?_⟩
  · intro n c hc b e he
    have hm : (n, c) ∈ [(pys! "proto", (⟨pys! "proto", pickyCodec, rawCodec⟩ : ServerCodec Bytes Bytes))] := Dict.get?_some_mem hc
    rw [List.mem_singleton] at hm
    cases hm
    dsimp only [pickyCodec] at he
    split at he
    · cases he; exact ⟨_, _, rfl⟩
    · cases he
  · intro n c hc b e he
    have hm : (n, c) ∈ [(pys! "frail", frailComp), (pys! "identity", .identity)] := Dict.get?_some_mem hc
    rcases List.mem_cons.1 hm with h | h
    · cases h
      dsimp only [frailComp, Compression.decompress] at he
      split at he
      · cases he
      · cases he; exact ⟨_, _, rfl⟩
    · cases List.mem_singleton.1 h
      cases he

/-- a request with a header field of its own -/
def twinIn (method path query ct : Str) (others : List (Str × Str)) (body : Bytes) : HttpIn :=
  { method, path, query, scheme := pys! "https", client := some (pys! "1.2.3.4", pys! "80"), contentType := some ct, declared := true
    others := (pys! "X-A", pys! "v") :: others, body, trailers := false }

instance (r : HttpIn) : Decidable (r.path ≠ [] ∧ (∀ p ∈ r.others, '_' ∉ p.1 ∧ lower p.1 ≠ pys! "content-type" ∧ lower p.1 ≠ pys! "content-length") ∧
    (r.others.map fun p => lower p.1).Nodup ∧ (∀ p ∈ r.fields, ∀ c ∈ p.2, c.toNat < 128) ∧ ∀ c ∈ r.path ++ r.query, c.toNat < 128) := by infer_instance

theorem twin_plain {method path query ct : Str} {others : List (Str × Str)} {body : Bytes}
    (h : let r := twinIn method path query ct others body
      r.path ≠ [] ∧ (∀ p ∈ r.others, '_' ∉ p.1 ∧ lower p.1 ≠ pys! "content-type" ∧ lower p.1 ≠ pys! "content-length") ∧
        (r.others.map fun p => lower p.1).Nodup ∧ (∀ p ∈ r.fields, ∀ c ∈ p.2, c.toNat < 128) ∧ ∀ c ∈ r.path ++ r.query, c.toNat < 128) :
    (twinIn method path query ct others body).Plain :=
  ⟨h.1, fun _ _ h => by cases h; decide, h.2.1, h.2.2.1, h.2.2.2.1, h.2.2.2.2⟩

/-- a unary POST in the compression -/
def twinPost : HttpIn := twinIn (pys! "POST") (pys! "/a.S/Echo") [] (pys! "application/proto") [(pys! "Content-Encoding", pys! "frail")] [1, 2, 3]

theorem twin_speaks {p : Proto} {ct : Str} (h : Speaks p ct) : p = negotiateServerProtocol ct := ((speaks_iff _ _).1 h).symm

example : Configured twinApp ∧ twinPost.Plain ∧ WsgiGets twinPost (environFor twinPost) ∧ AsgiGets twinPost (scopeFor twinPost) (envFor twinPost) ∧
    Clear twinApp demoStatus (environFor twinPost) twinPost ∧ (twinApp.wsgi demoStatus (environFor twinPost)).calls.map (·.req) = [some [2, 3]] := by
  refine ⟨twin_configured, twin_plain (by decide +kernel), environ_gets (twin_plain (by decide +kernel)), scope_gets _, ⟨?_, ?_, ?_⟩, by decide +kernel⟩
  · intro h
    exact absurd (twin_speaks (p := .grpc) h) (by decide +kernel)
  · intro m f _ _
    refine ⟨fun _ => ?_, fun h => by exact absurd h (by decide +kernel)⟩
    intro name codec comp hn hc hk
    rw [unaryCodecName_iff] at hn
    subst hn
    have h1 : Dict.get? twinApp.codecs (connectCodecName twinPost.type false) = some ⟨pys! "proto", pickyCodec, rawCodec⟩ := rfl
    have h2 : Dict.get? twinApp.comps (lower ((twinPost.value (pys! "content-encoding")).getD (pys! "identity"))) = some frailComp := rfl
    rw [h1] at hc
    rw [h2] at hk
    cases hc
    cases hk
    exact ⟨[2, 3], rfl, (by intro h; cases h), fun _ => ⟨[2, 3], rfl⟩⟩
  · intro ep p he hp hu _
    have := twin_speaks hp
    have hp' : p = .connect := by rw [this]; decide +kernel
    have he' : Dict.get? twinApp.endpoints twinPost.path = some ⟨echoInfo, .unary echoCall⟩ := rfl
    rw [he'] at he
    cases he
    cases hu hp'

/-- a unary GET -/
def twinGet : HttpIn := twinIn (pys! "GET") (pys! "/a.S/Echo") (pys! "message=AQID&base64=1&encoding=proto") [] [] []

example : twinGet.Plain ∧ GetClear twinApp (parseQs twinGet.query) ∧ (twinApp.wsgi demoStatus (environFor twinGet)).calls.map (·.req) = [some [1, 2, 3]] := by
  refine ⟨twin_plain (by decide +kernel), ⟨?_, ?_⟩, by decide +kernel⟩
  · intro text _
    exact ⟨[1, 2, 3], wsgiGetMessage_ok.1 (by decide +kernel)⟩
  · refine ⟨pys! "proto", _, .inl (firstParam_iff.1 (by decide +kernel)), rfl, ?_⟩
    intro raw enc comp hm he hk
    rw [← wsgiGetMessage_ok] at hm
    have h1 : wsgiGetMessage (parseQs twinGet.query) = .ok [1, 2, 3] := by decide +kernel
    rw [h1] at hm
    cases hm
    rw [← compressionParam] at he
    have h2 : firstParam (parseQs twinGet.query) (pys! "compression") = none := by decide +kernel
    rw [h2] at he
    subst he
    cases hk
    exact ⟨[1, 2, 3], [1, 2, 3], rfl, (by intro h; cases h), rfl⟩

/-- a client stream of two messages -/
def twinStream : HttpIn := twinIn (pys! "POST") (pys! "/a.S/Count") [] (pys! "application/connect+proto") []
  [0, 0, 0, 0, 1, 7, 0, 0, 0, 0, 2, 8, 9]

theorem twin_stream_clear : Clear twinApp demoStatus (environFor twinStream) twinStream := by
  have he' : Dict.get? twinApp.endpoints twinStream.path = some ⟨countInfo, .clientStream countCall⟩ := rfl
  refine ⟨?_, ?_, ?_⟩
  · intro h
    exact absurd (twin_speaks (p := .grpc) h) (by decide +kernel)
  · intro m f he
    rw [he'] at he
    cases he
  · intro ep p he hp hu _
    rw [he'] at he
    cases he
    have hp' : p = .connect := by rw [twin_speaks hp]; decide +kernel
    subst hp'
    refine ⟨by decide +kernel, ⟨pys! "proto", _, (streamCodecName_iff ..).2 (by decide +kernel), rfl, ?_⟩, ?_⟩
    · intro tr e resComp hrc hrep
      have hrc : resComp = .identity := by
        have h : resComp = _ := hrc
        rw [h]
        have h1 : (wsgiHeaders (environFor twinStream).vars).getD (acceptHeader .connect) [] = [] := by decide +kernel
        rw [h1]
        rfl
      subst hrc
      cases hrep with
      | compression hno msg =>
        exact absurd (.inl rfl) (hno .identity)
      | refused hc hs ht he => cases ht
      | ran hc hs hh hr =>
        rename_i c s ctx req h h' script i ms
        have hc : c = .identity := by
          rw [← requestCompression_iff] at hc
          have h1 : (Proto.connect.negotiateStreamCompression (wsgiHeaders (environFor twinStream).vars) twinApp.comps).1 = some .identity := rfl
          rw [h1] at hc
          cases hc
          rfl
        subst hc
        have hpl : twinStream.Plain := twin_plain (by decide +kernel)
        replace hs := (wsgiMessages_iff (environ_gets hpl).pieces).1 hs
        have h1 : twinApp.wsgiRequests (environFor twinStream) ⟨pys! "proto", pickyCodec, rawCodec⟩ .identity = ⟨[[7], [8, 9]], none⟩ := by decide +kernel
        replace hs := hs.symm.trans h1
        subst hs
        cases hh with
        | clientStream _ hr' =>
          rw [← responds_iff] at hr'
          subst hr'
          cases hr with
          | raised hd => cases hd
          | step hd hr =>
            cases hd
            cases hr with
            | raised hd => cases hd
            | step hd hr =>
              cases hd
              cases hr with
              | raised hd => cases hd
              | step hd hr =>
                cases hd
                cases hr with
                | unwritable hw => cases hw
                | emit hw hr =>
                  cases hr
                  exact ⟨fun x hx => (by cases hx), _, rfl⟩
    · intro s ctx req h script hs
      cases hs with
      | clientStream _ hr =>
        rw [← responds_iff] at hr
        subst hr
        rfl

example : twinStream.Plain ∧ Clear twinApp demoStatus (environFor twinStream) twinStream ∧ (twinApp.wsgi demoStatus (environFor twinStream)).received = [[7], [8, 9]] :=
  ⟨twin_plain (by decide +kernel), twin_stream_clear, by decide +kernel⟩

/-! ### where they differ -/

section
variable {Req : Type}

/-- Alike answers begin alike. -/
theorem alike_start {w : WsgiOut Req} {a : AsgiOut Req} (h : Alike w a) {s s' : Nat} {f f' : List (Str × Str)} {t : Bool} {o : Option Exc}
    (hw : w.events.head? = some (.start s f)) (ha : a.sends.head? = some (.start s' f' t, o)) :
    s = s' ∧ (f.map fun p => (lower p.1, p.2)) = (f'.map fun p => (lower p.1, p.2)) := by
  obtain ⟨_, _, ⟨x, y, ⟨_, rest, h1, _⟩, ⟨t', rest', h2, _⟩, h3, h4, _⟩ | ⟨e, _, h1, _⟩⟩ := h
  · rw [h1] at hw
    rw [h2] at ha
    cases hw
    cases ha
    exact ⟨h3, h4⟩
  · rw [h1] at hw
    cases hw

end

/-- status of a WSGI answer, status of an ASGI answer -/
def statuses (w : WsgiOut Bytes) (a : AsgiOut Bytes) : Option Nat × Option Nat :=
  (match w.events.head? with
    | some (.start s _) => some s
    | _ => none, match a.sends.head? with
    | some (.start s _ _, _) => some s
    | _ => none)

theorem differ {w : WsgiOut Bytes} {a : AsgiOut Bytes} {s s' : Nat} (hne : s ≠ s') (h : statuses w a = (some s, some s')) : ¬ Alike w a := by
  intro hal
  unfold statuses at h
  cases hw : w.events.head? with
  | none => rw [hw] at h; cases h
  | some ev =>
    cases ev with
    | start s1 f1 =>
      cases ha : a.sends.head? with
      | none => rw [hw, ha] at h; cases h
      | some ev' =>
        obtain ⟨ev', o⟩ := ev'
        cases ev' with
        | start s2 f2 t2 =>
          rw [hw, ha] at h
          cases h
          exact hne (alike_start hal hw ha).1
        | _ => rw [hw, ha] at h; cases h
    | _ => rw [hw] at h; cases h

/-- the same request, given to both -/
def Served (app : App Bytes Bytes) (r : HttpIn) : Prop :=
  Configured app ∧ r.Plain ∧ WsgiGets r (environFor r) ∧ AsgiGets r (scopeFor r) (envFor r)

theorem twin_served {method path query ct : Str} {others : List (Str × Str)} {body : Bytes}
    (h : let r := twinIn method path query ct others body
      r.path ≠ [] ∧ (∀ p ∈ r.others, '_' ∉ p.1 ∧ lower p.1 ≠ pys! "content-type" ∧ lower p.1 ≠ pys! "content-length") ∧
        (r.others.map fun p => lower p.1).Nodup ∧ (∀ p ∈ r.fields, ∀ c ∈ p.2, c.toNat < 128) ∧ ∀ c ∈ r.path ++ r.query, c.toNat < 128) :
    Served twinApp (twinIn method path query ct others body) :=
  ⟨twin_configured, twin_plain h, environ_gets (twin_plain h), scope_gets _⟩

/-- C90 does not hold of bodies that cannot be decoded: 400 (INVALID_ARGUMENT) from WSGI, 500 from ASGI (C38). -/
theorem C90_violation_garbled : ∃ (app : App Bytes Bytes) (r : HttpIn), Served app r ∧
    ¬ Alike (app.wsgi demoStatus (environFor r)) (app.asgi demoStatus (scopeFor r) (envFor r)) :=
  ⟨twinApp, twinIn (pys! "POST") (pys! "/a.S/Echo") [] (pys! "application/proto") [] [255], twin_served (by decide +kernel),
    differ (s := 400) (s' := 500) (by decide) (by decide +kernel)⟩

/-- C90 does not hold of bodies that cannot be decompressed. -/
theorem C90_violation_corrupt : ∃ (app : App Bytes Bytes) (r : HttpIn), Served app r ∧
    ¬ Alike (app.wsgi demoStatus (environFor r)) (app.asgi demoStatus (scopeFor r) (envFor r)) :=
  ⟨twinApp, twinIn (pys! "POST") (pys! "/a.S/Echo") [] (pys! "application/proto") [(pys! "content-encoding", pys! "frail")] [7], twin_served (by decide +kernel),
    differ (s := 400) (s' := 500) (by decide) (by decide +kernel)⟩

/-- C90 does not hold of an empty body with a compression that refuses it: WSGI answers 400, ASGI takes it for an empty message and calls the handler. -/
theorem C90_violation_empty : ∃ (app : App Bytes Bytes) (r : HttpIn), Served app r ∧
    (app.wsgi demoStatus (environFor r)).calls = [] ∧ (app.asgi demoStatus (scopeFor r) (envFor r)).calls.map (·.req) = [some []] ∧
    ¬ Alike (app.wsgi demoStatus (environFor r)) (app.asgi demoStatus (scopeFor r) (envFor r)) :=
  ⟨twinApp, twinIn (pys! "POST") (pys! "/a.S/Echo") [] (pys! "application/proto") [(pys! "content-encoding", pys! "frail")] [], twin_served (by decide +kernel),
    by decide +kernel, by decide +kernel, differ (s := 400) (s' := 200) (by decide) (by decide +kernel)⟩

/-- C90 does not hold of GET requests with an unknown `encoding`: WSGI answers 501 (UNIMPLEMENTED), ASGI 415. -/
theorem C90_violation_get_encoding : ∃ (app : App Bytes Bytes) (r : HttpIn), Served app r ∧
    ¬ Alike (app.wsgi demoStatus (environFor r)) (app.asgi demoStatus (scopeFor r) (envFor r)) :=
  ⟨twinApp, twinIn (pys! "GET") (pys! "/a.S/Echo") (pys! "message=AQID&base64=1&encoding=json") [] [] [], twin_served (by decide +kernel),
    differ (s := 501) (s' := 415) (by decide) (by decide +kernel)⟩

/-- C90 does not hold of GET requests to a streaming method without side effects: the WSGI application takes the codec from the content type and serves the stream, the ASGI
application takes it from the query and answers 415. -/
theorem C90_violation_get_stream : ∃ (app : App Bytes Bytes) (r : HttpIn), Served app r ∧
    (app.wsgi demoStatus (environFor r)).calls.length = 1 ∧ (app.asgi demoStatus (scopeFor r) (envFor r)).calls = [] ∧
    ¬ Alike (app.wsgi demoStatus (environFor r)) (app.asgi demoStatus (scopeFor r) (envFor r)) :=
  ⟨twinApp, twinIn (pys! "GET") (pys! "/a.S/Peek") [] (pys! "application/connect+proto") [] [], twin_served (by decide +kernel),
    by decide +kernel, by decide +kernel, differ (s := 200) (s' := 415) (by decide) (by decide +kernel)⟩

/-- C90 does not hold of streams in an unknown codec: both answer 415, but name different content types in `Accept-Post`. -/
theorem C90_violation_stream_codec : ∃ (app : App Bytes Bytes) (r : HttpIn), Served app r ∧
    (app.wsgi demoStatus (environFor r)).events.head? = some (.start 415 [(pys! "Accept-Post", pys! "application/connect+json, application/connect+proto")]) ∧
    (app.asgi demoStatus (scopeFor r) (envFor r)).sends.head? = some (.start 415 [(pys! "Accept-Post", pys! "application/json, application/proto")] false, none) ∧
    ¬ Alike (app.wsgi demoStatus (environFor r)) (app.asgi demoStatus (scopeFor r) (envFor r)) := by
  have h1 : (twinApp.wsgi demoStatus (environFor (twinIn (pys! "POST") (pys! "/a.S/Count") [] (pys! "application/connect+json") [] []))).events.head? =
      some (.start 415 [(pys! "Accept-Post", pys! "application/connect+json, application/connect+proto")]) := by decide +kernel
  have h2 : (twinApp.asgi demoStatus (scopeFor (twinIn (pys! "POST") (pys! "/a.S/Count") [] (pys! "application/connect+json") [] []))
      (envFor (twinIn (pys! "POST") (pys! "/a.S/Count") [] (pys! "application/connect+json") [] []))).sends.head? =
      some (.start 415 [(pys! "Accept-Post", pys! "application/json, application/proto")] false, none) := by decide +kernel
  exact ⟨twinApp, _, twin_served (by decide +kernel), h1, h2, fun h => absurd (alike_start h h1 h2).2 (by decide +kernel)⟩

end Props
