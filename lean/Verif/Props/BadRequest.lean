import Verif.Props.BadMessage
import Verif.Props.Request
import Verif.Spec.BadRequest
/-
C102: a message of a streamed request that cannot be accepted.
-/
namespace Props
open Conn Py Spec

variable {Req Res : Type} {app : App Req Res} {codec : ServerCodec Req Res} {address path : List Char} {p : Proto} {rq : HttpRequest}
  {reqs : List Req} {told : Option Int} {code : Code} {text : List Char}

theorem holds_server {comp : Compression} {f : Frame} {contents : Bytes} (h : Holds comp f contents) :
    (serverPolicy app codec comp).inflate f = .ok contents := by
  unfold Policy.inflate
  rcases h with ⟨h, rfl⟩ | ⟨h, hc, hd⟩
  · rw [if_neg (by omega)]
  · rw [if_pos h]
    cases comp with
    | identity => exact absurd rfl hc
    | custom _ _ _ => exact hd

theorem badFrame_raises {comp : Compression} {f : Frame} (h : BadFrame app codec comp f code text) :
    ∃ e, (serverPolicy app codec comp).message f = .error e ∧ ReportedAs e code text := by
  unfold Policy.message
  cases h with
  | unexpected hf hc =>
    subst hc
    refine ⟨.connect ⟨.internal, pys! "protocol error: sent compressed message without compression support", []⟩, ?_,
      (fun h => by cases h), rfl, List.nil_infix⟩
    unfold Policy.inflate
    rw [if_pos hf]
    rfl
  | @spoilt cls _ hf hc h =>
    refine ⟨.other cls text, ?_, (fun h => by cases h), rfl, List.infix_refl _⟩
    have : (serverPolicy app codec comp).inflate f = .error (.other cls text) := by
      unfold Policy.inflate
      rw [if_pos hf]
      cases comp with
      | identity => exact absurd rfl hc
      | custom _ _ _ => exact h
    rw [this]
  | @large contents n hc hn h =>
    refine ⟨.connect ⟨.resourceExhausted, pys! "message is larger than configured max " ++ intStr n, []⟩, ?_,
      (fun h => by cases h), rfl, ⟨pys! "message is larger than configured max ", [], by simp [errorOf]⟩⟩
    rw [holds_server hc]
    dsimp only
    unfold Policy.checkSize
    rw [show (serverPolicy app codec comp).limit = some n from hn]
    dsimp only
    rw [if_neg (by omega)]
    rfl
  | @garbled contents cls _ hc hn h =>
    refine ⟨.other cls text, ?_, (fun h => by cases h), rfl, List.infix_refl _⟩
    rw [holds_server hc]
    dsimp only
    have hs : (serverPolicy app codec comp).checkSize contents = .ok contents := by
      unfold Policy.checkSize
      rw [show (serverPolicy app codec comp).limit = app.readMax from rfl]
      cases hq : app.readMax with
      | none => rfl
      | some n => dsimp only; rw [if_pos (hn n hq)]
    rw [hs]
    exact h

theorem deliver_bad {M : Type} (p : Policy M) (fs : List Frame) (ms : List M) (hok : fs.map p.message = ms.map .ok) (bad : Frame) (e : Exc)
    (hb : p.message bad = .error e) (more : List Frame) : p.deliver (fs ++ bad :: more) = (ms, some e) := by
  induction fs generalizing ms with
  | nil =>
    cases ms with
    | nil => show p.deliver (bad :: more) = _; unfold Policy.deliver; rw [hb]
    | cons m ms => cases hok
  | cons f fs ih =>
    cases ms with
    | nil => cases hok
    | cons m ms =>
      obtain ⟨h1, h2⟩ := List.cons.inj hok
      rw [List.cons_append, Policy.deliver, h1]
      dsimp only
      rw [ih ms h2]

theorem body_arrives {r : List Recv} {b : Bytes} (h : AsgiBody r b) : Arrives r b none := by
  induction h with
  | last b r => exact .last b r
  | more b h ih => exact .more b ih

/-- what can be read of the request -/
theorem spoilt_splits {fs : List Frame} {bad : Frame} (hf : ∀ f ∈ fs, f.Ok) (hb : bad.Ok) (rest : Bytes) :
    ∃ more r, Splits (fs.flatMap Frame.bytes ++ bad.bytes ++ rest) (fs ++ bad :: more) r := by
  obtain ⟨more, r, h⟩ := splits_exists rest
  refine ⟨more, r, ?_⟩
  have h1 : Splits ((fs ++ [bad]).flatMap Frame.bytes) (fs ++ [bad]) [] := splits_frames (by
    intro f h
    rcases List.mem_append.1 h with h | h
    · exact hf f h
    · rw [List.mem_singleton.1 h]; exact hb)
  have := splits_append (b := rest) h1 (by rw [List.nil_append]; exact h)
  simpa using this

theorem wsgi_spoilt (hu : Dict.get? app.comps (pys! "identity") = some .identity) (hr : SpoiltRequest app codec address path p rq reqs told code text)
    (hpath : PlainPath path) {ms : MethodInfo} {handler : Handler Req Res} (hep : Dict.get? app.endpoints path = some ⟨ms, handler⟩)
    (hkind : p = .connect → handler.isUnary = false) {env : Environ} (h : WsgiSees address rq env) (htr : p = .grpc → env.sendTrailers = true) :
    ∃ e k, ReportedAs e code text ∧
      (∀ resComp, ResponseCompression app p (wsgiHeaders env.vars) resComp → WsgiStreamed app env path ⟨ms, handler⟩ p codec k resComp) ∧
      WsgiMessages app env codec k ⟨reqs, some e⟩ ∧ ∀ told', timeoutOf (wsgiHeaders env.vars) told' → told' = told := by
  have ha := wsgi_arrived h
  obtain ⟨k, bad, rest, hr, hbad⟩ := hr
  obtain ⟨ct, name, h1, h2, h3⟩ := hr.type
  obtain ⟨fs, h5, h6, hb⟩ := hr.body
  have h4 := hr.named
  have h7 := hr.nextOk
  obtain ⟨e, he, hrep⟩ := badFrame_raises hbad
  obtain ⟨h8, h9⟩ := requestType_speaks h2
  have hct := (getall_one (ha.one (pys! "content-type") _ (by decide +kernel) h1)).2 []
  obtain ⟨g1, g2⟩ := announced_ready ha hr.version hr.timeout hct h8
  have hp := h.path path hpath hr.url
  refine ⟨e, k, hrep, fun resComp hres => ⟨⟨?_, ⟨_, h.method, .inl hr.method⟩, by rw [hct]; exact h8, htr, g1, hkind⟩, ⟨name, by rw [hct]; exact h9, h3⟩,
    request_named hu ha h4, hres⟩, ?_, g2⟩
  · have := WsgiTarget.direct hp (by rw [rooted_plain hpath]; exact hep)
    rwa [rooted_plain hpath] at this
  · obtain ⟨more, r, hsp⟩ := spoilt_splits (fun f hf => (h5 f hf).1) h7 rest
    refine ⟨fs ++ bad :: more, r, ?_, (deliver_bad _ fs reqs h6 bad e he more).symm⟩
    rw [h.body, hb]
    exact hsp

theorem asgi_spoilt (hu : Dict.get? app.comps (pys! "identity") = some .identity) (hr : SpoiltRequest app codec address path p rq reqs told code text)
    (hpath : PlainPath path) {ms : MethodInfo} {handler : Handler Req Res} (hep : Dict.get? app.endpoints path = some ⟨ms, handler⟩)
    (hkind : p = .connect → handler.isUnary = false) {scope : Scope} {env : Env} (h : AsgiSees address rq scope env)
    (htr : p = .grpc → scope.trailers = true)
    (hroot : scope.rootPath = [] ∨ Dict.get? app.endpoints (scope.rootPath ++ path) = none) :
    ∃ e k headers, ReportedAs e code text ∧
      (∀ n, Forwarded n → fieldValues rq.headers n ≠ [] → headers.getall n = fieldValues rq.headers n) ∧
      (∀ told', timeoutOf headers told' → told' = told) ∧
      (∀ resComp, ResponseCompression app p headers resComp → AsgiStreamed app scope headers path ⟨ms, handler⟩ p codec k resComp) ∧
      (∀ s, AsgiMessages app env codec k s → s = ⟨reqs, some e⟩) ∧ AsgiMessages app env codec k ⟨reqs, some e⟩ := by
  obtain ⟨headers, hh, ha, hv⟩ := asgi_arrived h
  obtain ⟨k, bad, rest, hr, hbad⟩ := hr
  obtain ⟨ct, name, h1, h2, h3⟩ := hr.type
  obtain ⟨fs, h5, h6, hb⟩ := hr.body
  have h4 := hr.named
  have h7 := hr.nextOk
  obtain ⟨e, he, hrep⟩ := badFrame_raises hbad
  obtain ⟨h8, h9⟩ := requestType_speaks h2
  have hct := (getall_one (ha.one (pys! "content-type") _ (by decide +kernel) h1)).2 []
  obtain ⟨g1, g2⟩ := announced_ready ha hr.version hr.timeout hct h8
  have hp := h.path path hpath hr.url
  have hm : scope.method = pys! "POST" := by rw [h.method, hr.method]
  obtain ⟨more, r, hsp⟩ := spoilt_splits (fun f hf => (h5 f hf).1) h7 rest
  rw [← hb] at hsp
  have hdel := deliver_bad _ fs reqs h6 bad e he more
  refine ⟨e, k, headers, hrep, hv, g2, ?_, ?_, rq.body.flatten, none, _, _, body_arrives h.body, hsp, by rw [hdel], by rw [hdel]; rfl⟩
  · intro resComp hres
    exact ⟨⟨asgi_target hep hroot hp, hh, .inl hm, by rw [hct]; exact h8, htr, g1, hkind⟩,
      ⟨name, .inl ⟨by rw [hm]; decide, by rw [hct]; exact h9⟩, h3⟩, request_named hu ha h4, hres⟩
  · rintro ⟨sm, se⟩ ⟨bytes, e', fs', rest', h10, h11, h12, h13⟩
    obtain ⟨e1, e2⟩ := arrives_unique h.body h10
    subst e1
    subst e2
    obtain ⟨e3, _⟩ := splits_unique hsp h11
    subst e3
    rw [hdel] at h12 h13
    cases h12
    cases h13
    rfl

theorem refuses_spoilt {e x : Exc} (h : Refuses ⟨reqs, some e⟩ x) :
    (reqs.length ≤ 1 → x = e) ∧ (2 ≤ reqs.length → ∃ msg, x = .mk .unimplemented msg) := by
  cases h with
  | several h msg => exact ⟨fun h' => absurd h (by show ¬ 2 ≤ reqs.length; omega), fun _ => ⟨msg, rfl⟩⟩
  | none h he => cases he
  | failed h x he => cases he; exact ⟨fun _ => rfl, fun h' => absurd h (by show ¬ reqs.length ≤ 1; omega)⟩

theorem refuses_caught {e x : Exc} (hcan : e ≠ .cancelled) (h : Refuses ⟨reqs, some e⟩ x) : x ≠ .cancelled := by
  cases h with
  | several h msg => intro h; cases h
  | none h he => cases he
  | failed h x he => cases he; exact hcan

theorem isException_of {e : Exc} (h : e ≠ .cancelled) : e.isException = true := by
  cases e with
  | cancelled => exact absurd rfl h
  | _ => rfl

/-- **C102, WSGI**: the function is told the messages before the bad envelope, and then the failure; it is reported as it stands if the function does
not catch it. A function that takes one message is not called. -/
theorem C102_wsgi (app : App Req Res) (hu : Dict.get? app.comps (pys! "identity") = some .identity) (codec : ServerCodec Req Res)
    (address path : List Char) (ms : MethodInfo) (handler : Handler Req Res) (hpath : PlainPath path)
    (hep : Dict.get? app.endpoints path = some ⟨ms, handler⟩) (p : Proto) (hkind : p = .connect → handler.isUnary = false)
    (rq : HttpRequest) (reqs : List Req) (told : Option Int) (code : Code) (text : List Char)
    (hrq : SpoiltRequest app codec address path p rq reqs told code text)
    (env : Environ) (hs : WsgiSees address rq env) (htr : p = .grpc → env.sendTrailers = true) (sc : StatusCodec) :
    ∃ e ctx, ReportedAs e code text ∧ ToldOf rq ms told joined (wsgiScheme env.vars) (wsgiHeaders env.vars) (wsgiClient env.vars) ctx ∧
      ∀ resComp, ResponseCompression app p ctx.requestHeaders resComp →
      (∀ req h0 script, Starts ⟨reqs, some e⟩ ctx handler req h0 script →
        ∀ i out h' x, Runs (writerOf codec resComp).write none h0 script.acts script.outcome i out h' x → Caught x →
        ∀ eo, EndsWith (writerOf codec resComp) p sc h'.info.trailers x eo →
        ∃ (bs : List (List UInt8)) (logged : List Exc), out.map (writerOf codec resComp).write = bs.map .ok ∧
          app.wsgi sc env =
            { calls := [⟨path, ctx, req⟩], received := h'.got
              events := .start 200 (streamFields p codec resComp i) :: bs.map .chunk ++ wsgiEnding eo
              escaped := none, logged }) ∧
      (TakesOne handler → ∃ x, (reqs.length ≤ 1 → x = e) ∧ (2 ≤ reqs.length → ∃ msg, x = .mk .unimplemented msg) ∧
        ∀ eo, EndsWith (writerOf codec resComp) p sc Headers.empty (some x) eo →
        ∃ logged, app.wsgi sc env =
          { calls := [], received := [], events := .start 200 (streamFields p codec resComp .empty) :: wsgiEnding eo
            escaped := none, logged }) := by
  obtain ⟨e, k, hrep, h1, h2, h3⟩ := wsgi_spoilt hu hrq hpath hep hkind hs htr
  obtain ⟨hm, ctx, h4, h5, h6⟩ := C35_wsgi app sc env _ _ _ codec k _ (h1 _ rfl) hs.pieces _ h2
  rw [hs.method] at h4
  cases h4
  have ht := h5.timeout
  rw [h5.headers] at ht
  refine ⟨e, ctx, hrep, ⟨h5, h3 _ ht, ?_⟩, ?_⟩
  · intro n hn hv
    rw [h5.headers, wsgiHeaders_getall _ hs.distinct]
    exact values_one hs.distinct (headerOfVar_cgiVar hn.2) (hs.field n hn hv)
  · intro resComp hres
    unfold ResponseCompression at hres
    rw [h5.headers] at hres
    subst hres
    refine ⟨h6, ?_⟩
    intro hone
    obtain ⟨x, hx, hans⟩ := C33_wsgi_refused app sc env _ _ _ codec k _ (h1 _ rfl) hs.pieces _ h2 hone (by rintro ⟨m, hm⟩; cases hm)
    exact ⟨x, (refuses_spoilt hx).1, (refuses_spoilt hx).2, hans (isException_of (refuses_caught hrep.1 hx))⟩

/-- **C102, ASGI**, while the client stays connected and the task is not cancelled. -/
theorem C102_asgi (app : App Req Res) (hu : Dict.get? app.comps (pys! "identity") = some .identity) (ho : Spec.Ordinary app)
    (codec : ServerCodec Req Res) (address path : List Char) (ms : MethodInfo) (handler : Handler Req Res) (hpath : PlainPath path)
    (hep : Dict.get? app.endpoints path = some ⟨ms, handler⟩) (p : Proto) (hkind : p = .connect → handler.isUnary = false)
    (rq : HttpRequest) (reqs : List Req) (told : Option Int) (code : Code) (text : List Char)
    (hrq : SpoiltRequest app codec address path p rq reqs told code text)
    (scope : Scope) (env : Env) (hs : AsgiSees address rq scope env) (htr : p = .grpc → scope.trailers = true) (hrel : Reliable env)
    (hcan : env.cancelAfter = none) (hdis : env.disconnectAt = none)
    (hroot : scope.rootPath = [] ∨ Dict.get? app.endpoints (scope.rootPath ++ path) = none) (sc : StatusCodec) :
    ∃ e ctx headers, ReportedAs e code text ∧
      ToldOf rq ms told id (asgiScheme scope) headers (scope.client.map fun ca => ca.1 ++ [':'] ++ ca.2) ctx ∧
      asgiHeaders scope.headers Headers.empty = .ok headers ∧
      ∀ resComp, ResponseCompression app p ctx.requestHeaders resComp →
      (∀ req h0 script, Starts ⟨reqs, some e⟩ ctx handler req h0 script →
        ∀ i out h' x, Runs (writerOf codec resComp).write script.closeErr h0 script.acts script.outcome i out h' x → Caught x →
        ∀ eo, EndsWith (writerOf codec resComp) p sc h'.info.trailers x eo →
        ∃ bs : List (List UInt8), out.map (writerOf codec resComp).write = bs.map .ok ∧
          app.asgi sc scope env =
            { calls := [⟨path, ctx, req⟩], received := h'.got
              sends := (.start 200 (streamFields p codec resComp i) (decide (p = .grpc)) :: bs.map (Sent.body · true) ++ asgiEnding eo).map (·, none)
              escaped := reraised x }) ∧
      (TakesOne handler → ∃ x, (reqs.length ≤ 1 → x = e) ∧ (2 ≤ reqs.length → ∃ msg, x = .mk .unimplemented msg) ∧
        ∀ eo, EndsWith (writerOf codec resComp) p sc Headers.empty (some x) eo →
        app.asgi sc scope env =
          { calls := [], received := []
            sends := (.start 200 (streamFields p codec resComp .empty) (decide (p = .grpc)) :: asgiEnding eo).map (·, none)
            escaped := reraised (some x) }) := by
  obtain ⟨e, k, headers, hrep, hv, h3, h1, h2, h2'⟩ := asgi_spoilt hu hrq hpath hep hkind hs htr hroot
  obtain ⟨ctx, s, h5, h4, h6⟩ := C35_asgi_partial app sc scope env headers _ _ _ codec k _ (h1 _ rfl) hrel
  have := h2 s (h4 hcan ho)
  subst this
  have ht := h5.timeout
  rw [h5.headers] at ht
  rw [hs.method] at h5
  refine ⟨e, ctx, headers, hrep, ⟨h5, h3 _ ht, ?_⟩, (h1 _ rfl).streams.decoded, ?_⟩
  · intro n hn hne
    rw [h5.headers]
    exact hv n hn hne
  · intro resComp hres
    unfold ResponseCompression at hres
    rw [h5.headers] at hres
    subst hres
    refine ⟨?_, ?_⟩
    · intro req h0 script hst i out h' x hrun hc eo heo
      exact h6 req h0 script hst i out h' x hrun (fun _ k hk => by rw [hdis] at hk; cases hk)
        (by rintro rfl; exact absurd (hc _ rfl) (by decide)) eo heo
    · intro hone
      obtain ⟨x, hx, hans⟩ := C33_asgi_refused app ho sc scope env hcan hrel headers _ _ _ codec k _ (h1 _ rfl) _ h2' hone (by rintro ⟨m, hm⟩; cases hm)
      exact ⟨x, (refuses_spoilt hx).1, (refuses_spoilt hx).2, hans (refuses_caught hrep.1 hx)⟩

/-! ### functions that read everything first -/

theorem runs_reads {write : Res → Except Exc Bytes} {close : Option Exc} {e : Exc} (ms : List Req) (got : List Req) (m : Meta) (more : List (Act Res))
    (o : Option Exc) :
    Runs write close ⟨ms, some e, m, got⟩ (List.replicate (ms.length + 1) (.step (.recv false)) ++ more) o m [] ⟨[], none, m, got ++ ms⟩ (some e) := by
  induction ms generalizing got with
  | nil =>
    rw [List.append_nil]
    exact .raised (.failed e m got)
  | cons a ms ih =>
    have := ih (got ++ [a])
    rw [List.append_assoc, List.singleton_append] at this
    rw [List.length_cons, List.replicate_succ, List.cons_append]
    exact .step (.message a ms (some e) m got false) this

/-- **C102, WSGI, functions that read on**: a function that reads its messages before it does anything else, and does not catch the failure, gets exactly the messages before
the bad envelope, and the response reports the failure. -/
theorem C102_wsgi_reads (app : App Req Res) (hu : Dict.get? app.comps (pys! "identity") = some .identity) (codec : ServerCodec Req Res)
    (address path : List Char) (ms : MethodInfo) (f : ReqStream Req → RequestContext → Script Res) (hf : ∀ s ctx, ReadsFirst (f s ctx).acts s)
    (hpath : PlainPath path) (hep : Dict.get? app.endpoints path = some ⟨ms, .bidi f⟩) (p : Proto)
    (rq : HttpRequest) (reqs : List Req) (told : Option Int) (code : Code) (text : List Char)
    (hrq : SpoiltRequest app codec address path p rq reqs told code text)
    (env : Environ) (hs : WsgiSees address rq env) (htr : p = .grpc → env.sendTrailers = true) (sc : StatusCodec) :
    ∃ e, ReportedAs e code text ∧ ∀ resComp, ResponseCompression app p (wsgiHeaders env.vars) resComp →
      ∀ eo, EndsWith (writerOf codec resComp) p sc Headers.empty (some e) eo →
        (app.wsgi sc env).calls.length = 1 ∧ (app.wsgi sc env).received = reqs ∧
        (app.wsgi sc env).events = .start 200 (streamFields p codec resComp .empty) :: wsgiEnding eo := by
  obtain ⟨e, ctx, h1, h2, h3⟩ := C102_wsgi app hu codec address path ms (.bidi f) hpath hep p (fun _ => rfl) rq reqs told code text hrq env hs htr sc
  refine ⟨e, h1, ?_⟩
  intro resComp hres eo heo
  obtain ⟨more, hacts⟩ := hf ⟨reqs, some e⟩ ctx
  have hrun := runs_reads (write := (writerOf codec resComp).write) (close := none) (e := e) reqs [] .empty more (f ⟨reqs, some e⟩ ctx).outcome
  rw [← hacts] at hrun
  obtain ⟨bs, logged, hbs, hans⟩ := (h3 resComp (by unfold ResponseCompression; rw [h2.context.headers]; exact hres)).1 _ _ _ (.bidi f) _ _ _ _ hrun
    (by intro x h; cases h; exact isException_of h1.1) eo heo
  cases bs with
  | cons b bs => cases hbs
  | nil =>
    rw [hans]
    exact ⟨rfl, rfl, rfl⟩

/-- **C102, ASGI, functions that read on**. -/
theorem C102_asgi_reads (app : App Req Res) (hu : Dict.get? app.comps (pys! "identity") = some .identity) (ho : Spec.Ordinary app)
    (codec : ServerCodec Req Res) (address path : List Char) (ms : MethodInfo) (f : ReqStream Req → RequestContext → Script Res)
    (hf : ∀ s ctx, ReadsFirst (f s ctx).acts s) (hpath : PlainPath path) (hep : Dict.get? app.endpoints path = some ⟨ms, .bidi f⟩) (p : Proto)
    (rq : HttpRequest) (reqs : List Req) (told : Option Int) (code : Code) (text : List Char)
    (hrq : SpoiltRequest app codec address path p rq reqs told code text)
    (scope : Scope) (env : Env) (hs : AsgiSees address rq scope env) (htr : p = .grpc → scope.trailers = true) (hrel : Reliable env)
    (hcan : env.cancelAfter = none) (hdis : env.disconnectAt = none)
    (hroot : scope.rootPath = [] ∨ Dict.get? app.endpoints (scope.rootPath ++ path) = none) (sc : StatusCodec) :
    ∃ e headers, ReportedAs e code text ∧ asgiHeaders scope.headers Headers.empty = .ok headers ∧
      ∀ resComp, ResponseCompression app p headers resComp →
      ∀ eo, EndsWith (writerOf codec resComp) p sc Headers.empty (some e) eo →
        (app.asgi sc scope env).calls.length = 1 ∧ (app.asgi sc scope env).received = reqs ∧
        delivered (app.asgi sc scope env).sends = .start 200 (streamFields p codec resComp .empty) (decide (p = .grpc)) :: asgiEnding eo := by
  obtain ⟨e, ctx, headers, h1, h2, hh, h3⟩ := C102_asgi app hu ho codec address path ms (.bidi f) hpath hep p (fun _ => rfl) rq reqs told code text hrq scope env
    hs htr hrel hcan hdis hroot sc
  refine ⟨e, headers, h1, hh, ?_⟩
  intro resComp hres eo heo
  obtain ⟨more, hacts⟩ := hf ⟨reqs, some e⟩ ctx
  have hrun := runs_reads (write := (writerOf codec resComp).write) (close := (f ⟨reqs, some e⟩ ctx).closeErr) (e := e) reqs [] .empty more
    (f ⟨reqs, some e⟩ ctx).outcome
  rw [← hacts] at hrun
  obtain ⟨bs, hbs, hans⟩ := (h3 resComp (by unfold ResponseCompression; rw [h2.context.headers]; exact hres)).1 _ _ _ (.bidi f) _ _ _ _ hrun
    (by intro x h; cases h; exact isException_of h1.1) eo heo
  cases bs with
  | cons b bs => cases hbs
  | nil =>
    rw [hans]
    refine ⟨rfl, rfl, ?_⟩
    rw [delivered_all (by
      intro s hs
      obtain ⟨a, _, rfl⟩ := List.mem_map.1 hs
      rfl), List.map_map]
    exact List.map_id _

/-! ### the hypotheses are met -/

/-- a function that reads its messages; a request with a compressed message, then eleven bytes where ten are the limit, then half an envelope -/
def readAll (s : ReqStream Bytes) (_ : RequestContext) : Script Bytes := ⟨List.replicate (s.messages.length + 1) (.step (.recv false)) ++ [.emit [1]], none, none⟩
def longRequest (p : Proto) : HttpRequest :=
  { chatRequest p with body := [[1, 0, 0], [0, 2, 5, 4, 0, 0, 0, 0, 11, 1, 2, 3], [4, 5, 6, 7, 8, 9, 10, 11, 0, 0, 0]] }

theorem long_request (p : Proto) (handler : Handler Bytes Bytes) :
    SpoiltRequest (chatAppOf handler) chatCodec (pys! "http://h") (pys! "/a.S/Echo") p (longRequest p) [[4, 5]] (some 2000) .resourceExhausted (intStr 10) := by
  refine ⟨revGzip, ⟨0, [1, 2, 3, 4, 5, 6, 7, 8, 9, 10, 11]⟩, [0, 0, 0], ⟨rfl, rfl, (chat_request p).version, (chat_request p).timeout, (chat_request p).type,
    .inr ⟨pys! "gzip", by cases p <;> decide +kernel, by decide, rfl⟩, ⟨[⟨1, [5, 4]⟩], ?_, rfl, rfl⟩, (by show 11 < 2 ^ 32; decide)⟩,
    .large (contents := [1, 2, 3, 4, 5, 6, 7, 8, 9, 10, 11]) (n := 10) (.inl ⟨rfl, rfl⟩) rfl (by decide)⟩
  intro f hf
  rw [List.mem_singleton.1 hf]
  exact ⟨(by show 2 < 2 ^ 32; decide), .inr rfl⟩

/-- it arrives at both servers; the end of the response can be written -/
example (p : Proto) :
    (∃ env, WsgiSees (pys! "http://h") (longRequest p) env ∧ env.sendTrailers = true) ∧
    (∃ scope env, AsgiSees (pys! "http://h") (longRequest p) scope env ∧ scope.trailers = true ∧ Reliable env ∧ env.cancelAfter = none ∧
      env.disconnectAt = none ∧ scope.rootPath = []) ∧
    (∀ s ctx, ReadsFirst (readAll s ctx).acts s) ∧
    ∃ eo, EndsWith (writerOf chatCodec revGzip) p protobufStatus Headers.empty (some (tooLarge 10)) eo := by
  have hq : HasTarget (pys! "http://h") (longRequest p) (pys! "/a.S/Echo") [] := ⟨⟨⟨_, rfl⟩, by decide +kernel⟩, .inl ⟨rfl, rfl⟩⟩
  refine ⟨⟨⟨(environOf (pys! "POST") (pys! "/a.S/Echo") [] (longRequest p).headers (longRequest p).body).vars,
    (environOf (pys! "POST") (pys! "/a.S/Echo") [] (longRequest p).headers (longRequest p).body).input, true⟩, ?_, rfl⟩,
    ⟨⟨pys! "/a.S/Echo", [], pys! "POST", none, (longRequest p).headers.map fun p => (utf8Encode p.1, utf8Encode p.2), none, [], true⟩,
      demoEnv [.request (longRequest p).body.flatten false], ?_, rfl, fun _ => rfl, rfl, rfl, rfl⟩, fun s _ => ⟨_, rfl⟩, ?_⟩
  · have h := wsgiSees_environOf hq
    exact ⟨h.method, h.path, h.query, h.distinct, h.field, h.unset, h.pieces, h.body, h.length⟩
  · have h := asgiSees_of hq [] (demoEnv [.request (longRequest p).body.flatten false]) (.last _ _)
    exact ⟨h.method, h.path, h.query, h.fields, h.body⟩
  · have hok : ∀ {r : Except Exc EndOut}, (match r with | .ok _ => true | .error _ => false) = true → ∃ out, r = .ok out := by
      intro r h
      cases r with
      | ok out => exact ⟨out, rfl⟩
      | error e => cases h
    cases p <;> exact hok (by decide +kernel)

end Props
