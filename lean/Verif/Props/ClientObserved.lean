import Verif.Proofs.ClientObserved
import Verif.Props.Client
/-
C103: what tracing reports of a call is what the caller got.
-/
namespace Props
open Conn Py Spec

section
variable {C Req Res : Type}

/-- a traced call with one response -/
theorem observed_call (c : Client Req Res) (ha : TraceableClient c.address) (sc : StatusCodec) (http : HttpClient) (sink : Sink) (cs : Circumstances) (o : OtelInterceptor C)
    (ho : o.client = true) (current : Option C) (method : MethodInfo) (hm : Str) (user : UserHeaders) (t : Option Int) (stream : Bool) :
    (∀ req, let ctx := c.context method hm user t stream
      let r := c.sendRequest sc http sink cs .unary req (withSpan o current ctx)
      let v : Ran (ClientEvent C) Res := c.observedFn sc http sink cs none o current .unary req ctx
      v.result = r.2.2 ∧ untracedIn v.effects = visible r.1 r.2.1 ∧ Reports (tracedIn v.effects) ((reported (errOf r.2.2)).map statusOf)) ∧
    (∀ a, let ctx := c.context method hm user t stream
      let r := c.sendRequest sc http sink cs .clientStream a (withSpan o current ctx)
      let v : Ran (ClientEvent C) Res := c.observedFn sc http sink cs none o current .clientStream a ctx
      v.result = r.2.2 ∧ untracedIn v.effects = visible r.1 r.2.1 ∧ Reports (tracedIn v.effects) ((reported (errOf r.2.2)).map statusOf)) := by
  obtain ⟨h1, h2⟩ := client_traceable ha method hm user t stream
  constructor
  · intro req ctx r v
    obtain ⟨before, after, ht, e1, e2, _⟩ := C57_call_partial (S := List Req × Option Exc) o (ClientEvent.traced : Telemetered C → ClientEvent C) current
      (c.callFn sc http sink cs none .unary) req ctx h1 h2
    have hv : v = ⟨before ++ ((c.callFn (C := C) sc http sink cs none .unary : Req → RequestContext → Ran (ClientEvent C) Res) req (seenContext o current ctx)).effects ++ after,
        ((c.callFn (C := C) sc http sink cs none .unary : Req → RequestContext → Ran (ClientEvent C) Res) req (seenContext o current ctx)).result⟩ := by
      show c.observedFn sc http sink cs none o current .unary req ctx = _
      unfold Client.observedFn
      cases c.flavor with
      | sync => exact e1
      | async => exact e2
    rw [seen_client ho] at hv ht
    have hq : tracedIn ((c.callFn (C := C) sc http sink cs none .unary : Req → RequestContext → Ran (ClientEvent C) Res) req (withSpan o current ctx)).effects = [] := by
      show tracedIn (sentEvents r.1 ++ [.metadata r.2.1]) = []
      rw [tracedIn_append, (sentEvents_quiet _).1]
      rfl
    obtain ⟨hr, hu⟩ := traced_call ht _ hq
    rw [hv]
    refine ⟨rfl, hu.trans ?_, hr⟩
    show untracedIn (sentEvents r.1 ++ [.metadata r.2.1]) = _
    rw [untracedIn_append, (sentEvents_quiet _).2]
    rfl
  · intro a ctx r v
    obtain ⟨before, after, ht, _, _, e1, e2⟩ := C57_call_partial (S := Req) o (ClientEvent.traced : Telemetered C → ClientEvent C) current
      (c.callFn sc http sink cs none .clientStream) a ctx h1 h2
    have hv : v = ⟨before ++ ((c.callFn (C := C) sc http sink cs none .clientStream : _ → RequestContext → Ran (ClientEvent C) Res) a (seenContext o current ctx)).effects ++ after,
        ((c.callFn (C := C) sc http sink cs none .clientStream : _ → RequestContext → Ran (ClientEvent C) Res) a (seenContext o current ctx)).result⟩ := by
      show c.observedFn sc http sink cs none o current .clientStream a ctx = _
      unfold Client.observedFn
      cases c.flavor with
      | sync => exact e1
      | async => exact e2
    rw [seen_client ho] at hv ht
    have hq : tracedIn ((c.callFn (C := C) sc http sink cs none .clientStream : _ → RequestContext → Ran (ClientEvent C) Res) a (withSpan o current ctx)).effects = [] := by
      show tracedIn (sentEvents r.1 ++ [.metadata r.2.1]) = []
      rw [tracedIn_append, (sentEvents_quiet _).1]
      rfl
    obtain ⟨hr, hu⟩ := traced_call ht _ hq
    rw [hv]
    refine ⟨rfl, hu.trans ?_, hr⟩
    show untracedIn (sentEvents r.1 ++ [.metadata r.2.1]) = _
    rw [untracedIn_append, (sentEvents_quiet _).2]
    rfl

/-- **C103, calls with one message**: one span and one duration are reported, with the status the caller learns; the call sends, leaves and comes to what it does without tracing with the
current span in its headers. Missing: calls of the synchronous client that an exception which is not an `Exception` interrupts (`C103_violation_interrupted`). -/
theorem C103_unary_partial (c : Client Req Res) (ha : TraceableClient c.address) (sc : StatusCodec) (http : HttpClient) (sink : Sink) (cs : Circumstances) (o : OtelInterceptor C)
    (ho : o.client = true) (current : Option C) (req : Req) (method : MethodInfo) (user : UserHeaders) (t : Option Int) (useGet : Bool) :
    let ctx := c.context method (if useGet then pys! "GET" else pys! "POST") user t false
    let v := c.observedUnary sc http sink cs o current req method user t useGet
    let r := c.sendRequest sc http sink cs .unary req (withSpan o current ctx)
    v.result = r.2.2 ∧ untracedIn v.effects = visible r.1 r.2.1 ∧
    ((∀ e, v.result = .error e → e.isException = true) → ∃ status, CallStatus (errOf v.result) status ∧ Reports (tracedIn v.effects) status) := by
  intro ctx v r
  obtain ⟨h1, h2, h3⟩ := (observed_call c ha sc http sink cs o ho current method (if useGet then pys! "GET" else pys! "POST") user t false).1 req
  refine ⟨h1, h2, fun he => ⟨_, ?_, h3⟩⟩
  rw [← show v.result = r.2.2 from h1]
  exact callStatus_of fun x hx => he x (by
    cases hv : v.result with
    | ok y => rw [hv] at hx; cases hx
    | error y => rw [hv] at hx; cases hx; rfl)

/-- **C103, calls with a stream of requests and one response**. Missing: as above. -/
theorem C103_client_stream_partial (c : Client Req Res) (ha : TraceableClient c.address) (sc : StatusCodec) (http : HttpClient) (sink : Sink) (cs : Circumstances) (o : OtelInterceptor C)
    (ho : o.client = true) (current : Option C) (reqs : List Req) (srcErr : Option Exc) (method : MethodInfo) (user : UserHeaders) (t : Option Int) :
    let ctx := c.context method (pys! "POST") user t true
    let v := c.observedClientStream sc http sink cs o current reqs srcErr method user t
    let r := c.sendRequest sc http sink cs .clientStream (reqs, srcErr) (withSpan o current ctx)
    v.result = r.2.2 ∧ untracedIn v.effects = visible r.1 r.2.1 ∧
    ((∀ e, v.result = .error e → e.isException = true) → ∃ status, CallStatus (errOf v.result) status ∧ Reports (tracedIn v.effects) status) := by
  intro ctx v r
  obtain ⟨h1, h2, h3⟩ := (observed_call c ha sc http sink cs o ho current method (pys! "POST") user t true).2 (reqs, srcErr)
  refine ⟨h1, h2, fun he => ⟨_, ?_, h3⟩⟩
  rw [← show v.result = r.2.2 from h1]
  exact callStatus_of fun x hx => he x (by
    cases hv : v.result with
    | ok y => rw [hv] at hx; cases hx
    | error y => rw [hv] at hx; cases hx; rfl)

/-- a traced stream of responses, asked for `n + 1` messages and then closed -/
theorem observed_stream {A S : Type} (o : OtelInterceptor C) (ho : o.client = true) (current : Option C) (f : A → RequestContext → Gen (ClientEvent C) Res) (a : A) (ctx : RequestContext)
    (h1 : Traceable ctx.serverAddress) (h2 : Traceable ctx.clientAddress) (ns : List Note) (sink : Sink) (exc left : Option Exc) (ms : List Res)
    (hf : f a (withSpan o current ctx) = (streamGen [.metadata sink] exc left ms).pre (sentEvents ns)) (flavor : Flavor) (n : Nat) (g : Gen (ClientEvent C) Res)
    (hg : match flavor with
      | .sync => g = o.aroundSync (S := S) .traced current .serverStream f a ctx ∨ g = o.aroundSync (A := S) .traced current .bidi f a ctx
      | .async => g = o.aroundAsync (S := S) .traced current .serverStream f a ctx ∨ g = o.aroundAsync (A := S) .traced current .bidi f a ctx) :
    let v := g.use (n + 1)
    (ms.length < n + 1 → v.messages = ms ∧ v.exc = exc ∧ untracedIn (v.effects ++ v.later) = visible ns sink ∧
      Reports (tracedIn (v.effects ++ v.later)) ((reported exc).map statusOf)) ∧
    (n + 1 ≤ ms.length → v.messages = ms.take (n + 1) ∧ v.exc = (if flavor = .sync then left else none) ∧ untracedIn (v.effects ++ v.later) = sentEvents ns ∧
      Reports (tracedIn (v.effects ++ v.later)) ((reported v.exc).map statusOf)) := by
  intro v
  have hu1 : ms.length < n + 1 → (f a (seenContext o current ctx)).use (n + 1) = ⟨sentEvents ns ++ [.metadata sink], ms, exc, []⟩ := by
    intro h
    rw [seen_client ho, hf, Proofs.Otel.otel_pre_use, (streamGen_use _ exc left ms n).1 h]
  have hu2 : n + 1 ≤ ms.length → (f a (seenContext o current ctx)).use (n + 1) = ⟨sentEvents ns ++ [], ms.take (n + 1), left, []⟩ := by
    intro h
    rw [seen_client ho, hf, Proofs.Otel.otel_pre_use, (streamGen_use _ exc left ms n).2 h]
  have hq : tracedIn (sentEvents ns ++ [ClientEvent.metadata (C := C) sink]) = [] := by
    rw [tracedIn_append, (sentEvents_quiet _).1]
    rfl
  have hq' : untracedIn (sentEvents ns ++ [ClientEvent.metadata (C := C) sink]) = visible ns sink := by
    rw [untracedIn_append, (sentEvents_quiet _).2]
    rfl
  cases flavor with
  | sync =>
    have key : ∃ before after, Traced o .traced (parentOf o current ctx) ctx (reported ((f a (seenContext o current ctx)).use (n + 1)).exc) before after ∧
        v = ⟨before ++ ((f a (seenContext o current ctx)).use (n + 1)).effects ++ after, ((f a (seenContext o current ctx)).use (n + 1)).messages,
          ((f a (seenContext o current ctx)).use (n + 1)).exc, ((f a (seenContext o current ctx)).use (n + 1)).later⟩ := by
      obtain ⟨before, after, ht, e1, e2⟩ := C57_stream_sync_partial (S := S) o ClientEvent.traced current f a ctx h1 h2 n
      refine ⟨before, after, ht, ?_⟩
      rcases hg with hg | hg
      · show g.use (n + 1) = _
        rw [hg]; exact e1
      · show g.use (n + 1) = _
        rw [hg]; exact e2
    obtain ⟨before, after, ht, hv⟩ := key
    constructor
    · intro hl
      rw [hu1 hl] at hv ht
      obtain ⟨hr, hu⟩ := traced_call ht _ hq
      rw [hv]
      dsimp only
      rw [List.append_nil]
      exact ⟨rfl, rfl, hu.trans hq', hr⟩
    · intro hl
      rw [hu2 hl] at hv ht
      obtain ⟨hr, hu⟩ := traced_call ht (sentEvents ns ++ []) (by rw [List.append_nil]; exact (sentEvents_quiet _).1)
      rw [hv]
      dsimp only
      rw [List.append_nil (before ++ _ ++ after)]
      exact ⟨rfl, rfl, hu.trans (by rw [List.append_nil]; exact (sentEvents_quiet _).2), hr⟩
  | async =>
    obtain ⟨hm, hshort, hlong⟩ := C57_stream_async_partial (S := S) o ClientEvent.traced current f a ctx h1 h2 n g hg
    constructor
    · intro hl
      rw [hu1 hl] at hm hshort
      obtain ⟨he, hla, before, after, ht, hv⟩ := hshort hl
      obtain ⟨hr, hu⟩ := traced_call ht _ hq
      refine ⟨hm, he, ?_, ?_⟩
      · show untracedIn ((g.use (n + 1)).effects ++ (g.use (n + 1)).later) = _
        rw [hla, hv, List.append_nil]
        exact hu.trans hq'
      · show Reports (tracedIn ((g.use (n + 1)).effects ++ (g.use (n + 1)).later)) _
        rw [hla, hv, List.append_nil]
        exact hr
    · intro hl
      rw [hu2 hl] at hm hlong
      obtain ⟨he, before, mid, after, ht, hv, hmid⟩ := hlong (by rw [List.length_take]; exact Nat.min_eq_left hl)
      dsimp only at hmid
      rw [List.append_nil, List.append_nil] at hmid
      have hqm := (sentEvents_quiet (C := C) ns).1
      rw [← hmid, tracedIn_append] at hqm
      have hum := (sentEvents_quiet (C := C) ns).2
      rw [← hmid, untracedIn_append] at hum
      obtain ⟨q1, q2⟩ := List.append_eq_nil_iff.1 hqm
      obtain ⟨hr, hu⟩ := traced_call ht mid q1
      refine ⟨hm, he, ?_, ?_⟩
      · show untracedIn ((g.use (n + 1)).effects ++ (g.use (n + 1)).later) = _
        rw [hv, untracedIn_append, hu, hum, hmid]
      · show Reports (tracedIn ((g.use (n + 1)).effects ++ (g.use (n + 1)).later)) ((reported (g.use (n + 1)).exc).map statusOf)
        rw [he, hv, tracedIn_append, q2, List.append_nil]
        exact hr

/-- **C103, streams of responses**: read to its end, a stream is reported with the status the caller learns at the end; given up before, it is reported as what closing it comes to: an error, if
the synchronous client raises one then, and else a success. The messages, the request and the metadata are those of the call without tracing. Missing: as above. -/
theorem C103_server_stream_partial (c : Client Req Res) (ha : TraceableClient c.address) (sc : StatusCodec) (http : HttpClient) (sink : Sink) (cs : Circumstances) (left : Option Exc)
    (o : OtelInterceptor C) (ho : o.client = true) (current : Option C) (req : Req) (method : MethodInfo) (user : UserHeaders) (t : Option Int) (n : Nat) :
    let ctx := c.context method (pys! "POST") user t true
    let v := (c.observedServerStream sc http sink cs left o current req method user t).use (n + 1)
    let r := c.sendRequest sc http sink cs .serverStream req (withSpan o current ctx)
    (r.2.messages.length < n + 1 → v.messages = r.2.messages ∧ v.exc = r.2.exc ∧ untracedIn (v.effects ++ v.later) = visible r.1 r.2.sink) ∧
    (n + 1 ≤ r.2.messages.length → v.messages = r.2.messages.take (n + 1) ∧ v.exc = (if c.flavor = .sync then left else none) ∧
      untracedIn (v.effects ++ v.later) = sentEvents r.1) ∧
    ((∀ e, v.exc = some e → e.isException = true) → ∃ status, CallStatus v.exc status ∧ Reports (tracedIn (v.effects ++ v.later)) status) := by
  intro ctx v r
  obtain ⟨h1, h2⟩ := client_traceable ha method (pys! "POST") user t true
  obtain ⟨a1, a2⟩ := observed_stream (S := List Req × Option Exc) o ho current (c.callFn (C := C) sc http sink cs left .serverStream) req ctx h1 h2 r.1 r.2.sink r.2.exc left r.2.messages rfl c.flavor n
    (c.observedServerStream sc http sink cs left o current req method user t) (by
      unfold Client.observedServerStream Client.observedFn
      cases c.flavor with
      | sync => exact .inl rfl
      | async => exact .inl rfl)
  refine ⟨fun h => ⟨(a1 h).1, (a1 h).2.1, (a1 h).2.2.1⟩, fun h => ⟨(a2 h).1, (a2 h).2.1, (a2 h).2.2.1⟩, fun he => ⟨_, callStatus_of he, ?_⟩⟩
  rcases Nat.lt_or_ge r.2.messages.length (n + 1) with h | h
  · rw [show v.exc = r.2.exc from (a1 h).2.1]
    exact (a1 h).2.2.2
  · exact (a2 h).2.2.2

/-- **C103, streams in both directions**. -/
theorem C103_bidi_stream_partial (c : Client Req Res) (ha : TraceableClient c.address) (sc : StatusCodec) (http : HttpClient) (sink : Sink) (cs : Circumstances) (left : Option Exc)
    (o : OtelInterceptor C) (ho : o.client = true) (current : Option C) (reqs : List Req) (srcErr : Option Exc) (method : MethodInfo) (user : UserHeaders) (t : Option Int) (n : Nat) :
    let ctx := c.context method (pys! "POST") user t true
    let v := (c.observedBidiStream sc http sink cs left o current reqs srcErr method user t).use (n + 1)
    let r := c.sendRequest sc http sink cs .bidi (reqs, srcErr) (withSpan o current ctx)
    (r.2.messages.length < n + 1 → v.messages = r.2.messages ∧ v.exc = r.2.exc ∧ untracedIn (v.effects ++ v.later) = visible r.1 r.2.sink) ∧
    (n + 1 ≤ r.2.messages.length → v.messages = r.2.messages.take (n + 1) ∧ v.exc = (if c.flavor = .sync then left else none) ∧
      untracedIn (v.effects ++ v.later) = sentEvents r.1) ∧
    ((∀ e, v.exc = some e → e.isException = true) → ∃ status, CallStatus v.exc status ∧ Reports (tracedIn (v.effects ++ v.later)) status) := by
  intro ctx v r
  obtain ⟨h1, h2⟩ := client_traceable ha method (pys! "POST") user t true
  obtain ⟨a1, a2⟩ := observed_stream (S := Req) o ho current (c.callFn (C := C) sc http sink cs left .bidi) (reqs, srcErr) ctx h1 h2 r.1 r.2.sink r.2.exc left r.2.messages rfl c.flavor n
    (c.observedBidiStream sc http sink cs left o current reqs srcErr method user t) (by
      unfold Client.observedBidiStream Client.observedFn
      cases c.flavor with
      | sync => exact .inr rfl
      | async => exact .inr rfl)
  refine ⟨fun h => ⟨(a1 h).1, (a1 h).2.1, (a1 h).2.2.1⟩, fun h => ⟨(a2 h).1, (a2 h).2.1, (a2 h).2.2.1⟩, fun he => ⟨_, callStatus_of he, ?_⟩⟩
  rcases Nat.lt_or_ge r.2.messages.length (n + 1) with h | h
  · rw [show v.exc = r.2.exc from (a1 h).2.1]
    exact (a1 h).2.2.2
  · exact (a2 h).2.2.2

/-- **C103**: the errors of calls are `ConnectError`s, so that the status reported is the code of one, if the parts of the client fail as they do (see C44, C45). -/
theorem C103_errors (c : Client Req Res) (sc : StatusCodec) (hp : PlainParts c sc) (http : HttpClient) (hord : c.flavor = .sync → Props.Ordinary c http) (hh : FairHttp c sc http.stream)
    (sink : Sink) (cs : Circumstances) (ctx : RequestContext) :
    (∀ req e, (c.sendRequest sc http sink cs .unary req ctx).2.2 = .error e → ∃ x : ConnectErr, e = .connect x) ∧
    (∀ a e, (c.sendRequest sc http sink cs .clientStream a ctx).2.2 = .error e → ∃ x : ConnectErr, e = .connect x) ∧
    (∀ req e, (c.sendRequest sc http sink cs .serverStream req ctx).2.exc = some e → ∃ x : ConnectErr, e = .connect x) ∧
    (∀ a e, (c.sendRequest sc http sink cs .bidi a ctx).2.exc = some e → ∃ x : ConnectErr, e = .connect x) := by
  refine ⟨fun req e h => ?_, fun a e h => consumeSingle_connectError (fun e h => bidi_connectError c sc hp _ hh _ _ _ _ _ e h) e h,
    fun req e h => bidi_connectError c sc hp _ hh _ _ _ _ _ e h, fun a e h => bidi_connectError c sc hp _ hh _ _ _ _ _ e h⟩
  change (c.sendUnary sc http sink cs ctx req).2 = .error e at h
  unfold Client.sendUnary at h
  have stream : ∀ e, consumeSingle (c.bidi sc http.stream sink cs ctx [req] none) = .error e → IsConnectError e :=
    fun e h => consumeSingle_connectError (fun e h => bidi_connectError c sc hp _ hh _ _ _ _ _ e h) e h
  cases hc : c.proto with
  | grpc => rw [hc] at h; exact stream e h
  | grpcWeb => rw [hc] at h; exact stream e h
  | connect =>
    rw [hc] at h
    dsimp only at h
    rcases connectUnary_cases c http.full sink ctx req with ⟨e, h1, h2⟩ | ⟨data, h1, ⟨e, h2, h3⟩ | ⟨resp, h2, h3⟩⟩
    · rw [h2] at h
      cases h
      exact mapUnaryExc_connect _ _ fun hf => (hord hf).encode _ _ h1
    · rw [h3] at h
      cases h
      exact mapUnaryExc_connect _ _ fun hf => (hord hf).full _ _ h2
    · rw [h3] at h
      dsimp only at h
      cases hr : (c.unaryResponse sink resp).2 with
      | ok msg => rw [hr] at h; cases h
      | error e =>
        rw [hr] at h
        cases h
        exact mapUnaryExc_connect _ _ fun hf => unaryResponse_error c (hord hf).decode sink resp e hr

/-- **C103, the call is not changed**: without a current span (and with a propagator that then adds nothing), a traced call sends one request (none if the message cannot be encoded), and leaves and
comes to what the same call of a client without tracing does. -/
theorem C103_untouched (c : Client Req Res) (ha : TraceableClient c.address) (sc : StatusCodec) (http : HttpClient) (sink : Sink) (cs : Circumstances) (o : OtelInterceptor C)
    (ho : o.client = true) (ht : Propagates o.telemetry) (req : Req) (method : MethodInfo) (user : UserHeaders) (t : Option Int) (useGet : Bool) :
    let v := c.observedUnary sc http sink cs o none req method user t useGet
    v.result = (c.executeUnary sc http sink cs req method user t useGet).2 ∧
    untracedIn v.effects = (c.unaryHttp (c.context method (if useGet then pys! "GET" else pys! "POST") user t false) req).toList.map .sent ++
      [.metadata (c.executeUnary sc http sink cs req method user t useGet).1] := by
  intro v
  obtain ⟨h1, h2, _⟩ := C103_unary_partial c ha sc http sink cs o ho none req method user t useGet
  have hspan : ∀ ctx, withSpan o none ctx = ctx := fun ctx => by
    unfold withSpan
    rw [ht.nothing]
  have he : ∀ ctx, ctx = c.context method (if useGet then pys! "GET" else pys! "POST") user t false →
      (c.sendRequest sc http sink cs .unary req ctx).2 = c.executeUnary sc http sink cs req method user t useGet := by
    rintro _ rfl
    show c.sendUnary sc http sink cs _ req = _
    unfold Client.sendUnary Client.executeUnary
    rfl
  rw [hspan] at h1 h2
  refine ⟨h1.trans (by rw [he _ rfl]), h2.trans ?_⟩
  rw [he _ rfl]
  unfold visible
  congr 1
  show List.filterMap _ ((c.unaryHttp _ req).toList.map Note.sent) = _
  cases c.unaryHttp (c.context method (if useGet then pys! "GET" else pys! "POST") user t false) req with
  | none => rfl
  | some r => rfl

/-- **C103 is false of every interrupted call**: when a `BaseException` that is not an `Exception`, such as `KeyboardInterrupt`, interrupts a Connect call of the synchronous client, it reaches
the caller, and the call is reported as a success. -/
theorem C103_violation_interrupted (c : Client Req Res) (ha : TraceableClient c.address) (hf : c.flavor = .sync) (hc : c.proto = .connect) (sc : StatusCodec) (http : HttpClient)
    (hh : ∀ r, http.full r = .error .cancelled) (sink : Sink) (cs : Circumstances) (o : OtelInterceptor C)
    (ho : o.client = true) (current : Option C) (req : Req) (henc : ∃ d, c.codec.encode req = .ok d) (method : MethodInfo) (user : UserHeaders) (t : Option Int) (useGet : Bool) :
    let v := c.observedUnary sc http sink cs o current req method user t useGet
    v.result = .error .cancelled ∧ Reports (tracedIn v.effects) none := by
  intro v
  obtain ⟨h1, _, h3⟩ := (observed_call c ha sc http sink cs o ho current method (if useGet then pys! "GET" else pys! "POST") user t false).1 req
  have hr : (c.sendRequest sc http sink cs .unary req (withSpan o current (c.context method (if useGet then pys! "GET" else pys! "POST") user t false))).2.2 = .error .cancelled := by
    show (c.sendUnary sc http sink cs _ req).2 = _
    unfold Client.sendUnary
    rw [hc]
    dsimp only
    obtain ⟨d, hd⟩ := henc
    rcases connectUnary_cases c http.full sink (withSpan o current (c.context method (if useGet then pys! "GET" else pys! "POST") user t false)) req with
      ⟨e, h1, h2⟩ | ⟨data, h1, ⟨e, h2, h3⟩ | ⟨resp, h2, h3⟩⟩
    · rw [hd] at h1; cases h1
    · rw [hh] at h2
      cases h2
      rw [h3, hf]
      rfl
    · rw [hh] at h2; cases h2
  rw [hr] at h1 h3
  exact ⟨h1, h3⟩

end

/-! ### the hypotheses are met -/

def tracingClient : OtelInterceptor (List Char) := ⟨demoTelemetry, true, fun _ => pys! "Error"⟩

theorem demo_traceable (f : Flavor) (p : Proto) : TraceableClient (demoClient f p).address :=
  ⟨pys! "http", pys! "h", .inl rfl, .inl ⟨by decide, by decide, by decide⟩, rfl⟩

/-- a call that succeeds below a span, a call that fails, and one that is interrupted -/
example : ((demoClient .async .connect).observedUnary protobufStatus (always (okFull [7]) default) none calm tracingClient (some (pys! "s")) [1] demoMethod .none none false).result = .ok [7] ∧
    ((demoClient .async .connect).observedUnary protobufStatus ⟨fun _ => .error .cancelled, fun _ => .error .cancelled⟩ none calm tracingClient none [1] demoMethod .none none false).result =
      .error (.mk .canceled (pys! "Request was cancelled")) ∧
    (tracedIn ((demoClient .async .connect).observedUnary protobufStatus ⟨fun _ => .error .cancelled, fun _ => .error .cancelled⟩ none calm tracingClient none [1] demoMethod .none none
      false).effects).length = 4 ∧
    (tracedIn ((demoClient .sync .connect).observedUnary protobufStatus ⟨fun _ => .error .cancelled, fun _ => .error .cancelled⟩ none calm tracingClient none [1] demoMethod .none none
      false).effects).length = 3 := by
  decide +kernel

/-- a gRPC stream of two messages, read to its end and given up after one -/
def tracedStream (n : Nat) : Used (ClientEvent (List Char)) Bytes :=
  ((demoClient .sync .grpc).observedServerStream protobufStatus (always default (okStream (pys! "application/grpc+raw") [[0, 0, 0, 0, 1, 7], [0, 0, 0, 0, 1, 8]]
    [(pys! "grpc-status", pys! "5")])) none calm none tracingClient none [1] demoMethod .none none).use n

example : (tracedStream 5).messages = [[7], [8]] ∧ (tracedStream 5).exc = some (.connect { code := .notFound, message := [] }) ∧ (tracedIn (tracedStream 5).effects).length = 4 ∧
    (tracedStream 1).messages = [[7]] ∧ (tracedStream 1).exc = none ∧ (tracedIn (tracedStream 1).effects).length = 3 := by
  decide +kernel

end Props
