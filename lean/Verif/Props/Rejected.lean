import Verif.Proofs.Rejected
/-
C75: what a client tells its caller about responses that are not of its protocol.
-/
namespace Props
open Conn Py Spec

variable {Req Res : Type}

/-- **C75, streams.** A response with status 200 that is not of the client's protocol, or in another codec or an unknown compression, delivers no
message, whatever its body; the caller gets UNKNOWN or INTERNAL, naming what is to blame. -/
theorem C75_stream (c : Client Req Res) (sc : StatusCodec) (resp : StreamResponse) (hst : resp.status = 200)
    (hlow : ∀ p ∈ resp.headers, lower p.1 = p.1) (hx : resp.exitErr = none) (code : Code) (culprit : Str)
    (h : StreamMisfit c resp.headers code culprit) (http : HttpClient) (hh : ∀ rq, http.stream rq = .ok resp) (sink : Sink) (cs : Circumstances)
    (req : Req) (reqs : List Req) (srcErr : Option Exc) (m : MethodInfo) (user : UserHeaders) (t : Option Int) :
    ((c.executeBidiStream sc http sink cs reqs srcErr m user t).messages = [] ∧
      ∃ e, (c.executeBidiStream sc http sink cs reqs srcErr m user t).exc = some e ∧ Blames code culprit e) ∧
    ((c.executeServerStream sc http sink cs req m user t).messages = [] ∧
      ∃ e, (c.executeServerStream sc http sink cs req m user t).exc = some e ∧ Blames code culprit e) ∧
    ∃ e, (c.executeClientStream sc http sink cs reqs srcErr m user t).2 = .error e ∧ Blames code culprit e := by
  obtain ⟨e, h1, h2, ce, rfl, h3⟩ := inside_misfit (sc := sc) hst hlow h sink cs
  refine ⟨⟨(bidi_inside_error hh h1 h2 hx _ _ _).1, _, (bidi_inside_error hh h1 h2 hx _ _ _).2, ce, rfl, h3⟩,
    ⟨(bidi_inside_error hh h1 h2 hx _ _ _).1, _, (bidi_inside_error hh h1 h2 hx _ _ _).2, ce, rfl, h3⟩, .connect ce, ?_, ce, rfl, h3⟩
  exact consumeSingle_error (bidi_inside_error hh h1 h2 hx _ _ _).1 (bidi_inside_error hh h1 h2 hx _ _ _).2

theorem executeUnary_grpc (c : Client Req Res) (hp : c.proto ≠ .connect) (sc : StatusCodec) (http : HttpClient) (sink : Sink)
    (cs : Circumstances) (req : Req) (m : MethodInfo) (user : UserHeaders) (t : Option Int) (useGet : Bool) :
    c.executeUnary sc http sink cs req m user t useGet =
      Client.single (c.bidi sc http.stream sink cs (c.context m (if useGet then pys! "GET" else pys! "POST") user t false) [req] none) := by
  unfold Client.executeUnary
  cases hc : c.proto with
  | connect => exact absurd hc hp
  | grpc => rfl
  | grpcWeb => rfl

/-- **C75, unary calls by gRPC and gRPC-Web.** The same. -/
theorem C75_unary_grpc (c : Client Req Res) (hp : c.proto ≠ .connect) (sc : StatusCodec) (resp : StreamResponse) (hst : resp.status = 200)
    (hlow : ∀ p ∈ resp.headers, lower p.1 = p.1) (hx : resp.exitErr = none) (code : Code) (culprit : Str)
    (h : StreamMisfit c resp.headers code culprit) (http : HttpClient) (hh : ∀ rq, http.stream rq = .ok resp) (sink : Sink) (cs : Circumstances)
    (req : Req) (m : MethodInfo) (user : UserHeaders) (t : Option Int) (useGet : Bool) :
    ∃ e, (c.executeUnary sc http sink cs req m user t useGet).2 = .error e ∧ Blames code culprit e := by
  obtain ⟨e, h1, h2, ce, rfl, h3⟩ := inside_misfit (sc := sc) hst hlow h sink cs
  refine ⟨.connect ce, ?_, ce, rfl, h3⟩
  rw [executeUnary_grpc c hp]
  exact consumeSingle_error (bidi_inside_error hh h1 h2 hx _ _ _).1 (bidi_inside_error hh h1 h2 hx _ _ _).2

/-- **C75, unary calls by Connect.** The same. -/
theorem C75_unary_connect (c : Client Req Res) (hp : c.proto = .connect) (sc : StatusCodec) (resp : FullResponse) (hst : resp.status = 200)
    (hlow : ∀ p ∈ resp.headers, lower p.1 = p.1) (code : Code) (culprit : Str)
    (h : UnaryMisfit c resp.headers code culprit) (http : HttpClient) (hh : ∀ rq, http.full rq = .ok resp) (sink : Sink) (cs : Circumstances)
    (req : Req) (hreq : ∃ data, c.codec.encode req = .ok data) (m : MethodInfo) (user : UserHeaders) (t : Option Int) (useGet : Bool) :
    ∃ e, (c.executeUnary sc http sink cs req m user t useGet).2 = .error e ∧ Blames code culprit e := by
  obtain ⟨ce, h1, h2⟩ := unaryResponse_misfit hst hlow h sink
  refine ⟨.connect ce, ?_, h2⟩
  unfold Client.executeUnary
  rw [hp]
  exact connectUnary_response hh hreq h1 _

/-- **C75, streams, HTTP errors.** A response with another status whose body is not a JSON object (from a proxy, say) delivers no message; the
caller gets the code and the reason phrase of the status, whatever the content type. -/
theorem C75_stream_status (c : Client Req Res) (sc : StatusCodec) (resp : StreamResponse) (hst : resp.status ≠ 200)
    (hb : resp.bodyErr = none) (hx : resp.exitErr = none) (hj : ∀ o, loadsBytes resp.chunks.flatten ≠ some (.obj o))
    (http : HttpClient) (hh : ∀ rq, http.stream rq = .ok resp) (sink : Sink) (cs : Circumstances)
    (req : Req) (reqs : List Req) (srcErr : Option Exc) (m : MethodInfo) (user : UserHeaders) (t : Option Int) (useGet : Bool) :
    ((c.executeBidiStream sc http sink cs reqs srcErr m user t).messages = [] ∧
      ∃ e, (c.executeBidiStream sc http sink cs reqs srcErr m user t).exc = some e ∧ ErrorOfStatus resp.status e) ∧
    ((c.executeServerStream sc http sink cs req m user t).messages = [] ∧
      ∃ e, (c.executeServerStream sc http sink cs req m user t).exc = some e ∧ ErrorOfStatus resp.status e) ∧
    (∃ e, (c.executeClientStream sc http sink cs reqs srcErr m user t).2 = .error e ∧ ErrorOfStatus resp.status e) ∧
    (c.proto ≠ .connect → ∃ e, (c.executeUnary sc http sink cs req m user t useGet).2 = .error e ∧ ErrorOfStatus resp.status e) := by
  obtain ⟨h1, h2⟩ := inside_status (c := c) (sc := sc) hst hb hj sink cs
  have h3 := fromHttpStatus_error resp.status
  refine ⟨⟨(bidi_inside_error hh h1 h2 hx _ _ _).1, _, (bidi_inside_error hh h1 h2 hx _ _ _).2, h3⟩,
    ⟨(bidi_inside_error hh h1 h2 hx _ _ _).1, _, (bidi_inside_error hh h1 h2 hx _ _ _).2, h3⟩, ⟨_, ?_, h3⟩, fun hp => ⟨_, ?_, h3⟩⟩
  · exact consumeSingle_error (bidi_inside_error hh h1 h2 hx _ _ _).1 (bidi_inside_error hh h1 h2 hx _ _ _).2
  · rw [executeUnary_grpc c hp]
    exact consumeSingle_error (bidi_inside_error hh h1 h2 hx _ _ _).1 (bidi_inside_error hh h1 h2 hx _ _ _).2

/-- **C75, unary calls by Connect, HTTP errors.** A response with another status that is not JSON, or whose body is not a JSON object: the caller gets
the code and the reason phrase of the status. -/
theorem C75_unary_connect_status (c : Client Req Res) (hp : c.proto = .connect) (sc : StatusCodec) (resp : FullResponse)
    (hst : resp.status ≠ 200) (hlow : ∀ p ∈ resp.headers, lower p.1 = p.1) (ct : Str) (hc : Header resp.headers (pys! "content-type") ct)
    (h : mediaType ct ≠ pys! "application/json" ∨
      ((∃ comp, Named c.comps resp.headers (pys! "content-encoding") comp) ∧ ∀ o, loadsBytes resp.content ≠ some (.obj o)))
    (http : HttpClient) (hh : ∀ rq, http.full rq = .ok resp) (sink : Sink) (cs : Circumstances)
    (req : Req) (hreq : ∃ data, c.codec.encode req = .ok data) (m : MethodInfo) (user : UserHeaders) (t : Option Int) (useGet : Bool) :
    ∃ e, (c.executeUnary sc http sink cs req m user t useGet).2 = .error e ∧ ErrorOfStatus resp.status e := by
  refine ⟨_, ?_, fromHttpStatus_error resp.status⟩
  unfold Client.executeUnary
  rw [hp]
  exact connectUnary_response hh hreq (unaryResponse_status hst hlow hc h sink) _

/-- **C46, by gRPC and gRPC-Web.** A response that is cut off, or ends without a status, delivers the messages that are complete, and then the caller
gets INTERNAL; a call with a single response gets INTERNAL (or UNIMPLEMENTED, if there is more than one message). -/
theorem C46_cut_response (c : Client Req Res) (hp : c.proto ≠ .connect) (sc : StatusCodec) (ms : List Res) (resp : StreamResponse)
    (h : CutStream c ms resp) (http : HttpClient) (hh : ∀ rq, http.stream rq = .ok resp) (sink : Sink) (cs : Circumstances) (hcs : Calm cs)
    (req : Req) (reqs : List Req) (srcErr : Option Exc) (m : MethodInfo) (user : UserHeaders) (t : Option Int) (useGet : Bool) :
    ((c.executeBidiStream sc http sink cs reqs srcErr m user t).messages = ms ∧
      ∃ ce, (c.executeBidiStream sc http sink cs reqs srcErr m user t).exc = some (.connect ce) ∧ ce.code = .internal) ∧
    ((c.executeServerStream sc http sink cs req m user t).messages = ms ∧
      ∃ ce, (c.executeServerStream sc http sink cs req m user t).exc = some (.connect ce) ∧ ce.code = .internal) ∧
    (∃ ce, (c.executeClientStream sc http sink cs reqs srcErr m user t).2 = .error (.connect ce) ∧
      ce.code = if ms.length ≤ 1 then .internal else .unimplemented) ∧
    ∃ ce, (c.executeUnary sc http sink cs req m user t useGet).2 = .error (.connect ce) ∧
      ce.code = if ms.length ≤ 1 then .internal else .unimplemented := by
  have hsingle : ∀ r : StreamResult Res, r.messages = ms → r.exc = some missingStatus →
      ∃ ce, (Client.single r).2 = .error (.connect ce) ∧ ce.code = if ms.length ≤ 1 then .internal else .unimplemented := by
    intro r h1 h2
    show ∃ ce, consumeSingle r = .error (.connect ce) ∧ _
    unfold consumeSingle
    rw [h1, h2]
    match ms with
    | [] => exact ⟨_, rfl, rfl⟩
    | [_] => exact ⟨_, rfl, rfl⟩
    | _ :: _ :: _ => exact ⟨_, rfl, by simp⟩
  refine ⟨⟨(bidi_cut hp h hh sink hcs _ _ _).1, _, (bidi_cut hp h hh sink hcs _ _ _).2, rfl⟩,
    ⟨(bidi_cut hp h hh sink hcs _ _ _).1, _, (bidi_cut hp h hh sink hcs _ _ _).2, rfl⟩, ?_, ?_⟩
  · exact hsingle _ (bidi_cut hp h hh sink hcs _ _ _).1 (bidi_cut hp h hh sink hcs _ _ _).2
  · rw [executeUnary_grpc c hp]
    exact hsingle _ (bidi_cut hp h hh sink hcs _ _ _).1 (bidi_cut hp h hh sink hcs _ _ _).2

/-! ### concrete cases -/

/-- C46: hypotheses met, by a response by gRPC-Web that is cut off in its second message. -/
example (f : Flavor) : CutStream (demoClient f .grpcWeb) [[7]]
    (okStream (pys! "application/grpc-web+raw") [[0, 0, 0, 0, 1], [7, 0, 0, 0, 0, 9, 1]] []) where
  status := rfl
  lower := by decide +kernel
  trailersLower := by decide
  type := ⟨pys! "application/grpc-web+raw", by decide +kernel, .inl rfl⟩
  body := ⟨.identity, [⟨0, [7]⟩], [0, 0, 0, 0, 9, 1], .inl ⟨by cases f <;> decide +kernel, rfl⟩,
    ⟨by decide, by simp [Frame.Ok], incomplete_iff_short.2 (by decide)⟩, by decide, by cases f <;> decide +kernel⟩
  bodyErr := rfl
  exitErr := rfl
  noStatus := ⟨by decide +kernel, fun h => by cases f <;> cases h⟩

/-- Hypotheses met: a web page, for a call by gRPC. -/
example (f : Flavor) : StreamMisfit (demoClient f .grpc) [(pys! "content-type", pys! "text/html")] .unknown (pys! "text/html") :=
  .type (.inl (by decide +kernel)) (by rintro (h | h) <;> revert h <;> decide +kernel)

/-- Hypotheses met: another codec. -/
example (f : Flavor) : StreamMisfit (demoClient f .connect) [(pys! "content-type", pys! "application/connect+json")] .internal
    (pys! "application/connect+json") :=
  .codec (.inl (by decide +kernel)) (by show (pys! "application/connect+") <+: _; decide +kernel) (by
    intro h
    have h : pys! "application/connect+json" = pys! "application/connect+" ++ pys! "raw" := h
    revert h; decide +kernel)

/-- Hypotheses met: an unknown compression. -/
example (f : Flavor) : UnaryMisfit (demoClient f .connect) [(pys! "content-type", pys! "application/raw"), (pys! "content-encoding", pys! "zip")]
    .internal (pys! "zip") :=
  .encoding (.inl (by decide +kernel) : Header _ _ (pys! "application/raw")) (by cases f <;> decide +kernel) (by decide +kernel) (by decide) (by cases f <;> decide +kernel)

/-- Hypotheses met, and the error of the theorem: the page of a proxy that cannot reach the server. -/
example : ErrorOfStatus 502 (.connect { code := .unavailable, message := pys! "Bad Gateway" }) :=
  ⟨_, rfl, rfl, rfl, fun r hr => by
    have key : ∀ q ∈ reasons, q.1 = 502 → q.2 = pys! "Bad Gateway" := by decide +kernel
    exact (key _ hr rfl).symm, fun h => absurd (by decide +kernel) (h (pys! "Bad Gateway"))⟩

/-- A status without reason phrase: no text. -/
example : ErrorOfStatus 799 (.connect { code := .unknown, message := [] }) :=
  ⟨_, rfl, rfl, rfl, fun r hr => by
    have key : ∀ q ∈ reasons, q.1 ≠ 799 := by decide +kernel
    exact absurd rfl (key _ hr), fun _ => rfl⟩

end Props
