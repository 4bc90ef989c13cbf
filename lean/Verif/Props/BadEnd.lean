import Verif.Proofs.BadEnd
import Verif.Props.Rejected
/-
C99: a stream is taken for a success only if its end says so.
-/
namespace Props
open Conn Py Spec

variable {Req Res : Type}

/-- **C99** (partial: errors that are empty JSON values are excluded, see `C99_violation_empty_error`). A streamed response whose end does not say that
the call succeeded, because it cannot be read, or has an error of any form, or another status than 0, delivers its messages, and then the caller
gets a ConnectError. A call with a single response gets a ConnectError. -/
theorem C99_failed_end_partial (c : Client Req Res) (sc : StatusCodec) (hsc : ∀ b e, sc.fromBinary b = .error e → Plain e) (ms : List Res)
    (resp : StreamResponse) (h : FailedStream false c ms resp) (http : HttpClient) (hh : ∀ rq, http.stream rq = .ok resp) (sink : Sink)
    (cs : Circumstances) (hcs : Calm cs) (req : Req) (reqs : List Req) (srcErr : Option Exc) (m : MethodInfo) (user : UserHeaders)
    (t : Option Int) (useGet : Bool) :
    ((c.executeBidiStream sc http sink cs reqs srcErr m user t).messages = ms ∧
      ∃ ce, (c.executeBidiStream sc http sink cs reqs srcErr m user t).exc = some (.connect ce)) ∧
    ((c.executeServerStream sc http sink cs req m user t).messages = ms ∧
      ∃ ce, (c.executeServerStream sc http sink cs req m user t).exc = some (.connect ce)) ∧
    (∃ ce, (c.executeClientStream sc http sink cs reqs srcErr m user t).2 = .error (.connect ce)) ∧
    (c.proto ≠ .connect → ∃ ce, (c.executeUnary sc http sink cs req m user t useGet).2 = .error (.connect ce)) := by
  have hsingle : ∀ r : StreamResult Res, (∃ ce, r.exc = some (.connect ce)) → ∃ ce, (Client.single r).2 = .error (.connect ce) := by
    rintro r ⟨ce, h2⟩
    show ∃ ce, consumeSingle r = .error (.connect ce)
    unfold consumeSingle
    rw [h2]
    split
    · exact ⟨_, rfl⟩
    · exact ⟨_, rfl⟩
    · exact ⟨_, rfl⟩
  refine ⟨bidi_failed hsc h hh sink hcs _ _ _, bidi_failed hsc h hh sink hcs _ _ _, ?_, fun hp => ?_⟩
  · exact hsingle _ (bidi_failed hsc h hh sink hcs _ _ _).2
  · rw [executeUnary_grpc c hp]
    exact hsingle _ (bidi_failed hsc h hh sink hcs _ _ _).2

/-- **C99 is false of every response by Connect that ends with an empty error** (`{"error": {}}`): the stream ends as if the call had succeeded,
and a call with one response gets its message. -/
theorem C99_violation_empty_error (c : Client Req Res) (hp : c.proto = .connect) (sc : StatusCodec) (ms : List Res)
    (resp : StreamResponse) (h : EmptyError c ms resp) (http : HttpClient) (hh : ∀ rq, http.stream rq = .ok resp) (sink : Sink)
    (cs : Circumstances) (hcs : Calm cs) (req : Req) (reqs : List Req) (m : MethodInfo) (user : UserHeaders) (t : Option Int) :
    ((c.executeBidiStream sc http sink cs reqs none m user t).messages = ms ∧
      (c.executeBidiStream sc http sink cs reqs none m user t).exc = none) ∧
    ((c.executeServerStream sc http sink cs req m user t).messages = ms ∧
      (c.executeServerStream sc http sink cs req m user t).exc = none) ∧
    (∀ r, ms = [r] → (c.executeClientStream sc http sink cs reqs none m user t).2 = .ok r) := by
  refine ⟨bidi_blank hp h hh sink hcs _ _ _, bidi_blank hp h hh sink hcs _ _ _, ?_⟩
  rintro r rfl
  obtain ⟨h1, h2⟩ := bidi_blank (sc := sc) hp h hh sink hcs (c.context m (pys! "POST") user t true) reqs none
  show consumeSingle _ = _
  unfold consumeSingle
  rw [h1, h2]

/-- every such response is one that C99 speaks of -/
theorem C99_empty_error_fails (c : Client Req Res) (hp : c.proto = .connect) (ms : List Res) (resp : StreamResponse) (h : EmptyError c ms resp)
    (ht : ∀ p ∈ resp.trailers, Py.lower p.1 = p.1) : FailedStream true c ms resp := by
  obtain ⟨comp, fs, f, contents, m, e, hcomp, hok, hms, hf, hj, he, hbl, hn, hmd, hl, hb⟩ := h.body
  refine ⟨h.status, h.lower, ht, h.type, ⟨comp, fs, hcomp, hok, hms, .envelope hf ?_ hl hb⟩, h.bodyErr, h.exitErr⟩
  rw [hp]
  exact .error hj he hn

/-! ### concrete cases -/

/-- a message, then `{"error": 5}` -/
example (f : Flavor) : FailedStream false (demoClient f .connect) [[7]]
    (okStream (pys! "application/connect+raw") [[0, 0, 0, 0, 1, 7], [2, 0, 0, 0, 12] ++ utf8Encode (pys! "{\"error\": 5}")] []) where
  status := rfl
  lower := by decide +kernel
  trailersLower := by decide
  type := ⟨pys! "application/connect+raw", by decide +kernel, rfl⟩
  body := ⟨.identity, [⟨0, [7]⟩], .inl ⟨by cases f <;> decide +kernel, rfl⟩, by simp [Frame.Ok], by cases f <;> decide +kernel,
    .envelope (f := ⟨2, utf8Encode (pys! "{\"error\": 5}")⟩) (contents := utf8Encode (pys! "{\"error\": 5}"))
      ⟨by unfold Frame.Ok; decide +kernel, .inl ⟨rfl, rfl⟩⟩
      (.error (m := [(pys! "error", .int 5)]) (e := .int 5) (by decide +kernel) (by decide +kernel) (by
        show ¬ Blank (.int 5)
        intro h; cases h))
      (by cases f <;> exact fun n h => by cases h) (by decide +kernel)⟩
  bodyErr := rfl
  exitErr := rfl

/-- a message by gRPC-Web, then a trailer block with a line that has no colon -/
example (f : Flavor) : FailedStream false (demoClient f .grpcWeb) [[7]]
    (okStream (pys! "application/grpc-web+raw") [[0, 0, 0, 0, 1, 7], [128, 0, 0, 0, 20] ++ utf8Encode (pys! "grpc-status:0\r\nbad\r\n")] []) where
  status := rfl
  lower := by decide +kernel
  trailersLower := by decide
  type := ⟨pys! "application/grpc-web+raw", by decide +kernel, .inl rfl⟩
  body := ⟨.identity, [⟨0, [7]⟩], .inl ⟨by cases f <;> decide +kernel, rfl⟩, by simp [Frame.Ok], by cases f <;> decide +kernel,
    .envelope (f := ⟨128, utf8Encode (pys! "grpc-status:0\r\nbad\r\n")⟩) (contents := utf8Encode (pys! "grpc-status:0\r\nbad\r\n"))
      ⟨by unfold Frame.Ok; decide +kernel, .inl ⟨rfl, rfl⟩⟩
      (.line (lines := [utf8Encode (pys! "grpc-status:0"), utf8Encode (pys! "bad"), []]) (line := utf8Encode (pys! "bad"))
        ⟨[utf8Encode (pys! "grpc-status:0"), utf8Encode (pys! "bad")], [], rfl, by decide +kernel, by decide +kernel⟩ (by simp)
        ⟨by decide +kernel, .inl (by decide +kernel)⟩)
      (by cases f <;> exact fun n h => by cases h) (by decide +kernel)⟩
  bodyErr := rfl
  exitErr := rfl

/-- a message by gRPC, then trailers with a status that is no number -/
example (f : Flavor) : FailedStream false (demoClient f .grpc) [[7]]
    (okStream (pys! "application/grpc+raw") [[0, 0, 0, 0, 1, 7]] [(pys! "grpc-status", pys! "x")]) where
  status := rfl
  lower := by decide +kernel
  trailersLower := by decide +kernel
  type := ⟨pys! "application/grpc+raw", by decide +kernel, .inl rfl⟩
  body := ⟨.identity, [⟨0, [7]⟩], .inl ⟨by cases f <;> decide +kernel, rfl⟩, by simp [Frame.Ok], by cases f <;> decide +kernel,
    .trailers (status := pys! "x") (by decide +kernel) (by decide +kernel) (by decide +kernel)⟩
  bodyErr := rfl
  exitErr := rfl

/-- a message, then `{"error": {}}` -/
example (f : Flavor) : EmptyError (demoClient f .connect) [[7]]
    (okStream (pys! "application/connect+raw") [[0, 0, 0, 0, 1, 7], [2, 0, 0, 0, 13] ++ utf8Encode (pys! "{\"error\": {}}")] []) where
  status := rfl
  lower := by decide +kernel
  type := ⟨pys! "application/connect+raw", by decide +kernel, rfl⟩
  body := ⟨.identity, [⟨0, [7]⟩], ⟨2, utf8Encode (pys! "{\"error\": {}}")⟩, utf8Encode (pys! "{\"error\": {}}"), [(pys! "error", .obj [])], .obj [],
    .inl ⟨by cases f <;> decide +kernel, rfl⟩, by simp [Frame.Ok], by cases f <;> decide +kernel,
    ⟨by unfold Frame.Ok; decide +kernel, .inl ⟨by cases f <;> rfl, rfl⟩⟩, by decide +kernel, by decide +kernel, .obj, (by intro h; cases h),
    .inl (by decide +kernel), (by cases f <;> exact fun n h => by cases h), by decide +kernel⟩
  bodyErr := rfl
  exitErr := rfl

end Props
