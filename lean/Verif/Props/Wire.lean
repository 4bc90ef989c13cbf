import Verif.Proofs.Conforming
import Verif.Props.StreamEndToEnd
/-
C69: what a server writes to report an outcome is in the published format of the protocol. C70: a client understands every response in that
format, whichever server wrote it.
-/
namespace Props
open Conn Py Spec

variable {Req Res : Type}

/-! ### C69: what a server writes -/

/-- **C69, unary errors by Connect.** The body of an error response is the JSON text of an error object: the name of the code, the message, and
the details in order, with their bytes in base64. (See C17 for the status and C34, C42 for the response as a whole.) -/
theorem C69_error_body (e : ConnectErr) (hd : DebugOk e) : ErrorBody e e.toJsonBytes :=
  errorBody_toJsonBytes e hd

/-- **C69, the end of a streamed response.** Whatever the outcome (an exception of the handler, or success) and the trailers of the handler, if
the end of the response can be written then it is in the format of the protocol, and says exactly this outcome and these trailers.
(`comp` is what the reader uses to undo the compression. The conditions on trailers are those of C21: a handler must not use a reserved name that
the protocol leaves unused; by gRPC-Web, trailers have to be legal HTTP fields.) -/
theorem C69_end_format (w : EnvelopeWriter Res) (p : Proto) (sc : StatusCodec) (comp : Compression)
    (hcomp : ∀ k, w.compression = some k → k ≠ .identity → comp ≠ .identity ∧ ∀ b, comp.decompress (k.compress b) = .ok b)
    (trailers : Headers) (hb : Built trailers) (e : Option Exc) (out : EndOut) (h : EndsWith w p sc trailers e out)
    (hdebug : p = .connect → ∀ x, e = some x → DebugOk (errorOf x)) (hsc : p ≠ .connect → sc.Lawful)
    (hfit : p ≠ .connect → ∀ x, e = some x → FitsProtobuf (errorOf x))
    (hm : p ≠ .connect → ∀ x, e = some x → (errorOf x).message = [] → trailers.getall (pys! "grpc-message") = [])
    (hd : p ≠ .connect → ∀ x, e = some x → (errorOf x).details = [] → trailers.getall (pys! "grpc-status-details-bin") = [])
    (hlegal : p = .grpcWeb → LegalFields trailers.allitems) :
    EndFormat sc comp trailers.allitems (e.map errorOf) p out := by
  have conv : ∀ {P : ConnectErr → Prop}, (∀ x, e = some x → P (errorOf x)) → ∀ x, e.map errorOf = some x → P x := by
    intro P hP x hx
    cases e with
    | none => cases hx
    | some y => cases hx; exact hP y rfl
  unfold EndsWith at h
  cases p with
  | connect =>
    unfold EnvelopeWriter.end' at h
    dsimp only at h
    unfold EnvelopeWriter.connectEnd at h
    obtain ⟨m, h1, h2⟩ := endObject_json hb.inv (e.map errorOf)
    have hwf := connectEndJson_wf hb.inv (e.map errorOf) (conv (hdebug rfl))
    cases hp : packEnvelope (w.pre ||| 2) (w.compress (utf8Encode (dumps (connectEndJson trailers (e.map errorOf))))) with
    | error x => rw [hp] at h; cases h
    | ok eb =>
      rw [hp] at h; cases h
      obtain ⟨f, hf, rfl⟩ := endFrame_pack w comp hcomp 2 (.inl rfl) _ _ hp
      exact .body hf (.connect (by rw [loadsBytes_dumps _ hwf, h1]) h2)
  | grpc =>
    cases h
    exact .trailers rfl (statusFields_grpcTrailers sc (hsc (by decide)) trailers hb.inv _ (conv (hfit (by decide)))
      (conv (P := fun x => x.message = [] → _) (hm (by decide))) (conv (P := fun x => x.details = [] → _) (hd (by decide))))
  | grpcWeb =>
    unfold EnvelopeWriter.end' at h
    dsimp only at h
    unfold EnvelopeWriter.grpcWebEnd at h
    cases hp : packEnvelope (w.pre ||| 128) (w.compress (utf8Encode (trailerBlock (grpcTrailers sc trailers (e.map errorOf)).allitems))) with
    | error x => rw [hp] at h; cases h
    | ok eb =>
      rw [hp] at h; cases h
      obtain ⟨f, hf, rfl⟩ := endFrame_pack w comp hcomp 128 (.inr rfl) _ _ hp
      exact .body hf (.grpcWeb (block_trailerBlock _ (grpcTrailers_legal sc trailers hb.inv (hlegal rfl) _))
        (statusFields_grpcTrailers sc (hsc (by decide)) trailers hb.inv _ (conv (hfit (by decide)))
          (conv (P := fun x => x.message = [] → _) (hm (by decide))) (conv (P := fun x => x.details = [] → _) (hd (by decide)))))

/-! ### C70: what a client understands -/

/-- **C70, streams.** If the HTTP exchange gives the client a complete response in the format of its protocol that delivers the messages `ms`
and reports an outcome and trailers, the caller of a bidirectional stream receives exactly these messages, then this outcome; and the response
metadata has these headers and trailers. -/
theorem C70_bidi (c : Client Req Res) (sc : StatusCodec) (hsc : c.proto ≠ .connect → sc.Lawful) (ms : List Res)
    (trailers : List (Str × Str)) (error : Option ConnectErr) (resp : StreamResponse) (h : ConformingStream c sc ms trailers error resp)
    (http : HttpClient) (hh : ∀ rq, http.stream rq = .ok resp) (sink : Sink) (hsink : ∀ r, sink = some r → Built r.getTrailers)
    (cs : Circumstances) (hcs : Calm cs) (reqs : List Req) (srcErr : Option Exc) (m : MethodInfo) (user : UserHeaders) (t : Option Int) :
    Understood c.proto sink resp.headers ms trailers error (c.executeBidiStream sc http sink cs reqs srcErr m user t) :=
  bidi_conforming hsc h hsink hcs hh

/-- **C70, server streams.** -/
theorem C70_server_stream (c : Client Req Res) (sc : StatusCodec) (hsc : c.proto ≠ .connect → sc.Lawful) (ms : List Res)
    (trailers : List (Str × Str)) (error : Option ConnectErr) (resp : StreamResponse) (h : ConformingStream c sc ms trailers error resp)
    (http : HttpClient) (hh : ∀ rq, http.stream rq = .ok resp) (sink : Sink) (hsink : ∀ r, sink = some r → Built r.getTrailers)
    (cs : Circumstances) (hcs : Calm cs) (req : Req) (m : MethodInfo) (user : UserHeaders) (t : Option Int) :
    Understood c.proto sink resp.headers ms trailers error (c.executeServerStream sc http sink cs req m user t) :=
  bidi_conforming hsc h hsink hcs hh

/-- **C70, client streams.** -/
theorem C70_client_stream (c : Client Req Res) (sc : StatusCodec) (hsc : c.proto ≠ .connect → sc.Lawful) (ms : List Res)
    (trailers : List (Str × Str)) (error : Option ConnectErr) (resp : StreamResponse) (h : ConformingStream c sc ms trailers error resp)
    (http : HttpClient) (hh : ∀ rq, http.stream rq = .ok resp) (sink : Sink) (hsink : ∀ r, sink = some r → Built r.getTrailers)
    (cs : Circumstances) (hcs : Calm cs) (reqs : List Req) (srcErr : Option Exc) (m : MethodInfo) (user : UserHeaders) (t : Option Int) :
    UnderstoodSingle c.proto sink resp.headers ms trailers error (c.executeClientStream sc http sink cs reqs srcErr m user t) :=
  single_conforming (bidi_conforming hsc h hsink hcs hh)

/-- **C70, unary calls by gRPC and gRPC-Web.** -/
theorem C70_unary_grpc (c : Client Req Res) (hp : c.proto ≠ .connect) (sc : StatusCodec) (hsc : sc.Lawful) (ms : List Res)
    (trailers : List (Str × Str)) (error : Option ConnectErr) (resp : StreamResponse) (h : ConformingStream c sc ms trailers error resp)
    (http : HttpClient) (hh : ∀ rq, http.stream rq = .ok resp) (sink : Sink) (hsink : ∀ r, sink = some r → Built r.getTrailers)
    (cs : Circumstances) (hcs : Calm cs) (req : Req) (m : MethodInfo) (user : UserHeaders) (t : Option Int) (useGet : Bool) :
    UnderstoodSingle c.proto sink resp.headers ms trailers error (c.executeUnary sc http sink cs req m user t useGet) := by
  have e : c.executeUnary sc http sink cs req m user t useGet =
      Client.single (c.bidi sc http.stream sink cs (c.context m (if useGet then pys! "GET" else pys! "POST") user t false) [req] none) := by
    unfold Client.executeUnary
    cases hc : c.proto with
    | connect => exact absurd hc hp
    | grpc => rfl
    | grpcWeb => rfl
  rw [e]
  exact single_conforming (bidi_conforming (fun _ => hsc) h hsink hcs hh)

/-- **C70, unary calls by Connect, success.** The caller gets the message, and the metadata. (The request can be encoded.) -/
theorem C70_unary_connect (c : Client Req Res) (hp : c.proto = .connect) (sc : StatusCodec) (x : Res) (resp : FullResponse)
    (h : ConformingUnary c x resp) (http : HttpClient) (hh : ∀ rq, http.full rq = .ok resp) (sink : Sink) (cs : Circumstances) (req : Req)
    (hreq : ∃ data, c.codec.encode req = .ok data) (m : MethodInfo) (user : UserHeaders) (t : Option Int) (useGet : Bool) :
    (c.executeUnary sc http sink cs req m user t useGet).2 = .ok x ∧
    UnaryMetadata resp.headers sink (c.executeUnary sc http sink cs req m user t useGet).1 := by
  obtain ⟨data, hreq⟩ := hreq
  unfold Client.executeUnary
  rw [hp]
  dsimp only
  unfold Client.connectUnary
  dsimp only
  rw [hreq]
  dsimp only
  rw [hh]
  dsimp only
  rw [conformingUnary_response h]
  exact ⟨rfl, unaryMetadata_headers h.lower sink⟩

/-- **C70, unary calls by Connect, errors.** The caller gets the error, whatever the status, and the metadata. -/
theorem C70_unary_connect_error (c : Client Req Res) (hp : c.proto = .connect) (sc : StatusCodec) (e : ConnectErr) (resp : FullResponse)
    (h : ConformingError c e resp) (http : HttpClient) (hh : ∀ rq, http.full rq = .ok resp) (sink : Sink) (cs : Circumstances) (req : Req)
    (hreq : ∃ data, c.codec.encode req = .ok data) (m : MethodInfo) (user : UserHeaders) (t : Option Int) (useGet : Bool) :
    (∃ e', (c.executeUnary sc http sink cs req m user t useGet).2 = .error (.connect e') ∧ report e' = report e) ∧
    UnaryMetadata resp.headers sink (c.executeUnary sc http sink cs req m user t useGet).1 := by
  obtain ⟨data, hreq⟩ := hreq
  obtain ⟨e', h1, h2⟩ := conformingError_response h sink
  unfold Client.executeUnary
  rw [hp]
  dsimp only
  unfold Client.connectUnary
  dsimp only
  rw [hreq]
  dsimp only
  rw [hh]
  dsimp only
  rw [h1]
  exact ⟨⟨e', rfl, h2.1⟩, unaryMetadata_headers h.lower sink⟩

/-! ### concrete cases -/

/-- C69: hypotheses met, by an error with details and trailers with a repeated name, and compression. -/
example (p : Proto) : ∃ out, EndsWith demoWriter p protobufStatus demoUser (some (.connect demoError)) out ∧
    EndFormat protobufStatus flipComp demoUser.allitems (some demoError) p out := by
  obtain ⟨out, h⟩ : ∃ out, EndsWith demoWriter p protobufStatus demoUser (some (.connect demoError)) out := by
    have hok : ∀ {r : Except Exc EndOut}, (match r with | .ok _ => true | .error _ => false) = true → ∃ out, r = .ok out := by
      intro r h
      cases r with
      | ok out => exact ⟨out, rfl⟩
      | error e => cases h
    cases p <;> exact hok (by decide +kernel)
  refine ⟨out, h, C69_end_format demoWriter p protobufStatus flipComp ?_ demoUser ⟨_, rfl⟩ (some (.connect demoError)) out h ?_
    (fun _ => protobufStatus_lawful) ?_ ?_ ?_ (fun _ => demoUser_legal)⟩
  · intro k h _; cases h
    exact ⟨(by intro h; cases h), by intro b; simp [flipComp, Compression.decompress, Compression.compress]⟩
  · intro _ x hx; cases hx; exact demoError_debug
  · intro _ x hx; cases hx; exact demoError_fits
  · intro _ x hx; cases hx; intro h; cases h
  · intro _ x hx; cases hx; intro h; cases h

/-- What another server may send by Connect: an end message with other members, other letter case in the names, unpadded base64 and no
message, in an envelope without compression, although the messages before are compressed. -/
def foreignEnd : Bytes := utf8Encode
  (pys! "{\"extra\":null,\"metadata\":{\"X-A\":[\"1\",\"2\"],\"x-a\":[\"3\"]},\"error\":{\"details\":[{\"value\":\"AQI\",\"type\":\"a.B\"}],\"code\":\"not_found\"}}")

def foreignError : ConnectErr := ⟨.notFound, [], [⟨pys! "a.B", [1, 2], none⟩]⟩

def foreignConnect : StreamResponse :=
  ⟨200, [(pys! "content-type", pys! "application/connect+raw"), (pys! "connect-content-encoding", pys! "gzip"), (pys! "x-h", pys! "7")],
    [[1, 0, 0, 0], [2, 8, 9, 0, 0, 0, 0, 1, 5], (Frame.mk 2 foreignEnd).bytes], none, [], none⟩

theorem foreignConnect_conforming (f : Flavor) : ConformingStream (demoClient f .connect) protobufStatus [[9, 8], [5]]
    [(pys! "x-a", pys! "1"), (pys! "x-a", pys! "2"), (pys! "X-A", pys! "3")] (some foreignError) foreignConnect := by
  refine ⟨rfl, by decide +kernel, by decide +kernel, ⟨pys! "application/connect+raw", by decide +kernel, rfl⟩, ⟨flipComp, [⟨1, [8, 9]⟩, ⟨0, [5]⟩], ?_, ?_, ?_, ?_⟩, rfl, rfl⟩
  · exact .inr ⟨pys! "gzip", (by decide +kernel : fieldValues foreignConnect.headers (encodingHeader .connect) = [pys! "gzip"]), by decide, rfl⟩
  · intro f hf
    simp only [List.mem_cons, List.not_mem_nil, or_false] at hf
    rcases hf with rfl | rfl <;> exact ⟨by unfold Frame.Ok; decide, by decide⟩
  · rfl
  · refine .envelope (f := ⟨2, foreignEnd⟩) (contents := foreignEnd) ⟨by unfold Frame.Ok; decide +kernel, .inl ⟨rfl, rfl⟩⟩
      (.connect (m := [(pys! "extra", .null), (pys! "metadata", .obj [(pys! "X-A", .arr [.str (pys! "1"), .str (pys! "2")]), (pys! "x-a", .arr [.str (pys! "3")])]),
        (pys! "error", .obj [(pys! "details", .arr [.obj [(pys! "value", .str (pys! "AQI")), (pys! "type", .str (pys! "a.B"))]]), (pys! "code", .str (pys! "not_found"))])])
        (by decide +kernel) ⟨⟨_, rfl, rfl, .inr ⟨rfl, rfl⟩, .inl ⟨_, rfl, .cons ⟨_, pys! "AQI", rfl, rfl, rfl, 1, rfl⟩ .nil⟩⟩, .inl ⟨_, rfl, ?_, ?_⟩⟩)
      (by intro n h; cases h) (by decide +kernel)
    · intro p hp
      simp only [List.mem_cons, List.not_mem_nil, or_false] at hp
      rcases hp with rfl | rfl
      · exact ⟨[pys! "1", pys! "2"], rfl⟩
      · exact ⟨[pys! "3"], rfl⟩
    · intro n
      by_cases h : lower n = pys! "x-a"
      · simp only [fieldValues, h, List.filter_cons, List.filter_nil]
        decide +kernel
      · have h1 : ¬ lower (pys! "X-A") = lower n := by intro e; exact h (e.symm.trans (by decide +kernel))
        have h2 : ¬ lower (pys! "x-a") = lower n := by intro e; exact h (e.symm.trans (by decide +kernel))
        simp [fieldValues, h1, h2]

/-- … and the client gets all of it. -/
example (f : Flavor) : Understood .connect (some .new) foreignConnect.headers [[9, 8], [5]]
    [(pys! "x-a", pys! "1"), (pys! "x-a", pys! "2"), (pys! "X-A", pys! "3")] (some foreignError)
    ((demoClient f .connect).executeServerStream protobufStatus (always default foreignConnect) (some .new) calm [1] demoMethod
      (.mapping []) none) :=
  C70_server_stream (demoClient f .connect) protobufStatus (fun h => absurd rfl h) _ _ _ _ (foreignConnect_conforming f) _ (fun _ => rfl) _
    (by intro r h; cases h; exact ⟨[], rfl⟩) calm ⟨rfl, rfl⟩ _ _ _ _

/-- What another server may send by gRPC: the status in the HTTP trailers, with `%` escapes in lower case, and no details. -/
def foreignGrpc : StreamResponse :=
  ⟨200, [(pys! "content-type", pys! "application/grpc+raw")], [[0, 0, 0, 0], [1, 7]], none,
    [(pys! "x-a", pys! "1"), (pys! "grpc-status", pys! "5"), (pys! "grpc-message", pys! "no%c3%A9"), (pys! "x-a", pys! "2")], none⟩

def foreignStatus : ConnectErr := ⟨.notFound, pys! "noé", []⟩

theorem foreignStatus_fields : StatusFields protobufStatus [(pys! "x-a", pys! "1"), (pys! "x-a", pys! "2")] (some foreignStatus)
    foreignGrpc.trailers := by
  refine ⟨?_, by decide +kernel, ?_, ?_⟩
  · intro n hn
    have h1 : ¬ lower (pys! "grpc-status") = lower n := by
      intro e; refine hn ?_; rw [← e]; decide +kernel
    have h2 : ¬ lower (pys! "grpc-message") = lower n := by
      intro e; refine hn ?_; rw [← e]; decide +kernel
    simp only [foreignGrpc, fieldValues, List.filter_cons, List.filter_nil, h1, h2, decide_false, if_false, Bool.false_eq_true]
  · intro e he; cases he
    refine .inl ⟨pys! "no%c3%A9", by decide +kernel, ?_⟩
    have : utf8Encode foreignStatus.message = [0x6e, 0x6f, 0xc3, 0xa9] := by decide +kernel
    rw [this]
    exact .plain (c := 'n') (by decide) (by decide) (.plain (c := 'o') (by decide) (by decide)
      (.escaped (h := 12) (l := 3) (by unfold HexDigit; decide) (by unfold HexDigit; decide)
        (.escaped (h := 10) (l := 9) (by unfold HexDigit; decide) (by unfold HexDigit; decide) .nil)))
  · intro e he; cases he
    exact .inr ⟨rfl, by decide +kernel⟩

/-- C70 by gRPC: the status in the trailers, after a message. -/
theorem foreignGrpc_conforming (f : Flavor) : ConformingStream (demoClient f .grpc) protobufStatus [[7]]
    [(pys! "x-a", pys! "1"), (pys! "x-a", pys! "2")] (some foreignStatus) foreignGrpc := by
  refine ⟨rfl, by decide +kernel, by decide +kernel, ⟨pys! "application/grpc+raw", by decide +kernel, .inl rfl⟩, ⟨.identity, [⟨0, [7]⟩], ?_, ?_, ?_, ?_⟩,
    rfl, rfl⟩
  · exact .inl ⟨(by decide +kernel : fieldValues foreignGrpc.headers (encodingHeader .grpc) = []), rfl⟩
  · intro f hf
    simp only [List.mem_cons, List.not_mem_nil, or_false] at hf
    subst hf; exact ⟨by unfold Frame.Ok; decide, by decide⟩
  · rfl
  · exact .trailers foreignStatus_fields (by decide +kernel)

example (f : Flavor) : Understood .grpc (some .new) foreignGrpc.headers [[7]] [(pys! "x-a", pys! "1"), (pys! "x-a", pys! "2")] (some foreignStatus)
    ((demoClient f .grpc).executeBidiStream protobufStatus (always default foreignGrpc) (some .new) calm [[1], [2]] none demoMethod
      (.mapping []) none) :=
  C70_bidi (demoClient f .grpc) protobufStatus (fun _ => protobufStatus_lawful) _ _ _ _ (foreignGrpc_conforming f) _ (fun _ => rfl) _
    (by intro r h; cases h; exact ⟨[], rfl⟩) calm ⟨rfl, rfl⟩ _ _ _ _ _

/-- C70 by gRPC and gRPC-Web: the status in the headers of a response without a body. -/
def foreignOnly : StreamResponse :=
  ⟨200, (pys! "content-type", pys! "application/grpc+raw") :: foreignGrpc.trailers, [[]], none, [], none⟩

theorem foreignOnly_conforming (f : Flavor) : ConformingStream (demoClient f .grpc) protobufStatus []
    [(pys! "content-type", pys! "application/grpc+raw"), (pys! "x-a", pys! "1"), (pys! "x-a", pys! "2")] (some foreignStatus) foreignOnly := by
  refine ⟨rfl, by decide +kernel, by decide +kernel, ⟨pys! "application/grpc+raw", by decide +kernel, .inl rfl⟩, ⟨.identity, [], ?_, by simp, rfl, ?_⟩,
    rfl, rfl⟩
  · exact .inl ⟨(by decide +kernel : fieldValues foreignOnly.headers (encodingHeader .grpc) = []), rfl⟩
  · refine .trailersOnly (p := .grpc) (by decide) ?_ rfl (by decide +kernel) (fun _ => by decide +kernel)
    obtain ⟨h1, h2, h3, h4⟩ := foreignStatus_fields
    refine ⟨?_, by decide +kernel, ?_, ?_⟩
    · intro n hn
      have := h1 n hn
      rw [show foreignOnly.headers = [(pys! "content-type", pys! "application/grpc+raw")] ++ foreignGrpc.trailers from rfl,
        fieldValues_append, this]
      exact (fieldValues_append _ _ _).symm
    · intro e he
      rcases h3 e he with ⟨v, g1, g2⟩ | ⟨g1, g2⟩
      · refine .inl ⟨v, ?_, g2⟩
        rw [← g1]; decide +kernel
      · refine .inr ⟨g1, ?_⟩
        rw [← g2]; decide +kernel
    · intro e he
      cases he
      exact .inr ⟨rfl, by decide +kernel⟩

example (f : Flavor) : UnderstoodSingle .grpc (some .new) foreignOnly.headers []
    [(pys! "content-type", pys! "application/grpc+raw"), (pys! "x-a", pys! "1"), (pys! "x-a", pys! "2")] (some foreignStatus)
    ((demoClient f .grpc).executeUnary protobufStatus (always default foreignOnly) (some .new) calm [1] demoMethod (.mapping []) none false) :=
  C70_unary_grpc (demoClient f .grpc) (by intro h; cases h) protobufStatus protobufStatus_lawful _ _ _ _ (foreignOnly_conforming f) _ (fun _ => rfl) _
    (by intro r h; cases h; exact ⟨[], rfl⟩) calm ⟨rfl, rfl⟩ _ _ _ _ _

/-- C70 by gRPC-Web: a block with no blank after the colon, or several around the value. -/
def foreignBlock : Str := pys! "grpc-status:0\r\nX-A: \t1 \r\n"

def foreignWeb : StreamResponse :=
  ⟨200, [(pys! "content-type", pys! "application/grpc-web+raw")], [[0, 0, 0, 0, 1], [7], (Frame.mk 128 (utf8Encode foreignBlock)).bytes], none, [], none⟩

theorem foreignWeb_conforming (f : Flavor) : ConformingStream (demoClient f .grpcWeb) protobufStatus [[7]] [(pys! "x-a", pys! "1")] none foreignWeb := by
  refine ⟨rfl, by decide +kernel, by decide +kernel, ⟨pys! "application/grpc-web+raw", by decide +kernel, .inl rfl⟩,
    ⟨.identity, [⟨0, [7]⟩], ?_, ?_, ?_, ?_⟩, rfl, rfl⟩
  · exact .inl ⟨(by decide +kernel : fieldValues foreignWeb.headers (encodingHeader .grpcWeb) = []), rfl⟩
  · intro f hf
    simp only [List.mem_cons, List.not_mem_nil, or_false] at hf
    subst hf; exact ⟨by unfold Frame.Ok; decide, by decide⟩
  · rfl
  · refine .envelope (p := .grpcWeb) (f := ⟨128, utf8Encode foreignBlock⟩) (contents := utf8Encode foreignBlock)
      ⟨by unfold Frame.Ok; decide +kernel, .inl ⟨rfl, rfl⟩⟩
      (.grpcWeb (fields := [(pys! "grpc-status", pys! "0"), (pys! "X-A", pys! "1")]) ?_ ⟨?_, by decide +kernel, nofun, nofun⟩)
      (by intro n h; cases h) (by decide +kernel)
    · exact .line (left := []) (right := []) ⟨by decide, by decide, by decide, by decide +kernel, by decide +kernel⟩ ⟨by decide, by decide, by decide +kernel, by decide +kernel⟩ (by simp) (by simp)
        (.line (left := pys! " \t") (right := pys! " ") ⟨by decide, by decide, by decide, by decide +kernel, by decide +kernel⟩ ⟨by decide, by decide, by decide +kernel, by decide +kernel⟩ (by decide) (by decide) .nil)
    · intro n hn
      have h1 : ¬ lower (pys! "grpc-status") = lower n := by
        intro e; refine hn ?_; rw [← e]; decide +kernel
      have h2 : lower (pys! "X-A") = lower (pys! "x-a") := by decide +kernel
      simp only [fieldValues, List.filter_cons, List.filter_nil, h1, h2, decide_false, if_false, Bool.false_eq_true]
      split <;> rfl

example (f : Flavor) : UnderstoodSingle .grpcWeb (some .new) foreignWeb.headers [[7]] [(pys! "x-a", pys! "1")] none
    ((demoClient f .grpcWeb).executeClientStream protobufStatus (always default foreignWeb) (some .new) calm [[1], []] none demoMethod (.mapping []) none) :=
  C70_client_stream (demoClient f .grpcWeb) protobufStatus (fun _ => protobufStatus_lawful) _ _ _ _ (foreignWeb_conforming f) _ (fun _ => rfl) _
    (by intro r h; cases h; exact ⟨[], rfl⟩) calm ⟨rfl, rfl⟩ _ _ _ _ _

/-- C70, unary calls by Connect: a media type with a parameter, and trailers; and an error with an unusual status. -/
example (f : Flavor) : ConformingUnary (demoClient f .connect) [1, 2]
      ⟨200, [(pys! "content-type", pys! "Application/Raw; x=y"), (pys! "trailer-x", pys! "1")], [1, 2]⟩ ∧
    ConformingError (demoClient f .connect) foreignError ⟨418, [(pys! "content-type", pys! "application/json; charset=utf-8")],
      utf8Encode (pys! " { \"details\" : [{\"value\":\"AQI=\",\"type\":\"a.B\",\"debug\":{}}],\"message\":\"\", \"code\":\"not_found\"}")⟩ := by
  refine ⟨⟨rfl, by decide +kernel, ⟨_, rfl, ?_⟩, ⟨.identity, .inl ⟨by decide +kernel, rfl⟩⟩, rfl, by intro n h; cases h⟩,
    ⟨(by show ¬ ((418 : Int) = 200); decide), by decide +kernel, ⟨_, rfl, by decide +kernel⟩, ⟨.identity, .inl ⟨by decide +kernel, rfl⟩⟩,
    [(pys! "details", .arr [.obj [(pys! "value", .str (pys! "AQI=")), (pys! "type", .str (pys! "a.B")), (pys! "debug", .obj [])]]),
      (pys! "message", .str []), (pys! "code", .str (pys! "not_found"))], by decide +kernel, rfl, .inl rfl,
      .inl ⟨_, rfl, .cons ⟨_, pys! "AQI=", rfl, rfl, rfl, 0, rfl⟩ .nil⟩⟩⟩
  show mediaType (pys! "Application/Raw; x=y") = pys! "application/raw"
  decide +kernel

end Props
