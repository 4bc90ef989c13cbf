import Verif.Proofs.Conforming
import Verif.Spec.Rejected
/-
Lemmas for C75: what the client makes of responses that are not of its protocol.
-/
namespace Conn
open Py Spec Props

theorem header_getD {headers : HTTPHeaders} (hlow : ∀ p ∈ headers, lower p.1 = p.1) {name v : Str} (hn : lower name = name)
    (h : Header headers name v) : headers.getD name [] = v := by
  unfold HTTPHeaders.getD
  have : headers.get name = (fieldValues headers name).head? := by
    rw [http_get_eq _ hlow]
  rw [this]
  rcases h with h | ⟨h, rfl⟩ <;> rw [h] <;> rfl

theorem badContentType_blames (code : Code) (ct expecting : Str) : Blames code ct (badContentType code ct expecting) :=
  ⟨_, rfl, rfl, ⟨pys! "invalid content-type: '", pys! "'; expecting '" ++ expecting ++ pys! "'", by simp⟩⟩

theorem fromHttpStatus_error (status : Int) : ErrorOfStatus status (.connect (ConnectErr.fromHttpStatus status)) := by
  refine ⟨_, rfl, codeOfHttpStatus_spec status, rfl, ?_, ?_⟩
  · intro r hr
    have key : ∀ q ∈ reasons, (ConnectErr.fromHttpStatus q.1).message = q.2 := by decide +kernel
    exact key _ hr
  · intro hr
    unfold ConnectErr.fromHttpStatus
    dsimp only
    cases h : httpPhrases.get? status with
    | some p =>
      have key : ∀ q ∈ httpPhrases, q ∈ reasons := by decide +kernel
      exact absurd (key _ (Dict.get?_some_mem h)) (hr p)
    | none =>
      dsimp only
      rw [if_neg]
      rintro rfl
      exact hr (pys! "Client Closed Request") (by decide +kernel)

theorem fromResponse_status {status : Int} {body : Bytes} (h : ∀ m, loadsBytes body ≠ some (.obj m)) :
    ConnectErr.fromResponse status body = .ok (ConnectErr.fromHttpStatus status) := by
  unfold ConnectErr.fromResponse
  split
  · rename_i m hm; exact absurd hm (h m)
  · rfl

theorem prefix_drop {pre ct : Str} (h : startsWith pre ct = true) : ct = pre ++ ct.drop pre.length := by
  unfold startsWith at h
  rw [List.isPrefixOf_iff_prefix] at h
  obtain ⟨t, rfl⟩ := h
  rw [List.drop_left]

theorem startsWith_prefix {pre ct : Str} : startsWith pre ct = true ↔ pre <+: ct := List.isPrefixOf_iff_prefix

/-- any content type that is not of the protocol -/
theorem validateStream_alien (p : Proto) (n ct : Str) (h : ¬ StreamType p ct) : ∃ e, p.validateStream n ct = some e ∧ Blames .unknown ct e := by
  cases p with
  | connect =>
    have hs : ¬ startsWith (pys! "application/connect+") ct = true := fun hx => h (startsWith_prefix.1 hx)
    refine ⟨badContentType .unknown ct (pys! "application/connect+" ++ n), ?_, badContentType_blames ..⟩
    show connectValidateStream n ct = _
    unfold connectValidateStream
    dsimp only
    rw [if_pos hs]
  | grpc =>
    have hs : ¬ (ct = pys! "application/grpc" ∨ startsWith (pys! "application/grpc+") ct = true) :=
      fun hx => h (hx.imp id startsWith_prefix.1)
    refine ⟨badContentType .unknown ct (pys! "application/grpc+" ++ n), ?_, badContentType_blames ..⟩
    show grpcValidateStream (pys! "application/grpc") (pys! "application/grpc+") n ct = _
    unfold grpcValidateStream
    rw [if_pos hs]
  | grpcWeb =>
    have hs : ¬ (ct = pys! "application/grpc-web" ∨ startsWith (pys! "application/grpc-web+") ct = true) :=
      fun hx => h (hx.imp id startsWith_prefix.1)
    refine ⟨badContentType .unknown ct (pys! "application/grpc-web+" ++ n), ?_, badContentType_blames ..⟩
    show grpcValidateStream (pys! "application/grpc-web") (pys! "application/grpc-web+") n ct = _
    unfold grpcValidateStream
    rw [if_pos hs]

theorem grpcValidate_codec {dflt pre n ct : Str} (hd : startsWith pre dflt = false) (h : ct = dflt ∨ pre <+: ct)
    (hn : ¬ (ct = pre ++ n ∨ (n = pys! "proto" ∧ ct = dflt))) :
    grpcValidateStream dflt pre n ct = some (badContentType .internal ct (pre ++ n)) := by
  have hs : ct = dflt ∨ startsWith pre ct = true := h.imp id startsWith_prefix.2
  unfold grpcValidateStream
  dsimp only
  rw [if_neg (fun hx => hx hs)]
  refine if_pos ?_
  intro he
  apply hn
  by_cases hp : startsWith pre ct = true
  · rw [if_pos hp] at he
    left
    rw [← he]; exact prefix_drop hp
  · rw [if_neg hp] at he
    rcases hs with hs | hs
    · exact .inr ⟨he.symm, hs⟩
    · exact absurd hs hp

/-- any content type of another codec -/
theorem validateStream_codec (p : Proto) (n ct : Str) (h : StreamType p ct) (hn : ¬ StreamedType p n ct) :
    ∃ e, p.validateStream n ct = some e ∧ Blames .internal ct e := by
  cases p with
  | connect =>
    have hs : startsWith (pys! "application/connect+") ct = true := startsWith_prefix.2 h
    refine ⟨badContentType .internal ct (pys! "application/connect+" ++ n), ?_, badContentType_blames ..⟩
    show connectValidateStream n ct = _
    unfold connectValidateStream
    dsimp only
    rw [if_neg (fun hx => hx hs), if_pos]
    intro he
    apply hn
    show ct = _
    rw [← he]
    exact prefix_drop hs
  | grpc => exact ⟨_, grpcValidate_codec (by decide +kernel) h hn, badContentType_blames ..⟩
  | grpcWeb => exact ⟨_, grpcValidate_codec (by decide +kernel) h hn, badContentType_blames ..⟩

/-- any unknown compression -/
theorem responseCompression_unknown {p : Proto} {headers : HTTPHeaders} (hlow : ∀ p ∈ headers, lower p.1 = p.1)
    {comps : Dict Str Compression} {stream : Bool} {enc : Str} (he : fieldValues headers (p.requestEncodingHeader stream) = [enc])
    (h0 : enc ≠ []) (hk : Dict.get? comps enc = none) :
    ∃ e, p.responseCompression headers comps stream = .error e ∧ Blames .internal enc e := by
  refine ⟨.mk .internal (pys! "unknown encoding '" ++ enc ++ pys! "'; accepted encodings are " ++ join (pys! ", ") comps.keys), ?_,
    _, rfl, rfl, ⟨pys! "unknown encoding '", pys! "'; accepted encodings are " ++ join (pys! ", ") comps.keys, by simp⟩⟩
  unfold Proto.responseCompression
  rw [http_get_eq _ hlow, he]
  dsimp only [List.head?]
  rw [if_neg (by simpa using h0), hk]

section
variable {Req Res : Type} {c : Client Req Res} {sc : StatusCodec} {resp : StreamResponse}

theorem inside_misfit (hst : resp.status = 200) (hlow : ∀ p ∈ resp.headers, lower p.1 = p.1) {code : Code} {culprit : Str}
    (h : StreamMisfit c resp.headers code culprit) (sink : Sink) (cs : Circumstances) :
    ∃ e, (c.inside sc sink resp cs).messages = [] ∧ (c.inside sc sink resp cs).exc = some e ∧ Blames code culprit e := by
  have henc : c.proto.requestEncodingHeader true = encodingHeader c.proto := by cases c.proto <;> rfl
  unfold Client.inside
  dsimp only
  rw [if_pos hst]
  cases h with
  | type hc ht =>
    obtain ⟨e, h1, h2⟩ := validateStream_alien c.proto c.codec.name _ ht
    rw [header_getD hlow (by decide +kernel) hc, h1]
    exact ⟨e, rfl, rfl, h2⟩
  | codec hc ht hn =>
    obtain ⟨e, h1, h2⟩ := validateStream_codec c.proto c.codec.name _ ht hn
    rw [header_getD hlow (by decide +kernel) hc, h1]
    exact ⟨e, rfl, rfl, h2⟩
  | encoding hc ht he h0 hk =>
    obtain ⟨e, h1, h2⟩ := responseCompression_unknown (p := c.proto) (stream := true) hlow (by rw [henc]; exact he) h0 hk
    rw [header_getD hlow (by decide +kernel) hc, validateStream_type ht, h1]
    exact ⟨e, rfl, rfl, h2⟩

/-- messages in any envelopes, and a part of another one -/
theorem feedAll_cut {M σ : Type} (c : ReaderCfg M σ) (pass : σ → σ) (sub : σ) (fs : List Frame) (rest : Bytes) (ms : List M) (chunks : List Bytes)
    (hdata : ∀ f ∈ fs, ∀ s d, c.handleEnd s f.flags d = (pass s, .ok false))
    (hm : fs.map (policyOf c).message = ms.map .ok) (hsp : Splits chunks.flatten fs rest) :
    (feedAll c (.init sub) chunks).1 = ms ∧ (feedAll c (.init sub) chunks).2.1 = .done ∧
    (feedAll c (.init sub) chunks).2.2.sub = passes pass fs.length sub := by
  have hrun := frameRun_messages c pass fs ms hdata hm sub
  obtain ⟨h1, h2, h3⟩ := feedAll_splits c (.init sub) (by intro n h; cases h) chunks hsp
    (fun _ => incomplete_of_lt_five (by show 0 < 5; decide)) (by
      intro h
      rw [show (ReaderState.init sub).sub = sub from rfl, hrun] at h
      cases h)
  rw [show (ReaderState.init sub).sub = sub from rfl, hrun] at h1 h2 h3
  exact ⟨h1, h2, h3⟩

theorem grpcComplete_missing (sc : StatusCodec) (s : ClientSub) {headers trailers : HTTPHeaders} (hh : headers.get (pys! "grpc-status") = none)
    (ht : trailers.get (pys! "grpc-status") = none) : (grpcComplete sc s headers trailers none).2 = some missingStatus := by
  unfold grpcComplete
  rw [ht]
  dsimp only
  by_cases hr : s.readMessage = true
  · rw [if_pos hr]; rfl
  · rw [if_neg hr, hh]; rfl

theorem inside_cut {ms : List Res} (hp : c.proto ≠ .connect) (h : CutStream c ms resp) (sink : Sink) {cs : Circumstances} (hcs : Calm cs) :
    (c.inside sc sink resp cs).messages = ms ∧ (c.inside sc sink resp cs).exc = some missingStatus := by
  obtain ⟨comp, fs, rest, hcomp, hsp, hflags, hms⟩ := h.body
  obtain ⟨ct, hct, htype⟩ := h.type
  have henc : c.proto.requestEncodingHeader true = encodingHeader c.proto := by cases c.proto <;> rfl
  have hcan : ∀ n, cancelPoint c.flavor cs.cancelAfter n = none := by
    intro n
    rw [hcs.2]
    cases c.flavor <;> rfl
  have hn : resp.headers.get (pys! "grpc-status") = none := by rw [http_get_eq _ h.lower, h.noStatus.1]; rfl
  unfold Client.inside
  dsimp only
  rw [if_pos h.status, header_getD h.lower (by decide +kernel) (.inl hct), validateStream_type htype]
  dsimp only
  rw [responseCompression_named h.lower (by rw [henc]; exact hcomp)]
  dsimp only
  have hdata : ∀ f ∈ fs, ∀ s d, (c.reader comp).handleEnd s f.flags d = (passOf c s, .ok false) :=
    fun f hf s d => client_data c comp f (hflags f hf) s d
  obtain ⟨h1, h2, h3⟩ := feedAll_cut (c.reader comp) (passOf c) (ClientSub.init (handleResponseHeaders sink resp.headers)) fs rest ms resp.chunks
    hdata (by rw [receives_eq]; exact hms) hsp
  unfold Client.readBody
  dsimp only
  rw [hcan]
  dsimp only
  rw [h2, h1, h3, h.bodyErr]
  dsimp only
  rw [if_neg (by rw [hcs.1]; simp)]
  refine ⟨rfl, ?_⟩
  dsimp only
  cases hpr : c.proto with
  | connect => exact absurd hpr hp
  | grpc => exact grpcComplete_missing sc _ hn (by rw [http_get_eq _ h.trailersLower, h.noStatus.2 hpr]; rfl)
  | grpcWeb =>
    refine grpcComplete_missing sc _ hn ?_
    rw [(passes_sink c fs.length _).2]
    rfl

/-- a response without a status -/
theorem bidi_cut {ms : List Res} (hp : c.proto ≠ .connect) (h : CutStream c ms resp) {http : HttpRequest → Except Exc StreamResponse}
    (hh : ∀ rq, http rq = .ok resp) (sink : Sink) {cs : Circumstances} (hcs : Calm cs) (ctx : RequestContext) (reqs : List Req)
    (srcErr : Option Exc) :
    (c.bidi sc http sink cs ctx reqs srcErr).messages = ms ∧ (c.bidi sc http sink cs ctx reqs srcErr).exc = some missingStatus := by
  obtain ⟨hm, he⟩ := inside_cut (sc := sc) hp h sink hcs
  have hl : leaveWith c.flavor cs (some missingStatus) none = some missingStatus := by cases c.flavor <;> rfl
  unfold Client.bidi
  dsimp only
  rw [hh]
  dsimp only
  rw [h.exitErr, he, hl]
  exact ⟨hm, rfl⟩

theorem inside_status (hst : resp.status ≠ 200) (hb : resp.bodyErr = none) (hj : ∀ m, loadsBytes resp.chunks.flatten ≠ some (.obj m))
    (sink : Sink) (cs : Circumstances) :
    (c.inside sc sink resp cs).messages = [] ∧ (c.inside sc sink resp cs).exc = some (.connect (ConnectErr.fromHttpStatus resp.status)) := by
  unfold Client.inside
  dsimp only
  rw [if_neg hst, hb, fromResponse_status hj]
  exact ⟨rfl, rfl⟩

/-- an error found before the body is read reaches the caller -/
theorem bidi_inside_error {http : HttpRequest → Except Exc StreamResponse} (hh : ∀ rq, http rq = .ok resp) {sink : Sink} {cs : Circumstances}
    {ce : ConnectErr} (hm : (c.inside sc sink resp cs).messages = []) (he : (c.inside sc sink resp cs).exc = some (.connect ce))
    (hx : resp.exitErr = none) (ctx : RequestContext) (reqs : List Req) (srcErr : Option Exc) :
    (c.bidi sc http sink cs ctx reqs srcErr).messages = [] ∧ (c.bidi sc http sink cs ctx reqs srcErr).exc = some (.connect ce) := by
  have hl : leaveWith c.flavor cs (some (Exc.connect ce)) none = some (.connect ce) := by cases c.flavor <;> rfl
  unfold Client.bidi
  dsimp only
  rw [hh]
  dsimp only
  rw [hx, he, hl]
  exact ⟨hm, rfl⟩

theorem consumeSingle_error {r : StreamResult Res} {e : Exc} (hm : r.messages = []) (he : r.exc = some e) : consumeSingle r = .error e := by
  unfold consumeSingle
  rw [hm, he]

theorem unaryResponse_misfit {resp : FullResponse} (hst : resp.status = 200) (hlow : ∀ p ∈ resp.headers, lower p.1 = p.1) {code : Code}
    {culprit : Str} (h : UnaryMisfit c resp.headers code culprit) (sink : Sink) :
    ∃ ce, (c.unaryResponse sink resp).2 = .error (.connect ce) ∧ Blames code culprit (.connect ce) := by
  have hval : ∀ ct : Str, connectValidateResponse c.codec.name 200 ct =
      if ¬ startsWith (pys! "application/") (mediaType ct) then some (badContentType .unknown (mediaType ct) (pys! "application/" ++ c.codec.name))
      else if connectCodecName (mediaType ct) false = c.codec.name then none
      else some (badContentType .internal (mediaType ct) (pys! "application/" ++ c.codec.name)) := by
    intro ct
    unfold connectValidateResponse
    dsimp only
    rw [if_neg (by simp)]
    rfl
  unfold Client.unaryResponse
  rw [hst]
  cases h with
  | @type ct hc ht =>
    rw [header_getD hlow (by decide +kernel) hc, hval, if_pos (fun hx => ht (startsWith_prefix.1 hx))]
    exact ⟨_, rfl, badContentType_blames ..⟩
  | @codec ct hc ht hn =>
    have hv : connectValidateResponse c.codec.name 200 ct ≠ none := fun hx => hn ((connectValidate_ok _ _).1 hx)
    rw [header_getD hlow (by decide +kernel) hc]
    rw [hval, if_neg (fun hx => hx (startsWith_prefix.2 ht))] at hv ⊢
    rw [if_neg (fun hx => hv (if_pos hx))]
    exact ⟨_, rfl, badContentType_blames ..⟩
  | @encoding ct enc hc ht he h0 hk =>
    obtain ⟨e, h1, ce, rfl, h2⟩ := responseCompression_unknown (p := .connect) (stream := false) hlow he h0 hk
    rw [header_getD hlow (by decide +kernel) hc, (connectValidate_ok _ _).2 ht, h1]
    exact ⟨ce, rfl, ce, rfl, h2⟩

theorem unaryResponse_status {resp : FullResponse} (hst : resp.status ≠ 200) (hlow : ∀ p ∈ resp.headers, lower p.1 = p.1) {ct : Str}
    (hc : Header resp.headers (pys! "content-type") ct)
    (h : mediaType ct ≠ pys! "application/json" ∨
      ((∃ comp, Named c.comps resp.headers (pys! "content-encoding") comp) ∧ ∀ m, loadsBytes resp.content ≠ some (.obj m)))
    (sink : Sink) : (c.unaryResponse sink resp).2 = .error (.connect (ConnectErr.fromHttpStatus resp.status)) := by
  unfold Client.unaryResponse
  rw [header_getD hlow (by decide +kernel) hc]
  by_cases hj : mediaType ct = pys! "application/json"
  · obtain ⟨⟨comp, hcomp⟩, hb⟩ := h.resolve_left (fun hx => hx hj)
    have hv : connectValidateResponse c.codec.name resp.status ct = none := by
      unfold connectValidateResponse
      dsimp only
      rw [if_pos hst, show normalizeContentType ct = mediaType ct from rfl, if_pos hj]
    rw [hv]
    dsimp only
    rw [responseCompression_named (p := .connect) (stream := false) hlow hcomp]
    dsimp only
    rw [if_neg hst, fromResponse_status hb]
  · have hv : connectValidateResponse c.codec.name resp.status ct = some (.connect (ConnectErr.fromHttpStatus resp.status)) := by
      unfold connectValidateResponse
      dsimp only
      rw [if_pos hst, show normalizeContentType ct = mediaType ct from rfl, if_neg hj]
    rw [hv]

theorem connectUnary_response {resp : FullResponse} {http : HttpRequest → Except Exc FullResponse} (hh : ∀ rq, http rq = .ok resp) {req : Req}
    (hreq : ∃ data, c.codec.encode req = .ok data) {sink : Sink} {ce : ConnectErr} (h : (c.unaryResponse sink resp).2 = .error (.connect ce))
    (ctx : RequestContext) : (c.connectUnary http sink ctx req).2 = .error (.connect ce) := by
  obtain ⟨data, hreq⟩ := hreq
  unfold Client.connectUnary
  dsimp only
  rw [hreq]
  dsimp only
  rw [hh]
  dsimp only
  generalize hr : c.unaryResponse sink resp = r at h
  obtain ⟨s, r⟩ := r
  cases r with
  | ok m => cases h
  | error e => cases h; rfl

end

end Conn
