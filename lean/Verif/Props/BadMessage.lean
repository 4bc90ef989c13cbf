import Verif.Props.BadEnd
import Verif.Props.Codings
import Verif.Spec.BadMessage
/-
C101: a message of a response that cannot be accepted is reported where it stands.
-/
namespace Props
open Conn Py Spec

variable {Req Res : Type} {c : Client Req Res}

/-- the exceptions that become a ConnectError with this code and text -/
def RaisedAs (e : Exc) (code : Code) (text : List Char) : Prop :=
  (∃ ce, e = .connect ce ∧ ce.code = code ∧ text <:+: ce.message) ∨ (code = .unavailable ∧ ∃ cls, e = .other cls text ∧ Ordinarily cls)

theorem badContents_raises {contents : Bytes} {code : Code} {text : List Char} (h : BadContents c contents code text) (p : Policy Res)
    (hl : p.limit = c.readMax) (hd : p.decode = c.resCodec.decode) :
    ∃ e, (match p.checkSize contents with
      | .error e => .error e
      | .ok d => p.decode d) = Except.error e ∧ RaisedAs e code text := by
  cases h with
  | @large n hn h =>
    unfold Policy.checkSize
    rw [hl, hn]
    dsimp only
    rw [if_neg (by omega)]
    exact ⟨_, rfl, .inl ⟨_, rfl, rfl, ⟨pys! "message is larger than configured max ", [], by simp⟩⟩⟩
  | @garbled cls msg hn h ho =>
    have hs : p.checkSize contents = .ok contents := by
      unfold Policy.checkSize
      rw [hl]
      cases hq : c.readMax with
      | none => rfl
      | some n => dsimp only; rw [if_pos (hn n hq)]
    rw [hs]
    dsimp only
    rw [hd, h]
    exact ⟨_, rfl, .inr ⟨rfl, cls, rfl, ho⟩⟩

theorem holds_inflate {comp : Compression} {f : Frame} {contents : Bytes} (h : Holds comp f contents) :
    (receives c comp).inflate f = .ok contents := by
  unfold Policy.inflate
  rcases h with ⟨h, rfl⟩ | ⟨h, hc, hd⟩
  · rw [if_neg (by omega)]
  · rw [if_pos h]
    cases comp with
    | identity => exact absurd rfl hc
    | custom _ _ _ => exact hd

theorem badEnvelope_raises {comp : Compression} {f : Frame} {code : Code} {text : List Char} (h : BadEnvelope c comp f code text) :
    ∃ e, ((c.reader comp).payload f.flags f.payload = .error e ∨
      (TreatsAsData (c.reader comp) f.flags ∧ (policyOf (c.reader comp)).message f = .error e)) ∧ RaisedAs e code text := by
  rw [show (c.reader comp).payload f.flags f.payload = _ from payload_eq (c.reader comp) f, receives_eq]
  cases h with
  | unexpected hf hc =>
    subst hc
    refine ⟨.connect ⟨.internal, pys! "protocol error: sent compressed message without compression support", []⟩, .inl ?_,
      .inl ⟨_, rfl, rfl, List.nil_infix⟩⟩
    unfold Policy.inflate
    rw [if_pos hf]
    rfl
  | @spoilt cls _ hf hc h ho =>
    refine ⟨.other cls text, .inl ?_, .inr ⟨rfl, cls, rfl, ho⟩⟩
    have : (receives c comp).inflate f = .error (.other cls text) := by
      unfold Policy.inflate
      rw [if_pos hf]
      cases comp with
      | identity => exact absurd rfl hc
      | custom _ _ _ => exact h
    rw [this]
  | @large contents n hc hn h =>
    refine ⟨.connect ⟨.resourceExhausted, pys! "message is larger than configured max " ++ intStr n, []⟩, .inl ?_,
      .inl ⟨_, rfl, rfl, ⟨pys! "message is larger than configured max ", [], by simp⟩⟩⟩
    rw [holds_inflate hc]
    dsimp only
    unfold Policy.checkSize
    rw [show (receives c comp).limit = some n from hn]
    dsimp only
    rw [if_neg (by omega)]
    rfl
  | @contents contents _ _ hf hc h =>
    obtain ⟨e, h1, h2⟩ := badContents_raises h (receives c comp) rfl rfl
    refine ⟨e, .inr ⟨fun s d => by rw [client_data c comp f hf], ?_⟩, h2⟩
    unfold Policy.message
    rw [holds_inflate hc]
    exact h1

theorem inside_spoilt {sc : StatusCodec} {resp : StreamResponse} {ms : List Res} {code : Code} {text : List Char} (h : SpoiltStream c ms resp code text)
    (sink : Sink) {cs : Circumstances} (hcs : cs.cancelAfter = none) :
    (c.inside sc sink resp cs).messages = ms ∧ ∃ e, (c.inside sc sink resp cs).exc = some e ∧ RaisedAs e code text := by
  obtain ⟨comp, bad, rest, h, hbad⟩ := h
  obtain ⟨fs, hok, hms, hb⟩ := h.body
  have hcomp := h.named
  have hbok := h.nextOk
  obtain ⟨ct, hct, htype⟩ := h.type
  have henc : c.proto.requestEncodingHeader true = encodingHeader c.proto := by cases c.proto <;> rfl
  unfold Client.inside
  dsimp only
  rw [if_pos h.status, header_getD h.lower (by decide +kernel) (.inl hct), validateStream_type htype]
  dsimp only
  rw [responseCompression_named h.lower (by rw [henc]; exact hcomp)]
  dsimp only
  generalize handleResponseHeaders sink resp.headers = sink'
  obtain ⟨e, he, hr⟩ := badEnvelope_raises hbad
  obtain ⟨h1, h2⟩ := reader_fails (c.reader comp) (ClientSub.init sink') resp.chunks fs [] bad rest ms e
    (fun f hf s d => by rw [client_data c comp f (hok f hf).2]) (by rw [hb]; simp)
    (fun f hf => by
      rcases List.mem_append.1 hf with hf | hf
      · exact (hok f hf).1
      · rw [List.mem_singleton.1 hf]; exact hbok)
    (by rw [receives_eq]; exact hms) he
  unfold Client.readBody
  dsimp only
  have hcan : cancelPoint c.flavor cs.cancelAfter (feedAll (c.reader comp) (ReaderState.init (ClientSub.init sink')) resp.chunks).1.length = none := by
    rw [hcs]
    cases c.flavor <;> rfl
  rw [hcan]
  dsimp only
  rw [h2, h1]
  exact ⟨rfl, e, rfl, hr⟩

theorem bidi_spoilt {sc : StatusCodec} {resp : StreamResponse} {ms : List Res} {code : Code} {text : List Char} (h : SpoiltStream c ms resp code text)
    {http : HttpRequest → Except Exc StreamResponse} (hh : ∀ rq, http rq = .ok resp) (sink : Sink) {cs : Circumstances}
    (hcs : cs.cancelAfter = none) (ctx : RequestContext) (reqs : List Req) (srcErr : Option Exc) :
    (c.bidi sc http sink cs ctx reqs srcErr).messages = ms ∧
    ∃ e, (c.bidi sc http sink cs ctx reqs srcErr).exc = some e ∧ Blames code text e := by
  obtain ⟨hm, e, he, hr⟩ := inside_spoilt (sc := sc) h sink hcs
  unfold Client.bidi
  dsimp only
  rw [hh]
  dsimp only
  rw [show resp.exitErr = none from h.choose_spec.choose_spec.choose_spec.1.exitErr, he]
  rcases hr with ⟨ce, rfl, h1, h2⟩ | ⟨rfl, cls, rfl, ho⟩
  · have hl : leaveWith c.flavor cs (some (Exc.connect ce)) none = some (.connect ce) := by cases c.flavor <;> rfl
    rw [hl]
    exact ⟨hm, _, rfl, ce, rfl, h1, h2⟩
  · have hl : leaveWith c.flavor cs (some (Exc.other cls text)) none = some (.other cls text) := by cases c.flavor <;> rfl
    rw [hl]
    refine ⟨hm, _, rfl, ⟨.unavailable, text, []⟩, ?_, rfl, List.infix_rfl⟩
    have key : ∀ se : Option Exc, se = none → (c.mapStreamExc sc (c.inside sc sink resp cs).sink cs se (c.inside sc sink resp cs).reader (some resp)
        (.other cls text)).2 = .connect ⟨.unavailable, text, []⟩ := by
      rintro se rfl
      unfold Client.mapStreamExc Client.mapReset
      cases cls with
      | timeoutError => exact absurd rfl ho.1
      | streamError code => exact absurd rfl (ho.2 code)
      | _ => rfl
    exact key _ (by cases c.flavor <;> cases (c.inside sc sink resp cs).fromFeed <;> rfl)

/-- **C101, streams**: a streamed response with an envelope that cannot be accepted delivers the messages before it; then the caller gets a ConnectError that
tells why. A call with a single response does not return the message before it (with more than one message before it, that is what is reported). -/
theorem C101_streams (c : Client Req Res) (sc : StatusCodec) (ms : List Res) (resp : StreamResponse) (code : Code) (text : List Char)
    (h : SpoiltStream c ms resp code text) (http : HttpClient) (hh : ∀ rq, http.stream rq = .ok resp) (sink : Sink)
    (cs : Circumstances) (hcs : cs.cancelAfter = none) (req : Req) (reqs : List Req) (srcErr : Option Exc) (m : MethodInfo) (user : UserHeaders)
    (t : Option Int) (useGet : Bool) :
    ((c.executeBidiStream sc http sink cs reqs srcErr m user t).messages = ms ∧
      ∃ e, (c.executeBidiStream sc http sink cs reqs srcErr m user t).exc = some e ∧ Blames code text e) ∧
    ((c.executeServerStream sc http sink cs req m user t).messages = ms ∧
      ∃ e, (c.executeServerStream sc http sink cs req m user t).exc = some e ∧ Blames code text e) ∧
    (∃ e, (c.executeClientStream sc http sink cs reqs srcErr m user t).2 = .error e ∧
      if ms.length ≤ 1 then Blames code text e else Blames .unimplemented (pys! "multiple messages") e) ∧
    (c.proto ≠ .connect → ∃ e, (c.executeUnary sc http sink cs req m user t useGet).2 = .error e ∧
      if ms.length ≤ 1 then Blames code text e else Blames .unimplemented (pys! "multiple messages") e) := by
  have hsingle : ∀ r : StreamResult Res, (r.messages = ms ∧ ∃ e, r.exc = some e ∧ Blames code text e) →
      ∃ e, (Client.single r).2 = .error e ∧ if ms.length ≤ 1 then Blames code text e else Blames .unimplemented (pys! "multiple messages") e := by
    rintro r ⟨h1, e, h2, h3⟩
    show ∃ e, consumeSingle r = .error e ∧ _
    unfold consumeSingle
    rw [h2, h1]
    match ms with
    | [] => exact ⟨e, rfl, h3⟩
    | [_] => exact ⟨e, rfl, h3⟩
    | _ :: _ :: _ =>
      refine ⟨_, rfl, ?_⟩
      rw [if_neg (by simp)]
      exact ⟨_, rfl, rfl, ⟨pys! "unary response has ", [], rfl⟩⟩
  refine ⟨bidi_spoilt h hh sink hcs _ _ _, bidi_spoilt h hh sink hcs _ _ _, hsingle _ (bidi_spoilt h hh sink hcs _ _ _), fun hp => ?_⟩
  rw [executeUnary_grpc c hp]
  exact hsingle _ (bidi_spoilt h hh sink hcs _ _ _)

/-- **C101, unary calls by Connect**: a response that is too large or is not a message is not returned; the caller gets a ConnectError that tells why. -/
theorem C101_connect_unary (c : Client Req Res) (hp : c.proto = .connect) (sc : StatusCodec) (resp : FullResponse) (code : Code) (text : List Char)
    (h : SpoiltUnary c resp code text) (http : HttpClient) (hh : ∀ rq, http.full rq = .ok resp) (sink : Sink) (cs : Circumstances) (req : Req)
    (data : List UInt8) (hreq : c.codec.encode req = .ok data) (m : MethodInfo) (user : UserHeaders) (t : Option Int) (useGet : Bool) :
    ∃ e, (c.executeUnary sc http sink cs req m user t useGet).2 = .error e ∧ Blames code text e := by
  obtain ⟨ct, hct, hty⟩ := h.type
  obtain ⟨comp, hcomp⟩ := h.coding
  have key : ∃ e, (c.unaryResponse sink resp).2 = .error e ∧ RaisedAs e code text := by
    unfold Client.unaryResponse
    rw [h.status, header_getD h.lower (by decide +kernel) hct, (connectValidate_ok _ _).2 hty]
    dsimp only
    rw [responseCompression_named (p := .connect) (stream := false) h.lower hcomp]
    dsimp only
    rw [if_pos rfl]
    cases h.bad with
    | @large n hn hl =>
      rw [hn]
      dsimp only
      rw [if_pos hl]
      exact ⟨_, rfl, .inl ⟨_, rfl, rfl, ⟨pys! "message is larger than configured max ", [], by simp⟩⟩⟩
    | @garbled cls msg hn hd ho =>
      cases hq : c.readMax with
      | none =>
        dsimp only
        rw [hd]
        exact ⟨_, rfl, .inr ⟨rfl, cls, rfl, ho⟩⟩
      | some n =>
        dsimp only
        rw [if_neg (by have := hn n hq; omega), hd]
        exact ⟨_, rfl, .inr ⟨rfl, cls, rfl, ho⟩⟩
  obtain ⟨e, he, hr⟩ := key
  unfold Client.executeUnary
  rw [hp]
  show ∃ e, (c.connectUnary http.full sink _ req).2 = .error e ∧ _
  unfold Client.connectUnary
  rw [hreq]
  dsimp only
  rw [hh]
  dsimp only
  generalize c.unaryResponse sink resp = q at he
  obtain ⟨s, r⟩ := q
  cases he
  refine ⟨_, rfl, ?_⟩
  rcases hr with ⟨ce, rfl, h1, h2⟩ | ⟨rfl, cls, rfl, ho⟩
  · exact ⟨ce, rfl, h1, h2⟩
  · refine ⟨⟨.unavailable, text, []⟩, ?_, rfl, List.infix_rfl⟩
    cases cls with
    | timeoutError => exact absurd rfl ho.1
    | _ => rfl

/-! ### C92 on the client -/

theorem codings_ordinary (fmt : Format) {comp : Compression} (hc : comp = gzipCompression fmt ∨ comp = brotliCompression fmt) {payload : Bytes}
    {cls : Cls} {msg : Str} (h : comp.decompress payload = .error (.other cls msg)) : Ordinarily cls := by
  have key : ∃ k, cls = .custom k := by
    rcases hc with rfl | rfl
    · have : ∀ n p, gzipMembers fmt n p = .error (.other cls msg) → ∃ k, cls = .custom k := by
        intro n
        induction n with
        | zero =>
          intro p h
          cases p with
          | nil => cases h
          | cons => cases h; exact ⟨_, rfl⟩
        | succ n ih =>
          intro p h
          cases p with
          | nil => cases h
          | cons b p =>
            unfold gzipMembers at h
            cases hs : fmt.scan (b :: p) with
            | bad => rw [hs] at h; cases h; exact ⟨_, rfl⟩
            | incomplete _ => rw [hs] at h; cases h; exact ⟨_, rfl⟩
            | frame content rest =>
              rw [hs] at h
              dsimp only at h
              cases hm : gzipMembers fmt n (rest.dropWhile (· == 0)) with
              | error e => rw [hm] at h; cases h; exact ih _ hm
              | ok more => rw [hm] at h; cases h
      exact this _ _ h
    · have h : brotliDecompress fmt payload = .error (.other cls msg) := h
      unfold brotliDecompress at h
      split at h
      · cases h
      · cases h; exact ⟨_, rfl⟩
  obtain ⟨k, rfl⟩ := key
  exact ⟨fun h => (by cases h), fun _ h => (by cases h)⟩

/-- **C92, responses** (partial, see `C92_violation_response`): a message of a streamed response that is compressed with gzip and has lost its end (but not everything), or with brotli and has
lost its end or was extended, is not delivered: the caller gets the messages before it, and then UNAVAILABLE; a call with a single response gets an error. -/
theorem C92_response_partial (c : Client Req Res) (sc : StatusCodec) (ms : List Res) (resp : StreamResponse) (fmt : Format) (hfmt : Sensible fmt)
    (comp : Compression) (data : List UInt8) (bad : Frame) (rest : List UInt8) (h : StreamUpTo c comp ms bad rest resp) (hflag : bad.flags.toNat % 2 = 1)
    (hs : (comp = gzipCompression fmt ∧ CutShort comp data bad.payload ∧ bad.payload ≠ []) ∨
      (comp = brotliCompression fmt ∧ (CutShort comp data bad.payload ∨ Extended comp data bad.payload)))
    (http : HttpClient) (hh : ∀ rq, http.stream rq = .ok resp) (sink : Sink)
    (cs : Circumstances) (hcs : cs.cancelAfter = none) (req : Req) (reqs : List Req) (srcErr : Option Exc) (m : MethodInfo) (user : UserHeaders)
    (t : Option Int) :
    ((c.executeBidiStream sc http sink cs reqs srcErr m user t).messages = ms ∧
      ∃ e, (c.executeBidiStream sc http sink cs reqs srcErr m user t).exc = some e ∧ Blames .unavailable [] e) ∧
    ((c.executeServerStream sc http sink cs req m user t).messages = ms ∧
      ∃ e, (c.executeServerStream sc http sink cs req m user t).exc = some e ∧ Blames .unavailable [] e) ∧
    (∃ ce, (c.executeClientStream sc http sink cs reqs srcErr m user t).2 = .error (.connect ce)) ∧
    (c.proto ≠ .connect → ∃ ce, (c.executeUnary sc http sink cs req m user t false).2 = .error (.connect ce)) := by
  obtain ⟨cls, msg, hd⟩ := spoilt hfmt hs
  have hne : comp ≠ .identity := by
    rcases hs with ⟨rfl, _⟩ | ⟨rfl, _⟩ <;> exact fun h => by cases h
  have ho := codings_ordinary fmt (hs.imp (·.1) (·.1)) hd
  have blame : ∀ e, Blames .unavailable msg e → Blames .unavailable [] e := by
    rintro e ⟨ce, h1, h2, _⟩
    exact ⟨ce, h1, h2, List.nil_infix⟩
  have single : ∀ r : Except Exc Res, (∃ e, r = .error e ∧ if ms.length ≤ 1 then Blames .unavailable msg e else
      Blames .unimplemented (pys! "multiple messages") e) → ∃ ce, r = .error (.connect ce) := by
    rintro r ⟨e, rfl, h⟩
    split at h
    · obtain ⟨ce, rfl, _⟩ := h; exact ⟨ce, rfl⟩
    · obtain ⟨ce, rfl, _⟩ := h; exact ⟨ce, rfl⟩
  obtain ⟨⟨h1, e1, h2, h3⟩, ⟨h4, e2, h5, h6⟩, h7, h8⟩ := C101_streams c sc ms resp .unavailable msg ⟨comp, bad, rest, h, .spoilt hflag hne hd ho⟩
    http hh sink cs hcs req reqs srcErr m user t false
  exact ⟨⟨h1, e1, h2, blame _ h3⟩, ⟨h4, e2, h5, blame _ h6⟩, single _ h7, fun hp => single _ (h8 hp)⟩

/-- **C92 is violated by the clients**: of a message of a streamed response in zstd that has lost its end, a beginning is delivered, if it can be decoded as a message. -/
theorem C92_violation_response (c : Client Req Res) (sc : StatusCodec) (ms : List Res) (resp : StreamResponse) (fmt : Format) (hfmt : Sensible fmt)
    (data : List UInt8) (bad : Frame) (h : StreamUpTo c (zstdCompression fmt) ms bad [] resp) (hflag : bad.flags = 1)
    (hs : CutShort (zstdCompression fmt) data bad.payload)
    (hd : ∀ known, known <+: data → (∀ n, c.readMax = some n → (known.length : Int) ≤ n) ∧ ∃ r, c.resCodec.decode known = .ok r)
    (http : HttpClient) (hh : ∀ rq, http.stream rq = .ok resp) (sink : Sink)
    (cs : Circumstances) (hcs : cs.cancelAfter = none) (reqs : List Req) (srcErr : Option Exc) (m : MethodInfo) (user : UserHeaders) (t : Option Int) :
    ∃ known r, known <+: data ∧ c.resCodec.decode known = .ok r ∧
      (c.executeBidiStream sc http sink cs reqs srcErr m user t).messages = ms ++ [r] := by
  obtain ⟨known, hk, hz⟩ := (C92_violation_zstd fmt hfmt data bad.payload).1 hs
  obtain ⟨hl, r, hr⟩ := hd known hk
  refine ⟨known, r, hk, hr, ?_⟩
  obtain ⟨fs, hok, hms, hb⟩ := h.body
  have hmsg : (receives c (zstdCompression fmt)).message bad = .ok r := by
    unfold Policy.message
    rw [holds_inflate (contents := known) (.inr ⟨by rw [hflag]; rfl, fun h => (by cases h), hz⟩)]
    dsimp only
    unfold Policy.checkSize
    show (match (match c.readMax with | none => _ | some n => _ : Except Exc Bytes) with | .error e => _ | .ok d => c.resCodec.decode d) = _
    cases hq : c.readMax with
    | none => exact hr
    | some n => dsimp only; rw [if_pos (hl n hq)]; exact hr
  have hin : (c.inside sc sink resp cs).messages = ms ++ [r] := by
    obtain ⟨ct, hct, htype⟩ := h.type
    have henc : c.proto.requestEncodingHeader true = encodingHeader c.proto := by cases c.proto <;> rfl
    unfold Client.inside
    dsimp only
    rw [if_pos h.status, header_getD h.lower (by decide +kernel) (.inl hct), validateStream_type htype]
    dsimp only
    rw [responseCompression_named h.lower (by rw [henc]; exact h.named)]
    dsimp only
    generalize handleResponseHeaders sink resp.headers = sink'
    have hflags : ∀ f ∈ fs ++ [bad], f.Ok ∧ (f.flags = 0 ∨ f.flags = 1) := by
      intro f hf
      rcases List.mem_append.1 hf with hf | hf
      · exact hok f hf
      · rw [List.mem_singleton.1 hf]; exact ⟨h.nextOk, .inr hflag⟩
    obtain ⟨h1, h2, h3⟩ := feedAll_messages (c.reader (zstdCompression fmt)) (passOf c) (ClientSub.init sink') (fs ++ [bad]) (ms ++ [r]) resp.chunks
      (fun f hf => (hflags f hf).1) (fun f hf s d => client_data c _ f (hflags f hf).2 s d)
      (by rw [receives_eq, List.map_append, List.map_append, hms, List.map_singleton, hmsg]; rfl) (by rw [hb]; simp)
    unfold Client.readBody
    dsimp only
    have hcan : cancelPoint c.flavor cs.cancelAfter
        (feedAll (c.reader (zstdCompression fmt)) (ReaderState.init (ClientSub.init sink')) resp.chunks).1.length = none := by
      rw [hcs]
      cases c.flavor <;> rfl
    rw [hcan]
    dsimp only
    rw [h2, h1]
    dsimp only
    repeat' split
    all_goals rfl
  show (c.bidi sc http.stream sink cs _ reqs srcErr).messages = _
  unfold Client.bidi
  dsimp only
  rw [hh]
  dsimp only
  split
  · exact hin
  · exact hin

/-! ### concrete cases -/

/-- a client that knows the three compressions, with a limit of 9 bytes -/
def codingClient (f : Flavor) (p : Proto) : Client Bytes Bytes :=
  Client.new f (pys! "http://h") rawCodec rawCodec p flipComp
    (some [zstdCompression plainFormat, gzipCompression plainFormat, brotliCompression plainFormat]) none none (some 9) (pys! "ua")

theorem coding_upTo (f : Flavor) (enc : Str) (comp : Compression) (next : Frame) (hn : next.Ok) (rest : Bytes) (chunks : List Bytes)
    (hc : Dict.get? (codingClient f .connect).comps enc = some comp) (he : enc ≠ []) (hb : chunks.flatten = [0, 0, 0, 0, 1, 7] ++ next.bytes ++ rest) :
    StreamUpTo (codingClient f .connect) comp [[7]] next rest
      ⟨200, [(pys! "content-type", pys! "application/connect+raw"), (pys! "connect-content-encoding", enc)], chunks, none, [], none⟩ where
  status := rfl
  lower := by
    intro q hq
    simp only [List.mem_cons, List.not_mem_nil, or_false] at hq
    rcases hq with rfl | rfl
    · show Py.lower (pys! "content-type") = pys! "content-type"; decide +kernel
    · show Py.lower (pys! "connect-content-encoding") = pys! "connect-content-encoding"; decide +kernel
  type := ⟨pys! "application/connect+raw", rfl, rfl⟩
  named := .inr ⟨enc, rfl, he, hc⟩
  body := ⟨[⟨0, [7]⟩], by simp [Frame.Ok], by cases comp <;> cases f <;> rfl, hb⟩
  nextOk := hn
  exitErr := rfl

/-- a message, then: one in gzip that was cut; one that is too large; a last envelope that is too large; one in zstd that was cut -/
example (f : Flavor) (rest : Bytes) :
    SpoiltStream (codingClient f .connect) [[7]]
      ⟨200, [(pys! "content-type", pys! "application/connect+raw"), (pys! "connect-content-encoding", pys! "gzip")],
        [[0, 0, 0, 0, 1], [7, 1, 0, 0, 0, 3, 1, 7, 1] ++ rest], none, [], none⟩
      .unavailable (pys! "Compressed file ended before the end-of-stream marker was reached") ∧
    CutShort (gzipCompression plainFormat) [7, 8] [1, 7, 1] ∧
    SpoiltStream (codingClient f .connect) [[7]]
      ⟨200, [(pys! "content-type", pys! "application/connect+raw"), (pys! "connect-content-encoding", pys! "gzip")],
        [[0, 0, 0, 0, 1], [7, 2, 0, 0, 0, 10, 1, 2, 3, 4, 5, 6, 7, 8, 9, 10] ++ rest], none, [], none⟩ .resourceExhausted (intStr 9) :=
  ⟨⟨gzipCompression plainFormat, ⟨1, [1, 7, 1]⟩, rest, coding_upTo f _ _ _ (by simp [Frame.Ok]) _ _ (by cases f <;> rfl) (by decide) (by simp [Frame.bytes]),
    .spoilt rfl (fun h => by cases h) (cls := .custom 1) rfl ⟨fun h => (by cases h), fun _ h => (by cases h)⟩⟩, ⟨by decide +kernel, by decide +kernel⟩,
   ⟨gzipCompression plainFormat, ⟨2, [1, 2, 3, 4, 5, 6, 7, 8, 9, 10]⟩, rest,
    coding_upTo f _ _ _ (by simp [Frame.Ok]) _ _ (by cases f <;> rfl) (by decide) (by simp [Frame.bytes]),
    .large (n := 9) (contents := [1, 2, 3, 4, 5, 6, 7, 8, 9, 10]) (.inl ⟨rfl, rfl⟩) rfl (by decide)⟩⟩

/-- a compressed message in a response that names no compression -/
example (f : Flavor) (p : Proto) : BadEnvelope (demoClient f p) .identity ⟨1, [7]⟩ .internal [] := .unexpected rfl rfl

/-- in zstd, a message of two bytes that was cut: one byte is delivered -/
example (f : Flavor) : StreamUpTo (codingClient f .connect) (zstdCompression plainFormat) [[7]] ⟨1, [1, 7, 1]⟩ []
      ⟨200, [(pys! "content-type", pys! "application/connect+raw"), (pys! "connect-content-encoding", pys! "zstd")],
        [[0, 0, 0, 0, 1], [7, 1, 0, 0, 0, 3, 1, 7, 1]], none, [], none⟩ ∧
    CutShort (zstdCompression plainFormat) [7, 8] [1, 7, 1] ∧
    ((codingClient f .connect).executeBidiStream demoStatus ⟨fun _ => .error .cancelled, fun _ => .ok
      ⟨200, [(pys! "content-type", pys! "application/connect+raw"), (pys! "connect-content-encoding", pys! "zstd")],
        [[0, 0, 0, 0, 1], [7, 1, 0, 0, 0, 3, 1, 7, 1]], none, [], none⟩⟩ none calm [] none demoMethod .none none).messages = [[7], [7]] :=
  ⟨coding_upTo f _ _ _ (by simp [Frame.Ok]) _ _ (by cases f <;> rfl) (by decide) (by decide +kernel), ⟨by decide +kernel, by decide +kernel⟩,
    by cases f <;> decide +kernel⟩

/-- a unary response that is too large -/
example (f : Flavor) : SpoiltUnary (codingClient f .connect) ⟨200, [(pys! "content-type", pys! "application/raw")], [1, 2, 3, 4, 5, 6, 7, 8, 9, 10]⟩
    .resourceExhausted (intStr 9) where
  status := rfl
  lower := by decide +kernel
  type := ⟨pys! "application/raw", .inl (by decide +kernel), by cases f <;> decide +kernel⟩
  coding := ⟨.identity, .inl ⟨by decide +kernel, rfl⟩⟩
  bad := .large (n := 9) rfl (show (9 : Int) < ([1, 2, 3, 4, 5, 6, 7, 8, 9, 10] : Bytes).length by decide)

end Props
