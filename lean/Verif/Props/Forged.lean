import Verif.Props.Always
import Verif.Props.StreamEndToEnd
import Verif.Props.Errors
import Verif.Props.Negotiate
import Verif.Props.Protocol
/-
More of the properties the code breaks, in all cases of a kind: C21 for errors without details, C27 for codecs with the names of protocols, C55 for IPv6
addresses and for URLs with a path, C59 for long timeouts.
-/
namespace Props
open Conn Py Spec

variable {Req Res M : Type}

/-! ### C21 -/

/-- **C21 is false of every error without message and details**: the client shows whatever text the handler has put in `grpc-message`. -/
theorem C21_violation_message_all (w : EnvelopeWriter M) (sc : StatusCodec) (code : Code) (user : Headers) (hu : Built user) (text : List Char)
    (rest : List (List Char)) (hm : user.getall (pys! "grpc-message") = quote text :: rest)
    (hd : user.getall (pys! "grpc-status-details-bin") = []) (h : Headers)
    (hend : w.end' .grpc sc user (some ⟨code, [], []⟩) = .ok (.trailers h)) (s : ClientSub) (status : Int) (rh : HTTPHeaders) :
    (Proto.grpc.complete sc s ⟨status, rh, h.allitems⟩ none).2 = some (.connect ⟨code, text, []⟩) := by
  have hh : h = grpcTrailers sc user (some ⟨code, [], []⟩) := by
    have : w.end' .grpc sc user (some ⟨code, [], []⟩) = .ok (.trailers (grpcTrailers sc user (some ⟨code, [], []⟩))) := rfl
    rw [this] at hend
    cases hend; rfl
  subst hh
  show (grpcComplete sc s rh (grpcTrailers sc user (some ⟨code, [], []⟩)).allitems none).2 = _
  unfold grpcComplete
  rw [get_status sc user hu.inv]
  dsimp only
  have h1 : HTTPHeaders.get (grpcTrailers sc user (some ⟨code, [], []⟩)).allitems (pys! "grpc-status-details-bin") = none := by
    rw [grpcTrailers_get sc user hu.inv, if_neg (fun h => h.2 rfl), if_neg (fun h => h.2 rfl), if_neg (by decide +kernel), hd]; rfl
  have h2 : HTTPHeaders.get (grpcTrailers sc user (some ⟨code, [], []⟩)).allitems (pys! "grpc-message") = some (quote text) := by
    rw [grpcTrailers_get sc user hu.inv, if_neg (fun h => h.2 rfl), if_neg (fun h => h.2 rfl), if_neg (by decide +kernel), hm]; rfl
  unfold errorOfTrailers
  rw [if_neg (grpcStatus_ne_zero _), h1]
  dsimp only [HTTPHeaders.getD]
  rw [h2]
  show some (Exc.connect ⟨codeOfGrpcStatus code.grpcStatus, unquote (quote text), []⟩) = _
  rw [codeOfGrpcStatus_roundtrip, unquote_quote]

/-- **C21 is false of every error without details**: it passes for any other error with details — code, message and details —, if the handler has set
`grpc-status-details-bin` to what stands for that one. -/
theorem C21_violation_code_all (w : EnvelopeWriter M) (sc : StatusCodec) (hsc : sc.Lawful) (e forged : ConnectErr) (he : e.details = [])
    (hfit : FitsProtobuf forged) (hdet : forged.details ≠ []) (user : Headers) (hu : Built user) (rest : List (List Char))
    (hd : user.getall (pys! "grpc-status-details-bin") = rstripChar '=' (b64encode (sc.toBinary forged.toStatus)) :: rest) (h : Headers)
    (hend : w.end' .grpc sc user (some e) = .ok (.trailers h)) (s : ClientSub) (status : Int) (rh : HTTPHeaders) :
    ∃ e', (Proto.grpc.complete sc s ⟨status, rh, h.allitems⟩ none).2 = some (.connect e') ∧ SameError forged e' := by
  have hh : h = grpcTrailers sc user (some e) := by
    have : w.end' .grpc sc user (some e) = .ok (.trailers (grpcTrailers sc user (some e))) := rfl
    rw [this] at hend
    cases hend; rfl
  subst hh
  have h1 : HTTPHeaders.get (grpcTrailers sc user (some e)).allitems (pys! "grpc-status-details-bin") =
      if forged.details = [] then none else some (rstripChar '=' (b64encode (sc.toBinary forged.toStatus))) := by
    rw [grpcTrailers_get sc user hu.inv, if_neg (fun h => h.2 he), if_neg (fun h => absurd h.1 (by decide +kernel)), if_neg (by decide +kernel),
      hd, if_neg hdet]
    rfl
  obtain ⟨e', h2, h3, h4, h5, h6⟩ := errorOfTrailers_get sc hsc (grpcTrailers sc user (some e)).allitems forged (fits_ok hfit)
    (fun h => absurd h hdet) h1
  refine ⟨e', ?_, h3, h4, h5, h6⟩
  show (grpcComplete sc s rh (grpcTrailers sc user (some e)).allitems none).2 = _
  unfold grpcComplete
  rw [get_status sc user hu.inv]
  dsimp only
  rw [← h2]
  rw [if_neg hdet] at h1
  unfold errorOfTrailers
  rw [if_neg (grpcStatus_ne_zero _), if_neg (grpcStatus_ne_zero _), h1]
  dsimp only
  have hb : sc.toBinary forged.toStatus ≠ [] := by
    intro h0
    have h1 := hsc.roundtrip _ (fits_ok hfit)
    rw [h0, hsc.empty] at h1
    have := (congrArg Status.details (Except.ok.inj h1)).symm
    unfold ConnectErr.toStatus at this
    simp at this
    exact hdet this
  rw [b64_unpadded_ne_nil hb, if_neg (by simp), b64decode_unpadded]
  dsimp only
  rw [hsc.roundtrip _ (fits_ok hfit), if_neg (by simp)]

/-! ### C27 -/

/-- **C27 is false of exactly these codecs**: a unary Connect call is served by another protocol if and only if the name of its codec is `grpc` or
`grpc-web`, or begins with `grpc+` or `grpc-web+`. -/
theorem C27_violation_codec_name_all (ua : Str) (user : UserHeaders) (t : Option Int) (codec : List Char) (accept : Str)
    (send : Option Compression) :
    negotiateServerProtocol ((Proto.connect.clientHeaders ua user t codec false accept send).getD (pys! "content-type") []) ≠ .connect ↔
      ∃ w ∈ [pys! "grpc", pys! "grpc-web"], codec = w ∨ (w ++ ['+']) <+: codec := by
  constructor
  · intro h
    apply Classical.byContradiction
    intro hn
    refine h (C27_client_protocol_partial .connect ua user t codec false accept send fun _ _ w hw => ⟨fun e => hn ⟨w, hw, .inl e⟩, fun e => hn ⟨w, hw, .inr e⟩⟩)
  · rintro ⟨w, hw, h⟩
    rw [client_content_type]
    obtain ⟨_, _, h3⟩ := C27_content_type_decides (Proto.connect.requestContentType false codec)
    intro hc
    obtain ⟨n1, n2⟩ := h3.1 hc
    simp only [List.mem_cons, List.not_mem_nil, or_false] at hw
    rcases hw with rfl | rfl
    · rcases h with rfl | ⟨r, rfl⟩
      · exact n1 (.inl rfl)
      · exact n1 (.inr ⟨r, rfl⟩)
    · rcases h with rfl | ⟨r, rfl⟩
      · exact n2 (.inl rfl)
      · exact n2 (.inr ⟨r, rfl⟩)

/-! ### C55 -/

theorem hostPort_no_slash {s : List Char} (h : HostPort s) : '/' ∉ s := by
  obtain ⟨a, p, rfl, _, ha, _, hp, _⟩ := h
  intro hm
  rcases List.mem_append.1 hm with hm | hm
  · rcases List.mem_append.1 hm with hm | hm
    · exact ha hm
    · simp at hm
  · have := hp _ hm
    revert this
    decide

/-- **C55 is false of every IPv6 address without port** in a Host header: no port is added. -/
theorem C55_violation_ipv6_all (x scheme : List Char) (hx : ':' ∈ x) :
    hostToServerAddress (some (['['] ++ x ++ [']'])) scheme = some (['['] ++ x ++ [']']) ∧ ¬ HostPort (['['] ++ x ++ [']']) := by
  refine ⟨?_, ?_⟩
  · unfold hostToServerAddress
    dsimp only
    rw [if_pos (by simp [hx])]
  · rintro ⟨a, p, h, _, _, hne, hp, _⟩
    have h1 := congrArg List.getLast? h
    rw [List.getLast?_append, List.getLast?_append (l := a ++ [':']), List.getLast?_eq_some_getLast hne] at h1
    have h2 : p.getLast? = some ']' := by rw [List.getLast?_eq_some_getLast hne]; exact h1.symm
    have := hp _ (List.mem_of_getLast? h2)
    revert this
    decide

/-- **C55 is false of every client whose URL has a path** (or only a slash at its end): the server address in its contexts is not an address with a port. -/
theorem C55_violation_url_path_all (c : Client Req Res) (scheme rest : List Char) (hs : scheme = pys! "http" ∨ scheme = pys! "https")
    (ha : c.address = scheme ++ pys! "://" ++ rest) (hr : '/' ∈ rest) (m : MethodInfo) (httpMethod : Str) (user : UserHeaders) (t : Option Int)
    (stream : Bool) : ∃ s, (c.context m httpMethod user t stream).serverAddress = some s ∧ ¬ HostPort s := by
  have key : ∀ sch, ∃ s, hostToServerAddress (some rest) sch = some s ∧ '/' ∈ s := by
    intro sch
    unfold hostToServerAddress
    dsimp only
    split
    · exact ⟨_, rfl, hr⟩
    · split
      · exact ⟨_, rfl, List.mem_append_left _ hr⟩
      · split
        · exact ⟨_, rfl, List.mem_append_left _ hr⟩
        · exact ⟨_, rfl, hr⟩
  have h2 : ∃ sch, (c.context m httpMethod user t stream).serverAddress = hostToServerAddress (some rest) sch := by
    show ∃ sch, urlToServerAddress c.address = _
    rw [ha]
    unfold urlToServerAddress
    rcases hs with rfl | rfl
    · rw [if_neg]
      · exact ⟨_, rfl⟩
      · simp [startsWith, List.isPrefixOf]
    · rw [if_pos]
      · exact ⟨_, rfl⟩
      · exact startsWith_append (pys! "https://") rest
  obtain ⟨sch, h2⟩ := h2
  obtain ⟨s, h3, h4⟩ := key sch
  exact ⟨s, by rw [h2, h3], fun h => hostPort_no_slash h h4⟩

/-! ### C59 -/

/-- **C59 is false of every Connect stream whose timeout has more than ten digits**: the client announces it, and the server refuses the call. -/
theorem C59_violation_long_timeout_all (c : Client Req Res) (app : App Req Res) (m : MethodInfo) (ep : Endpoint Req Res) (reqs : List Req)
    (user : UserHeaders) (t : Option Int) (hc : c.proto = .connect) (hpath : PlainPath (methodPath m))
    (hep : Dict.get? app.endpoints (methodPath m) = some ep) (ms : Int) (ht : callTimeout t c.timeoutMs = some ms)
    (hlong : 10 < (intStr ms).length) (sc : StatusCodec) (sink : Sink) (cs : Circumstances) :
    ∃ rq, SendsOnly (· = rq) (fun http => c.executeBidiStream sc http sink cs reqs none m user t) ∧
    SendsOnly (· = rq) (fun http => c.executeClientStream sc http sink cs reqs none m user t) ∧
    (∀ req, reqs = [req] → SendsOnly (· = rq) (fun http => c.executeServerStream sc http sink cs req m user t)) ∧
    (∀ env, WsgiSees c.address rq env → WsgiRefused (app.wsgi sc env) .invalidArgument) ∧
    ∀ scope env, AsgiSees c.address rq scope env → Reliable env →
      (scope.rootPath = [] ∨ Dict.get? app.endpoints (scope.rootPath ++ methodPath m) = none) →
      AsgiRefused (app.asgi sc scope env) .invalidArgument := by
  have hf := stream_context_fields c m (pys! "POST") user t true (fun _ => rfl)
  have hval := theStream_fields c m (pys! "POST") user t true reqs
  have htm := hf.timeout
  have hty := hf.type
  rw [callTimeout_eq] at ht
  rw [ht, hc] at htm
  rw [hc] at hty
  have hbad : BadTimeout (intStr ms) := ⟨by intro h; rw [h] at hlong; simp at hlong, .inl hlong⟩
  have hcty : ConnectType (streamType .connect c.codec.name) := by
    constructor <;> (rintro (h | ⟨r, h⟩) <;> simp [streamType] at h)
  refine ⟨theStream c m (pys! "POST") user t true reqs, bidi_sends_one c sc sink cs _ reqs, ?_, ?_, ?_, ?_⟩
  · intro a b hab
    exact congrArg Client.single (bidi_sends_one c sc sink cs _ reqs a b hab)
  · rintro req rfl
    exact bidi_sends_one c sc sink cs _ [req]
  · intro env h
    have ha := wsgi_arrived h
    have hct := (getall_one (ha.one (pys! "content-type") _ (by decide +kernel) (by rw [hval]; exact hty))).2 []
    have hto := (getall_one (ha.one (pys! "connect-timeout-ms") (intStr ms) (by decide +kernel) (by rw [hval]; exact htm))).1
    have hpth := h.path (methodPath m) hpath (theStream_url ..)
    have htarget := WsgiTarget.direct hpth (by rw [rooted_methodPath]; exact hep)
    rw [rooted_methodPath] at htarget
    exact C12_wsgi_refused app sc env _ ep htarget _ h.method (by rw [hct]; exact hcty) (.inl rfl) _ hto hbad
  · intro scope env h hrel hroot
    obtain ⟨headers, hh, ha, _⟩ := asgi_arrived h
    have hct := (getall_one (ha.one (pys! "content-type") _ (by decide +kernel) (by rw [hval]; exact hty))).2 []
    have hto := (getall_one (ha.one (pys! "connect-timeout-ms") (intStr ms) (by decide +kernel) (by rw [hval]; exact htm))).1
    have hpth := h.path (methodPath m) hpath (theStream_url ..)
    have htarget : AsgiTarget app scope (methodPath m) ep := by
      by_cases e : scope.rootPath = []
      · rw [e, List.nil_append] at hpth
        have := AsgiTarget.direct (app := app) (scope := scope) (by rw [hpth]; exact hep)
        rwa [hpth] at this
      · rcases hroot with hr | hr
        · exact absurd hr e
        · exact .mounted (by rw [hpth]; exact hr) e hpth hep
    exact (C12_asgi_refused app sc scope env _ ep htarget headers hh (by rw [hct]; exact hcty) (.inl h.method) _ hto hbad).2 hrel

/-! ### the hypotheses are met -/

/-- C21: a forged message. -/
example : Built (demoTrailers [(pys! "grpc-message", pys! "%C3%A7a%20va")]) ∧
    (demoTrailers [(pys! "grpc-message", pys! "%C3%A7a%20va")]).getall (pys! "grpc-message") = [quote (pys! "ça va")] :=
  ⟨⟨_, rfl⟩, by decide +kernel⟩

/-- C21: a forged error with details. -/
example : FitsProtobuf demoError ∧ demoError.details ≠ [] ∧
    (demoTrailers [(pys! "grpc-status-details-bin", rstripChar '=' (b64encode (protobufStatus.toBinary demoError.toStatus)))]).getall
      (pys! "grpc-status-details-bin") = [rstripChar '=' (b64encode (protobufStatus.toBinary demoError.toStatus))] :=
  ⟨demoError_fits, by decide, by decide +kernel⟩

/-- C27: some of these codecs. -/
example : (pys! "grpc-web" ++ ['+']) <+: pys! "grpc-web+json" := by decide

/-- C55: an IPv6 address, and a URL with a path. -/
example : ¬ HostPort (pys! "[2001:db8::1]") := (C55_violation_ipv6_all (pys! "2001:db8::1") (pys! "https") (by decide)).2

/-- C59: four months. -/
example : ∃ ms : Int, callTimeout (some 10000000000) none = some ms ∧ 10 < (intStr ms).length := ⟨10000000000, by decide +kernel, by decide +kernel⟩

end Props
