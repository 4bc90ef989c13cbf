import Verif.Spec.Protocol
import Verif.Proofs.HeaderOps
import Verif.Proofs.IntText
import Verif.Props.Headers
/-
C12 (Connect timeout header), C15 and C20 (code tables), C52 (protocol headers), C55 (server address).
-/
namespace Props
open Conn Py Spec

/-! ### C12 -/

theorem client_connect_timeout (ua : Str) (user : UserHeaders) (t : Int) (codec : Str) (stream : Bool)
    (accept : Str) (send : Option Compression) :
    (Proto.clientHeaders .connect ua user (some t) codec stream accept send).get (pys! "connect-timeout-ms") =
      some (intStr t) := by
  rw [Headers.get_eq]
  show (Headers.getall (connectClientHeaders ua user (some t) codec stream accept send) _).head? = _
  rw [connectClientHeaders_getall, if_pos ⟨rfl, rfl⟩]; rfl

theorem client_connect_version (ua : Str) (user : UserHeaders) (t : Option Int) (codec : Str) (stream : Bool)
    (accept : Str) (send : Option Compression) :
    (Proto.clientHeaders .connect ua user t codec stream accept send).getD (pys! "connect-protocol-version") (pys! "1") =
      pys! "1" := by
  rw [Headers.getD_eq]
  show ((Headers.getall (connectClientHeaders ua user t codec stream accept send) _).head?).getD _ = _
  rw [connectClientHeaders_getall, if_neg (by rintro ⟨h, _⟩; revert h; decide), if_neg (by decide),
    if_neg (by cases stream <;> decide), if_neg (by cases stream <;> decide), if_pos rfl]; rfl

theorem connectMethodCheck_post (i : Idempotency) : connectMethodCheck i (pys! "POST") = none := by
  cases i <;> decide

/-- C12.  Whatever headers the caller passed, a timeout of at most ten decimal digits sent by a Connect client is the
timeout the server's request context gets. -/
theorem C12_connect_timeout_roundtrip (ua : Str) (user : UserHeaders) (t : Int) (h0 : 0 ≤ t) (h : t < 10 ^ 10)
    (codec : Str) (stream : Bool) (accept : Str) (send : Option Compression) (m : MethodInfo) (scheme : Str)
    (peer : Option Str) :
    ∃ ctx, Proto.serverContext .connect m (pys! "POST") scheme
        (Proto.clientHeaders .connect ua user (some t) codec stream accept send) peer = .ok ctx ∧
      ctx.timeoutMs = some t := by
  have hlen : (intStr t).length ≤ 10 := by
    obtain ⟨n, rfl⟩ := Int.eq_ofNat_of_zero_le h0
    exact natDigits_length_le n 10 (by decide) (by omega)
  have hne : (intStr t).isEmpty = false := by
    obtain ⟨n, rfl⟩ := Int.eq_ofNat_of_zero_le h0
    have : intStr (Int.ofNat n) ≠ [] := natDigits_ne_nil n
    simpa using this
  show ∃ ctx, connectServerContext _ _ _ _ _ = _ ∧ _
  unfold connectServerContext
  rw [connectMethodCheck_post]
  dsimp only
  rw [client_connect_version, if_neg (by simp), client_connect_timeout]
  unfold connectTimeout
  dsimp only
  rw [hne, if_neg (by simp), if_neg (by omega), parseInt_intStr]
  exact ⟨_, rfl, rfl⟩

example : (0 : Int) ≤ 2500 ∧ (2500 : Int) < 10 ^ 10 := by decide

/-- C12: a header longer than ten characters is rejected with INVALID_ARGUMENT, whatever the rest of the request. -/
theorem C12_long_header_rejected (headers : Headers) (v : Str) (hv : headers.get (pys! "connect-timeout-ms") = some v)
    (hlong : 10 < v.length) (hver : headers.getD (pys! "connect-protocol-version") (pys! "1") = pys! "1")
    (m : MethodInfo) (scheme : Str) (peer : Option Str) :
    ∃ msg, Proto.serverContext .connect m (pys! "POST") scheme headers peer =
      .error (.connect { code := .invalidArgument, message := msg }) := by
  show ∃ msg, connectServerContext _ _ _ _ _ = _
  unfold connectServerContext
  rw [connectMethodCheck_post]
  dsimp only
  rw [hver, if_neg (by simp), hv]
  unfold connectTimeout
  dsimp only
  have : v.isEmpty = false := by cases v with
    | nil => simp at hlong
    | cons c v => rfl
  rw [this, if_neg (by simp), if_pos hlong]
  exact ⟨_, rfl⟩

/-- C12: a header that is not the text of an integer is rejected with INVALID_ARGUMENT. (An empty header counts as none.) -/
theorem C12_non_numeric_rejected (headers : Headers) (v : Str) (hv : headers.get (pys! "connect-timeout-ms") = some v) (hne : v ≠ [])
    (hbad : ∀ n, ¬ IntText v n) (hver : headers.getD (pys! "connect-protocol-version") (pys! "1") = pys! "1")
    (m : MethodInfo) (scheme : Str) (peer : Option Str) :
    ∃ msg, Proto.serverContext .connect m (pys! "POST") scheme headers peer =
      .error (.connect { code := .invalidArgument, message := msg }) := by
  by_cases hlong : 10 < v.length
  · exact C12_long_header_rejected headers v hv hlong hver m scheme peer
  show ∃ msg, connectServerContext _ _ _ _ _ = _
  unfold connectServerContext
  rw [connectMethodCheck_post]
  dsimp only
  rw [hver, if_neg (by simp), hv]
  unfold connectTimeout
  dsimp only
  have : v.isEmpty = false := by
    cases v with
    | nil => exact absurd rfl hne
    | cons c v => rfl
  rw [this, if_neg (by simp), if_neg hlong, (parseInt_none v).2 hbad]
  exact ⟨_, rfl⟩

/-- requests meeting the hypotheses of the two rejections -/
example : (Headers.ofPairs [(pys! "Connect-Timeout-Ms", pys! "12345678901")]).get (pys! "connect-timeout-ms") =
    some (pys! "12345678901") ∧
    (Headers.ofPairs [(pys! "Connect-Timeout-Ms", pys! "12345678901")]).getD (pys! "connect-protocol-version") (pys! "1")
      = pys! "1" := by decide +kernel
example : ∀ n, ¬ IntText (pys! "10s") n := (parseInt_none _).1 (by decide +kernel)

/-! ### C15 -/

/-- C15.  Every code has its gRPC number, in decimal, as status text, and that text is read back as the code. -/
theorem C15_status_roundtrip (c : Code) :
    c.grpcStatus = natDigits (grpcNumber c) ∧ codeOfGrpcStatus c.grpcStatus = c := by
  cases c <;> exact ⟨by decide +kernel, by decide +kernel⟩

/-- C15: distinct codes have distinct status texts. -/
theorem C15_status_injective (a b : Code) (h : a.grpcStatus = b.grpcStatus) : a = b := by
  rw [← (C15_status_roundtrip a).2, h, (C15_status_roundtrip b).2]

theorem mem_all (c : Code) : c ∈ Code.all := by cases c <;> decide

/-- C15: any other text is reported as UNKNOWN. -/
theorem C15_other_status_unknown (s : List Char) (h : ∀ c, s ≠ natDigits (grpcNumber c)) :
    codeOfGrpcStatus s = .unknown := by
  unfold codeOfGrpcStatus
  have hk : ∀ d : Dict Str Code, (∀ p ∈ d, p.1 ≠ s) → d.get? s = none := by
    intro d
    induction d with
    | nil => intro _; rfl
    | cons p d ih =>
      intro hd
      obtain ⟨k, v⟩ := p
      rw [Dict.get?, if_neg (hd (k, v) (by simp))]
      exact ih (fun q hq => hd q (by simp [hq]))
  have : grpcStatusToCode = Code.all.map fun c => (c.grpcStatus, c) := by decide +kernel
  rw [this, hk]
  intro p hp
  obtain ⟨c, _, rfl⟩ := List.mem_map.1 hp
  intro e
  exact h c (by rw [← (C15_status_roundtrip c).1]; exact e.symm)

example : codeOfGrpcStatus (pys! "17") = .unknown :=
  C15_other_status_unknown _ (by intro c; cases c <;> decide +kernel)

/-! ### C20 -/

theorem codeOfHttpStatus_spec (n : Int) : codeOfHttpStatus n = codeOfStatus n := by
  unfold codeOfHttpStatus codeOfStatus
  have e : httpStatusToCode.get? n =
      if 400 = n then some .internal else if 401 = n then some .unauthenticated
      else if 403 = n then some .permissionDenied else if 404 = n then some .unimplemented
      else if 429 = n then some .unavailable else if 502 = n then some .unavailable
      else if 503 = n then some .unavailable else if 504 = n then some .unavailable else none := by
    simp only [httpStatusToCode, Dict.get?]
  rw [e]
  have es : ∀ k : Int, (k = n) = (n = k) := fun k => propext eq_comm
  simp only [es]
  by_cases h1 : n = 400
  · simp [h1]
  by_cases h2 : n = 401
  · simp [h2]
  by_cases h3 : n = 403
  · simp [h3]
  by_cases h4 : n = 404
  · simp [h4]
  by_cases h5 : n = 429
  · simp [h5]
  by_cases h6 : n = 502
  · simp [h6]
  by_cases h7 : n = 503
  · simp [h7]
  by_cases h8 : n = 504
  · simp [h8]
  simp [h1, h2, h3, h4, h5, h6, h7, h8]

/-- C20.  A response whose body is not a JSON object is reported with the code of its HTTP status. -/
theorem C20_no_json (status : Int) (body : Bytes) (h : ∀ m, loadsBytes body ≠ some (.obj m)) :
    ∃ msg, ConnectErr.fromResponse status body = .ok { code := codeOfStatus status, message := msg } := by
  unfold ConnectErr.fromResponse
  split
  · rename_i m hm; exact absurd hm (h m)
  · unfold ConnectErr.fromHttpStatus
    rw [codeOfHttpStatus_spec]; exact ⟨_, rfl⟩

/-- C20: the code reported for an error body is the code of the HTTP status when the body has no code, the code it
names when it names one, and UNAVAILABLE when it names an unknown one. -/
theorem C20_error_body (status : Int) (body : Bytes) (m : Dict Str Json) (h : loadsBytes body = some (.obj m))
    (e : ConnectErr) (he : ConnectErr.fromResponse status body = .ok e) :
    (m.get? (pys! "code") = none ∨ m.get? (pys! "code") = some .null ∨ m.get? (pys! "code") = some (.str []) →
      e.code = codeOfStatus status) ∧
    (∀ c, m.get? (pys! "code") = some (.str (codeName c)) → e.code = c) ∧
    (∀ s, m.get? (pys! "code") = some (.str s) → s ≠ [] → (∀ c, s ≠ codeName c) → e.code = .unavailable) := by
  unfold ConnectErr.fromResponse at he
  rw [h] at he
  dsimp only at he
  unfold ConnectErr.fromDict at he
  split at he
  · cases he
  · cases he
    dsimp only
    unfold ConnectErr.codeOfDict
    refine ⟨?_, ?_, ?_⟩
    · rintro (h | h | h) <;> rw [h, ← codeOfHttpStatus_spec] <;> rfl
    · intro c h
      rw [h]; cases c <;> rfl
    · intro s h hs hc
      rw [h]
      have ht : (Json.str s).truthy = true := by
        cases s with
        | nil => exact absurd rfl hs
        | cons x s => rfl
      dsimp only
      rw [if_pos ht]
      have : Code.ofValue s = none := by
        unfold Code.ofValue
        rw [List.find?_eq_none]
        intro c _ hh
        have hv : c.value = codeName c := by cases c <;> rfl
        have : c.value = s := by simpa using hh
        exact hc c (by rw [← this, hv])
      rw [this]

/-- C20, streams: the error of a Connect end message names its code; an unknown name is reported as UNKNOWN. -/
theorem C20_stream_error (m : Dict Str Json) (e : ConnectErr) (he : ConnectErr.fromDict m 500 .unknown = .ok e) :
    (∀ c, m.get? (pys! "code") = some (.str (codeName c)) → e.code = c) ∧
    ((∀ c, m.get? (pys! "code") ≠ some (.str (codeName c))) → e.code = .unknown) := by
  unfold ConnectErr.fromDict at he
  split at he
  · cases he
  · cases he
    dsimp only
    unfold ConnectErr.codeOfDict
    constructor
    · intro c h
      rw [h]; cases c <;> rfl
    · intro h
      cases hg : Dict.get? m (pys! "code") with
      | none => rfl
      | some j =>
        dsimp only
        split
        · cases j with
          | str s =>
            dsimp only
            have : Code.ofValue s = none := by
              unfold Code.ofValue
              rw [List.find?_eq_none]
              intro c _ hh
              have hv : c.value = codeName c := by cases c <;> rfl
              have : c.value = s := by simpa using hh
              exact h c (by rw [hg, ← this, hv])
            rw [this]
          | _ => rfl
        · rfl

/-- responses meeting the hypotheses -/
example : ∀ m, loadsBytes (utf8Encode (pys! "<html>")) ≠ some (.obj m) := by
  have : loadsBytes (utf8Encode (pys! "<html>")) = none := by decide +kernel
  intro m; rw [this]; simp
example : ∃ m e, loadsBytes (utf8Encode (pys! "{\"code\":\"gone\"}")) = some (.obj m) ∧
    ConnectErr.fromResponse 404 (utf8Encode (pys! "{\"code\":\"gone\"}")) = .ok e ∧ e.code = .unavailable :=
  ⟨[(pys! "code", .str (pys! "gone"))], { code := .unavailable, message := [] }, by decide +kernel⟩

/-! ### C52 -/

/-- The headers a protocol fixes on the requests of a client: name and value (`none`: must not be sent). -/
def fixedHeaders (p : Proto) (stream : Bool) (codec accept : Str) (send : Option Str) (timeout : Option Int) :
    List (Str × Option Str) :=
  match p with
  | .connect =>
    [(pys! "content-type", some ((if stream then pys! "application/connect+" else pys! "application/") ++ codec)),
     (pys! "connect-protocol-version", some (pys! "1")),
     ((if stream then pys! "connect-accept-encoding" else pys! "accept-encoding"), some accept),
     ((if stream then pys! "connect-content-encoding" else pys! "content-encoding"), send)] ++
    (match timeout with
      | some t => [(pys! "connect-timeout-ms", some (intStr t))]
      | none => [])
  | _ =>
    [(pys! "content-type", some ((if p = .grpc then pys! "application/grpc+" else pys! "application/grpc-web+") ++ codec)),
     (pys! "te", some (pys! "trailers")),
     (pys! "grpc-accept-encoding", some accept),
     (pys! "grpc-encoding", send)] ++
    (match timeout with
      | some t => [(pys! "grpc-timeout", some (serializeTimeout t))]
      | none => [])

/-- C52.  Every header the protocol fixes has exactly the fixed value (or is absent when there is none), whatever
headers the caller passed and however their names are capitalised. -/
theorem C52_fixed_headers (p : Proto) (ua : Str) (user : UserHeaders) (t : Option Int) (codec : Str) (stream : Bool)
    (accept : Str) (send : Option Compression) (n k : Str) (v : Option Str)
    (h : (n, v) ∈ fixedHeaders p stream codec accept (send.map (·.name)) t) (hk : lower k = n) :
    (p.clientHeaders ua user t codec stream accept send).getall k = v.toList := by
  cases p with
  | connect =>
    show Headers.getall (connectClientHeaders ua user t codec stream accept send) k = _
    rw [connectClientHeaders_getall, hk]
    cases stream <;> cases t
    all_goals
      simp only [fixedHeaders, List.append_nil, List.cons_append, List.nil_append, List.mem_cons, List.not_mem_nil,
        or_false, Prod.mk.injEq] at h
    · rcases h with h | h | h | h <;> (obtain ⟨rfl, rfl⟩ := h; rfl)
    · rcases h with h | h | h | h | h <;> (obtain ⟨rfl, rfl⟩ := h; rfl)
    · rcases h with h | h | h | h <;> (obtain ⟨rfl, rfl⟩ := h; rfl)
    · rcases h with h | h | h | h | h <;> (obtain ⟨rfl, rfl⟩ := h; rfl)
  | grpc =>
    show Headers.getall (grpcClientHeaders .grpc ua user t codec stream accept send) k = _
    rw [grpcClientHeaders_getall, hk]
    cases stream <;> cases t
    all_goals
      simp only [fixedHeaders, List.append_nil, List.cons_append, List.nil_append, List.mem_cons, List.not_mem_nil,
        or_false, Prod.mk.injEq] at h
    · rcases h with h | h | h | h <;> (obtain ⟨rfl, rfl⟩ := h; rfl)
    · rcases h with h | h | h | h | h <;> (obtain ⟨rfl, rfl⟩ := h; rfl)
    · rcases h with h | h | h | h <;> (obtain ⟨rfl, rfl⟩ := h; rfl)
    · rcases h with h | h | h | h | h <;> (obtain ⟨rfl, rfl⟩ := h; rfl)
  | grpcWeb =>
    show Headers.getall (grpcClientHeaders .grpcWeb ua user t codec stream accept send) k = _
    rw [grpcClientHeaders_getall, hk]
    cases stream <;> cases t
    all_goals
      simp only [fixedHeaders, List.append_nil, List.cons_append, List.nil_append, List.mem_cons, List.not_mem_nil,
        or_false, Prod.mk.injEq] at h
    · rcases h with h | h | h | h <;> (obtain ⟨rfl, rfl⟩ := h; rfl)
    · rcases h with h | h | h | h | h <;> (obtain ⟨rfl, rfl⟩ := h; rfl)
    · rcases h with h | h | h | h <;> (obtain ⟨rfl, rfl⟩ := h; rfl)
    · rcases h with h | h | h | h | h <;> (obtain ⟨rfl, rfl⟩ := h; rfl)

/-- C52: every other header is passed on with all the values the caller gave; only a missing user agent is filled in. -/
theorem C52_other_headers (p : Proto) (ua : Str) (user : UserHeaders) (t : Option Int) (codec : Str)
    (stream : Bool) (accept : Str) (send : Option Compression) (k : Str)
    (hk : lower k ∉ (fixedHeaders p stream codec accept (send.map (·.name)) t).map (·.1))
    (hua : lower k = pys! "user-agent" → given user k ≠ []) :
    (p.clientHeaders ua user t codec stream accept send).getall k = given user k := by
  have hk' : ∀ n v, (n, v) ∈ fixedHeaders p stream codec accept (send.map (·.name)) t → n ≠ lower k := by
    rintro n v hm rfl; exact hk (List.mem_map.2 ⟨_, hm, rfl⟩)
  cases p with
  | connect =>
    show Headers.getall (connectClientHeaders ua _ t codec stream accept send) k = _
    rw [connectClientHeaders_getall]
    have a1 : ¬ (lower (pys! "connect-timeout-ms") = lower k ∧ t.isSome = true) := by
      rintro ⟨e, ht⟩
      obtain ⟨t, rfl⟩ := Option.isSome_iff_exists.1 ht
      exact hk' (pys! "connect-timeout-ms") _ (.tail _ (.tail _ (.tail _ (.tail _ (.head _))))) e
    have a2 : lower (pys! "content-type") ≠ lower k := hk' (pys! "content-type") _ (.head _)
    have a3 : lower (Proto.requestEncodingHeader .connect stream) ≠ lower k := by
      cases stream
      · exact hk' (pys! "content-encoding") _ (.tail _ (.tail _ (.tail _ (.head _))))
      · exact hk' (pys! "connect-content-encoding") _ (.tail _ (.tail _ (.tail _ (.head _))))
    have a4 : lower (Proto.acceptEncodingHeader .connect stream) ≠ lower k := by
      cases stream
      · exact hk' (pys! "accept-encoding") _ (.tail _ (.tail _ (.head _)))
      · exact hk' (pys! "connect-accept-encoding") _ (.tail _ (.tail _ (.head _)))
    have a5 : lower (pys! "connect-protocol-version") ≠ lower k := hk' (pys! "connect-protocol-version") _ (.tail _ (.head _))
    rw [if_neg a1, if_neg a2, if_neg a3, if_neg a4, if_neg a5]
    split
    · rename_i e; rw [if_neg (hua (by rw [← e]; rfl))]
    · rfl
  | grpc | grpcWeb =>
    show Headers.getall (grpcClientHeaders _ ua _ t codec stream accept send) k = _
    rw [grpcClientHeaders_getall]
    have a1 : ¬ (lower (pys! "grpc-timeout") = lower k ∧ t.isSome = true) := by
      rintro ⟨e, ht⟩
      obtain ⟨t, rfl⟩ := Option.isSome_iff_exists.1 ht
      exact hk' (pys! "grpc-timeout") _ (.tail _ (.tail _ (.tail _ (.tail _ (.head _))))) e
    have a2 : lower (pys! "content-type") ≠ lower k := hk' (pys! "content-type") _ (.head _)
    have a3 : lower (pys! "grpc-encoding") ≠ lower k := hk' (pys! "grpc-encoding") _ (.tail _ (.tail _ (.tail _ (.head _))))
    have a4 : lower (pys! "grpc-accept-encoding") ≠ lower k := hk' (pys! "grpc-accept-encoding") _ (.tail _ (.tail _ (.head _)))
    have a5 : lower (pys! "te") ≠ lower k := hk' (pys! "te") _ (.tail _ (.head _))
    rw [if_neg a1, if_neg a2, if_neg a3, if_neg a4]
    split
    · rename_i e; rw [if_neg (hua (by rw [← e.1]; rfl))]
    · simp

/-- a caller that passes its own `Content-Type` and `TE` -/
example : (Proto.clientHeaders .grpc [] (.mapping [(pys! "Content-Type", pys! "x"), (pys! "TE", pys! "y")]) none
    (pys! "proto") true [] none).getall (pys! "TE") = [pys! "trailers"] :=
  C52_fixed_headers .grpc [] _ none (pys! "proto") true [] none (pys! "te") (pys! "TE") (some (pys! "trailers"))
    (by simp [fixedHeaders]) rfl

/-- a caller that passes a header twice, and one that passes a mapping -/
example : (Proto.clientHeaders .connect [] (.headers (Headers.ofPairs [(pys! "X-A", pys! "1"), (pys! "x-a", pys! "2")])) none
      (pys! "proto") true [] none).getall (pys! "X-a") = [pys! "1", pys! "2"] ∧
    (Proto.clientHeaders .grpc [] (.mapping [(pys! "X-A", pys! "1"), (pys! "x-a", pys! "2")]) none (pys! "proto") true [] none).getall
      (pys! "X-a") = [pys! "2"] := by
  refine ⟨?_, ?_⟩
  · rw [C52_other_headers _ _ _ _ _ _ _ _ _ (by decide +kernel) (by decide +kernel)]
    decide +kernel
  · rw [C52_other_headers _ _ _ _ _ _ _ _ _ (by decide +kernel) (by decide +kernel)]
    decide +kernel

/-! ### C02 -/

/-- A `Headers` object a program can have: made by a constructor, and used in any way. -/
def Reachable (h : Headers) : Prop :=
  ∃ items history, h = headersAfter (Headers.ofPairs items) history ∨ h = headersAfter (Headers.ofMapping items) history

theorem Reachable.inv {h : Headers} (hr : Reachable h) : h.Inv := by
  obtain ⟨items, history, rfl | rfl⟩ := hr
  · exact headersAfter_inv (Headers.inv_ofPairs items) history
  · exact headersAfter_inv (Headers.inv_ofMapping items) history

/-- C02.  The headers a call works on: apart from the names that the protocol fixes (and the user agent if it is missing), exactly the pairs
of the caller's object, duplicates included, in the same order. -/
theorem C02_call_headers (p : Proto) (ua : Str) (h : Headers) (hr : Reachable h) (t : Option Int) (codec : Str)
    (stream : Bool) (accept : Str) (send : Option Compression) (own : List Str)
    (hf : ∀ n ∈ (fixedHeaders p stream codec accept (send.map (·.name)) t).map (·.1), n ∈ own)
    (hua : pys! "user-agent" ∉ own → h.getall (pys! "user-agent") ≠ []) :
    (p.clientHeaders ua (.headers h) t codec stream accept send).allitems.filter (fun q => q.1 ∉ own) =
      h.allitems.filter (fun q => q.1 ∉ own) := by
  have hi := hr.inv
  have hf' : ∀ n, lower n = n → n ∈ (fixedHeaders p stream codec accept (send.map (·.name)) t).map (·.1) → lower n ∈ own := by
    intro n e hn
    rw [e]
    exact hf n hn
  have h0 := (UserHeaders.headers h).inv_copy
  have hcopy : (UserHeaders.headers h).copy.allitems = h.allitems := allitems_copy hi
  have hcon : pys! "user-agent" ∉ own → (UserHeaders.headers h).copy.contains (pys! "user-agent") = true := by
    intro hn
    rw [Headers.contains_iff_getall]
    show (Headers.ofPairs h.allitems).getall _ ≠ []
    rw [Headers.getall_copy hi]
    exact hua hn
  rw [← hcopy]
  cases p with
  | connect =>
    have h1 := Headers.inv_setIfAbsent h0 (pys! "user-agent") ua
    have h2 := Headers.inv_setItem h1 (pys! "connect-protocol-version") (pys! "1")
    have h3 := Headers.inv_setItem h2 (Proto.acceptEncodingHeader .connect stream) accept
    have h4 := Headers.inv_setOrDrop h3 (Proto.requestEncodingHeader .connect stream) (send.map (·.name))
    have h5 := Headers.inv_setItem h4 (pys! "content-type") (Proto.requestContentType .connect stream codec)
    show (Headers.setIfSome _ _ _).allitems.filter _ = _
    rw [Headers.kept_setIfSome h5, Headers.kept_setItem h4, Headers.kept_setOrDrop h3, Headers.kept_setItem h2,
      Headers.kept_setItem h1, Headers.kept_setIfAbsent h0]
    · by_cases hn : pys! "user-agent" ∈ own
      · exact .inl hn
      · exact .inr (hcon hn)
    · exact hf' _ (by decide) (by cases t <;> simp [fixedHeaders])
    · exact hf' _ (by cases stream <;> decide) (by cases t <;> cases stream <;> simp [fixedHeaders, Proto.acceptEncodingHeader])
    · exact hf' _ (by cases stream <;> decide) (by cases t <;> cases stream <;> simp [fixedHeaders, Proto.requestEncodingHeader])
    · exact hf' _ (by decide) (by cases t <;> simp [fixedHeaders])
    · cases t with
      | none => exact .inl rfl
      | some ms => exact .inr (hf' _ (by decide) (by simp [fixedHeaders]))
  | grpc | grpcWeb =>
    have h1 := Headers.inv_setItem h0 (pys! "te") (pys! "trailers")
    have h2 := Headers.inv_setIfAbsent h1 (pys! "user-agent") ua
    have h3 := Headers.inv_setItem h2 (pys! "grpc-accept-encoding") accept
    have h4 := Headers.inv_setOrDrop h3 (pys! "grpc-encoding") (send.map (·.name))
    have h5 := fun p' => Headers.inv_setItem h4 (pys! "content-type") (Proto.requestContentType p' stream codec)
    show (Headers.setIfSome _ _ _).allitems.filter _ = _
    rw [Headers.kept_setIfSome (h5 _), Headers.kept_setItem h4, Headers.kept_setOrDrop h3, Headers.kept_setItem h2,
      Headers.kept_setIfAbsent h1, Headers.kept_setItem h0]
    · exact hf' _ (by decide) (by cases t <;> simp [fixedHeaders])
    · by_cases hn : pys! "user-agent" ∈ own
      · exact .inl hn
      · refine .inr ?_
        rw [Headers.contains_iff_getall, Headers.getall_setItem h0, if_neg (by decide), ← Headers.contains_iff_getall]
        exact hcon hn
    · exact hf' _ (by decide) (by cases t <;> simp [fixedHeaders])
    · exact hf' _ (by decide) (by cases t <;> simp [fixedHeaders])
    · exact hf' _ (by decide) (by cases t <;> simp [fixedHeaders])
    · cases t with
      | none => exact .inl rfl
      | some ms => exact .inr (hf' _ (by decide) (by simp [fixedHeaders]))

/-- an object with a duplicate and a name that the protocol fixes -/
example : (Proto.clientHeaders .grpc (pys! "ua") (.headers (Headers.ofPairs
      [(pys! "B", pys! "1"), (pys! "te", pys! "x"), (pys! "a", pys! "2"), (pys! "b", pys! "3")])) (some 5) (pys! "proto") true (pys! "gzip")
      none).allitems.filter (fun q => q.1 ∉ [pys! "user-agent", pys! "content-type", pys! "te", pys! "grpc-accept-encoding",
        pys! "grpc-encoding", pys! "grpc-timeout"]) = [(pys! "b", pys! "1"), (pys! "b", pys! "3"), (pys! "a", pys! "2")] := by
  refine (C02_call_headers .grpc _ (Headers.ofPairs _) ⟨_, [], .inl rfl⟩ _ _ _ _ _ _ ?_ ?_).trans ?_ <;> decide +kernel

/-! ### C55 -/

theorem startsWith_append (a b : Str) : startsWith a (a ++ b) = true := by
  unfold startsWith; rw [List.isPrefixOf_iff_prefix]; exact ⟨b, rfl⟩

/-- C55, partial: the server address a handler sees is `address:port`, with the default port of the scheme for a Host
header without port.  Host headers with a bracketed IPv6 address and no port are excluded: see
`C55_violation_ipv6_host`. -/
theorem C55_server_side_partial (host scheme : List Char) (hs : scheme = pys! "http" ∨ scheme = pys! "https")
    (h : PlainHost host ∨ HostPort host) :
    ∃ s, hostToServerAddress (some host) scheme = some s ∧ HostPort s ∧
      (HostPort host → s = host) ∧
      (PlainHost host → s = host ++ (if scheme = pys! "https" then pys! ":443" else pys! ":80")) := by
  have hcolon : HostPort host → ':' ∈ host := by
    rintro ⟨a, p, rfl, _⟩; simp
  by_cases hc : ':' ∈ host
  · have hp : HostPort host := by
      rcases h with h | h
      · exact absurd hc h.2.2
      · exact h
    refine ⟨host, ?_, hp, fun _ => rfl, fun h => absurd hc h.2.2⟩
    unfold hostToServerAddress; dsimp only; rw [if_pos hc]
  · have hh : PlainHost host := by
      rcases h with h | h
      · exact h
      · exact absurd (hcolon h) hc
    have key : ∀ p : List Char, p ≠ [] → (∀ c ∈ p, IsDigit c) → HostPort (host ++ (':' :: p)) := fun p h1 h2 =>
      ⟨host, p, by simp, hh.1, hh.2.1, h1, h2, .inl hc⟩
    rcases hs with rfl | rfl
    · refine ⟨host ++ pys! ":80", ?_, key (pys! "80") (by decide) (by decide), fun h => absurd (hcolon h) hc,
        fun _ => rfl⟩
      unfold hostToServerAddress; dsimp only; rw [if_neg hc, if_neg (by decide), if_pos rfl]
    · refine ⟨host ++ pys! ":443", ?_, key (pys! "443") (by decide) (by decide), fun h => absurd (hcolon h) hc,
        fun _ => rfl⟩
      unfold hostToServerAddress; dsimp only; rw [if_neg hc, if_pos rfl]

/-- C55, client side, partial: for a URL `http://…` or `https://…` without path and with the same restriction. -/
theorem C55_client_side_partial (host scheme : List Char) (hs : scheme = pys! "http" ∨ scheme = pys! "https")
    (h : PlainHost host ∨ HostPort host) :
    ∃ s, urlToServerAddress (scheme ++ pys! "://" ++ host) = some s ∧ HostPort s ∧
      (HostPort host → s = host) ∧
      (PlainHost host → s = host ++ (if scheme = pys! "https" then pys! ":443" else pys! ":80")) := by
  have h2 : urlToServerAddress (scheme ++ pys! "://" ++ host) = hostToServerAddress (some host) scheme := by
    unfold urlToServerAddress
    rcases hs with rfl | rfl
    · rw [if_neg]
      · rfl
      · simp [startsWith, List.isPrefixOf]
    · rw [if_pos]
      · rfl
      · exact startsWith_append (pys! "https://") host
  rw [h2]
  exact C55_server_side_partial host scheme hs h

example : PlainHost (pys! "example.com") ∧ HostPort (pys! "[::1]:8080") :=
  ⟨⟨by decide, by decide, by decide⟩,
    ⟨pys! "[::1]", pys! "8080", rfl, by decide, by decide, by decide, by decide, .inr ⟨pys! "::1", rfl⟩⟩⟩

theorem digits_no_colon {p : List Char} (h : ∀ c ∈ p, IsDigit c) : ':' ∉ p := by
  intro hm; have := h _ hm; revert this; decide

theorem not_hostPort_ipv6 : ¬ HostPort (pys! "[::1]") := by
  rintro ⟨a, p, h, _, _, _, hp, _⟩
  have hl : (pys! "[::1]").getLast? = p.getLast?.or (some ':') := by
    rw [h, List.getLast?_append, List.getLast?_append]; rfl
  cases hpl : p.getLast? with
  | none => rw [hpl] at hl; revert hl; decide
  | some x =>
    rw [hpl] at hl
    have hx := hp x (List.mem_of_getLast? hpl)
    have : x = ']' := by simpa using hl.symm
    rw [this] at hx; revert hx; decide

/-- C55 fails for a Host header with an IPv6 address and no port. -/
theorem C55_violation_ipv6_host : ∃ host, hostToServerAddress (some host) (pys! "https") = some host ∧ ¬ HostPort host :=
  ⟨pys! "[::1]", by decide, not_hostPort_ipv6⟩

/-- C55 fails for a client whose URL has a path (for example a mount point). -/
theorem C55_violation_url_path : ∃ url s, urlToServerAddress url = some s ∧ ¬ HostPort s :=
  ⟨pys! "https://h/api", pys! "h/api:443", by decide, by
    rintro ⟨a, p, h, _, hsl, hne, hp, _⟩
    -- the slash is neither in the port nor in the address
    have hm : '/' ∈ a ++ [':'] ++ p := by rw [← h]; decide
    simp only [List.mem_append, List.mem_singleton] at hm
    rcases hm with (hm | hm) | hm
    · exact hsl hm
    · exact absurd hm (by decide)
    · have := hp _ hm; revert this; decide⟩

end Props
