import Verif.Proofs.Sent
import Verif.Props.Response
/-
C74: the requests a client sends are in the published formats.
-/
namespace Props
open Py Spec Conn

variable {Req Res : Type}

/-- **C74, unary calls by Connect.** A call sends one request, by POST or by GET, in the published format, with the caller's message and timeout; a server that
knows the client's codec and compression can read it. (Missing from the full statement: timeouts that the notation of the protocol cannot
express, see the violation below.) -/
theorem C74_connect_unary_partial (c : Client Req Res) (hp : c.proto = .connect) (app : App Req Res) (codec : ServerCodec Req Res)
    (hcodec : SameCodec c app codec) (hcomps : Compressions c app) (m : MethodInfo) (req : Req) (data : List UInt8)
    (hd : c.codec.encode req = .ok data) (user : UserHeaders) (t : Option Int) (useGet : Bool) (hl : useGet = false → WithinLimit app data)
    (ht : TimeoutLegal c user t) (sc : StatusCodec) (sink : Sink) (cs : Circumstances) :
    SendsUnary c app codec m t (if useGet then pys! "GET" else pys! "POST") req
      (fun http => c.executeUnary sc http sink cs req m user t useGet) := by
  have hf := context_fields c hp m (verb useGet) user t
  have hv := theRequest_fields c m user t useGet data
  obtain ⟨told, h1, h2⟩ := announced_of ht (fields := (theRequest c m user t useGet data).headers) (by
    rw [hp]
    exact (hv (pys! "connect-timeout-ms") (by simp)).trans hf.timeout)
  rw [hp] at h1 h2
  have hver := (hv (pys! "connect-protocol-version") (by simp)).trans hf.version
  refine ⟨theRequest c m user t useGet data, told, executeUnary_sends hp sc sink cs hd m user t useGet, ?_, ⟨.inr hver, h1, ?_⟩, ?_,
    ⟨c.acceptHeader, (hv _ (by simp)).trans hf.accept, accept_list_of hcomps.clientIdentity hcomps.names⟩, hver, sent_text hp useGet⟩
  · cases useGet with
    | false => exact congrArg HttpRequest.method (unaryRequest_post c m user t (c.send.compress data))
    | true => exact congrArg HttpRequest.method (unaryRequest_get c hp m user t (c.send.compress data))
  · cases useGet with
    | false => exact .inl (posted_of hcodec hcomps hp hd (hl rfl))
    | true => exact .inr ⟨_, queried_of hcodec hcomps hp hd⟩
  · have h2 : told = pickTimeout t c.timeoutMs := h2
    rw [h2]
    exact timeoutTold_pick _ _

/-- the conditions of the following theorems: both sides agree; the messages can be sent; the timeout can be announced -/
structure Sendable (c : Client Req Res) (app : App Req Res) (codec : ServerCodec Req Res) (reqs : List Req) (user : UserHeaders) (t : Option Int) :
    Prop where
  codec : SameCodec c app codec
  comps : StreamCompressions c app
  name : c.send.name ≠ []
  messages : ∀ r ∈ reqs, ∃ data, c.codec.encode r = .ok data ∧ (c.send.compress data).length < 2 ^ 32 ∧ WithinLimit app data
  timeout : TimeoutLegal c user t

/-- **C74, unary calls by gRPC and gRPC-Web.** (`useGet` has no effect.) -/
theorem C74_grpc_unary_partial (c : Client Req Res) (hp : c.proto ≠ .connect) (app : App Req Res) (codec : ServerCodec Req Res)
    (m : MethodInfo) (req : Req) (user : UserHeaders) (t : Option Int) (useGet : Bool) (h : Sendable c app codec [req] user t)
    (sc : StatusCodec) (sink : Sink) (cs : Circumstances) :
    SendsStream c app codec m t [req] (fun http => c.executeUnary sc http sink cs req m user t useGet) := by
  have he : (fun http => c.executeUnary sc http sink cs req m user t useGet) = fun http =>
      Client.single (c.bidi sc http.stream sink cs (c.context m (if useGet then pys! "GET" else pys! "POST") user t false) [req] none) := by
    funext http
    unfold Client.executeUnary
    cases hc : c.proto with
    | connect => exact absurd hc hp
    | _ => rfl
  rw [he]
  exact sends_stream h.codec h.comps h.name h.messages h.timeout _ false (fun hc => absurd hc hp) Client.single sc sink cs

/-- **C74, client streams.** -/
theorem C74_client_stream_partial (c : Client Req Res) (app : App Req Res) (codec : ServerCodec Req Res) (m : MethodInfo) (reqs : List Req)
    (user : UserHeaders) (t : Option Int) (h : Sendable c app codec reqs user t) (sc : StatusCodec) (sink : Sink) (cs : Circumstances) :
    SendsStream c app codec m t reqs (fun http => c.executeClientStream sc http sink cs reqs none m user t) :=
  sends_stream h.codec h.comps h.name h.messages h.timeout _ true (fun _ => rfl) Client.single sc sink cs

/-- **C74, server streams.** -/
theorem C74_server_stream_partial (c : Client Req Res) (app : App Req Res) (codec : ServerCodec Req Res) (m : MethodInfo) (req : Req)
    (user : UserHeaders) (t : Option Int) (h : Sendable c app codec [req] user t) (sc : StatusCodec) (sink : Sink) (cs : Circumstances) :
    SendsStream c app codec m t [req] (fun http => c.executeServerStream sc http sink cs req m user t) :=
  sends_stream h.codec h.comps h.name h.messages h.timeout _ true (fun _ => rfl) id sc sink cs

/-- **C74, bidirectional streams.** -/
theorem C74_bidi_stream_partial (c : Client Req Res) (app : App Req Res) (codec : ServerCodec Req Res) (m : MethodInfo) (reqs : List Req)
    (user : UserHeaders) (t : Option Int) (h : Sendable c app codec reqs user t) (sc : StatusCodec) (sink : Sink) (cs : Circumstances) :
    SendsStream c app codec m t reqs (fun http => c.executeBidiStream sc http sink cs reqs none m user t) :=
  sends_stream h.codec h.comps h.name h.messages h.timeout _ true (fun _ => rfl) id sc sink cs

/-! ### a violation -/

theorem intStr_illegal {ms : Int} (h : ms < 0 ∨ 10000000000 ≤ ms) (hd : ∀ c ∈ intStr ms, IsDigit c) : 10 < (intStr ms).length := by
  rcases h with h | h
  · cases ms with
    | ofNat n => exact absurd h (by simp)
    | negSucc n => exact absurd (hd '-' List.mem_cons_self) (by decide)
  · obtain ⟨n, rfl⟩ := Int.eq_ofNat_of_zero_le (show 0 ≤ ms by omega)
    refine Nat.lt_of_not_le fun hl => ?_
    have h1 : decimal (natDigits n) < 10 ^ (natDigits n).length := decimal_lt _ hd
    rw [decimal_natDigits] at h1
    have h2 : 10 ^ (natDigits n).length ≤ 10 ^ 10 := Nat.pow_le_pow_right (by decide) hl
    have h3 : (10000000000 : Int) ≤ (n : Int) := h
    omega

/-- Every unary call by Connect, by POST or by GET, with a timeout that has already passed (a deadline minus the current time may be negative) sends
a timeout that is not in the format of Connect, so that no reading of the request as one of the Connect protocol exists; so does one with a
timeout of more than ten digits. -/
theorem C74_violation_negative_timeout (c : Client Req Res) (hp : c.proto = .connect) (m : MethodInfo) (req : Req) (data : List UInt8)
    (hd : c.codec.encode req = .ok data) (user : UserHeaders) (t : Option Int) (useGet : Bool) (ms : Int)
    (ht : callTimeout t c.timeoutMs = some ms) (hms : ms < 0 ∨ 10000000000 ≤ ms) (sc : StatusCodec) (sink : Sink) (cs : Circumstances) :
    ∃ rq, SendsOnly (· = rq) (fun http => c.executeUnary sc http sink cs req m user t useGet) ∧
      ¬ ∃ (app : App Req Res) (codec : ServerCodec Req Res) (path : List Char) (req : Req) (told : Option Int),
        UnaryRequest app codec c.address path rq req told := by
  refine ⟨theRequest c m user t useGet data, executeUnary_sends hp sc sink cs hd m user t useGet, ?_⟩
  rintro ⟨app, codec, path, req', told, h⟩
  have hv : fieldValues (theRequest c m user t useGet data).headers (timeoutName .connect) = [intStr ms] := by
    have := (theRequest_fields c m user t useGet data (pys! "connect-timeout-ms") (by simp)).trans
      (context_fields c hp m (verb useGet) user t).timeout
    rw [callTimeout_eq] at ht
    rw [ht] at this
    exact this
  cases h.timeout with
  | none h1 => rw [hv] at h1; cases h1
  | connect h1 h2 h3 h4 =>
    rw [hv] at h1
    cases h1
    have := intStr_illegal hms h2
    omega
  | grpc h0 => exact h0 rfl

/-! ### the hypotheses are met -/

example (useGet : Bool) : pairClient.proto = .connect ∧ SameCodec pairClient pairApp ⟨pys! "raw", rawCodec, rawCodec⟩ ∧ Compressions pairClient pairApp ∧
    pairClient.codec.encode [1, 2, 3] = .ok [1, 2, 3] ∧ (useGet = false → WithinLimit pairApp [1, 2, 3]) ∧ TimeoutLegal pairClient pairUser (some 1500) ∧
    TimeoutLegal pairClient pairUser none ∧ pairClient.send = revGzip := by
  have h := pair_call [1, 2, 3] useGet
  obtain ⟨d, h1, h2⟩ := h.message
  cases h1
  exact ⟨rfl, h.codec, h.comps, rfl, h2, ⟨by decide, by decide⟩, ⟨by decide, by decide⟩, rfl⟩

example (p : Proto) (handler : Handler Bytes Bytes) (hk : p = .connect → handler.isUnary = false) :
    Sendable (chatClient p) (chatAppOf handler) chatCodec [[4, 5], [6]] pairUser (some 1500) := by
  have h := chat_call p handler hk [[4, 5], [6]] (by decide)
  refine ⟨h.codec, h.comps, by cases p <;> decide, h.messages, ?_⟩
  cases p with
  | connect => exact ⟨by decide, by decide⟩
  | grpc => show (1500 : Int) < 360000000000000; decide
  | grpcWeb => show (1500 : Int) < 360000000000000; decide

example (ms : Int) (h : ms = -5 ∨ ms = 10000000000) : pairClient.proto = .connect ∧ pairClient.codec.encode [1, 2, 3] = .ok [1, 2, 3] ∧
    callTimeout (some ms) pairClient.timeoutMs = some ms ∧ (ms < 0 ∨ 10000000000 ≤ ms) := by
  rcases h with rfl | rfl <;> exact ⟨rfl, rfl, by decide, by decide⟩

/-- A GET request, as it is sent: the parameters are those of the published format. -/
example : (theRequest pairClient echoInfo pairUser (some 1500) true [1, 2, 251]).url =
    pys! "http://h/a.S/Echo?connect=v1&base64=1&compression=gzip&encoding=raw&message=-wIB" := by decide +kernel

end Props
