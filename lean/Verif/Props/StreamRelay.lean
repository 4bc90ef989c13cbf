import Verif.Proofs.StreamRelay
import Verif.Props.Relay
/-
C95: streams pass through chains of services of this library.
-/
namespace Props
open Conn Py Spec

variable {Req Res : Type}

/-- **C95, streams**: a handler `f` that answers a server-stream, client-stream or bidirectional call by a chain of calls, of any length, over Connect, gRPC
and gRPC-Web, to WSGI and ASGI applications, is itself called over any such hop: the caller gets what `origin`, at the end of the chain, produced for those
requests: the same messages in the same order, then the same end, or a `ConnectError` with the same code, message and details. -/
theorem C95_streams (sc : StatusCodec) (reqs : List Req) (origin f : Handler Req Res) (hk : kindOf origin ≠ .unary)
    (hone : kindOf origin = .serverStream → reqs.length = 1) (horigin : ∀ ctx script, RunOn origin reqs ctx script → SendableRun script)
    (hc : StreamChain sc reqs origin (fun _ => True) f) (hop : Hop Req Res) (hs : hop.ServesStream sc reqs f)
    (hr : hop.CarriesStream sc reqs origin f) (ctx : RequestContext) :
    ∃ ctx' script, RunOn origin reqs ctx' script ∧ RelayedStream (streamed script) (hop.streams sc (kindOf origin) reqs ctx) := by
  obtain ⟨_, ctx', script, _, _, h1, h2, h3, _⟩ := stream_ended_call
    (stream_chain_ended (fun _ _ => True) (fun _ => trivial) (fun _ _ _ _ _ _ _ => trivial) hk hone horigin hc) hk hone hs hr ctx
  exact ⟨ctx', script, h1, relayedStream_of h2 h3⟩

/-- **C95, deadlines of streams**: if every handler of the chain passes on no more than the time it was given, then the handler at its end is told a timeout
no longer than that of the first call. (A timeout of 0 is taken as none: see C13 and C66.) -/
theorem C95_streams_deadline (sc : StatusCodec) (reqs : List Req) (origin f : Handler Req Res) (hk : kindOf origin ≠ .unary)
    (hone : kindOf origin = .serverStream → reqs.length = 1) (horigin : ∀ ctx script, RunOn origin reqs ctx script → SendableRun script)
    (hc : StreamChain sc reqs origin Hop.Heeds f) (hop : Hop Req Res) (hs : hop.ServesStream sc reqs f)
    (hr : hop.CarriesStream sc reqs origin f) (ctx : RequestContext) (t : Int) (ht : hop.timeout ctx = some t) (h0 : t ≠ 0) :
    ∃ ctx' script, RunOn origin reqs ctx' script ∧ RelayedStream (streamed script) (hop.streams sc (kindOf origin) reqs ctx) ∧
      ∃ t', ctx'.timeoutMs = some t' ∧ t' ≤ max t 0 := by
  have hR := stream_chain_ended (fun a b : RequestContext => ∀ ms, a.timeoutMs = some ms → ∃ t', b.timeoutMs = some t' ∧ t' ≤ max ms 0)
    (fun a ms h => ⟨ms, h, by omega⟩) (fun hop a b c hp ht hbc ms hms => by
      obtain ⟨t1, h1, h2, h3⟩ := hp a ms hms
      obtain ⟨t2, h4, h5⟩ := heeds_told h1 h2 ht
      obtain ⟨t3, h6, h7⟩ := hbc t2 h4
      exact ⟨t3, h6, by omega⟩) hk hone horigin hc
  obtain ⟨ctx1, ctx', script, h1, h2, h3, h4, h5, _⟩ := stream_ended_call hR hk hone hs hr ctx
  obtain ⟨t1, h6, h7⟩ := heeds_told ht h0 h1
  obtain ⟨t2, h8, h9⟩ := h2 t1 h6
  exact ⟨ctx', script, h3, relayedStream_of h4 h5, t2, h8, by omega⟩

/-! ### the hypotheses are met -/

/-- the handler at the end of the chain: it reads two messages, sends two, sets a trailer and fails, with two details -/
def originScript : Script Bytes :=
  ⟨[.step (.recv false), .emit [7], .step (.update fun m => { m with trailers := m.trailers.add (pys! "x-t") (pys! "1") }), .step (.recv false), .emit [9, 9]],
    some (.connect demoError), none⟩

def originBidi : Handler Bytes Bytes := .bidi fun _ _ => originScript

/-- the handler that produces what the call over the hop does -/
def relayBidi (hop : Hop Bytes Bytes) : Handler Bytes Bytes := .bidi fun s ctx =>
  let r := hop.streams protobufStatus .bidi s.messages ctx
  ⟨.step (.recv true) :: r.1.map .emit, r.2, none⟩

def bidiHop (p : Proto) (handler : Handler Bytes Bytes) (http : HttpClient) : Hop Bytes Bytes :=
  ⟨chatClient p, chatAppOf handler, chatCodec, echoInfo, echoInfo, fun _ b => some b.reverse, false, fun _ => pairUser, lessTime, fun _ => calm, fun _ => http⟩

theorem bidi_serves (p : Proto) (handler : Handler Bytes Bytes) (hk : handler.isUnary = false) (http : HttpClient)
    (hn : OverWsgi (bidiHop p handler http) protobufStatus http ∨ OverAsgi (bidiHop p handler http) protobufStatus http) :
    (bidiHop p handler http).ServesStream protobufStatus [[4, 5], [6]] handler where
  lawful := fun _ => protobufStatus_lawful
  ordinary := by
    refine ⟨?_, ?_⟩
    · intro n c hc b e he
      have hm : (n, c) ∈ [(pys! "raw", chatCodec)] := Dict.get?_some_mem hc
      rw [List.mem_singleton] at hm
      cases hm
      cases he
    · intro n c hc b e he
      have hm : (n, c) ∈ [(pys! "gzip", revGzip), (pys! "identity", .identity)] := Dict.get?_some_mem hc
      rcases List.mem_cons.1 hm with h | h
      · cases h; cases he
      · rw [List.mem_singleton] at h
        cases h
        cases he
  call := by
    intro ctx
    refine ⟨⟨rfl, rfl⟩, ?_⟩
    have h := chat_call p handler (fun _ => hk) [[4, 5], [6]] (fun r hr => by
      rcases List.mem_cons.1 hr with h | h
      · exact .inl h
      · rw [List.mem_singleton] at h; exact .inr h)
    refine ⟨h.codec, h.comps, h.path, h.endpoint, h.kind, h.messages, ?_⟩
    show StreamTimeoutFits _ _ (lessTime ctx)
    cases p with
    | connect =>
      rcases (lessTime_cases ctx).1 with h | h | h <;> rw [h]
      · show (intStr (-1)).length ≤ 10
        decide +kernel
      · show (intStr 1).length ≤ 10
        decide +kernel
      · show (intStr 1500).length ≤ 10
        decide +kernel
    | _ =>
      rcases (lessTime_cases ctx).1 with h | h | h <;> rw [h]
      · show (-1 : Int) < _
        decide
      · show (1 : Int) < _
        decide
      · show (1500 : Int) < _
        decide
  network := fun _ => hn

theorem originBidi_run {ctx : RequestContext} {script : Script Bytes} (h : RunOn originBidi [[4, 5], [6]] ctx script) : script = originScript := by
  obtain ⟨_, _, h⟩ := h
  cases h
  rfl

theorem relayBidi_run {hop : Hop Bytes Bytes} {ctx : RequestContext} {script : Script Bytes} (h : RunOn (relayBidi hop) [[4, 5], [6]] ctx script) :
    script = ⟨.step (.recv true) :: (hop.streams protobufStatus .bidi [[4, 5], [6]] ctx).1.map .emit, (hop.streams protobufStatus .bidi [[4, 5], [6]] ctx).2, none⟩ := by
  obtain ⟨_, _, h⟩ := h
  cases h
  rfl

theorem emits_produced : ∀ ms : List Bytes, produced (ms.map Act.emit) = ms ∧ stepsOf (ms.map (Act.emit (Res := Bytes))) = []
  | [] => ⟨rfl, rfl⟩
  | m :: ms => ⟨congrArg (m :: ·) (emits_produced ms).1, (emits_produced ms).2⟩

theorem relay_ends (trailers : Headers) (p : Proto) (handler : Handler Bytes Bytes) (http : HttpClient) (hl : LegalFields trailers.allitems)
    (h1 : ∀ e ∈ originReadings.map some, (endSize p protobufStatus trailers e) ≤ 1000)
    (h2 : ∀ e ∈ originReadings.map some, ((writerOf chatCodec revGzip).end' p protobufStatus trailers e).isOk = true) {e : Option ConnectErr}
    (he : ReadingOf (some demoError) e) : (bidiHop p handler http).HoldsEnd protobufStatus trailers e := by
  have he := origin_readings default (e := e) he
  refine ⟨fun _ => hl, ?_, ?_⟩
  · intro n hn
    have : (1000 : Int) = n := Option.some.inj hn
    subst this
    exact Int.ofNat_le.2 (h1 e he)
  · have h4 : (((writerOf chatCodec revGzip).end' p protobufStatus trailers ((e.map Exc.connect).map errorOf))).isOk = true := by
      rw [map_connect]; exact h2 e he
    have hcomp : responseComp (bidiHop p handler http).client (bidiHop p handler http).app = revGzip := by cases p <;> rfl
    rw [hcomp]
    show ∃ out, (writerOf chatCodec revGzip).end' p protobufStatus trailers ((e.map Exc.connect).map errorOf) = .ok out
    cases hx : (writerOf chatCodec revGzip).end' p protobufStatus trailers ((e.map Exc.connect).map errorOf) with
    | ok o => exact ⟨o, rfl⟩
    | error x => rw [hx] at h4; cases h4

theorem bidi_messages (p : Proto) (handler : Handler Bytes Bytes) (http : HttpClient) :
    ∀ r ∈ produced originScript.acts, (bidiHop p handler http).HoldsMessage r := by
  intro r hr
  have hcomp : responseComp (bidiHop p handler http).client (bidiHop p handler http).app = revGzip := by cases p <;> rfl
  have hr : r ∈ [[7], [9, 9]] := hr
  refine ⟨r, rfl, ?_, ?_⟩
  · intro n hn
    have : (1000 : Int) = n := Option.some.inj hn
    subst this
    rcases List.mem_cons.1 hr with rfl | hr
    · decide
    · rw [List.mem_singleton] at hr; subst hr; decide
  · rw [hcomp]
    rcases List.mem_cons.1 hr with rfl | hr
    · decide
    · rw [List.mem_singleton] at hr; subst hr; decide

/-- A chain of three services, over gRPC-Web on WSGI, gRPC on ASGI and Connect on ASGI, for a bidirectional stream with messages, a trailer and an error with
details: all hypotheses of C95 are met. -/
example : ∃ (f : Handler Bytes Bytes) (hop : Hop Bytes Bytes), kindOf originBidi = .bidi ∧
    (∀ ctx script, RunOn originBidi [[4, 5], [6]] ctx script → SendableRun script ∧ streamed script = ([[7], [9, 9]], some (.connect demoError))) ∧
    f ≠ originBidi ∧ StreamChain protobufStatus [[4, 5], [6]] originBidi Hop.Heeds f ∧ hop.ServesStream protobufStatus [[4, 5], [6]] f ∧
    hop.CarriesStream protobufStatus [[4, 5], [6]] originBidi f ∧ hop.client.proto = .connect ∧ ∀ ctx, ∃ t, hop.timeout ctx = some t ∧ t ≠ 0 := by
  have hpath : PlainPath (methodPath echoInfo) := ⟨⟨_, rfl⟩, by decide +kernel⟩
  have hlegal : LegalFields (Spec.metadataOf (stepsOf originScript.acts)).trailers.allitems := by
    have : (Spec.metadataOf (stepsOf originScript.acts)).trailers.allitems = [(pys! "x-t", pys! "1")] := by decide +kernel
    rw [this]
    intro p hp
    rw [List.mem_singleton] at hp
    subst hp
    exact ⟨⟨by decide, by decide, by decide, (fun c h => by cases h; decide +kernel), (fun c h => by cases h; decide +kernel)⟩,
      by decide, by decide, (fun c h => by cases h; decide +kernel), (fun c h => by cases h; decide +kernel)⟩
  have hends : ∀ p, ∀ e ∈ originReadings.map some, (endSize p protobufStatus Headers.empty e) ≤ 1000 := by intro p; cases p <;> decide +kernel
  have hends2 : ∀ p, ∀ e ∈ originReadings.map some, ((writerOf chatCodec revGzip).end' p protobufStatus Headers.empty e).isOk = true := by
    intro p; cases p <;> decide +kernel
  -- the relays set no metadata, and produce what the call does
  have hrelay : ∀ hop ctx script, RunOn (relayBidi hop) [[4, 5], [6]] ctx script → stepsOf script.acts = [.recv true] ∧ ModestRun script ∧
      streamed script = hop.streams protobufStatus .bidi [[4, 5], [6]] ctx := by
    intro hop ctx script h
    have h1 := relayBidi_run h
    subst h1
    obtain ⟨h2, h3⟩ := emits_produced (hop.streams protobufStatus .bidi [[4, 5], [6]] ctx).1
    have h4 : stepsOf ((Act.step (.recv true) :: (hop.streams protobufStatus .bidi [[4, 5], [6]] ctx).1.map Act.emit)) = [.recv true] := by
      show Step.recv true :: stepsOf _ = _
      rw [h3]
    refine ⟨h4, ⟨?_, ?_, ?_⟩, ?_⟩
    · show fieldValues (Spec.metadataOf (.recv true :: stepsBefore _)).headers.allitems _ = []
      cases (hop.streams protobufStatus .bidi [[4, 5], [6]] ctx).1 <;> rfl
    · show Built (Spec.metadataOf (stepsOf _)).trailers
      rw [h4]
      exact ⟨[], rfl⟩
    · show ∀ n ∈ grpcReserved, (Spec.metadataOf (stepsOf _)).trailers.getall n = []
      rw [h4]
      show ∀ n ∈ grpcReserved, Headers.empty.getall n = []
      decide +kernel
    · show (produced _, _) = _
      show (produced (List.map Act.emit _), _) = _
      rw [h2]
  have hheeds : ∀ p handler http, (bidiHop p handler http).Heeds := fun _ _ _ ctx ms h => (lessTime_cases ctx).2 ms h
  obtain ⟨http1, hn1⟩ := overWsgi_exists (bidiHop .grpcWeb originBidi ⟨fun _ => .error .cancelled, fun _ => .error .cancelled⟩) protobufStatus hpath
    (fun _ b => ⟨b.reverse, rfl⟩)
  let hop1 := bidiHop .grpcWeb originBidi http1
  obtain ⟨http2, hn2⟩ := overAsgi_exists (bidiHop .grpc (relayBidi hop1) ⟨fun _ => .error .cancelled, fun _ => .error .cancelled⟩) protobufStatus hpath
    (fun _ b => ⟨b.reverse, rfl⟩)
  let hop2 := bidiHop .grpc (relayBidi hop1) http2
  obtain ⟨http3, hn3⟩ := overAsgi_exists (bidiHop .connect (relayBidi hop2) ⟨fun _ => .error .cancelled, fun _ => .error .cancelled⟩) protobufStatus hpath
    (fun _ b => ⟨b.reverse, rfl⟩)
  have hcarry : ∀ p hop http, (bidiHop p (relayBidi hop) http).CarriesStream protobufStatus [[4, 5], [6]] originBidi (relayBidi hop) := by
    intro p hop http
    refine ⟨?_, ?_⟩
    · intro ctx script h
      rw [originBidi_run h]
      exact bidi_messages p _ http
    · intro ctx ctx' script script' e h h' he
      rw [originBidi_run h] at he
      rw [(hrelay hop ctx' script' h').1]
      exact relay_ends Headers.empty p _ http (fun p hp => by cases hp) (hends p) (hends2 p) he
  refine ⟨relayBidi hop2, bidiHop .connect (relayBidi hop2) http3, rfl, ?_, ?_, ?_, bidi_serves .connect _ rfl http3 (.inr hn3), hcarry .connect hop2 http3,
    rfl, ?_⟩
  · intro ctx script h
    rw [originBidi_run h]
    refine ⟨⟨⟨by decide +kernel, ⟨[.add (pys! "x-t") (pys! "1")], rfl⟩, by decide +kernel⟩, ?_⟩, rfl⟩
    intro e he
    cases he
    exact ⟨rfl, demoError_debug, ((origin_sendable ctx).errors _ rfl).2.2.2⟩
  · intro h
    have h1 : ∀ s ctx, _ := fun s ctx => congrFun (congrFun (Handler.bidi.inj h) s) ctx
    have h2 := congrArg (fun x : Script Bytes => x.acts.head?) (h1 ⟨[], none⟩ default)
    cases h2
  · refine .relay (f := relayBidi hop1) hop2 (hheeds _ _ _) (.relay hop1 (hheeds _ _ _) .origin (bidi_serves .grpcWeb originBidi rfl http1 (.inl hn1)) ⟨?_, ?_⟩ rfl
      (fun ctx script h => (hrelay hop1 ctx script h).2.1) (fun ctx script h => (hrelay hop1 ctx script h).2.2))
      (bidi_serves .grpc _ rfl http2 (.inr hn2)) (hcarry .grpc hop1 http2) rfl (fun ctx script h => (hrelay hop2 ctx script h).2.1)
      (fun ctx script h => (hrelay hop2 ctx script h).2.2)
    · intro ctx script h
      rw [originBidi_run h]
      exact bidi_messages .grpcWeb _ http1
    · intro ctx ctx' script script' e h h' he
      rw [originBidi_run h] at he
      rw [originBidi_run h']
      exact relay_ends _ .grpcWeb _ http1 hlegal (by decide +kernel) (by decide +kernel) he
  · intro ctx
    show ∃ t, lessTime ctx = some t ∧ t ≠ 0
    rcases (lessTime_cases ctx).1 with h | h | h <;> exact ⟨_, h, by decide⟩

end Props
