import Verif.Spec.RequestBody
import Verif.Props.Client
/-
C65: the bodies of requests.
-/
namespace Props
open Conn Py Spec

variable {M Req Res : Type}

theorem write_cases (codec : Codec M) (comp : Compression) (m : M) :
    (∃ b, EnvelopeWriter.write ⟨codec, some comp⟩ m = .ok b ∧ EnvelopeOf codec comp m b) ∨
    ∃ e, EnvelopeWriter.write ⟨codec, some comp⟩ m = .error e ∧ NoEnvelope codec comp m e := by
  cases he : codec.encode m with
  | error e => exact .inr ⟨e, by unfold EnvelopeWriter.write; dsimp only; rw [he], .encode he⟩
  | ok d =>
    obtain ⟨h1, _⟩ := C08_write_exact ⟨codec, some comp⟩ m d he
    by_cases hl : (comp.compress d).length < 2 ^ 32
    · refine .inl ⟨_, h1 hl, d, he, hl, ?_⟩
      cases comp <;> rfl
    · refine .inr ⟨_, ?_, .long he (Nat.le_of_not_lt hl) (pys! "'I' format requires 0 <= number <= 4294967295")⟩
      unfold EnvelopeWriter.write EnvelopeWriter.compress packEnvelope
      dsimp only
      rw [he]
      dsimp only
      rw [if_neg hl]

theorem streamingContent_body (codec : Codec M) (comp : Compression) (ms : List M) (srcErr : Option Exc) :
    BodyOf codec comp ms srcErr (streamingContent ⟨codec, some comp⟩ ms srcErr).1 (streamingContent ⟨codec, some comp⟩ ms srcErr).2 := by
  induction ms with
  | nil => exact .all .nil
  | cons m ms ih =>
    unfold streamingContent
    rcases write_cases codec comp m with ⟨b, h1, h2⟩ | ⟨e, h1, h2⟩
    · rw [h1]
      dsimp only
      revert ih
      generalize streamingContent ⟨codec, some comp⟩ ms srcErr = r
      obtain ⟨bs, e⟩ := r
      intro ih
      dsimp only at ih ⊢
      cases ih with
      | all h => exact .all (.cons h2 h)
      | cut hs h he =>
        subst hs
        exact .cut (pre := m :: _) rfl (.cons h2 h) he
    · rw [h1]
      exact .cut (pre := []) rfl .nil h2

/-- The body of every request of a call is that of these messages. -/
def Sends (c : Client Req Res) (reqs : List Req) (srcErr : Option Exc) (rq : HttpRequest) : Prop :=
  BodyOf c.codec c.send reqs srcErr rq.body rq.bodyErr

theorem bidi_sends_body (c : Client Req Res) (sc : StatusCodec) (sink : Sink) (cs : Circumstances) (ctx : RequestContext)
    (reqs : List Req) (srcErr : Option Exc) :
    SendsOnly (Sends c reqs srcErr) fun h => c.bidi sc h.stream sink cs ctx reqs srcErr := by
  intro h h' hh
  dsimp only
  unfold Client.bidi
  dsimp only
  rw [(hh ⟨pys! "POST", c.url ctx.method, ctx.requestHeaders.allitems, ctx.timeoutMs, _, _⟩
    (show Sends c reqs srcErr _ from streamingContent_body c.codec c.send reqs srcErr)).2]

/-- C65. The body of every streamed request — of client-stream, server-stream and bidi-stream calls, and of unary calls by gRPC and
gRPC-Web — is that of the caller's messages and of what their iterator ended with. -/
theorem C65_request_body (c : Client Req Res) (sc : StatusCodec) (sink : Sink) (cs : Circumstances) (m : MethodInfo) (user : UserHeaders)
    (t : Option Int) :
    (∀ reqs err, SendsOnly (Sends c reqs err) fun h => c.executeClientStream sc h sink cs reqs err m user t) ∧
    (∀ req, SendsOnly (Sends c [req] none) fun h => c.executeServerStream sc h sink cs req m user t) ∧
    (∀ reqs err, SendsOnly (Sends c reqs err) fun h => c.executeBidiStream sc h sink cs reqs err m user t) ∧
    (c.proto ≠ .connect → ∀ req useGet, SendsOnly (Sends c [req] none) fun h => c.executeUnary sc h sink cs req m user t useGet) := by
  refine ⟨?_, ?_, ?_, ?_⟩
  · intro reqs err h h' hh
    exact congrArg Client.single (bidi_sends_body c sc sink cs _ reqs err h h' hh)
  · intro req h h' hh
    exact bidi_sends_body c sc sink cs _ [req] none h h' hh
  · intro reqs err h h' hh
    exact bidi_sends_body c sc sink cs _ reqs err h h' hh
  · intro hp req useGet h h' hh
    dsimp only
    unfold Client.executeUnary
    dsimp only
    cases hc : c.proto with
    | connect => exact absurd hc hp
    | _ => exact congrArg Client.single (bidi_sends_body c sc sink cs _ [req] none h h' hh)

/-- C65, for unary calls by Connect: a POST carries the encoded message, compressed, and nothing else; a GET carries nothing in its body (see
C47 for its query). -/
theorem C65_unary_body (c : Client Req Res) (hc : c.proto = .connect) (sc : StatusCodec) (sink : Sink) (cs : Circumstances) (req : Req)
    (m : MethodInfo) (user : UserHeaders) (t : Option Int) :
    SendsOnly (fun rq => rq.bodyErr = none ∧ ∃ d, c.codec.encode req = .ok d ∧ rq.body.flatten = c.send.compress d)
      (fun h => c.executeUnary sc h sink cs req m user t false) ∧
    SendsOnly (fun rq => rq.bodyErr = none ∧ rq.body = []) (fun h => c.executeUnary sc h sink cs req m user t true) := by
  have key : ∀ P : HttpRequest → Prop, ∀ g : Bool,
      (∀ d, c.codec.encode req = .ok d →
        P (c.unaryRequest (c.context m (if g then pys! "GET" else pys! "POST") user t false) (c.send.compress d))) →
      SendsOnly P fun h => c.executeUnary sc h sink cs req m user t g := by
    intro P g hP h h' hh
    dsimp only
    unfold Client.executeUnary
    dsimp only
    rw [hc]
    dsimp only
    unfold Client.connectUnary
    cases he : c.codec.encode req with
    | error e => rfl
    | ok d =>
      dsimp only
      rw [(hh _ (hP d he)).1]
  constructor
  · apply key
    intro d hd
    unfold Client.unaryRequest
    rw [if_neg (by show pys! "POST" ≠ pys! "GET"; decide)]
    exact ⟨rfl, d, hd, by simp⟩
  · apply key
    intro d hd
    unfold Client.unaryRequest
    rw [if_pos rfl]
    exact ⟨rfl, rfl⟩

/-- C65: a body that ends normally is complete — the iterator ended normally and every message is in it; and if a message cannot be
written, or the iterator raised, the body does not end normally. -/
theorem C65_no_silent_truncation (codec : Codec M) (comp : Compression) (ms : List M) (srcErr : Option Exc) (body : List (List UInt8))
    (e : Option Exc) (h : BodyOf codec comp ms srcErr body e) :
    (e = none → srcErr = none ∧ Envelopes codec comp ms body) ∧ (srcErr ≠ none → e ≠ none) ∧
    (∀ m ∈ ms, ∀ x, NoEnvelope codec comp m x → e ≠ none) := by
  cases h with
  | all h =>
    refine ⟨fun hn => ⟨hn, h⟩, fun hn => hn, ?_⟩
    intro m hm x hx
    exfalso
    induction h with
    | nil => cases hm
    | cons he _ ih =>
      rcases List.mem_cons.1 hm with rfl | hm
      · obtain ⟨d, h1, h2, _⟩ := he
        cases hx with
        | encode h => rw [h1] at h; cases h
        | long h hl => rw [h1] at h; cases h; omega
      · exact ih hm
  | cut hs h he =>
    exact ⟨nofun, fun _ => nofun, fun _ _ _ _ => nofun⟩

/-- C65: the bodies of two message sequences that end normally are equal only if the messages have equal encodings, one by one. -/
theorem C65_determined (codec : Codec M) (comp : Compression) (ms ms' : List M) (body : List (List UInt8))
    (h : Envelopes codec comp ms body) (h' : Envelopes codec comp ms' body) (hc : ∀ a b, comp.compress a = comp.compress b → a = b) :
    ms.map codec.encode = ms'.map codec.encode := by
  induction h generalizing ms' with
  | nil => cases h'; rfl
  | cons he hr ih =>
    cases h' with
    | cons he' hr' =>
      rw [List.map_cons, List.map_cons, ih _ hr']
      obtain ⟨d, h1, h2, h3⟩ := he
      obtain ⟨d', h1', h2', h3'⟩ := he'
      rw [h3] at h3'
      have : comp.compress d = comp.compress d' := by
        have := congrArg (List.drop 5) h3'
        exact this
      rw [h1, h1', hc _ _ this]

/-! ### the hypotheses are met -/

/-- three messages, the third of which cannot be encoded; and an iterator that raises -/
example :
    streamingContent ⟨⟨pys! "picky", fun b : Bytes => if b = [9] then .error .cancelled else .ok b, .ok⟩, some flipComp⟩ [[1, 2], [], [9], [4]] none =
      ([[1, 0, 0, 0, 2, 2, 1], [1, 0, 0, 0, 0]], some .cancelled) ∧
    streamingContent ⟨rawCodec, some .identity⟩ [[1, 2]] (some .cancelled) = ([[0, 0, 0, 0, 2, 1, 2]], some .cancelled) ∧
    Envelopes rawCodec flipComp [[1, 2], []] [[1, 0, 0, 0, 2, 2, 1], [1, 0, 0, 0, 0]] :=
  ⟨rfl, rfl, .cons ⟨[1, 2], rfl, by decide, rfl⟩ (.cons ⟨[], rfl, by decide, rfl⟩ .nil)⟩

end Props
