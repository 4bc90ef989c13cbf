import Verif.Props.Iteration
/-
C77: a stream of the async client whose task is cancelled between messages.
-/
namespace Props
open Conn Py Spec

variable {Req Res : Type}

/-- The same circumstances, without the cancellation. -/
def undisturbed (cs : Circumstances) : Circumstances := { cs with cancelAfter := none }

theorem inside_interrupted (c : Client Req Res) (hf : c.flavor = .async) (sc : StatusCodec) (sink : Sink) (resp : StreamResponse) (cs : Circumstances)
    (k : Nat) (hk : cs.cancelAfter = some k) :
    (k < (c.inside sc sink resp (undisturbed cs)).messages.length →
      (c.inside sc sink resp cs).messages = (c.inside sc sink resp (undisturbed cs)).messages.take (k + 1) ∧
      (c.inside sc sink resp cs).exc = some .cancelled) ∧
    ((c.inside sc sink resp (undisturbed cs)).messages.length ≤ k → c.inside sc sink resp cs = c.inside sc sink resp (undisturbed cs)) := by
  have hbody : ∀ sink comp, (k < (c.readBody sc sink comp resp (undisturbed cs)).messages.length →
      (c.readBody sc sink comp resp cs).messages = (c.readBody sc sink comp resp (undisturbed cs)).messages.take (k + 1) ∧
      (c.readBody sc sink comp resp cs).exc = some .cancelled) ∧
      ((c.readBody sc sink comp resp (undisturbed cs)).messages.length ≤ k →
        c.readBody sc sink comp resp cs = c.readBody sc sink comp resp (undisturbed cs)) := by
    intro sink comp
    have h0 : ∀ n, cancelPoint c.flavor (undisturbed cs).cancelAfter n = none := by intro n; rw [hf]; rfl
    have hm : (c.readBody sc sink comp resp (undisturbed cs)).messages =
        (feedAll (c.reader comp) (ReaderState.init (ClientSub.init sink)) resp.chunks).1 := by
      unfold Client.readBody
      dsimp only
      rw [h0]
      dsimp only
      repeat' split
      all_goals rfl
    rw [hm]
    constructor
    · intro hlt
      unfold Client.readBody
      dsimp only
      rw [hf, hk, show cancelPoint .async (some k) _ = some (k + 1) from if_pos hlt]
      exact ⟨rfl, rfl⟩
    · intro hle
      unfold Client.readBody
      dsimp only
      rw [h0, hf, hk, show cancelPoint .async (some k) _ = none from if_neg (by omega)]
      rfl
  unfold Client.inside
  dsimp only
  repeat' split
  all_goals first
    | exact hbody _ _
    | exact ⟨fun h => absurd h (by simp), fun _ => rfl⟩

/-- what the caller learns of what happened inside the `with` statement -/
def outside (c : Client Req Res) (sc : StatusCodec) (cs : Circumstances) (resp : StreamResponse) (i : Inside Res) : StreamResult Res :=
  let streamError := match c.flavor, i.fromFeed, i.exc with
    | .sync, true, some e => if e.isConnect then some e else none
    | _, _, _ => none
  match leaveWith c.flavor cs i.exc resp.exitErr with
  | none => ⟨i.sink, i.messages, none⟩
  | some e =>
    let q := c.mapStreamExc sc i.sink cs streamError i.reader (some resp) e
    ⟨q.1, i.messages, some q.2⟩

theorem outside_messages (c : Client Req Res) (sc : StatusCodec) (cs : Circumstances) (resp : StreamResponse) (i : Inside Res) :
    (outside c sc cs resp i).messages = i.messages := by
  unfold outside
  dsimp only
  split <;> rfl

theorem outside_undisturbed (c : Client Req Res) (sc : StatusCodec) (cs : Circumstances) (resp : StreamResponse) (i : Inside Res) :
    outside c sc (undisturbed cs) resp i = outside c sc cs resp i := rfl

theorem outside_cancelled (c : Client Req Res) (hf : c.flavor = .async) (sc : StatusCodec) (cs : Circumstances) (resp : StreamResponse)
    (hx : resp.exitErr = none) (i : Inside Res) (hi : i.exc = some .cancelled) :
    ∃ ce, (outside c sc cs resp i).exc = some (.connect ce) ∧ ce.code = if cs.timeoutFired then .deadlineExceeded else .canceled := by
  unfold outside
  dsimp only
  rw [hi, hx, hf]
  cases ht : cs.timeoutFired with
  | true =>
    rw [show leaveWith .async cs (some .cancelled) none = some (.other .timeoutError []) from if_pos ht]
    exact ⟨_, rfl, rfl⟩
  | false =>
    rw [show leaveWith .async cs (some .cancelled) none = some .cancelled from if_neg (by rw [ht]; decide)]
    dsimp only
    unfold Client.mapStreamExc
    dsimp only
    rw [hf]
    exact ⟨_, rfl, rfl⟩

/-- **C77, cancellation between messages.** When the task that iterates a stream of the async client is cancelled after message number `k` (counted
from 0), the caller has got the messages up to it, and no other, and the stream raises CANCELED (DEADLINE_EXCEEDED if the timeout of the call fired as
well). A cancellation that would come after the last message does not happen in the stream: it delivers and raises what it would anyway. -/
theorem C77_cancelled_between (c : Client Req Res) (hf : c.flavor = .async) (sc : StatusCodec) (http : HttpClient)
    (hx : ∀ r resp, http.stream r = .ok resp → resp.exitErr = none) (sink : Sink) (cs : Circumstances) (k : Nat) (hk : cs.cancelAfter = some k)
    (reqs : List Req) (srcErr : Option Exc) (m : MethodInfo) (user : UserHeaders) (t : Option Int) :
    let whole := c.executeBidiStream sc http sink (undisturbed cs) reqs srcErr m user t
    let cut := c.executeBidiStream sc http sink cs reqs srcErr m user t
    (k < whole.messages.length → cut.messages = whole.messages.take (k + 1) ∧
      ∃ ce, cut.exc = some (.connect ce) ∧ ce.code = if cs.timeoutFired then .deadlineExceeded else .canceled) ∧
    (whole.messages.length ≤ k → cut = whole) := by
  intro whole cut
  show (k < (c.bidi sc http.stream sink (undisturbed cs) _ reqs srcErr).messages.length → _) ∧ _
  have key : ∀ ctx, (k < (c.bidi sc http.stream sink (undisturbed cs) ctx reqs srcErr).messages.length →
      (c.bidi sc http.stream sink cs ctx reqs srcErr).messages =
        (c.bidi sc http.stream sink (undisturbed cs) ctx reqs srcErr).messages.take (k + 1) ∧
      ∃ ce, (c.bidi sc http.stream sink cs ctx reqs srcErr).exc = some (.connect ce) ∧
        ce.code = if cs.timeoutFired then .deadlineExceeded else .canceled) ∧
      ((c.bidi sc http.stream sink (undisturbed cs) ctx reqs srcErr).messages.length ≤ k →
        c.bidi sc http.stream sink cs ctx reqs srcErr = c.bidi sc http.stream sink (undisturbed cs) ctx reqs srcErr) := by
    intro ctx
    unfold Client.bidi
    dsimp only
    generalize hrq : ({ method := _, url := _, headers := _, timeoutMs := _, body := _, bodyErr := _ } : HttpRequest) = rq
    cases hr : http.stream rq with
    | error e =>
      dsimp only
      have hl : ∀ b x, leaveWith c.flavor (undisturbed cs) b x = leaveWith c.flavor cs b x := fun _ _ => rfl
      rw [hl]
      cases leaveWith c.flavor cs (some e) none with
      | none => exact ⟨fun h => absurd h (by simp), fun _ => rfl⟩
      | some e => exact ⟨fun h => absurd h (by simp), fun _ => rfl⟩
    | ok resp =>
      dsimp only
      have hex := hx rq resp hr
      obtain ⟨h1, h2⟩ := inside_interrupted c hf sc sink resp cs k hk
      show (k < (outside c sc (undisturbed cs) resp (c.inside sc sink resp (undisturbed cs))).messages.length →
        (outside c sc cs resp (c.inside sc sink resp cs)).messages =
          (outside c sc (undisturbed cs) resp (c.inside sc sink resp (undisturbed cs))).messages.take (k + 1) ∧
        ∃ ce, (outside c sc cs resp (c.inside sc sink resp cs)).exc = some (.connect ce) ∧
          ce.code = if cs.timeoutFired then .deadlineExceeded else .canceled) ∧
        ((outside c sc (undisturbed cs) resp (c.inside sc sink resp (undisturbed cs))).messages.length ≤ k →
          outside c sc cs resp (c.inside sc sink resp cs) = outside c sc (undisturbed cs) resp (c.inside sc sink resp (undisturbed cs)))
      rw [outside_messages, outside_messages]
      refine ⟨fun hlt => ⟨(h1 hlt).1, outside_cancelled c hf sc cs resp hex _ (h1 hlt).2⟩, fun hle => ?_⟩
      rw [outside_undisturbed, h2 hle]
  exact key _

/-- hypotheses met: a stream of two messages, cancelled after the first; and not cancelled, as it has no third -/
example :
    let call := fun n => (demoClient .async .connect).executeBidiStream protobufStatus
      (always default (okStream (pys! "application/connect+raw") [[0, 0, 0, 0, 1, 7, 0, 0, 0, 0, 1, 8], [2, 0, 0, 0, 2, 123, 125]] []))
      none { calm with cancelAfter := some n } [[1]] none demoMethod .none none
    (call 0).messages = [[7]] ∧ ((call 0).exc.map fun e => match e with | .connect ce => some ce.code | _ => none) = some (some .canceled) ∧
    (call 2).messages = [[7], [8]] ∧ (call 2).exc = none := by
  decide +kernel

end Props
