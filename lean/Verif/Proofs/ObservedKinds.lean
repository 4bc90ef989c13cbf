import Verif.Spec.ObservedKinds
import Verif.Proofs.Observed
/-
Runs of functions that read a stream, as far as they get.
-/
namespace Props
open Conn Spec Py Proofs

section
variable {C Req Res : Type}

/-- the actions as far as they get run as the actions do -/
theorem runs_on {write : Res → Except Exc Bytes} {close : Option Exc} {h h' : HState Req} {acts : List (Act Res)} {outcome e : Option Exc} {i : Meta} {ms : List Res}
    (hr : Runs write close h acts outcome i ms h' e) :
    Runs write close h (actsOn h.reqs.length h.err outcome acts).1 (actsOn h.reqs.length h.err outcome acts).2 i ms h' e := by
  induction hr with
  | done h o => exact .done ..
  | step hs hr ih =>
    cases hs with
    | update _ f => exact .step (.update ..) ih
    | message m ms err i got c => exact .step (.message ..) ih
    | ended i got c => exact .step (.ended ..) ih
    | handled x i got => exact .step (.handled ..) ih
  | raised hs =>
    cases hs with
    | failed x i got => exact .raised (.failed ..)
  | emit hw hr ih => exact .emit hw ih
  | unwritable hx => exact .unwritable hx

/-- … and end as they say, if every message can be written -/
theorem genOf_on {write : Res → Except Exc Bytes} {close close' : Option Exc} {h h' : HState Req} {acts : List (Act Res)} {outcome e : Option Exc}
    {i : Meta} {ms : List Res} (hr : Runs write close h acts outcome i ms h' e)
    (hw : ∀ m, .emit m ∈ acts → ∃ b, write m = .ok b) (es : List (Happening C)) :
    let r := actsOn h.reqs.length h.err outcome acts
    e = r.2 ∧ ((genOf es close' r.2 r.1).use (ms.length + 1)).messages = ms ∧
      ((genOf es close' r.2 r.1).use (ms.length + 1)).exc = r.2 ∧
      ((genOf es close' r.2 r.1).use (ms.length + 1)).later = [] ∧
      telemetryIn ((genOf es close' r.2 r.1).use (ms.length + 1)).effects = telemetryIn es := by
  dsimp only
  induction hr generalizing es with
  | done h o => exact ⟨rfl, rfl, rfl, rfl, rfl⟩
  | step hs hr ih =>
    have tel : ∀ s : Step, telemetryIn (es ++ [.inr s]) = telemetryIn es := fun s => by
      rw [telemetryIn_append]
      exact List.append_nil _
    cases hs with
    | update _ f =>
      obtain ⟨e1, e2, e3, e4, e5⟩ := ih (fun m hm => hw m (List.mem_cons_of_mem _ hm)) (es ++ [.inr (.update f)])
      exact ⟨e1, e2, e3, e4, e5.trans (tel _)⟩
    | message m ms err i got c =>
      obtain ⟨e1, e2, e3, e4, e5⟩ := ih (fun m hm => hw m (List.mem_cons_of_mem _ hm)) (es ++ [.inr (.recv c)])
      exact ⟨e1, e2, e3, e4, e5.trans (tel _)⟩
    | ended i got c =>
      obtain ⟨e1, e2, e3, e4, e5⟩ := ih (fun m hm => hw m (List.mem_cons_of_mem _ hm)) (es ++ [.inr (.recv c)])
      exact ⟨e1, e2, e3, e4, e5.trans (tel _)⟩
    | handled x i got =>
      obtain ⟨e1, e2, e3, e4, e5⟩ := ih (fun m hm => hw m (List.mem_cons_of_mem _ hm)) (es ++ [.inr (.recv true)])
      exact ⟨e1, e2, e3, e4, e5.trans (tel _)⟩
  | raised hs =>
    cases hs with
    | failed x i got =>
      refine ⟨rfl, rfl, rfl, rfl, ?_⟩
      show telemetryIn (es ++ [.inr _]) = _
      rw [telemetryIn_append]
      exact List.append_nil _
  | emit hw' hr ih =>
    obtain ⟨e1, e2, e3, e4, e5⟩ := ih (fun m hm => hw m (List.mem_cons_of_mem _ hm)) []
    refine ⟨e1, congrArg (_ :: ·) e2, e3, e4, ?_⟩
    show telemetryIn (es ++ _) = _
    exact (telemetryIn_append es _).trans ((congrArg (telemetryIn es ++ ·) e5).trans (List.append_nil _))
  | unwritable hx =>
    obtain ⟨b, hb⟩ := hw _ (List.mem_cons_self ..)
    rw [hx] at hb
    cases hb

/-- steps that have got as far as they do, as actions; `last` follows if no exception left the function -/
def asActs (last : List (Act Res)) (outcome : Option Exc) : List Step × Option Exc → List (Act Res) × Option Exc
  | (steps, none) => (steps.map .step ++ last, outcome)
  | (steps, some e) => (steps.map .step, some e)

/-- the steps of a function, as actions -/
theorem actsOn_steps (last : List (Act Res)) (outcome : Option Exc) (hl : ∀ n err, actsOn n err outcome last = (last, outcome)) : ∀ (ss : List Step) (n : Nat) (err : Option Exc),
    actsOn n err outcome (ss.map .step ++ last) = asActs last outcome (stepsOn n err ss)
  | [], n, err => by
    show actsOn n err outcome last = _
    rw [hl]
    rfl
  | .update f :: ss, n, err => by
    have ih := actsOn_steps last outcome hl ss n err
    show (Act.step (.update f) :: (actsOn n err outcome (ss.map .step ++ last)).1, (actsOn n err outcome (ss.map .step ++ last)).2) = _
    rw [ih]
    show _ = asActs last outcome (Step.update f :: (stepsOn n err ss).1, (stepsOn n err ss).2)
    rcases stepsOn n err ss with ⟨x, _ | e⟩ <;> rfl
  | .recv c :: ss, n + 1, err => by
    have ih := actsOn_steps last outcome hl ss n err
    show (Act.step (.recv c) :: (actsOn n err outcome (ss.map .step ++ last)).1, (actsOn n err outcome (ss.map .step ++ last)).2) = _
    rw [ih]
    show _ = asActs last outcome (Step.recv c :: (stepsOn n err ss).1, (stepsOn n err ss).2)
    rcases stepsOn n err ss with ⟨x, _ | e⟩ <;> rfl
  | .recv c :: ss, 0, none => by
    have ih := actsOn_steps last outcome hl ss 0 none
    show (Act.step (.recv c) :: (actsOn 0 none outcome (ss.map .step ++ last)).1, (actsOn 0 none outcome (ss.map .step ++ last)).2) = _
    rw [ih]
    show _ = asActs last outcome (Step.recv c :: (stepsOn 0 none ss).1, (stepsOn 0 none ss).2)
    rcases stepsOn 0 none ss with ⟨x, _ | e⟩ <;> rfl
  | .recv true :: ss, 0, some x => by
    have ih := actsOn_steps last outcome hl ss 0 none
    show (Act.step (.recv true) :: (actsOn 0 none outcome (ss.map .step ++ last)).1, (actsOn 0 none outcome (ss.map .step ++ last)).2) = _
    rw [ih]
    show _ = asActs last outcome (Step.recv true :: (stepsOn 0 none ss).1, (stepsOn 0 none ss).2)
    rcases stepsOn 0 none ss with ⟨y, _ | e⟩ <;> rfl
  | .recv false :: ss, 0, some x => rfl

/-- the run of a function on a stream, as a run that produces messages -/
theorem responds_on (c : Call Res) (s : ReqStream Req) {script : Script Res} (h : Responds c script) :
    Responds (c.on s) ⟨(actsOn s.messages.length s.err script.outcome script.acts).1, (actsOn s.messages.length s.err script.outcome script.acts).2, none⟩ ∧ script.closeErr = none := by
  cases h with
  | returned steps r =>
    refine ⟨?_, rfl⟩
    rw [actsOn_steps [.emit r] none (fun _ _ => rfl)]
    unfold Call.on
    dsimp only
    rcases stepsOn s.messages.length s.err steps with ⟨x, _ | e⟩
    · exact .returned ..
    · exact .raised ..
  | raised steps e =>
    refine ⟨?_, rfl⟩
    have := actsOn_steps (Res := Res) [] (some e) (fun _ _ => rfl) steps s.messages.length s.err
    rw [List.append_nil] at this
    rw [this]
    unfold Call.on
    dsimp only
    rcases stepsOn s.messages.length s.err steps with ⟨x, _ | y⟩
    · dsimp only [asActs]
      rw [List.append_nil]
      exact .raised ..
    · exact .raised ..

/-- what a call ends with is what its run ends with -/
theorem responds_outcome {c : Call Res} {script : Script Res} (hc : Responds c script) : script.outcome = errOf c.result := by
  cases hc <;> rfl

theorem responds_close {c : Call Res} {script : Script Res} (hc : Responds c script) : script.closeErr = none := by
  cases hc <;> rfl

/-- The status a run ends with, as tracing reports it. -/
theorem reported_caught {e : Option Exc} (hc : Caught e) : (reported e).map statusOf = e.map fun x => codeName (errorOf x).code := by
  cases e with
  | none => rfl
  | some x =>
    rw [show reported (some x) = some x from by show (some x).filter _ = some x; rw [Option.filter_some, if_pos (hc x rfl)]]
    exact congrArg some (code_errorOf x)

/-- an endpoint's function with the interceptor around it is started when the function is, runs as the function does, and tracing reports what it ends with -/
theorem handler_watched {o : OtelInterceptor C} (ho : o.client = false) (flavor : Bool) (current : Option C) {handler : Handler Req Res} {s : ReqStream Req} {ctx : RequestContext}
    (hsv : Traceable ctx.serverAddress) (hcl : Traceable ctx.clientAddress) {req : Option Req} {h0 : HState Req} {script : Script Res} (hst : Starts s ctx handler req h0 script)
    {write : Res → Except Exc Bytes} (hw : ∀ m, .emit m ∈ script.acts → ∃ b, write m = .ok b) {i : Meta} {ms : List Res} {h' : HState Req} {e : Option Exc}
    (hr : Runs write none h0 script.acts script.outcome i ms h' e) (hc : Caught e) (key : List Char) :
    (∃ script', Starts s ctx (o.handler flavor current handler) req h0 script' ∧ Runs write none h0 script'.acts script'.outcome i ms h' e ∧ (flavor = true → script'.closeErr = none)) ∧
    Reports (telemetryOfKind o flavor current s (ms.length + 1) handler [⟨key, ctx, req⟩]) (e.map fun x => codeName (errorOf x).code) := by
  rw [← reported_caught hc]
  cases hst with
  | unary f m hm he hresp =>
    obtain ⟨w1, w2⟩ := watch_eq (Res := Res) ho flavor current f m hsv hcl
    refine ⟨⟨script, .unary _ m hm he (by rw [w1]; exact hresp), hr, fun _ => responds_close hresp⟩, ?_⟩
    show Reports (_ ++ []) _
    rw [List.append_nil, (genOf_use (C := C) (close' := none) hr rfl rfl hw []).1, responds_outcome hresp]
    exact w2
  | clientStream f hresp =>
    obtain ⟨w1, w2⟩ := watch_eq (Res := Res) ho flavor current (fun (s : ReqStream Req) ctx => (f s ctx).on s) s hsv hcl
    obtain ⟨r1, r2⟩ := responds_on (f s ctx) s hresp
    refine ⟨⟨_, .clientStream _ (by rw [w1]; exact r1), runs_on hr, fun _ => rfl⟩, ?_⟩
    show Reports (_ ++ []) _
    rw [List.append_nil, (genOf_on (C := C) (close' := none) hr hw []).1]
    have := responds_outcome r1
    dsimp only at this
    show Reports _ (Option.map statusOf (reported (actsOn s.messages.length s.err script.outcome script.acts).2))
    rw [this]
    exact w2
  | serverStream f m hm he =>
    obtain ⟨w1, w2, w3⟩ := watchedGen_eq (Res := Res) ho flavor current f m hsv hcl
    obtain ⟨e1, e2, e3, e4, e5⟩ := genOf_use (C := C) (close' := (f m ctx).closeErr) hr rfl rfl hw []
    refine ⟨⟨_, .serverStream _ m hm he, by rw [w1, w2]; exact hr, w3⟩, ?_⟩
    have := (watchGen_reports ho flavor current f m hsv hcl e2 e5 e4).1 (Nat.lt_succ_self _)
    rw [e3, ← e1] at this
    show Reports (_ ++ []) _
    rw [List.append_nil]
    exact this
  | bidi f =>
    obtain ⟨w1, w2, w3⟩ := watchedGen_eq (Res := Res) ho flavor current (fun (s : ReqStream Req) ctx => (f s ctx).on s) s hsv hcl
    obtain ⟨e1, e2, e3, e4, e5⟩ := genOf_on (C := C) (close' := (f s ctx).closeErr) hr hw []
    refine ⟨⟨_, .bidi _, by rw [w1, w2]; exact runs_on hr, w3⟩, ?_⟩
    have := (watchGen_reports ho flavor current (fun (s : ReqStream Req) ctx => (f s ctx).on s) s hsv hcl e2 e5 e4).1 (Nat.lt_succ_self _)
    have h3 : ((genOf (C := C) [] ((f s ctx).on s).closeErr ((f s ctx).on s).outcome ((f s ctx).on s).acts).use (ms.length + 1)).exc = e := e3.trans e1.symm
    rw [h3] at this
    show Reports (_ ++ []) _
    rw [List.append_nil]
    exact this

end

end Props
