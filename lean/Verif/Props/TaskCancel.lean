import Verif.Proofs.TaskCancel
import Verif.Props.Client
/-
C89: tasks that are cancelled while they wait for a call.
-/
namespace Props
open Conn Py Spec

section
variable {Req Res : Type}

theorem wake_quiet {s : TaskNow} {w : Wake} (h : ¬ WantedElsewhere s.blocks w) : w.others = 0 ∧ (expire s.blocks w.expired).2 = 0 := by
  refine ⟨?_, ?_⟩
  · cases ho : w.others with
    | zero => rfl
    | succ n => exact absurd (.inl (by omega)) h
  · cases he : (expire s.blocks w.expired).2 with
    | zero => rfl
    | succ n => exact absurd (.inr ((expire_pos _ _).1 (by omega))) h

/-- **C89, the call.** An async unary call (of the Connect protocol) that is awaited: left alone, it gives what the HTTP client's answer comes to; when its timeout has passed and nobody else wants the task cancelled,
DEADLINE_EXCEEDED, and no cancellation is left behind; when others cancel the task, or a timeout block around the call has expired, CANCELED, whatever the HTTP client would have answered. -/
theorem C89_call (c : Client Req Res) (hf : c.flavor = .async) (sched : Nat → Wake) (ctx : RequestContext) (req : Req) (data : List UInt8)
    (he : c.codec.encode req = .ok data) (s : TaskNow) :
    let w := sched s.step
    let out := c.taskCall sched ctx req s
    (¬ WantedElsewhere s.blocks w → ¬ DeadlinePassed ctx w → out = (⟨s.cancelling, out.1.blocks, s.step + 1⟩, (c.connectUnary w.http none ctx req).2)) ∧
    (¬ WantedElsewhere s.blocks w → DeadlinePassed ctx w → raisesCode out.2 .deadlineExceeded ∧ out.1.cancelling = s.cancelling) ∧
    (WantedElsewhere s.blocks w → raisesCode out.2 .canceled) := by
  intro w out
  have hout : out = ({ (s.wake w (w.deadline && ctx.timeoutMs.isSome)).1 with
        cancelling := (OpenBlock.leave (α := FullResponse) ⟨s.cancelling, w.deadline && ctx.timeoutMs.isSome⟩
          (s.wake w (w.deadline && ctx.timeoutMs.isSome)).1.cancelling (.error .cancelled)).1 },
      (c.connectUnary (fun r => (OpenBlock.leave ⟨s.cancelling, w.deadline && ctx.timeoutMs.isSome⟩ (s.wake w (w.deadline && ctx.timeoutMs.isSome)).1.cancelling
        (if (s.wake w (w.deadline && ctx.timeoutMs.isSome)).2 then .error .cancelled else w.http r)).2) none ctx req).2) := by
    show c.taskCall sched ctx req s = _
    unfold Client.taskCall
    rw [he]
  have hd : DeadlinePassed ctx w ↔ (w.deadline && ctx.timeoutMs.isSome) = true := by
    unfold DeadlinePassed
    rw [Bool.and_eq_true, Option.isSome_iff_ne_none]
  rw [hd]
  generalize hT : (w.deadline && ctx.timeoutMs.isSome) = timer at hout
  refine ⟨?_, ?_, ?_⟩
  · intro hw ht
    obtain ⟨h1, h2⟩ := wake_quiet hw
    cases timer with
    | true => exact absurd rfl ht
    | false =>
      have hq : s.wake w false = (⟨s.cancelling, (expire s.blocks w.expired).1, s.step + 1⟩, false) := by
        unfold TaskNow.wake
        dsimp only
        rw [h1, h2]
        rfl
      rw [hout, hq]
      rfl
  · intro hw ht
    obtain ⟨h1, h2⟩ := wake_quiet hw
    subst ht
    have hq : s.wake w true = (⟨s.cancelling + 1, (expire s.blocks w.expired).1, s.step + 1⟩, true) := by
      unfold TaskNow.wake
      dsimp only
      rw [h1, h2]
      rfl
    rw [hout, hq]
    refine ⟨?_, rfl⟩
    dsimp only
    rw [connectUnary_http c none ctx req he (.other .timeoutError []) _ (by
      intro r
      show (if s.cancelling + 1 - 1 ≤ s.cancelling then _ else _) = _
      rw [if_pos (by omega)]), hf]
    exact ⟨_, rfl, rfl⟩
  · intro hw
    have hn : 0 < w.others + (expire s.blocks w.expired).2 := by
      rcases hw with h | h
      · omega
      · have := (expire_pos s.blocks w.expired).2 h
        omega
    have hq : (s.wake w timer).2 = true := decide_eq_true (by show 0 < w.others + _ + _; omega)
    have hc : (s.wake w timer).1.cancelling = s.cancelling + (w.others + (expire s.blocks w.expired).2 + timer.toNat) := rfl
    rw [hout]
    dsimp only
    rw [connectUnary_http c none ctx req he .cancelled _ (by
      intro r
      rw [hq, if_pos rfl, hc]
      unfold OpenBlock.leave
      cases timer with
      | false => rfl
      | true =>
        dsimp only
        rw [if_pos rfl, if_neg (by show ¬ (s.cancelling + (_ + _ + 1) - 1 ≤ s.cancelling); omega)]), hf]
    exact ⟨_, rfl, rfl⟩

/-- **C89, no trace.** Whatever the task does, and however often its calls and its timeout blocks run out of time: at its end `task.cancelling()` is the number of times that others cancelled it. -/
theorem C89_no_trace (c : Client Req Res) (sched : Nat → Wake) (p : Program Req Res) :
    let out := p.task c sched
    out.1.cancelling = othersIn sched 0 out.1.step ∧ out.1.blocks = [] := by
  intro out
  obtain ⟨_, h2, h3⟩ := run_count c sched p ⟨0, [], 0⟩ (Nat.le_refl _)
  have hb : out.1.blocks = [] := List.map_eq_nil_iff.1 h3
  refine ⟨?_, hb⟩
  have h2 : out.1.cancelling + 0 = 0 + expiringIn out.1.blocks + othersIn sched 0 (out.1.step - 0) := h2
  rw [hb, Nat.sub_zero] at h2
  show out.1.cancelling = _
  have : expiringIn [] = 0 := rfl
  omega

/-- C89 is false: a task that waits for calls only cannot be cancelled. Whoever cancels it, and however often, it does not end as cancelled. -/
theorem C89_violation_not_cancelled (c : Client Req Res) (hf : c.flavor = .async) (sched : Nat → Wake) : ∀ (p : Program Req Res), OnlyCalls p →
    (p.task c sched).2 ≠ .error .cancelled := by
  intro p hp
  unfold Program.task
  generalize (⟨0, [], 0⟩ : TaskNow) = s
  induction hp generalizing s with
  | done h => exact h
  | call h ih => exact ih _ (taskCall_not_cancelled c hf _ _ _ _) _

/-- tries a call a second time when it raises -/
def again (ctx : RequestContext) (req : Req) : Program Req Res :=
  .call ctx req fun
    | .error _ => .call ctx req .done
    | r => .done r

/-- C89 is false: code that tries again when a call raises an error of the library goes on after the task has been cancelled, and ends as if it had not been. -/
theorem C89_violation_goes_on (c : Client Req Res) (hf : c.flavor = .async) (sched : Nat → Wake) (ctx : RequestContext) (req : Req) (data : List UInt8)
    (he : c.codec.encode req = .ok data) (h0 : 0 < (sched 0).others) (h1 : (sched 1).others = 0) (hd : (sched 1).deadline = false) :
    ((again ctx req).task c sched).2 = (c.connectUnary (sched 1).http none ctx req).2 ∧ ((again ctx req).task c sched).1.step = 2 := by
  obtain ⟨_, _, h3⟩ := C89_call c hf sched ctx req data he ⟨0, [], 0⟩
  obtain ⟨e, h4, _⟩ := h3 (.inl h0)
  have hb : (c.taskCall sched ctx req ⟨0, [], 0⟩).1.blocks = [] ∧ (c.taskCall sched ctx req ⟨0, [], 0⟩).1.step = 1 := by
    unfold Client.taskCall
    rw [he]
    exact ⟨rfl, rfl⟩
  have hr : (again ctx req).task c sched = c.taskCall sched ctx req (c.taskCall sched ctx req ⟨0, [], 0⟩).1 := by
    show Program.run c sched _ (c.taskCall sched ctx req ⟨0, [], 0⟩).1 = _
    rw [h4]
    rfl
  obtain ⟨h5, _, _⟩ := C89_call c hf sched ctx req data he (c.taskCall sched ctx req ⟨0, [], 0⟩).1
  rw [hb.1, hb.2] at h5
  have h5 := h5 (by
    rintro (h | ⟨i, b, h, _⟩)
    · omega
    · cases h) (by rintro ⟨h, _⟩; rw [hd] at h; cases h)
  rw [hr, h5]
  exact ⟨rfl, rfl⟩

/-- C89 is false of timeout blocks: one that expires while a call in it is awaited does not raise `TimeoutError`, but the error of the call, CANCELED. (Around an await of another kind it raises `TimeoutError`.) -/
theorem C89_violation_block (c : Client Req Res) (hf : c.flavor = .async) (sched : Nat → Wake) (ctx : RequestContext) (req : Req) (data : List UInt8)
    (he : c.codec.encode req = .ok data) (h0 : (sched 0).expired = [true]) (h1 : (sched 0).others = 0) :
    raisesCode ((Program.within (.call ctx req .done) .done).task c sched).2 .canceled ∧
    ∀ other : Except Exc Unit → Except Exc Res, other (.error .cancelled) = .error .cancelled →
      ((Program.within (.own fun r => .done (other r)) .done).task c sched).2 = .error (.other .timeoutError []) := by
  refine ⟨?_, ?_⟩
  · obtain ⟨_, _, h3⟩ := C89_call c hf sched ctx req data he ⟨0, [⟨0, false⟩], 0⟩
    obtain ⟨e, h4, h5⟩ := h3 (.inr ⟨0, _, rfl, by rw [h0]; rfl, rfl⟩)
    refine ⟨e, ?_, h5⟩
    have hb : (c.taskCall sched ctx req ⟨0, [⟨0, false⟩], 0⟩).1.blocks = [⟨0, true⟩] := by
      unfold Client.taskCall TaskNow.wake
      rw [he]
      dsimp only
      rw [h0]
      rfl
    unfold Program.task
    rw [Program.run, Program.run, Program.run]
    dsimp only
    rw [hb, h4]
    rfl
  · intro other ho
    have hw : TaskNow.wake ⟨0, [⟨0, false⟩], 0⟩ (sched 0) false = (⟨1, [⟨0, true⟩], 1⟩, true) := by
      unfold TaskNow.wake
      dsimp only
      rw [h0, h1]
      rfl
    unfold Program.task
    rw [Program.run, Program.run]
    dsimp only
    rw [hw]
    dsimp only
    rw [if_pos rfl, ho]
    rfl

end

/-! ### cases -/

def calmWake (resp : FullResponse) : Wake := ⟨0, [], false, fun _ => .ok resp⟩

/-- Hypotheses met: a call that is cancelled and tried again; the second try returns. -/
example : ((again ((demoClient .async .connect).context demoMethod (pys! "POST") (.mapping []) none false) [1]).task (demoClient .async .connect)
    fun n => if n = 0 then { calmWake (okFull [7]) with others := 1 } else calmWake (okFull [7])) = (⟨1, [], 2⟩, .ok [7]) := by
  decide +kernel

/-- Cases of `C89_call`: the deadline; the deadline, while others cancel the task; an expired block. -/
example :
    let c := demoClient .async .connect
    let ctx := c.context demoMethod (pys! "POST") (.mapping []) (some 1000) false
    (c.taskCall (fun _ => { calmWake (okFull [7]) with deadline := true }) ctx [1] ⟨0, [], 0⟩) = (⟨0, [], 1⟩, .error (.mk .deadlineExceeded (pys! "Request timed out"))) ∧
    (c.taskCall (fun _ => { calmWake (okFull [7]) with deadline := true, others := 1 }) ctx [1] ⟨0, [], 0⟩) = (⟨1, [], 1⟩, .error (.mk .canceled (pys! "Request was cancelled"))) ∧
    (c.taskCall (fun _ => { calmWake (okFull [7]) with expired := [false, true] }) ctx [1] ⟨0, [⟨0, false⟩, ⟨0, false⟩], 0⟩) =
      (⟨1, [⟨0, false⟩, ⟨0, true⟩], 1⟩, .error (.mk .canceled (pys! "Request was cancelled"))) := by
  decide +kernel

/-- Hypothesis met: code that tries again makes calls only. -/
example (ctx : RequestContext) (req : Bytes) : OnlyCalls (again (Res := Bytes) ctx req) :=
  .call fun r hr => by
    cases r with
    | ok m => exact .done hr
    | error e => exact .call fun r hr => .done hr

end Props
