import Verif.Model.TaskCancel
/-
Specification for C89: cancelling a task that waits for a call.
-/
namespace Spec
open Conn Py

/-- Somebody other than the call wants the task cancelled: `task.cancel()` was called by others, or the time of a block around the call has passed. -/
def WantedElsewhere (blocks : List OpenBlock) (w : Wake) : Prop :=
  0 < w.others ∨ ∃ (i : Nat) (b : OpenBlock), blocks[i]? = some b ∧ w.expired[i]? = some true ∧ b.expiring = false

/-- The timeout of the call has passed. -/
def DeadlinePassed (ctx : RequestContext) (w : Wake) : Prop := w.deadline = true ∧ ctx.timeoutMs ≠ none

/-- How often others called `task.cancel()` in the suspensions `from`, …, `to - 1`. -/
def othersIn (sched : Nat → Wake) (start : Nat) : Nat → Nat
  | 0 => 0
  | n + 1 => othersIn sched start n + (sched (start + n)).others

/-- The code of an error of the library. -/
def raisesCode {α : Type} (r : Except Exc α) (code : Code) : Prop := ∃ e : ConnectErr, r = .error (.connect e) ∧ e.code = code

section
variable {Req Res : Type}

/-- Code that awaits calls only, outside of timeout blocks, and does not raise `CancelledError` itself. -/
inductive OnlyCalls : Program Req Res → Prop where
  | done {r : Except Exc Res} (h : r ≠ .error .cancelled) : OnlyCalls (.done r)
  | call {ctx : RequestContext} {req : Req} {k : Except Exc Res → Program Req Res} (h : ∀ r, r ≠ .error .cancelled → OnlyCalls (k r)) : OnlyCalls (.call ctx req k)

end
end Spec
