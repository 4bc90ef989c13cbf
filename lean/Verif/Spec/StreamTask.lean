import Verif.Model.StreamTask
/-
Specification for C78: deadlines of streaming calls, told from what happens and what the caller is told.
-/
namespace Spec
open Conn

/-- What happened, and what the caller was told. -/
abbrev Trace := List (TaskEv × CallerTold)

/-- The traces of a call with this timeout, made at `now`. `res` is the resolution of the loop's clock, `rd` rounds to a double. -/
inductive Traces (res : Rat) (rd : Rat → Rat) (delay : Option Rat) (now : Rat) : Trace → StreamTask → Prop where
  | start : Traces res rd delay now [] (.start now)
  | step {tr : Trace} {s s' : StreamTask} {e : TaskEv} {o : CallerTold} (h : Traces res rd delay now tr s) (h' : s.step res rd delay e = some (s', o)) :
      Traces res rd delay now (tr ++ [(e, o)]) s'

/-- The time. -/
def timeOf (now : Rat) : Trace → Rat
  | [] => now
  | (.pass d, _) :: r => timeOf (if 0 ≤ d then now + d else now) r
  | _ :: r => timeOf now r

/-- When the stream was first asked for a message. -/
def begun (now : Rat) : Trace → Option Rat
  | [] => none
  | (.ask, _) :: _ => some now
  | (.pass d, _) :: r => begun (if 0 ≤ d then now + d else now) r
  | _ :: r => begun now r

/-- `anext` raised, or gave the end. -/
def CallerTold.Final (o : CallerTold) : Prop := o = .ended ∨ o = .deadline ∨ o = .canceled ∨ ∃ n, o = .failed n

/-- The stream has been asked for a message, and has neither come to its end nor been closed. -/
def Open (tr : Trace) : Prop := (∃ o, (TaskEv.ask, o) ∈ tr) ∧ ∀ x ∈ tr, x.1 ≠ .close ∧ ¬ CallerTold.Final x.2

/-- The call's deadline has come, up to the resolution of the clock. -/
def Due (res : Rat) (rd : Rat → Rat) (delay : Option Rat) (now : Rat) (tr : Trace) : Prop :=
  ∃ b d, begun now tr = some b ∧ delay = some d ∧ rd (b + d) ≤ timeOf now tr + res

/-- Things that happen while the task is suspended. -/
def Meanwhile (tr : Trace) : Prop := ∀ x ∈ tr, (∃ d, x.1 = .pass d) ∨ (∃ id, x.1 = .run id) ∨ x.1 = .cancel

end Spec
