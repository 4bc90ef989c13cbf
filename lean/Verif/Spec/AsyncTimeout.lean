import Verif.Model.AsyncTimeout
/-
What a timeout block should do, told from the outside: from the operations of a history and what each of them showed.
-/
namespace Spec
open Conn

/-- a history: each operation with what it showed. -/
abbrev THist := List (TOp × TOut)

/-- the block was entered. -/
def Entered (h : THist) : Prop := ∃ b, (TOp.enter b, TOut.ok) ∈ h

/-- the block was left. -/
def Left (h : THist) : Prop := ∃ e o, (TOp.exit e, o) ∈ h ∧ o ≠ TOut.assertion

/-- execution is inside the block. -/
def Inside (h : THist) : Prop := Entered h ∧ ¬ Left h

/-- the timeout has cancelled the task. -/
def Fired (h : THist) : Prop := ∃ o, (o, TOut.cancel) ∈ h

/-- the deadline in force: the last one set. -/
def deadlineOf (w : Option Rat) : THist → Option Rat
  | [] => w
  | (.reschedule w', .ok) :: r => deadlineOf w' r
  | _ :: r => deadlineOf w r

/-- the time. -/
def clock (now : Rat) : THist → Rat
  | [] => now
  | (.pass d, _) :: r => clock (if 0 ≤ d then now + d else now) r
  | _ :: r => clock now r

/-- a `TimeoutError` is put in the chain of contexts in front of the first cancellation, if there is one. -/
def Repaired (c c' : List ExcClass) : Prop :=
  (ExcClass.cancelled ∉ c ∧ c' = c) ∨
    ∃ a b, c = a ++ .cancelled :: b ∧ ExcClass.cancelled ∉ a ∧ c' = a ++ .timeout :: .cancelled :: b

/-- how a block is left after the timeout fired. -/
def LeavesFired : Option ExcChain → TOut → Prop
  | none, out => out = .leave none
  | some x, out =>
    (x.cls = .cancelled → out = .timeoutError) ∧
      (x.cls ≠ .cancelled → ∃ c, out = .leave (some ⟨x.cls, c⟩) ∧ Repaired x.context c)

/-- the history of a `Timeout` made at time `now` with deadline `w`. -/
def history (res now : Rat) (w : Option Rat) (ops : List TOp) : THist :=
  ((TWorld.new now w).run res ops).2

end Spec
