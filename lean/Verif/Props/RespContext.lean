import Verif.Proofs.RespContext
/-
C49: response metadata contexts.
-/
namespace Props
open Py Conn Spec

/-- **C49, partial**: in every well-nested history, over any number of threads and tasks, the active object of a context
is that of its innermost open block (its own, or the one it inherited when its task was created).
Missing: an object that is entered again while a block of it is open, for which this is false
(`C49_violation_reentered`). -/
theorem C49_innermost_partial (past : List CtxOp) (h : WellNested past) (c : Nat) :
    (CtxWorld.new.run past.reverse).var c = (scope past c).head? := (ctxInv past h).var c

/-- **C49, partial**: every object holds what was recorded while a block of it was the innermost, and nothing else. -/
theorem C49_recorded_partial (past : List CtxOp) (h : WellNested past) (i : Nat) :
    (CtxWorld.new.run past.reverse).content i = (recordedIn i past).foldr keep RespMeta.new := ctxContent past h i

/-- **C49, partial**: leaving a block restores what was active when it was entered, whatever happened meanwhile. -/
theorem C49_restored_partial (past mid : List CtxOp) (c i : Nat) (hno : ∀ d, CtxOp.exit d i ∉ mid)
    (h : WellNested (.exit c i :: (mid ++ .enter c i :: past))) :
    (CtxWorld.new.run (CtxOp.exit c i :: (mid ++ .enter c i :: past)).reverse).var c =
      (CtxWorld.new.run past.reverse).var c := by
  have hp : WellNested past := by
    have h' := h.2
    clear hno h
    induction mid with
    | nil => exact h'.2
    | cons o mid ih =>
      apply ih
      cases o with
      | enter d j => exact h'.2
      | exit d j => exact h'.2
      | copy d e => exact h'.2.2
      | record d r => exact h'
  rw [C49_innermost_partial _ h, C49_innermost_partial _ hp]
  obtain ⟨l, hs, hl⟩ := scope_block i c mid past h.2 hno
  have hn := (ctxInv _ h.2).nodup c
  have hh := h.1
  rw [hl] at hn hh
  have : l = [] := by
    cases l with
    | nil => rfl
    | cons x l =>
      cases hh
      simp at hn
  subst this
  simp only [scope, if_true]
  rw [hs]; rfl

/-- **C49 violated**: an object is entered twice, one block inside the other, and both are left: it stays active, and
records the calls that follow. -/
theorem C49_violation_reentered (c i : Nat) (r : Recording) :
    let ops : List CtxOp := [.enter c i, .enter c i, .exit c i, .exit c i, .record c r]
    (CtxWorld.new.run ops).var c = some i ∧ (CtxWorld.new.run ops).content i = keep r RespMeta.new := by
  cases r <;> simp [CtxWorld.run, CtxWorld.step, CtxWorld.enter, CtxWorld.exit, CtxWorld.reset, CtxWorld.new, setAt,
    CtxWorld.record, keep]

/-- the same two blocks with different objects (a well-nested history): nothing stays active and the call is recorded
nowhere. -/
example : WellNested [.record 0 (.trailers []), .exit 0 1, .exit 0 2, .enter 0 2, .enter 0 1] ∧
    (CtxWorld.new.run [.enter 0 1, .enter 0 2, .exit 0 2, .exit 0 1]).var 0 = none := by
  refine ⟨?_, rfl⟩
  simp [WellNested, own]

/-- a nested block, a task started inside it that enters one more, and calls in all of them -/
def demoHistory : List CtxOp :=
  [.record 0 (.headers [(pys! "a", pys! "5")]), .record 7 (.headers [(pys! "a", pys! "4")]), .exit 0 2, .exit 7 3,
    .record 7 (.headers [(pys! "a", pys! "3")]), .enter 7 3, .record 0 (.headers [(pys! "a", pys! "2")]), .copy 0 7,
    .enter 0 2, .record 0 (.headers [(pys! "a", pys! "1")]), .enter 0 1]

theorem demoHistory_nested : WellNested demoHistory := by
  simp [WellNested, demoHistory, own, Involves]
  intro d; by_cases h : d = 0 <;> simp [h]

/-- the hypotheses are met, and the blocks are kept apart: the task keeps the block it started in -/
example : let w := CtxWorld.new.run demoHistory.reverse
    (w.content 1).getHeaders.getall (pys! "A") = [pys! "5"] ∧
    (w.content 2).getHeaders.getall (pys! "A") = [pys! "4"] ∧
    (w.content 3).getHeaders.getall (pys! "A") = [pys! "3"] ∧ w.var 0 = some 1 ∧ w.var 7 = some 2 := by decide +kernel

example : WellNested (.exit 0 2 :: ([.exit 7 3, .enter 7 3, .copy 0 7] ++ .enter 0 2 :: [.enter 0 1])) := by
  simp [WellNested, own, Involves]
  intro d; by_cases h : d = 0 <;> simp [h]

end Props
