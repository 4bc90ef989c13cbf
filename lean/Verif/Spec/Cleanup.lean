import Verif.Model.Cleanup
/-
Specification for the cleanup of handlers (C82).
-/
namespace Spec
open Conn Py

/-- When the end marker is made, the generator is over or has been closed (once), and nobody watches for disconnects any more; nothing is asked of it
later. -/
def DoneFirst {S : Type} (tr : List (GenEvent S)) : Prop :=
  ∀ pre post, tr = pre ++ .ending :: post →
    (.over ∈ pre ∨ .closed ∈ pre) ∧ (∀ pre' post', pre = pre' ++ .closed :: post' → .closed ∉ post') ∧ (.watch ∈ pre → .unwatch ∈ pre) ∧
    ∀ e ∈ post, ∃ s, e = .sent s

/-- The generator of a run as it was modelled for C35 and C36: its cleanup code does nothing but raise `closeErr`. -/
def genOf {Res : Type} (s : Script Res) : Producer Res := ⟨s.acts, s.outcome, fun _ => ([], s.closeErr), true⟩

/-- The state of a handler when its cleanup code has done these steps, none of which failed. -/
def AfterSteps {Req : Type} : HState Req → List Step → HState Req → Prop
  | h, [], h' => h' = h
  | h, s :: ss, h' => ∃ h1, h.step s = (h1, none) ∧ AfterSteps h1 ss h'

end Spec
