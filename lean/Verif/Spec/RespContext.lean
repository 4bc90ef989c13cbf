import Verif.Model.RespContext
/-
Specification for C49: which blocks are open in a context, and what an object has recorded.

Histories are lists with the latest operation first.
-/
namespace Spec
open Py Conn

/-- the blocks open in context `c`, innermost first, with those it inherited when it was copied -/
def scope : List CtxOp → Nat → List Nat
  | [], _ => []
  | .enter c i :: past, d => if d = c then i :: scope past d else scope past d
  | .exit c _ :: past, d => if d = c then (scope past d).tail else scope past d
  | .copy c e :: past, d => if d = e then scope past c else scope past d
  | .record _ _ :: past, d => scope past d

/-- the blocks entered in context `c` itself and not left, innermost first -/
def own : List CtxOp → Nat → List Nat
  | [], _ => []
  | .enter c i :: past, d => if d = c then i :: own past d else own past d
  | .exit c _ :: past, d => if d = c then (own past d).tail else own past d
  | .copy _ _ :: past, d => own past d
  | .record _ _ :: past, d => own past d

/-- operation of context `c` -/
def Involves (c : Nat) : CtxOp → Prop
  | .enter d _ => d = c
  | .exit d _ => d = c
  | .copy d e => d = c ∨ e = c
  | .record d _ => d = c

/-- Well-nested histories: an object is entered only while no block of it is open, the innermost block a context entered
is left first and in that context, and a copy is a context that did not exist before. -/
def WellNested : List CtxOp → Prop
  | [] => True
  | .enter _ i :: past => (∀ d, i ∉ own past d) ∧ WellNested past
  | .exit c i :: past => (own past c).head? = some i ∧ WellNested past
  | .copy c d :: past => d ≠ c ∧ (∀ o ∈ past, ¬ Involves d o) ∧ WellNested past
  | .record _ _ :: past => WellNested past

/-- the recordings made while a block of object `i` was the innermost one, latest first -/
def recordedIn (i : Nat) : List CtxOp → List Recording
  | [] => []
  | .record c r :: past => if (scope past c).head? = some i then r :: recordedIn i past else recordedIn i past
  | .enter _ _ :: past => recordedIn i past
  | .exit _ _ :: past => recordedIn i past
  | .copy _ _ :: past => recordedIn i past

/-- what an object makes of a recording -/
def keep (r : Recording) (m : RespMeta) : RespMeta :=
  match r with
  | .headers f => (handleResponseHeaders (some m) f).getD m
  | .trailers f => (handleResponseTrailers (some m) f).getD m
  | .metadata j => (handleMetadataJson (some m) j).1.getD m

end Spec
