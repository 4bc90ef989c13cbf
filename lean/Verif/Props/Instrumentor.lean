import Verif.Proofs.Instrumentor
import Verif.Props.Otel
/-
C79: auto-instrumentation that is switched on and off while modules are imported.
-/
namespace Props
open Conn Spec Proofs.Instr

section
variable {P I : Type} {isOtel : I → Bool} {tracing : P → Bool → I}

/-- **C79, on.** After any history that leaves auto-instrumentation on, every client and every application is constructed with the caller's interceptors and
exactly one layer of tracing around them, of the right kind, with the providers given when it was switched on; however often it was switched on
and off, and whatever was imported before. (`arg` as in C56.) -/
theorem C79_on (ho : ∀ p b, isOtel (tracing p b) = true) (history : List (InstrEvent P)) (p : P) (hon : switchedOn history = some p) (c : LibClass)
    (hc : .load c.module ∈ history) (arg : Option (Iterable I)) (h : ∀ xs, arg = some (.once xs) → ∀ i ∈ xs, isOtel i = false) :
    Instrumented isOtel (tracing p (LibClass.isClient c)) (argItems arg)
      ((Instrumentation.after history).construct isOtel tracing c arg) := by
  obtain ⟨k, hi⟩ := after_inv history
  have e1 := hi.on
  have e2 := hi.providers (by rw [hon]; rfl)
  rw [hon] at e1 e2
  have e3 := hi.shape.wrappers c
  rw [(hi.imported c.module).2 hc, e1] at e3
  have e3 : (Instrumentation.after history).wrappers c = List.replicate (k c.module + 1) (LibClass.isClient c) := e3
  unfold Instrumentation.construct
  rw [e2, e3]
  dsimp only
  rw [fold_wrappers (ho _ _) _ _ h]
  exact C56_instrumented_partial isOtel _ arg h

/-- **C79, off** (partial): after any history that leaves auto-instrumentation off, the constructors of a module see exactly what they are given, whatever it
is — if the module had been imported each time auto-instrumentation was switched off. Missing: modules imported later, see
`C79_violation_late_import`. -/
theorem C79_off_partial (history : List (InstrEvent P)) (hoff : switchedOn history = none) (c : LibClass)
    (hb : ¬ SwitchedOffBefore c.module history) (arg : Option (Iterable I)) :
    (Instrumentation.after history).construct isOtel tracing c arg = argItems arg := by
  obtain ⟨k, hi⟩ := after_inv history
  have e1 := hi.on
  rw [hoff] at e1
  have e1 : (Instrumentation.after history).on = false := e1
  have hk : k c.module = 0 := by
    rcases Nat.eq_zero_or_pos (k c.module) with h | h
    · exact h
    · exact absurd ((hi.stale c.module).1 (by omega)) hb
  have e3 := hi.shape.wrappers c
  rw [e1, hk] at e3
  have e3 : (Instrumentation.after history).wrappers c = [] := by
    rw [e3]; cases (Instrumentation.after history).imported c.module <;> rfl
  unfold Instrumentation.construct
  rw [e3]
  have : interceptorsSeen arg = argItems arg := by
    rcases arg with _ | _ | _ <;> rfl
  cases (Instrumentation.after history).providers <;> exact this

/-- … and that condition is exact: a class of a module that has been imported is constructed as if there were no instrumentation if and only if
auto-instrumentation was never switched off before the import. -/
theorem C79_off_exact (ho : ∀ p b, isOtel (tracing p b) = true) (history : List (InstrEvent P)) (hoff : switchedOn history = none) (c : LibClass)
    (hc : .load c.module ∈ history) :
    (∀ arg : Option (Iterable I), (Instrumentation.after history).construct isOtel tracing c arg = argItems arg) ↔
      ¬ SwitchedOffBefore c.module history := by
  refine ⟨fun hall hb => ?_, fun hb arg => C79_off_partial history hoff c hb arg⟩
  obtain ⟨k, hi⟩ := after_inv history
  have hk := (hi.stale c.module).2 hb
  have e2 := hi.known c.module hk
  have e1 := hi.on
  rw [hoff] at e1
  have e1 : (Instrumentation.after history).on = false := e1
  have e3 := hi.shape.wrappers c
  rw [(hi.imported c.module).2 hc, e1] at e3
  cases hp : (Instrumentation.after history).providers with
  | none => rw [hp] at e2; cases e2
  | some p =>
    have := hall none
    unfold Instrumentation.construct at this
    rw [hp, e3] at this
    dsimp only at this
    obtain ⟨n, hn⟩ : ∃ n, k c.module + false.toNat = n + 1 := ⟨k c.module - 1, by simp; omega⟩
    rw [if_pos rfl, hn, fold_wrappers (ho _ _) _ _ (fun xs h => by cases h)] at this
    simp [initWrapper, interceptorsSeen, Iterable.iterate, argItems] at this

end

/-- **C79, violation.** Switched on and off again before the library is imported: the hooks that wait for the import cannot be taken back, and every client is
traced although auto-instrumentation is off. Switching it on and off once more doesn't help. -/
theorem C79_violation_late_import {P I : Type} {isOtel : I → Bool} {tracing : P → Bool → I} (ho : ∀ p b, isOtel (tracing p b) = true) (p q : P) :
    (switchedOn [.instrument true p, .uninstrument, .load .client] = none ∧
      (Instrumentation.after [.instrument true p, .uninstrument, .load .client]).construct isOtel tracing .client none = [tracing p true]) ∧
    (switchedOn [.instrument true p, .uninstrument, .load .client, .instrument true q, .uninstrument] = none ∧
      (Instrumentation.after [.instrument true p, .uninstrument, .load .client, .instrument true q, .uninstrument]).construct isOtel tracing .client none =
        [tracing q true]) := by
  refine ⟨⟨rfl, ?_⟩, rfl, ?_⟩ <;>
    simp [Instrumentation.after, Instrumentation.step, Instrumentation.start, Instrumentation.instrument, Instrumentation.uninstrument, Instrumentation.register,
      Instrumentation.patch, Instrumentation.wrap, Instrumentation.unwrap, Instrumentation.construct, initWrapper, interceptorsSeen, Iterable.iterate]

/-! ### the hypotheses are met

Interceptors by number: 100 + 2 · the provider + 1 for clients is tracing. -/

/-- on before the import, on again after it, with other providers; the user's own interceptors 7 and 8 -/
example :
    switchedOn [InstrEvent.instrument true 3, .instrument true 9, .load .client, .uninstrument, .uninstrument, .instrument false 5, .instrument true 4, .load .server] =
      some 4 ∧
    InstrEvent.load LibClass.asgi.module ∈
      [InstrEvent.instrument true 3, .instrument true 9, .load .client, .uninstrument, .uninstrument, .instrument false 5, .instrument true 4, .load .server] ∧
    (Instrumentation.after
      [InstrEvent.instrument true 3, .instrument true 9, .load .client, .uninstrument, .uninstrument, .instrument false 5, .instrument true 4, .load .server]).construct
        (fun i => decide (100 ≤ i)) (fun p c => 100 + 2 * p + c.toNat) .asgi (some (.once [7, 8])) = [108, 7, 8] ∧
    (Instrumentation.after
      [InstrEvent.instrument true 3, .instrument true 9, .load .client, .uninstrument, .uninstrument, .instrument false 5, .instrument true 4, .load .server]).construct
        (fun i => decide (100 ≤ i)) (fun p c => 100 + 2 * p + c.toNat) .clientSync (some (.coll [7, 8])) = [109, 7, 8] := by
  decide

/-- off after the import: nothing is left of it -/
example : switchedOn [InstrEvent.instrument true 3, .load .client, .uninstrument] = none ∧
    ¬ SwitchedOffBefore .client [InstrEvent.instrument true 3, .load .client, .uninstrument] ∧
    (Instrumentation.after [InstrEvent.instrument true 3, .load .client, .uninstrument]).construct
      (fun i => decide (100 ≤ i)) (fun p c => 100 + 2 * p + c.toNat) .client (some (.once [7, 200])) = [7, 200] := by
  refine ⟨rfl, ?_, by decide⟩
  rintro ⟨past, future, h1, _, h3⟩
  match past, h1 with
  | [], h1 => cases h1
  | [_], h1 => cases h1
  | [a, b], h1 =>
    injection h1 with _ h1
    injection h1 with h1 _
    exact h3 (by rw [← h1]; simp)
  | a :: b :: c :: d, h1 =>
    injection h1 with _ h1
    injection h1 with _ h1
    injection h1 with _ h1
    cases d <;> cases h1

end Props
