import Verif.Spec.Instrumentor
import Mathlib.Data.List.Induction
/- Lemmas for C79. -/
namespace Proofs.Instr
open Conn Spec

variable {P : Type}

/-- the hook of a module -/
def hookOf : LibModule → PatchHook
  | .client => .client
  | .server => .server

/-- `k m`: how often the instrumentation was switched off before `m` was imported -/
structure Shape (s : Instrumentation P) (k : LibModule → Nat) : Prop where
  hooks : ∀ m, s.hooks m = if s.imported m then [] else List.replicate (k m + s.on.toNat) (hookOf m)
  wrappers : ∀ c, s.wrappers c = if s.imported c.module then List.replicate (k c.module + s.on.toNat) (LibClass.isClient c) else []

theorem patches (m : LibModule) (n : Nat) (s : Instrumentation P) :
    (List.replicate n (hookOf m)).foldl Instrumentation.patch s =
      { s with wrappers := fun c => if c.module = m then List.replicate n (LibClass.isClient c) ++ s.wrappers c else s.wrappers c } := by
  induction n generalizing s with
  | zero => simp
  | succ n ih =>
    rw [List.replicate_succ, List.foldl_cons, ih]
    cases m <;> simp only [hookOf, Instrumentation.patch, Instrumentation.wrap, Instrumentation.mk.injEq, true_and] <;> funext c <;>
      cases c <;> simp [LibClass.module, LibClass.isClient, List.replicate_succ', List.append_assoc]

/-- the counts after one more event -/
def counts (s : Instrumentation P) (k : LibModule → Nat) : InstrEvent P → LibModule → Nat
  | .uninstrument, m => if s.on && !s.imported m then k m + 1 else k m
  | _, m => k m

theorem instrument_wraps (s : Instrumentation P) (p : P) (c : LibClass) :
    (s.instrument p).wrappers c = if s.imported c.module then LibClass.isClient c :: s.wrappers c else s.wrappers c := by
  unfold Instrumentation.instrument Instrumentation.register
  cases hc : s.imported .client <;> cases hv : s.imported .server <;> cases c <;>
    simp [hc, hv, Instrumentation.patch, Instrumentation.wrap, LibClass.module, LibClass.isClient]

theorem instrument_hooks (s : Instrumentation P) (p : P) (m : LibModule) :
    (s.instrument p).hooks m = if s.imported m then s.hooks m else s.hooks m ++ [hookOf m] := by
  unfold Instrumentation.instrument Instrumentation.register
  cases hc : s.imported .client <;> cases hv : s.imported .server <;> cases m <;>
    simp [hc, hv, Instrumentation.patch, Instrumentation.wrap, hookOf]

theorem uninstrument_unwraps (s : Instrumentation P) (c : LibClass) :
    s.uninstrument.wrappers c = if s.imported c.module then (s.wrappers c).tail else s.wrappers c := by
  unfold Instrumentation.uninstrument
  cases hc : s.imported .client <;> cases hv : s.imported .server <;> cases c <;>
    simp [hc, hv, Instrumentation.unwrap, LibClass.module]

theorem uninstrument_hooks (s : Instrumentation P) (m : LibModule) : s.uninstrument.hooks m = s.hooks m := by
  unfold Instrumentation.uninstrument
  cases hc : s.imported .client <;> cases hv : s.imported .server <;> simp [hv, Instrumentation.unwrap]

theorem register_rest (s : Instrumentation P) (x : PatchHook) (m : LibModule) :
    (s.register x m).on = s.on ∧ (s.register x m).providers = s.providers ∧ (s.register x m).imported = s.imported := by
  unfold Instrumentation.register
  cases s.imported m <;> cases x <;> exact ⟨rfl, rfl, rfl⟩

theorem instrument_rest (s : Instrumentation P) (p : P) :
    (s.instrument p).providers = some p ∧ (s.instrument p).imported = s.imported := by
  unfold Instrumentation.instrument
  obtain ⟨_, b, c⟩ := register_rest (({ s with providers := some p } : Instrumentation P).register .client .client) .server .server
  obtain ⟨_, b', c'⟩ := register_rest ({ s with providers := some p } : Instrumentation P) .client .client
  exact ⟨by rw [b, b'], by rw [c, c']⟩

theorem uninstrument_rest (s : Instrumentation P) : s.uninstrument.providers = s.providers ∧ s.uninstrument.imported = s.imported := by
  unfold Instrumentation.uninstrument
  cases h1 : s.imported .client <;> cases h2 : s.imported .server <;> simp [Instrumentation.unwrap, h2]

theorem shape_step {s : Instrumentation P} {k : LibModule → Nat} (hs : Shape s k) (e : InstrEvent P) : Shape (s.step e) (counts s k e) := by
  obtain ⟨h1, h2⟩ := hs
  cases e with
  | instrument compatible p =>
    unfold Instrumentation.step counts
    dsimp only
    cases hon : s.on with
    | true => exact ⟨h1, h2⟩
    | false =>
      cases compatible with
      | false => exact ⟨h1, h2⟩
      | true =>
        rw [hon] at h1 h2
        rw [if_neg Bool.false_ne_true, if_pos rfl]
        refine ⟨fun m => ?_, fun c => ?_⟩
        · show (s.instrument p).hooks m = if (s.instrument p).imported m then _ else _
          rw [(instrument_rest s p).2, instrument_hooks, h1 m]
          cases s.imported m with
          | true => rfl
          | false => exact List.replicate_succ'.symm
        · show (s.instrument p).wrappers c = if (s.instrument p).imported c.module then _ else _
          rw [(instrument_rest s p).2, instrument_wraps, h2 c]
          cases s.imported c.module <;> rfl
  | uninstrument =>
    unfold Instrumentation.step
    dsimp only
    cases hon : s.on with
    | false =>
      rw [if_neg Bool.false_ne_true]
      refine ⟨fun m => ?_, fun c => ?_⟩
      · simpa [counts, hon] using h1 m
      · simpa [counts, hon] using h2 c
    | true =>
      rw [if_pos rfl]
      rw [hon] at h1 h2
      refine ⟨fun m => ?_, fun c => ?_⟩
      · show s.uninstrument.hooks m = if s.uninstrument.imported m then _ else _
        rw [(uninstrument_rest s).2, uninstrument_hooks, h1 m]
        cases hm : s.imported m <;> simp [counts, hon, hm]
      · show s.uninstrument.wrappers c = if s.uninstrument.imported c.module then _ else _
        rw [(uninstrument_rest s).2, uninstrument_unwraps, h2 c]
        cases hm : s.imported c.module <;> simp [counts, hon, hm]
  | load m =>
    unfold Instrumentation.step counts
    dsimp only
    cases hm : s.imported m with
    | true => exact ⟨h1, h2⟩
    | false =>
      rw [if_neg Bool.false_ne_true, h1 m, hm, if_neg Bool.false_ne_true, patches]
      refine ⟨fun m' => ?_, fun c => ?_⟩
      · by_cases he : m' = m
        · subst he; simp
        · simp [he, h1 m']
      · by_cases he : c.module = m
        · subst he
          simp [h2 c, hm]
        · simp [he, h2 c]

/-- what is known of the rest -/
structure InstrInv (h : List (InstrEvent P)) (s : Instrumentation P) (k : LibModule → Nat) : Prop where
  shape : Shape s k
  on : s.on = (switchedOn h).isSome
  providers : (switchedOn h).isSome = true → s.providers = switchedOn h
  imported : ∀ m, s.imported m = true ↔ .load m ∈ h
  stale : ∀ m, k m ≠ 0 ↔ SwitchedOffBefore m h
  known : ∀ m, k m ≠ 0 → s.providers.isSome = true

theorem switchedOn_snoc (h : List (InstrEvent P)) (e : InstrEvent P) : switchedOn (h ++ [e]) = switched (switchedOn h) e := by
  unfold switchedOn
  rw [List.foldl_append]
  rfl

theorem off_before_snoc (m : LibModule) (h : List (InstrEvent P)) (e : InstrEvent P) :
    SwitchedOffBefore m (h ++ [e]) ↔ SwitchedOffBefore m h ∨ (e = .uninstrument ∧ (switchedOn h).isSome = true ∧ .load m ∉ h) := by
  constructor
  · rintro ⟨past, future, h1, h2, h3⟩
    rcases List.eq_nil_or_concat future with rfl | ⟨f, x, rfl⟩
    · have := List.append_inj' h1 rfl
      obtain ⟨rfl, h5⟩ := this
      cases h5
      exact .inr ⟨rfl, h2, h3⟩
    · rw [List.concat_eq_append, ← List.cons_append, ← List.append_assoc] at h1
      obtain ⟨rfl, h5⟩ := List.append_inj' h1 rfl
      exact .inl ⟨past, f, rfl, h2, h3⟩
  · rintro (⟨past, future, rfl, h2, h3⟩ | ⟨rfl, h2, h3⟩)
    · exact ⟨past, future ++ [e], by simp, h2, h3⟩
    · exact ⟨h, [], rfl, h2, h3⟩

theorem fold_patch_rest (hooks : List PatchHook) (s : Instrumentation P) :
    (hooks.foldl Instrumentation.patch s).on = s.on ∧ (hooks.foldl Instrumentation.patch s).providers = s.providers ∧
      (hooks.foldl Instrumentation.patch s).imported = s.imported := by
  induction hooks generalizing s with
  | nil => exact ⟨rfl, rfl, rfl⟩
  | cons x xs ih =>
    obtain ⟨a, b, c⟩ := ih (s.patch x)
    rw [List.foldl_cons, a, b, c]
    cases x <;> exact ⟨rfl, rfl, rfl⟩

theorem after_inv (h : List (InstrEvent P)) : ∃ k, InstrInv h (Instrumentation.after h) k := by
  induction h using List.reverseRecOn with
  | nil =>
    refine ⟨fun _ => 0, ⟨fun m => rfl, fun c => rfl⟩, rfl, nofun, fun m => ⟨nofun, nofun⟩, fun m => ⟨fun h => absurd rfl h, ?_⟩, fun m h => absurd rfl h⟩
    rintro ⟨past, future, h1, _⟩
    cases past <;> cases h1
  | append_singleton h e ih =>
    obtain ⟨k, i1, i2, i3, i4, i5, i6⟩ := ih
    have hstep : Instrumentation.after (h ++ [e]) = (Instrumentation.after h).step e := by
      unfold Instrumentation.after; rw [List.foldl_append]; rfl
    generalize hs : Instrumentation.after h = s at *
    rw [hstep]
    suffices hall : (s.step e).on = (switchedOn (h ++ [e])).isSome ∧
        ((switchedOn (h ++ [e])).isSome = true → (s.step e).providers = switchedOn (h ++ [e])) ∧
        (∀ m, (s.step e).imported m = true ↔ .load m ∈ h ++ [e]) ∧ (∀ m, counts s k e m ≠ 0 ↔ SwitchedOffBefore m (h ++ [e])) ∧
        (∀ m, counts s k e m ≠ 0 → (s.step e).providers.isSome = true) from
      ⟨counts s k e, shape_step i1 e, hall.1, hall.2.1, hall.2.2.1, hall.2.2.2.1, hall.2.2.2.2⟩
    rw [switchedOn_snoc]
    cases e with
    | instrument compatible p =>
      have hrest : ∀ m, SwitchedOffBefore m (h ++ [.instrument compatible p]) ↔ SwitchedOffBefore m h := by
        intro m; rw [off_before_snoc]; simp
      unfold Instrumentation.step
      dsimp only
      cases hsw : switchedOn h with
      | some q =>
        rw [hsw] at i2 i3
        rw [i2]
        refine ⟨by exact i2, fun _ => i3 rfl, fun m => ?_, fun m => by rw [hrest]; exact i5 m, i6⟩
        rw [if_pos (by rfl), i4]; simp
      | none =>
        rw [hsw] at i2
        rw [i2]
        cases compatible with
        | false =>
          refine ⟨by exact i2, nofun, fun m => ?_, fun m => by rw [hrest]; exact i5 m, i6⟩
          rw [if_neg (by exact Bool.false_ne_true), if_neg Bool.false_ne_true, i4]; simp
        | true =>
          obtain ⟨a, b⟩ := instrument_rest s p
          refine ⟨rfl, fun _ => a, fun m => ?_, fun m => by rw [hrest]; exact i5 m, fun m _ => ?_⟩
          · show (s.instrument p).imported m = true ↔ _
            rw [b, i4]; simp
          · show (s.instrument p).providers.isSome = true
            rw [a]; rfl
    | uninstrument =>
      obtain ⟨a, b⟩ := uninstrument_rest s
      have himp : ∀ m, (s.step .uninstrument).imported m = true ↔ .load m ∈ h ++ [.uninstrument] := by
        intro m
        have : (s.step (.uninstrument : InstrEvent P)).imported m = s.imported m := by
          unfold Instrumentation.step
          cases s.on with
          | false => rfl
          | true => exact congrFun b m
        rw [this, i4]; simp
      have hprov : (s.step (.uninstrument : InstrEvent P)).providers = s.providers := by
        unfold Instrumentation.step
        cases s.on with
        | false => rfl
        | true => exact a
      cases hsw : switchedOn h with
      | none =>
        rw [hsw] at i2
        have i2 : s.on = false := i2
        refine ⟨?_, nofun, himp, fun m => ?_, fun m hk => ?_⟩
        · unfold Instrumentation.step; dsimp only; rw [i2]; exact i2
        · rw [off_before_snoc, hsw]; simpa [counts, i2] using i5 m
        · rw [hprov]; exact i6 m (by simpa [counts, i2] using hk)
      | some q =>
        rw [hsw] at i2 i3
        have i2 : s.on = true := i2
        refine ⟨?_, nofun, himp, fun m => ?_, fun m hk => ?_⟩
        · unfold Instrumentation.step; dsimp only; rw [i2]; rfl
        · rw [off_before_snoc, hsw, ← i4, ← i5]
          cases him : s.imported m <;> simp [counts, i2, him]
        · rw [hprov, i3 rfl]; rfl
    | load m =>
      have hrest : ∀ m', SwitchedOffBefore m' (h ++ [.load m]) ↔ SwitchedOffBefore m' h := by
        intro m'; rw [off_before_snoc]; simp
      have hsw : switched (switchedOn h) (.load m) = switchedOn h := by cases switchedOn h <;> rfl
      rw [hsw]
      unfold Instrumentation.step
      dsimp only
      cases him : s.imported m with
      | true =>
        rw [if_pos rfl]
        refine ⟨i2, i3, fun m' => ?_, fun m' => by rw [hrest]; exact i5 m', i6⟩
        rw [i4, List.mem_append]
        refine ⟨.inl, fun hm => hm.elim id fun hm => ?_⟩
        cases List.mem_singleton.1 hm
        exact (i4 m).1 him
      | false =>
        rw [if_neg Bool.false_ne_true]
        obtain ⟨a, b, c⟩ := fold_patch_rest (s.hooks m)
          { s with imported := fun m' => m' = m || s.imported m', hooks := fun m' => if m' = m then [] else s.hooks m' }
        refine ⟨by rw [a]; exact i2, by rw [b]; exact i3, fun m' => ?_, fun m' => by rw [hrest]; exact i5 m', by rw [b]; exact i6⟩
        rw [c]
        simp [i4, or_comm]

section
variable {I : Type} {isOtel : I → Bool} {otel : I}

theorem wrapper_again (ho : isOtel otel = true) (arg : Option (Iterable I)) (h : ∀ xs, arg = some (.once xs) → ∀ i ∈ xs, isOtel i = false) :
    initWrapper isOtel otel (initWrapper isOtel otel arg) = initWrapper isOtel otel arg := by
  have again : ∀ xs : List I, xs.any isOtel = true → initWrapper isOtel otel (some (.coll xs)) = some (.coll xs) := by
    intro xs hx; simp [initWrapper, Iterable.iterate, hx]
  have added : ∀ xs : List I, (otel :: xs).any isOtel = true := by intro xs; simp [ho]
  match arg, h with
  | none, _ =>
    have e : initWrapper isOtel otel none = some (.coll [otel]) := by simp [initWrapper]
    rw [e, again _ (added [])]
  | some (.coll xs), _ =>
    by_cases hx : xs.any isOtel = true
    · have e : initWrapper isOtel otel (some (.coll xs)) = some (.coll xs) := by simp [initWrapper, Iterable.iterate, hx]
      rw [e, e]
    · have e : initWrapper isOtel otel (some (.coll xs)) = some (.coll (otel :: xs)) := by simp [initWrapper, Iterable.iterate, hx]
      rw [e, again _ (added xs)]
  | some (.once xs), h =>
    have hx : ¬ xs.any isOtel = true := by
      intro hx
      obtain ⟨i, hi, hv⟩ := List.any_eq_true.mp hx
      rw [h xs rfl i hi] at hv
      cases hv
    have e : initWrapper isOtel otel (some (.once xs)) = some (.coll (otel :: xs)) := by simp [initWrapper, Iterable.iterate, hx]
    rw [e, again _ (added xs)]

theorem fold_wrappers {P : Type} {tracing : P → Bool → I} {p : P} {b : Bool} (ho : isOtel (tracing p b) = true) (n : Nat) (arg : Option (Iterable I))
    (h : ∀ xs, arg = some (.once xs) → ∀ i ∈ xs, isOtel i = false) :
    (List.replicate (n + 1) b).foldl (fun a client => initWrapper isOtel (tracing p client) a) arg = initWrapper isOtel (tracing p b) arg := by
  induction n with
  | zero => rfl
  | succ n ih =>
    rw [List.replicate_succ', List.foldl_append, ih]
    exact wrapper_again ho arg h

end

end Proofs.Instr
