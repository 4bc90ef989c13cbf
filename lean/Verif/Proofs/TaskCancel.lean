import Verif.Spec.TaskCancel
/-
Lemmas for C89.
-/
namespace Props
open Conn Py Spec

theorem expire_pos : ∀ (bs : List OpenBlock) (xs : List Bool),
    0 < (expire bs xs).2 ↔ ∃ (i : Nat) (b : OpenBlock), bs[i]? = some b ∧ xs[i]? = some true ∧ b.expiring = false
  | [], xs => by simp [expire]
  | b :: bs, [] => by simp [expire]
  | b :: bs, x :: xs => by
    have ih := expire_pos bs xs
    unfold expire
    dsimp only
    split
    · rename_i h
      simp only [Bool.and_eq_true, Bool.not_eq_true'] at h
      refine ⟨fun _ => ⟨0, b, rfl, by rw [h.1]; rfl, h.2⟩, fun _ => Nat.succ_pos _⟩
    · rename_i h
      simp only [Bool.and_eq_true, Bool.not_eq_true'] at h
      rw [ih]
      constructor
      · rintro ⟨i, b', h1, h2, h3⟩
        exact ⟨i + 1, b', h1, h2, h3⟩
      · rintro ⟨i, b', h1, h2, h3⟩
        cases i with
        | zero => cases h1; cases h2; exact absurd ⟨rfl, h3⟩ h
        | succ i => exact ⟨i, b', h1, h2, h3⟩

/-- how many blocks are expiring -/
def expiringIn : List OpenBlock → Nat
  | [] => 0
  | b :: bs => b.expiring.toNat + expiringIn bs

theorem expire_count : ∀ (bs : List OpenBlock) (xs : List Bool),
    expiringIn (expire bs xs).1 = expiringIn bs + (expire bs xs).2 ∧ (expire bs xs).1.map (·.entered) = bs.map (·.entered)
  | [], xs => ⟨rfl, rfl⟩
  | b :: bs, [] => ⟨rfl, rfl⟩
  | b :: bs, x :: xs => by
    obtain ⟨h1, h2⟩ := expire_count bs xs
    unfold expire
    dsimp only
    split
    · rename_i h
      simp only [Bool.and_eq_true, Bool.not_eq_true'] at h
      refine ⟨?_, by rw [List.map_cons, h2]; rfl⟩
      show 1 + expiringIn (expire bs xs).1 = b.expiring.toNat + expiringIn bs + _
      rw [h.2, h1]
      show _ = 0 + _ + _
      omega
    · refine ⟨?_, by rw [List.map_cons, h2]; rfl⟩
      show b.expiring.toNat + expiringIn (expire bs xs).1 = b.expiring.toNat + expiringIn bs + _
      omega

section
variable {Req Res : Type}

theorem mapUnary_async (e : Exc) : mapUnaryExc .async e ≠ .cancelled := by
  cases e with
  | other n m => cases n <;> simp [mapUnaryExc, Exc.mk]
  | _ => simp [mapUnaryExc, Exc.mk]

theorem connectUnary_not_cancelled (c : Client Req Res) (hf : c.flavor = .async) (http : HttpRequest → Except Exc FullResponse) (sink : Sink) (ctx : RequestContext) (req : Req) :
    (c.connectUnary http sink ctx req).2 ≠ .error .cancelled := by
  unfold Client.connectUnary
  dsimp only
  rw [hf]
  split
  · intro h
    injection h with h
    exact mapUnary_async _ h
  · intro h; cases h

theorem taskCall_not_cancelled (c : Client Req Res) (hf : c.flavor = .async) (sched : Nat → Wake) (ctx : RequestContext) (req : Req) (s : TaskNow) :
    (c.taskCall sched ctx req s).2 ≠ .error .cancelled := by
  unfold Client.taskCall
  cases c.codec.encode req with
  | error e => exact connectUnary_not_cancelled c hf _ _ _ _
  | ok d => exact connectUnary_not_cancelled c hf _ _ _ _

theorem connectUnary_http (c : Client Req Res) (sink : Sink) (ctx : RequestContext) (req : Req) {d : Bytes} (he : c.codec.encode req = .ok d) (e : Exc)
    (http : HttpRequest → Except Exc FullResponse) (hh : ∀ r, http r = .error e) :
    (c.connectUnary http sink ctx req).2 = .error (mapUnaryExc c.flavor e) := by
  unfold Client.connectUnary
  rw [he]
  dsimp only
  rw [hh]

/-- The conserved quantity: what others asked for, and the blocks that are expiring. -/
theorem taskCall_count (c : Client Req Res) (sched : Nat → Wake) (ctx : RequestContext) (req : Req) (s : TaskNow) :
    let t := (c.taskCall sched ctx req s).1
    (t.step = s.step ∧ t = s ∨ t.step = s.step + 1 ∧ t.cancelling + expiringIn s.blocks = s.cancelling + expiringIn t.blocks + (sched s.step).others) ∧
      t.blocks.map (·.entered) = s.blocks.map (·.entered) := by
  intro t
  cases he : c.codec.encode req with
  | error e =>
    have : t = s := by
      show (c.taskCall sched ctx req s).1 = s
      unfold Client.taskCall
      rw [he]
    rw [this]
    exact ⟨.inl ⟨rfl, rfl⟩, rfl⟩
  | ok d =>
    have : t = { (s.wake (sched s.step) ((sched s.step).deadline && ctx.timeoutMs.isSome)).1 with
        cancelling := (OpenBlock.leave (α := FullResponse) ⟨s.cancelling, (sched s.step).deadline && ctx.timeoutMs.isSome⟩
          (s.wake (sched s.step) ((sched s.step).deadline && ctx.timeoutMs.isSome)).1.cancelling (.error .cancelled)).1 } := by
      show (c.taskCall sched ctx req s).1 = _
      unfold Client.taskCall
      rw [he]
    rw [this]
    obtain ⟨h1, h2⟩ := expire_count s.blocks (sched s.step).expired
    generalize ((sched s.step).deadline && ctx.timeoutMs.isSome) = timer
    refine ⟨.inr ⟨rfl, ?_⟩, h2⟩
    show (OpenBlock.leave (α := FullResponse) ⟨s.cancelling, timer⟩ (s.cancelling + ((sched s.step).others + (expire s.blocks (sched s.step).expired).2 + timer.toNat)) _).1 +
      expiringIn s.blocks = s.cancelling + expiringIn (expire s.blocks (sched s.step).expired).1 + _
    rw [h1]
    unfold OpenBlock.leave
    cases timer
    · simp only [Bool.false_eq_true, if_false, Bool.toNat_false]
      omega
    · simp only [if_true, Bool.toNat_true]
      omega

theorem othersIn_add (sched : Nat → Wake) (a n m : Nat) : othersIn sched a (n + m) = othersIn sched a n + othersIn sched (a + n) m := by
  induction m with
  | zero => rfl
  | succ m ih =>
    show othersIn sched a (n + m) + (sched (a + (n + m))).others = _ + (othersIn sched (a + n) m + (sched (a + n + m)).others)
    rw [ih, Nat.add_assoc a n m]
    omega

theorem run_count (c : Client Req Res) (sched : Nat → Wake) : ∀ (p : Program Req Res) (s : TaskNow), expiringIn s.blocks ≤ s.cancelling →
    let t := (p.run c sched s).1
    s.step ≤ t.step ∧ t.cancelling + expiringIn s.blocks = s.cancelling + expiringIn t.blocks + othersIn sched s.step (t.step - s.step) ∧
      t.blocks.map (·.entered) = s.blocks.map (·.entered) := by
  intro p
  induction p with
  | done r =>
    intro s _
    show s.step ≤ s.step ∧ _ = _ + othersIn sched s.step (s.step - s.step) ∧ _
    rw [Nat.sub_self]
    exact ⟨Nat.le_refl _, rfl, rfl⟩
  | own k ih =>
    intro s hs
    obtain ⟨h1, h2⟩ := expire_count s.blocks (sched s.step).expired
    have := ih (if (s.wake (sched s.step) false).2 then .error .cancelled else .ok ()) (s.wake (sched s.step) false).1 (by
      show expiringIn (expire s.blocks (sched s.step).expired).1 ≤ s.cancelling + _
      rw [h1]
      omega)
    obtain ⟨a1, a2, a3⟩ := this
    intro t0
    have ht : t0 = ((k (if (s.wake (sched s.step) false).2 then .error .cancelled else .ok ())).run c sched (s.wake (sched s.step) false).1).1 := rfl
    rw [ht]
    clear ht t0
    generalize ((k (if (s.wake (sched s.step) false).2 then .error .cancelled else .ok ())).run c sched (s.wake (sched s.step) false).1).1 = t at a1 a2 a3
    have a1 : s.step + 1 ≤ t.step := a1
    have hn : t.step - s.step = 1 + (t.step - (s.step + 1)) := by omega
    refine ⟨by omega, ?_, a3.trans h2⟩
    rw [hn, othersIn_add]
    have a2 : t.cancelling + expiringIn (expire s.blocks (sched s.step).expired).1 =
      s.cancelling + ((sched s.step).others + (expire s.blocks (sched s.step).expired).2 + 0) + expiringIn t.blocks + othersIn sched (s.step + 1) (t.step - (s.step + 1)) := a2
    have : othersIn sched s.step 1 = (sched s.step).others := by
      show 0 + (sched s.step).others = _
      rw [Nat.zero_add]
    omega
  | call ctx req k ih =>
    intro s hs
    obtain ⟨h1, h2⟩ := taskCall_count c sched ctx req s
    have := ih (c.taskCall sched ctx req s).2 (c.taskCall sched ctx req s).1
    intro t0
    have ht : t0 = ((k (c.taskCall sched ctx req s).2).run c sched (c.taskCall sched ctx req s).1).1 := rfl
    rw [ht]
    clear ht t0
    generalize (c.taskCall sched ctx req s).2 = r at this
    generalize (c.taskCall sched ctx req s).1 = u at h1 h2 this ⊢
    rcases h1 with ⟨_, rfl⟩ | ⟨h0, h1⟩
    · exact this hs
    · obtain ⟨a1, a2, a3⟩ := this (by omega)
      generalize ((k r).run c sched u).1 = t at a1 a2 a3
      have hn : t.step - s.step = 1 + (t.step - (s.step + 1)) := by omega
      refine ⟨by omega, ?_, a3.trans h2⟩
      rw [hn, othersIn_add]
      rw [h0] at a2
      have : othersIn sched s.step 1 = (sched s.step).others := by
        show 0 + (sched s.step).others = _
        rw [Nat.zero_add]
      omega
  | within body k ihb ihk =>
    intro s hs
    obtain ⟨a1, a2, a3⟩ := ihb { s with blocks := ⟨s.cancelling, false⟩ :: s.blocks } (by
      show 0 + expiringIn s.blocks ≤ s.cancelling
      omega)
    dsimp only
    unfold Program.run
    dsimp only
    generalize body.run c sched { s with blocks := ⟨s.cancelling, false⟩ :: s.blocks } = q at a1 a2 a3
    have a2 : q.1.cancelling + (0 + expiringIn s.blocks) = s.cancelling + expiringIn q.1.blocks + othersIn sched s.step (q.1.step - s.step) := a2
    rw [Nat.zero_add] at a2
    cases hb : q.1.blocks with
    | nil => rw [hb] at a3; cases a3
    | cons b bs =>
      dsimp only
      rw [hb] at a2 a3
      have a3 : b.entered :: bs.map (·.entered) = s.cancelling :: s.blocks.map (·.entered) := a3
      injection a3 with e1 e2
      have hl : (b.leave q.1.cancelling q.2).1 + expiringIn s.blocks = s.cancelling + expiringIn bs + othersIn sched s.step (q.1.step - s.step) := by
        have a2 : q.1.cancelling + expiringIn s.blocks = s.cancelling + (b.expiring.toNat + expiringIn bs) + othersIn sched s.step (q.1.step - s.step) := a2
        unfold OpenBlock.leave
        cases he : b.expiring with
        | true =>
          rw [he, Bool.toNat_true] at a2
          simp only [if_true]
          omega
        | false =>
          rw [he, Bool.toNat_false] at a2
          simp only [Bool.false_eq_true, if_false]
          omega
      obtain ⟨b1, b2, b3⟩ := ihk (b.leave q.1.cancelling q.2).2 { q.1 with cancelling := (b.leave q.1.cancelling q.2).1, blocks := bs } (by
        show expiringIn bs ≤ (b.leave q.1.cancelling q.2).1
        omega)
      generalize ((k (b.leave q.1.cancelling q.2).2).run c sched { q.1 with cancelling := (b.leave q.1.cancelling q.2).1, blocks := bs }).1 = t at b1 b2 b3
      have a1 : s.step ≤ q.1.step := a1
      have b1 : q.1.step ≤ t.step := b1
      have hn : t.step - s.step = (q.1.step - s.step) + (t.step - q.1.step) := by omega
      refine ⟨by omega, ?_, b3.trans e2⟩
      rw [hn, othersIn_add, Nat.add_sub_cancel' a1]
      have b2 : t.cancelling + expiringIn bs = (b.leave q.1.cancelling q.2).1 + expiringIn t.blocks + othersIn sched q.1.step (t.step - q.1.step) := b2
      omega

end
end Props
