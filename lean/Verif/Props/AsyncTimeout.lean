import Verif.Proofs.AsyncTimeout
/-
C53: the timeout block used on Python 3.10.  A history is any sequence of entering, rescheduling, passing time, running
of scheduled callbacks and leaving, in any order.
-/
namespace Props
open Conn Spec Proofs

/-- C53: the task is cancelled only by a callback the event loop runs, inside the block, for the first time, and when
the deadline in force has come (up to the resolution `res` of the loop's clock). -/
theorem C53_inside (res now : Rat) (hres : 0 ≤ res) (w : Option Rat) (ops : List TOp) (pre post : THist) (o : TOp)
    (h : history res now w ops = pre ++ (o, TOut.cancel) :: post) :
    (∃ id, o = .run id) ∧ Inside pre ∧ ¬ Fired pre ∧
      ∃ d, deadlineOf w pre = some d ∧ d ≤ clock now pre + res := by
  obtain ⟨a, rfl, ho⟩ := history_split h
  have inv := inv_history res now w a
  revert ho
  generalize ((TWorld.new now w).run res a).1 = t at inv ⊢
  intro ho
  cases o with
  | enter b =>
    exfalso
    simp only [TWorld.step, TWorld.enter] at ho
    by_cases hc : t.state = .created
    · cases b with
      | false => simp [hc] at ho
      | true =>
        have ok' : HandlesOk { t with state := .entered, hasTask := true } :=
          ⟨inv.handles.nodup, inv.handles.lt, inv.handles.live⟩
        have := (reschedule_entered ok' rfl t.deadline).1
        simp only [hc, ne_eq, not_true_eq_false, if_false, Bool.not_true, Bool.false_eq_true] at ho
        rw [this] at ho
        cases ho
    · simp [hc] at ho
  | reschedule w' =>
    exfalso
    simp only [TWorld.step] at ho
    by_cases hc : t.state = .entered
    · rw [(reschedule_entered inv.handles hc w').1] at ho; cases ho
    · simp [TWorld.reschedule, hc] at ho
  | pass d => simp [TWorld.step] at ho
  | run id =>
    refine ⟨⟨id, rfl⟩, ?_⟩
    simp only [TWorld.step] at ho
    rcases runHandle_cases inv res id with e | ⟨x, hm, hid, hc, e⟩ | ⟨hst, hh, ⟨d, hd, hle⟩, e⟩
    · rw [e] at ho; cases ho
    · rw [e] at ho; cases ho
    · have hso := inv.state
      unfold StateOk at hso
      rw [hst] at hso
      simp only at hso
      refine ⟨⟨hso.1, hso.2.1⟩, hso.2.2.1, d, by rw [← inv.deadline, hd], ?_⟩
      rw [← inv.clock]
      rcases hle with hle | hle
      · exact hle
      · grind
  | exit e =>
    exfalso
    simp only [TWorld.step, TWorld.exit] at ho
    split at ho
    · cases ho
    · split at ho
      · split at ho
        · cases ho
        · split at ho <;> cases ho
      · cases ho

/-- C53: at most one cancellation in every history. -/
theorem C53_once (res now : Rat) (hres : 0 ≤ res) (w : Option Rat) (ops : List TOp) :
    ((history res now w ops).filter fun x => decide (x.2 = TOut.cancel)).length ≤ 1 := by
  have key : ∀ (h pre : THist), history res now w ops = pre ++ h → Fired pre →
      h.filter (fun x => decide (x.2 = TOut.cancel)) = [] := by
    intro h
    induction h with
    | nil => intros; rfl
    | cons x r ih =>
      intro pre e hf
      obtain ⟨o, out⟩ := x
      have hne : out ≠ .cancel := by
        rintro rfl
        exact (C53_inside res now hres w ops pre r o e).2.2.1 hf
      simp only [List.filter_cons, hne, decide_false, Bool.false_eq_true, if_false]
      exact ih (pre ++ [(o, out)]) (by simp [e]) ((fired_snoc _ _).2 (.inl hf))
  have main : ∀ (h pre : THist), history res now w ops = pre ++ h →
      (h.filter fun x => decide (x.2 = TOut.cancel)).length ≤ 1 := by
    intro h
    induction h with
    | nil => intros; simp
    | cons x r ih =>
      intro pre e
      obtain ⟨o, out⟩ := x
      by_cases hc : out = .cancel
      · subst hc
        simp only [List.filter_cons, decide_true, if_true]
        rw [key r (pre ++ [(o, .cancel)]) (by simp [e]) ((fired_snoc _ _).2 (.inr rfl))]
        simp
      · simp only [List.filter_cons, hc, decide_false, Bool.false_eq_true, if_false]
        exact ih (pre ++ [(o, out)]) (by simp [e])
  exact main _ [] rfl

/-- C53: leaving the block: before the timeout fired the outcome of the body is untouched, whatever it is; afterwards a
cancellation becomes `TimeoutError`. -/
theorem C53_exit (res now : Rat) (w : Option Rat) (ops : List TOp) (pre post : THist) (e : Option ExcChain) (out : TOut)
    (h : history res now w ops = pre ++ (.exit e, out) :: post) (inside : Inside pre) :
    (¬ Fired pre → out = .leave e) ∧ (Fired pre → LeavesFired e out) := by
  obtain ⟨a, rfl, ho⟩ := history_split h
  have inv := inv_history res now w a
  revert ho
  generalize ((TWorld.new now w).run res a).1 = t at inv ⊢
  intro ho
  have hso := inv.state
  unfold StateOk at hso
  simp only [TWorld.step, TWorld.exit] at ho
  cases hs : t.state with
  | created => rw [hs] at hso; exact absurd inside.1 hso.1
  | expired => rw [hs] at hso; exact absurd hso.2.1 inside.2
  | exited => rw [hs] at hso; exact absurd hso.2.1 inside.2
  | entered =>
    rw [hs] at hso
    refine ⟨fun _ => ?_, fun hf => absurd hf hso.2.2.1⟩
    simpa [hs] using ho
  | expiring =>
    rw [hs] at hso
    refine ⟨fun hf => absurd hso.2.2.1 hf, fun _ => ?_⟩
    simp only [hs, ne_eq, reduceCtorEq, not_false_eq_true, not_true_eq_false, and_false, if_false, drop_state,
      if_true] at ho
    cases e with
    | none => simpa [LeavesFired] using ho
    | some x =>
      simp only at ho
      refine ⟨fun hc => by simpa [hc] using ho, fun hc => ⟨_, by simpa [hc] using ho, insert_repaired _⟩⟩

/-- C53: no assertion of the code fails as long as the block is left only from inside (which `async with` ensures). -/
theorem C53_no_assertion (res now : Rat) (w : Option Rat) (ops : List TOp)
    (wf : ∀ pre post e out, history res now w ops = pre ++ (.exit e, out) :: post → Inside pre) :
    ∀ x ∈ history res now w ops, x.2 ≠ TOut.assertion := by
  intro x hx
  obtain ⟨pre, post, e⟩ := List.append_of_mem hx
  obtain ⟨o, out⟩ := x
  rintro rfl
  have hin := fun e' (he : o = .exit e') => wf pre post e' .assertion (by rw [e, he])
  have hcopy := e
  obtain ⟨a, ha, ho⟩ := history_split e
  have inv := inv_history res now w a
  rw [← ha] at inv
  revert ho
  generalize ((TWorld.new now w).run res a).1 = t at inv ⊢
  intro ho
  cases o with
  | enter b =>
    simp only [TWorld.step, TWorld.enter] at ho
    by_cases hc : t.state = .created
    · cases b with
      | false => simp [hc] at ho
      | true =>
        have ok' : HandlesOk { t with state := .entered, hasTask := true } :=
          ⟨inv.handles.nodup, inv.handles.lt, inv.handles.live⟩
        have := (reschedule_entered ok' rfl t.deadline).1
        simp only [hc, ne_eq, not_true_eq_false, if_false, Bool.not_true, Bool.false_eq_true] at ho
        rw [this] at ho
        cases ho
    · simp [hc] at ho
  | reschedule w' =>
    simp only [TWorld.step] at ho
    by_cases hc : t.state = .entered
    · rw [(reschedule_entered inv.handles hc w').1] at ho; cases ho
    · simp [TWorld.reschedule, hc] at ho
  | pass d => simp [TWorld.step] at ho
  | run id =>
    simp only [TWorld.step] at ho
    rcases runHandle_cases inv res id with e | ⟨x, hm, hid, hc, e⟩ | ⟨hst, hh, ⟨d, hd, hle⟩, e⟩ <;>
      · rw [e] at ho; cases ho
  | exit e' =>
    obtain ⟨h1, h2⟩ := C53_exit res now w ops pre post e' .assertion hcopy (hin e' rfl)
    by_cases hf : Fired pre
    · have := h2 hf
      cases e' with
      | none => cases this
      | some x =>
        by_cases hc : x.cls = .cancelled
        · cases this.1 hc
        · obtain ⟨c, hcc, _⟩ := this.2 hc
          cases hcc
    · cases h1 hf

/-- C53: the timeout does fire: inside the block, once the deadline in force has come, a callback is scheduled that
cancels the task as soon as the loop runs it. -/
theorem C53_fires (res now : Rat) (w : Option Rat) (ops : List TOp) (d : Rat)
    (inside : Inside (history res now w ops)) (first : ¬ Fired (history res now w ops))
    (dl : deadlineOf w (history res now w ops) = some d) (due : d ≤ clock now (history res now w ops) + res) :
    ∃ id, history res now w (ops ++ [.run id]) = history res now w ops ++ [(.run id, .cancel)] := by
  have inv := inv_history res now w ops
  have hso := inv.state
  have hd : ((TWorld.new now w).run res ops).1.deadline = some d := by rw [inv.deadline, dl]
  have hclk := inv.clock
  rw [← hclk] at due
  have key : ∃ id, (((TWorld.new now w).run res ops).1.runHandle res id).2 = .cancel := by
    generalize ((TWorld.new now w).run res ops).1 = t at *
    unfold StateOk at hso
    cases hs : t.state with
    | created => rw [hs] at hso; exact absurd inside.1 hso.1
    | expired => rw [hs] at hso; exact absurd hso.2.1 inside.2
    | exited => rw [hs] at hso; exact absurd hso.2.1 inside.2
    | expiring => rw [hs] at hso; exact absurd hso.2.2.1 first
    | entered =>
      rw [hs] at hso
      obtain ⟨_, _, _, htask, hsch⟩ := hso
      rcases hsch with ⟨hn, _⟩ | ⟨d', y, hd', hym, hyc, hyh, hdue⟩
      · rw [hn] at hd; cases hd
      · rw [hd] at hd'
        cases hd'
        refine ⟨y.id, ?_⟩
        have hr : TWorld.ready res t.now y = true := by
          rcases hdue with h1 | ⟨h1, _⟩
          · simp [TWorld.ready, h1, due]
          · simp [TWorld.ready, h1]
        simp [TWorld.runHandle, find_of_mem inv.handles.nodup hym, hr, hyc, TWorld.onTimeout, hs, htask]
  obtain ⟨id, hid⟩ := key
  refine ⟨id, ?_⟩
  simp only [history, run_append]
  simp only [TWorld.run, TWorld.step, hid]

/-- C53: the deadline can be changed exactly inside the block before the timeout fired, and a block is entered at most
once. -/
theorem C53_usage (res now : Rat) (w : Option Rat) (ops : List TOp) (pre post : THist) (o : TOp) (out : TOut)
    (h : history res now w ops = pre ++ (o, out) :: post) :
    (∀ w', o = .reschedule w' →
      (Inside pre ∧ ¬ Fired pre → out = .ok) ∧ (¬ (Inside pre ∧ ¬ Fired pre) → out = .runtimeError)) ∧
    (∀ b, o = .enter b → (Entered pre → out = .runtimeError) ∧
      (¬ Entered pre → out = if b then .ok else .runtimeError)) := by
  obtain ⟨a, rfl, ho⟩ := history_split h
  have inv := inv_history res now w a
  revert ho
  generalize ((TWorld.new now w).run res a).1 = t at inv ⊢
  intro ho
  have hso := inv.state
  unfold StateOk at hso
  constructor
  · rintro w' rfl
    simp only [TWorld.step] at ho
    by_cases hc : t.state = .entered
    · rw [(reschedule_entered inv.handles hc w').1] at ho
      rw [hc] at hso
      exact ⟨fun _ => ho, fun hn => absurd ⟨⟨hso.1, hso.2.1⟩, hso.2.2.1⟩ hn⟩
    · have : out = .runtimeError := by simpa [TWorld.reschedule, hc] using ho
      refine ⟨fun hp => ?_, fun _ => this⟩
      cases hs : t.state with
      | created => rw [hs] at hso; exact absurd hp.1.1 hso.1
      | expired => rw [hs] at hso; exact absurd hso.2.1 hp.1.2
      | exited => rw [hs] at hso; exact absurd hso.2.1 hp.1.2
      | expiring => rw [hs] at hso; exact absurd hso.2.2.1 hp.2
      | entered => exact absurd hs hc
  · rintro b rfl
    simp only [TWorld.step, TWorld.enter] at ho
    by_cases hc : t.state = .created
    · rw [hc] at hso
      refine ⟨fun he => absurd he hso.1, fun _ => ?_⟩
      cases b with
      | false => simpa [hc] using ho
      | true =>
        have ok' : HandlesOk { t with state := .entered, hasTask := true } :=
          ⟨inv.handles.nodup, inv.handles.lt, inv.handles.live⟩
        have := (reschedule_entered ok' rfl t.deadline).1
        simp only [hc, ne_eq, not_true_eq_false, if_false, Bool.not_true, Bool.false_eq_true] at ho
        rw [this] at ho
        simpa using ho
    · have : out = .runtimeError := by simpa [hc] using ho
      refine ⟨fun _ => this, fun hn => ?_⟩
      cases hs : t.state with
      | created => exact absurd hs hc
      | expired => rw [hs] at hso; exact absurd hso.1 hn
      | exited => rw [hs] at hso; exact absurd hso.1 hn
      | expiring => rw [hs] at hso; exact absurd hso.1 hn
      | entered => rw [hs] at hso; exact absurd hso.1 hn

/-- a block with a deadline that is moved forward, passes, and whose body is then cancelled. -/
def timedOut : List TOp :=
  [.enter true, .pass 1, .run 0, .reschedule (some 5), .run 0, .pass 4, .run 0, .run 1,
    .exit (some ⟨.cancelled, []⟩), .run 1, .reschedule none, .enter true]

example : history 0 0 (some 3) timedOut =
    [(.enter true, .ok), (.pass 1, .ok), (.run 0, .ok), (.reschedule (some 5), .ok), (.run 0, .ok), (.pass 4, .ok),
      (.run 0, .ok), (.run 1, .cancel), (.exit (some ⟨.cancelled, []⟩), .timeoutError), (.run 1, .ok),
      (.reschedule none, .runtimeError), (.enter true, .runtimeError)] := by decide +kernel

/-- a deadline already past when the block is entered fires at the loop's next turn; another error of the body keeps
its place, with the timeout in its chain. -/
example : history 0 7 (some 3) [.enter true, .run 0, .exit (some ⟨.other 1, [.other 2, .cancelled, .other 3]⟩)] =
    [(.enter true, .ok), (.run 0, .cancel),
      (.exit (some ⟨.other 1, [.other 2, .cancelled, .other 3]⟩),
        .leave (some ⟨.other 1, [.other 2, .timeout, .cancelled, .other 3]⟩))] := by decide +kernel

/-- leaving in time: the callback is dropped, also when a cancellation from elsewhere ends the body. -/
example : history 0 0 (some 3) [.enter true, .exit (some ⟨.cancelled, []⟩), .pass 9, .run 0] =
    [(.enter true, .ok), (.exit (some ⟨.cancelled, []⟩), .leave (some ⟨.cancelled, []⟩)), (.pass 9, .ok),
      (.run 0, .ok)] := by decide +kernel

/-- the hypotheses of `C53_fires` are met. -/
example : Inside (history 0 0 (some 3) [.enter true, .pass 4]) ∧ ¬ Fired (history 0 0 (some 3) [.enter true, .pass 4]) ∧
    deadlineOf (some 3) (history 0 0 (some 3) [.enter true, .pass 4]) = some 3 ∧
    (3 : Rat) ≤ clock 0 (history 0 0 (some 3) [.enter true, .pass 4]) + 0 := by
  have e : history 0 0 (some 3) [.enter true, .pass 4] = [(.enter true, .ok), (.pass 4, .ok)] := by decide +kernel
  rw [e]
  exact ⟨⟨⟨true, by simp⟩, by simp [Left]⟩, by simp [Fired], by decide +kernel, by decide +kernel⟩

/-- C53: `timeout(delay)` cancels no earlier than `delay` seconds after it was made, if the deadline is not moved. -/
theorem C53_delay (res now delay : Rat) (hres : 0 ≤ res) (ops : List TOp) (pre post : THist) (o : TOp)
    (h : ((TWorld.timeout id now (some delay)).run res ops).2 = pre ++ (o, TOut.cancel) :: post)
    (still : ∀ w', (TOp.reschedule w', TOut.ok) ∉ pre) : now + delay ≤ clock now pre + res := by
  obtain ⟨_, _, _, d, hd, hle⟩ := C53_inside res now hres (some (now + delay)) ops pre post o h
  have : deadlineOf (some (now + delay)) pre = some (now + delay) := by
    have gen : ∀ (q : THist) (w : Option Rat), (∀ w', (TOp.reschedule w', TOut.ok) ∉ q) → deadlineOf w q = w := by
      intro q
      induction q with
      | nil => intros; rfl
      | cons x r ih =>
        intro w hq
        have hr : ∀ w', (TOp.reschedule w', TOut.ok) ∉ r := fun w' hm => hq w' (List.mem_cons_of_mem _ hm)
        obtain ⟨o, u⟩ := x
        cases o with
        | reschedule w' =>
          cases u with
          | ok => exact absurd List.mem_cons_self (hq w')
          | _ => exact ih w hr
        | _ => cases u <;> exact ih w hr
    exact gen pre _ still
  rw [this] at hd
  cases hd
  exact hle

end Props
