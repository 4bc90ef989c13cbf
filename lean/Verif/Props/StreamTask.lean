import Verif.Proofs.StreamTask
/-
C78: the deadline of a streaming call of the async client, and the code of its caller.
-/
namespace Props
open Conn Spec Proofs

section
variable {res : Rat} {rd : Rat → Rat} {delay : Option Rat} {now : Rat}

/-- **C78, why the caller is interrupted.** Whenever an `await` of the caller's own code raises `CancelledError`: somebody else cancelled the task during that
`await`; or the stream was open, and its deadline came, during that `await`. -/
theorem C78_cause (hres : 0 ≤ res) {tr : Trace} {s : StreamTask} (h : Traces res rd delay now tr s) {pre post : Trace} {r : Awaited}
    (hi : tr = pre ++ (.resume r, .interrupted) :: post) :
    ∃ a o mid, pre = a ++ (.wait, o) :: mid ∧ Meanwhile mid ∧ ((∃ o, (TaskEv.cancel, o) ∈ mid) ∨ (Open a ∧ Due res rd delay now pre)) := by
  obtain ⟨x, y, h1, h2⟩ := traces_split h hi
  have inv := taskInv hres h1
  unfold StreamTask.step at h2
  dsimp only at h2
  by_cases hp : x.place = .running
  · rw [if_pos hp] at h2; cases h2
  · rw [if_neg hp, Option.some.injEq] at h2
    unfold StreamTask.resume at h2
    cases hpl : x.place with
    | running => exact absurd hpl hp
    | waiting =>
      rw [hpl] at h2
      dsimp only at h2
      obtain ⟨a, o, mid, e1, e2, _, e4⟩ := inv.waiting hpl
      cases hpe : x.pending with
      | false => rw [hpe, if_neg (by intro h; cases h)] at h2; cases h2
      | true =>
        refine ⟨a, o, mid, e1, e2, ?_⟩
        rcases e4 hpe with h | ⟨h, _, h'⟩
        · exact .inl h
        · exact .inr ⟨h, h'⟩
    | inside =>
      exfalso
      rw [hpl] at h2
      dsimp only at h2
      have hl : ∀ e, x.leave e ≠ (y, .interrupted) := by
        intro e he
        have := tellOf_final (x.t.exit e).2
        rw [show tellOf (x.t.exit e).2 = .interrupted from congrArg Prod.snd he] at this
        exact interrupted_quiet this
      cases hpe : x.pending with
      | true => rw [hpe, if_pos rfl] at h2; exact hl _ h2
      | false =>
        rw [hpe, if_neg (by intro h; cases h)] at h2
        cases r with
        | message => cases h2
        | last => exact hl _ h2
        | fails n => exact hl _ h2

/-- **C78, the caller's code is left alone** (partial: for callers that await nothing of their own while the stream is open). Nothing but a cancellation by
somebody else, during that `await`, interrupts an `await` of the caller. -/
theorem C78_left_alone_partial (hres : 0 ≤ res) {tr : Trace} {s : StreamTask} (h : Traces res rd delay now tr s)
    (hw : ∀ a o b, tr = a ++ (.wait, o) :: b → ¬ Open a) {pre post : Trace} {r : Awaited} (hi : tr = pre ++ (.resume r, .interrupted) :: post) :
    ∃ a o mid, pre = a ++ (.wait, o) :: mid ∧ Meanwhile mid ∧ ∃ o, (TaskEv.cancel, o) ∈ mid := by
  obtain ⟨a, o, mid, h1, h2, h3⟩ := C78_cause hres h hi
  refine ⟨a, o, mid, h1, h2, ?_⟩
  rcases h3 with h3 | ⟨h3, _⟩
  · exact h3
  · exact absurd h3 (hw a o _ (by rw [hi, h1, List.append_assoc, List.cons_append]))

theorem wait_unique {a b m n : Trace} {o o' : CallerTold} (hm : Meanwhile m) (hn : Meanwhile n) (h : a ++ (.wait, o) :: m = b ++ (.wait, o') :: n) :
    a = b ∧ m = n := by
  have key : ∀ {m : Trace} {o : CallerTold} {c : Trace}, Meanwhile m → ∀ x, m ≠ x ++ (.wait, o) :: c := by
    intro m o c hm x hx
    have := hm (.wait, o) (by rw [hx]; exact List.mem_append_right _ List.mem_cons_self)
    rcases this with ⟨_, h⟩ | ⟨_, h⟩ | h <;> cases h
  rcases List.append_eq_append_iff.1 h with ⟨c, h1, h2⟩ | ⟨c, h1, h2⟩
  · cases c with
    | nil => rw [List.append_nil] at h1; rw [List.nil_append, List.cons.injEq] at h2; exact ⟨h1.symm, h2.2⟩
    | cons y c =>
      rw [List.cons_append, List.cons.injEq] at h2
      exact absurd h2.2 (key hm c)
  · cases c with
    | nil => rw [List.append_nil] at h1; rw [List.nil_append, List.cons.injEq] at h2; exact ⟨h1, h2.2.symm⟩
    | cons y c =>
      rw [List.cons_append, List.cons.injEq] at h2
      exact absurd h2.2 (key hn c)

/-- **C78, no interruption after the end.** Once the stream has ended, has failed or has been closed, its deadline cancels nothing. -/
theorem C78_after_end (hres : 0 ≤ res) {tr : Trace} {s : StreamTask} (h : Traces res rd delay now tr s) {before mid post : Trace} {x : TaskEv × CallerTold}
    {r : Awaited} {o : CallerTold} (hm : Meanwhile mid) (hx : x ∈ before) (hend : x.1 = .close ∨ CallerTold.Final x.2)
    (hi : tr = before ++ (.wait, o) :: mid ++ (.resume r, .interrupted) :: post) : ∃ o, (TaskEv.cancel, o) ∈ mid := by
  obtain ⟨a, o', mid', h1, h2, h3⟩ := C78_cause hres h hi
  obtain ⟨h4, h5⟩ := wait_unique hm h2 h1
  subst h4 h5
  rcases h3 with h3 | ⟨h3, _⟩
  · exact h3
  · have := h3.2 x hx
    rcases hend with he | he
    · exact absurd he this.1
    · exact absurd he this.2

theorem exit_told {t : TWorld} (x : ExcChain) (hx : x.cls ≠ .timeout) (ht : t.state = .entered ∨ t.state = .expiring) :
    (tellOf (t.exit (some x)).2 = .deadline → t.state = .expiring ∧ x.cls = .cancelled) ∧
    (tellOf (t.exit (some x)).2 = .canceled → t.state = .entered ∧ x.cls = .cancelled) ∧
    (x.cls = .cancelled → t.state = .expiring → tellOf (t.exit (some x)).2 = .deadline) := by
  unfold TWorld.exit
  rcases x with ⟨c, cx⟩
  rcases ht with ht | ht <;> cases c <;> simp [ht, tellOf] at hx ⊢

/-- **C78, what the stream says.** `anext` raises DEADLINE_EXCEEDED only when the deadline has come, and CANCELED only when somebody else cancelled the task
since it was called; no other exception of it is due to a cancellation. -/
theorem C78_stream_says (hres : 0 ≤ res) {tr : Trace} {s : StreamTask} (h : Traces res rd delay now tr s) {pre post : Trace} {r : Awaited} {o : CallerTold}
    (hi : tr = pre ++ (.resume r, o) :: post) :
    (o = .deadline → Due res rd delay now pre) ∧
    (o = .canceled → ∃ a o mid, pre = a ++ (.ask, o) :: mid ∧ Meanwhile mid ∧ ∃ o, (TaskEv.cancel, o) ∈ mid) ∧
    (∀ n, o = .failed n → r = .fails n) ∧ (o = .message → r = .message) ∧ (o = .ended → r = .last) := by
  obtain ⟨x, y, h1, h2⟩ := traces_split h hi
  have inv := taskInv hres h1
  unfold StreamTask.step at h2
  dsimp only at h2
  by_cases hp : x.place = .running
  · rw [if_pos hp] at h2; cases h2
  · rw [if_neg hp, Option.some.injEq] at h2
    unfold StreamTask.resume at h2
    cases hpl : x.place with
    | running => exact absurd hpl hp
    | waiting =>
      rw [hpl] at h2
      dsimp only at h2
      cases hpe : x.pending with
      | false => rw [hpe, if_neg (by intro h; cases h)] at h2; cases h2; refine ⟨?_, ?_, ?_, ?_, ?_⟩ <;> intros <;> contradiction
      | true => rw [hpe, if_pos rfl] at h2; cases h2; refine ⟨?_, ?_, ?_, ?_, ?_⟩ <;> intros <;> contradiction
    | inside =>
      rw [hpl] at h2
      dsimp only at h2
      obtain ⟨g1, g2, a, o', mid, g3, g4, g5⟩ := inv.inside hpl
      have hs := live_states inv g1 g2
      cases hpe : x.pending with
      | true =>
        rw [hpe, if_pos rfl] at h2
        have ho : tellOf (x.t.exit (some ⟨.cancelled, []⟩)).2 = o := congrArg Prod.snd h2
        obtain ⟨k1, k2, k3⟩ := exit_told (t := x.t) ⟨.cancelled, []⟩ (by intro h; cases h) hs
        rcases hs with hs | hs
        · have ho' : o = .canceled := by
            rw [← ho]; unfold TWorld.exit; simp [hs, tellOf]
          subst ho'
          refine ⟨(by intro h; cases h), fun _ => ⟨a, o', mid, g3, g4, ?_⟩, (by intro n h; cases h), (by intro h; cases h), (by intro h; cases h)⟩
          rcases g5 hpe with h | ⟨h, _⟩
          · exact h
          · rw [hs] at h; cases h
        · have ho' : o = .deadline := ho.symm.trans (k3 rfl hs)
          subst ho'
          exact ⟨fun _ => inv.due hs, (by intro h; cases h), (by intro n h; cases h), (by intro h; cases h), (by intro h; cases h)⟩
      | false =>
        rw [hpe, if_neg (by intro h; cases h)] at h2
        cases r with
        | message => cases h2; exact ⟨(by intro h; cases h), (by intro h; cases h), (by intro n h; cases h), fun _ => rfl, (by intro h; cases h)⟩
        | last =>
          have ho : tellOf (x.t.exit none).2 = o := congrArg Prod.snd h2
          have ho' : o = .ended := by
            rw [← ho]; unfold TWorld.exit; rcases hs with hs | hs <;> simp [hs, tellOf]
          subst ho'
          exact ⟨(by intro h; cases h), (by intro h; cases h), (by intro n h; cases h), (by intro h; cases h), fun _ => rfl⟩
        | fails n =>
          have ho : tellOf (x.t.exit (some ⟨.other n, []⟩)).2 = o := congrArg Prod.snd h2
          have ho' : o = .failed n := by
            rw [← ho]; unfold TWorld.exit; rcases hs with hs | hs <;> simp [hs, tellOf]
          subst ho'
          exact ⟨(by intro h; cases h), (by intro h; cases h), (fun m h => by cases h; rfl), (by intro h; cases h), (by intro h; cases h)⟩

theorem inside_kept {tr : Trace} {s : StreamTask} (h : Traces res rd delay now tr s) :
    ∀ {pre mid : Trace}, tr = pre ++ (.ask, .nothing) :: mid → Meanwhile mid → s.place = .inside := by
  induction h with
  | start => intro pre mid h; simp at h
  | @step tr s s' e o h h' ih =>
    intro pre mid heq hm
    rcases List.eq_nil_or_concat mid with rfl | ⟨mid', x, rfl⟩
    · cases (List.append_inj' heq rfl).2
      unfold StreamTask.step at h'
      dsimp only at h'
      by_cases hp : s.place = .running
      · rw [if_pos hp, Option.some.injEq] at h'
        unfold StreamTask.ask at h'
        split at h'
        · cases h'
        · split at h' <;> cases h' <;> rfl
      · rw [if_neg hp] at h'; cases h'
    · rw [List.concat_eq_append, ← List.cons_append, ← List.append_assoc] at heq
      obtain ⟨h1, h2⟩ := List.append_inj' heq rfl
      have hin := ih h1 (fun y hy => hm y (by rw [List.concat_eq_append]; exact List.mem_append_left _ hy))
      have hx := hm x (by rw [List.concat_eq_append]; exact List.mem_append_right _ List.mem_cons_self)
      cases List.singleton_inj.1 h2
      have hne : s.place ≠ .running := by rw [hin]; intro h; cases h
      rcases hx with ⟨d, rfl⟩ | ⟨id, rfl⟩ | rfl
      · cases h'; exact hin
      · unfold StreamTask.step at h'
        dsimp only at h'
        rw [if_neg hne] at h'
        cases h'; exact hin
      · unfold StreamTask.step at h'
        dsimp only at h'
        rw [if_neg hne] at h'
        cases h'; exact hin

theorem pending_deadline {s : StreamTask} (hp : s.place = .inside) (hs : s.t.state = .expiring) (hpe : s.pending = true) (r : Awaited) :
    ∃ s'', s.step res rd delay (.resume r) = some (s'', .deadline) := by
  unfold StreamTask.step StreamTask.resume
  dsimp only
  rw [if_neg (by rw [hp]; intro h; cases h), hp]
  dsimp only
  rw [hpe, if_pos rfl]
  have := (exit_told (t := s.t) ⟨.cancelled, []⟩ (by intro h; cases h) (.inr hs)).2.2 rfl hs
  exact ⟨_, congrArg some (Prod.ext rfl this)⟩

/-- **C78, the deadline.** A stream that is being waited for when its deadline comes raises DEADLINE_EXCEEDED, whatever it is waiting for: there is a callback
which, once the event loop has run it, makes the pending `anext` raise that (unless an `await` of the caller has been interrupted before). -/
theorem C78_deadline (hres : 0 ≤ res) {pre mid : Trace} {s : StreamTask} (h : Traces res rd delay now (pre ++ (.ask, .nothing) :: mid) s)
    (hm : Meanwhile mid) (hdue : Due res rd delay now (pre ++ (.ask, .nothing) :: mid)) (hno : ∀ r, (TaskEv.resume r, CallerTold.interrupted) ∉ pre) :
    ∃ id s', s.step res rd delay (.run id) = some (s', .nothing) ∧ ∀ r, ∃ s'', s'.step res rd delay (.resume r) = some (s'', .deadline) := by
  have inv := taskInv hres h
  have hin := inside_kept h rfl hm
  have hne : s.place ≠ .running := by rw [hin]; intro h; cases h
  obtain ⟨g1, g2, _⟩ := inv.inside hin
  obtain ⟨n, w, hh, it⟩ := inv.timer
  have hstep : ∀ id, s.step res rd delay (.run id) =
      some ({ s with t := (s.t.runHandle res id).1, pending := s.pending || decide ((s.t.runHandle res id).2 = .cancel) }, .nothing) := by
    intro id
    unfold StreamTask.step
    dsimp only
    rw [if_neg hne]
    rfl
  rcases live_states inv g1 g2 with hs | hs
  · have hst := it.state
    unfold StateOk at hst
    rw [hs] at hst
    obtain ⟨b, d, e1, e2, e3⟩ := hdue
    obtain ⟨b', e4, e5⟩ := inv.deadline g2
    cases e1.symm.trans e4
    rw [e2, Option.map_some] at e5
    rcases hst.2.2.2.2 with ⟨hd, _⟩ | ⟨d', x, hd, hx, hc, hh', hdue⟩
    · rw [e5] at hd; cases hd
    · cases e5.symm.trans hd
      have hready : TWorld.ready res s.t.now x = true := by
        unfold TWorld.ready
        rcases hdue with hdue | ⟨hdue, _⟩
        · rw [hdue]; exact decide_eq_true (by rw [inv.time]; exact e3)
        · rw [hdue]
      have hq : s.t.runHandle res x.id = (⟨s.t.now, s.t.handles.filter fun h => decide (h.id ≠ x.id), s.t.nextId, .expiring, none, s.t.hasTask, s.t.deadline⟩, .cancel) := by
        unfold TWorld.runHandle
        rw [find_of_mem it.handles.nodup hx]
        simp [hready, hc, TWorld.onTimeout, hs, hst.2.2.2.1]
      refine ⟨x.id, _, hstep x.id, fun r => ?_⟩
      refine pending_deadline ?_ ?_ ?_ r
      · exact hin
      · rw [hq]
      · rw [hq]; simp
  · have hpe : s.pending = true := by
      rcases inv.fired hs with h | ⟨r, h⟩
      · exact h
      · exfalso
        rcases List.mem_append.1 h with h | h
        · exact hno r h
        · rcases List.mem_cons.1 h with h | h
          · cases h
          · rcases hm _ h with ⟨_, h⟩ | ⟨_, h⟩ | h <;> cases h
    have hkeep : ∀ id, (s.t.runHandle res id).1.state = .expiring := by
      intro id
      rcases runHandle_cases it res id with h | ⟨_, _, _, _, h⟩ | ⟨h, _⟩
      · rw [h]; exact hs
      · rw [h]; exact hs
      · rw [hs] at h; cases h
    refine ⟨0, _, hstep 0, fun r => ?_⟩
    refine pending_deadline ?_ ?_ ?_ r
    · exact hin
    · exact hkeep 0
    · show (s.pending || _) = true
      rw [hpe]; rfl

end

/-! ### Examples -/

/-- What a caller is told, for these events in this order; `none` if they cannot happen. -/
def tellAll (res : Rat) (rd : Rat → Rat) (delay : Option Rat) (s : StreamTask) : List TaskEv → Option (List CallerTold)
  | [] => some []
  | e :: r =>
    match s.step res rd delay e with
    | none => none
    | some (s', o) => (tellAll res rd delay s' r).map (o :: ·)

theorem tellAll_traces {res : Rat} {rd : Rat → Rat} {delay : Option Rat} {now : Rat} : ∀ (es : List TaskEv) (os : List CallerTold) (tr : Trace) (s : StreamTask),
    Traces res rd delay now tr s → tellAll res rd delay s es = some os → ∃ s', Traces res rd delay now (tr ++ es.zip os) s'
  | [], os, tr, s, h, h' => by cases h'; exact ⟨s, by rw [List.zip_nil_left, List.append_nil]; exact h⟩
  | e :: r, os, tr, s, h, h' => by
    unfold tellAll at h'
    cases hs : s.step res rd delay e with
    | none => rw [hs] at h'; cases h'
    | some q =>
      obtain ⟨s', o⟩ := q
      rw [hs] at h'
      dsimp only at h'
      cases ht : tellAll res rd delay s' r with
      | none => rw [ht] at h'; cases h'
      | some os' =>
        rw [ht, Option.map_some] at h'
        cases h'
        obtain ⟨s'', h2⟩ := tellAll_traces r os' (tr ++ [(e, o)]) s' (.step h hs) ht
        exact ⟨s'', by rw [List.zip_cons_cons, List.append_cons]; exact h2⟩

theorem trace_of {res : Rat} {rd : Rat → Rat} {delay : Option Rat} {now : Rat} (tr : Trace)
    (h : tellAll res rd delay (.start now) (tr.map Prod.fst) = some (tr.map Prod.snd)) : ∃ s, Traces res rd delay now tr s := by
  obtain ⟨s, hs⟩ := tellAll_traces (now := now) _ _ [] _ .start h
  refine ⟨s, ?_⟩
  have e : (tr.map Prod.fst).zip (tr.map Prod.snd) = tr := by
    induction tr with
    | nil => rfl
    | cons x r ih => simp [List.zip_map', List.map_id'']
  rw [List.nil_append, e] at hs
  exact hs

/-- C78 fails for callers that await something of their own between messages. Here the timeout is one second; the caller gets a message after half a second, and
then awaits something of its own for a second (a database, say): the deadline cancels that, with `CancelledError`, although nobody cancelled the
task and nothing of the caller's has a deadline. -/
theorem C78_violation_interrupted : ∃ s, Traces 0 id (some 1) 0
    [(.ask, .nothing), (.pass (1/2), .nothing), (.resume .message, .message), (.wait, .nothing), (.pass 1, .nothing), (.run 0, .nothing),
      (.resume .last, .interrupted)] s :=
  trace_of _ (by decide +kernel)

/-- C78 fails for the deadline as well then: if the caller goes on, the stream has no deadline any more. Here it delivers a message, and ends well, long after it. -/
theorem C78_violation_no_deadline : ∃ s, Traces 0 id (some 1) 0
    [(.ask, .nothing), (.pass (1/2), .nothing), (.resume .message, .message), (.wait, .nothing), (.pass 1, .nothing), (.run 0, .nothing),
      (.resume .last, .interrupted), (.ask, .nothing), (.pass 3600, .nothing), (.run 0, .nothing), (.resume .message, .message),
      (.ask, .nothing), (.resume .last, .ended)] s :=
  trace_of _ (by decide +kernel)

/-- A caller that awaits something of its own before it asks, and after the stream has ended; that is interrupted, because somebody cancels the task. -/
def patient : Trace :=
  [(.wait, .nothing), (.pass 1, .nothing), (.resume .last, .nothing), (.ask, .nothing), (.resume .message, .message), (.ask, .nothing), (.pass 1, .nothing),
    (.run 0, .nothing), (.resume .message, .deadline), (.wait, .nothing), (.pass 9, .nothing), (.run 0, .nothing), (.cancel, .nothing), (.resume .last, .interrupted)]

/-- it meets the hypotheses of `C78_left_alone_partial` (and of `C78_after_end`) -/
example : (∃ s, Traces 0 id (some 1) 0 patient s) ∧ ∀ a o b, patient = a ++ (.wait, o) :: b → ¬ Open a := by
  refine ⟨trace_of _ (by decide +kernel), ?_⟩
  intro a o b h ho
  unfold patient at h
  simp only [List.cons_eq_append_iff, List.cons.injEq, Prod.mk.injEq, reduceCtorEq, false_and, and_false, false_or, exists_false, List.nil_eq_append_iff, or_false] at h
  rcases h with ⟨rfl, _⟩ | ⟨a', rfl, h⟩
  · exact absurd ho.1.choose_spec List.not_mem_nil
  · obtain ⟨_, rfl, _, rfl, _, rfl, _, rfl, _, rfl, _, rfl, _, rfl, _, rfl, h⟩ := h
    exact (ho.2 (.resume .message, .deadline) (by simp)).2 (.inr (.inl rfl))

/-- `C78_deadline`: it waits for the second message when the deadline comes -/
example : ∃ s, Traces 0 id (some 1) 0 ([(.ask, .nothing), (.pass (1/2), .nothing), (.resume .message, .message)] ++ (.ask, .nothing) :: [(.pass (1/2), .nothing)]) s ∧
    Due 0 id (some 1) 0 ([(.ask, .nothing), (.pass (1/2), .nothing), (.resume .message, .message)] ++ (.ask, .nothing) :: [(.pass (1/2), .nothing)]) := by
  obtain ⟨s, h⟩ := trace_of (res := 0) (rd := id) (delay := some 1) (now := 0)
    ([(.ask, .nothing), (.pass (1/2), .nothing), (.resume .message, .message)] ++ (.ask, .nothing) :: [(.pass (1/2), .nothing)]) (by decide +kernel)
  exact ⟨s, h, 0, 1, rfl, rfl, by decide +kernel⟩

/-- somebody cancels the task while the stream is being waited for -/
example : ∃ s, Traces 0 id (some 1) 0 [(.ask, .nothing), (.cancel, .nothing), (.resume .message, .canceled)] s :=
  trace_of _ (by decide +kernel)

end Props
