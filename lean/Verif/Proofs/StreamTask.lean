import Verif.Spec.StreamTask
import Verif.Proofs.AsyncTimeout
namespace Proofs
open Conn Spec

theorem timeOf_snoc (x : TaskEv × CallerTold) : ∀ (now : Rat) (tr : Trace), timeOf now (tr ++ [x]) = (match x.1 with
    | .pass d => if 0 ≤ d then timeOf now tr + d else timeOf now tr
    | _ => timeOf now tr)
  | now, [] => by obtain ⟨e, o⟩ := x; cases e <;> rfl
  | now, (e, o) :: r => by cases e <;> exact timeOf_snoc x _ r

theorem timeOf_append : ∀ (now : Rat) (a b : Trace), timeOf now (a ++ b) = timeOf (timeOf now a) b
  | _, [], _ => rfl
  | now, (e, o) :: r, b => by cases e <;> exact timeOf_append _ r b

theorem timeOf_mono : ∀ (now : Rat) (tr : Trace), now ≤ timeOf now tr
  | now, [] => Rat.le_refl
  | now, (e, o) :: r => by
    cases e with
    | pass d =>
      refine Rat.le_trans ?_ (timeOf_mono _ r)
      split <;> grind
    | _ => exact timeOf_mono now r

theorem begun_append : ∀ (now : Rat) (a b : Trace), begun now (a ++ b) = (begun now a).or (begun (timeOf now a) b)
  | _, [], _ => rfl
  | now, (e, o) :: r, b => by
    cases e with
    | ask => rfl
    | _ => exact begun_append _ r b

theorem begun_none : ∀ (now : Rat) (tr : Trace), (∀ o, (TaskEv.ask, o) ∉ tr) → begun now tr = none
  | _, [], _ => rfl
  | now, (e, o) :: r, h => by
    have h' : ∀ o, (TaskEv.ask, o) ∉ r := fun o ho => h o (List.mem_cons_of_mem _ ho)
    cases e with
    | ask => exact absurd List.mem_cons_self (h o)
    | _ => exact begun_none _ r h'

/-- What is due stays due. -/
theorem due_append {res : Rat} {rd : Rat → Rat} {delay : Option Rat} {now : Rat} {a : Trace} (h : Due res rd delay now a) (b : Trace) :
    Due res rd delay now (a ++ b) := by
  obtain ⟨s, d, h1, h2, h3⟩ := h
  refine ⟨s, d, by rw [begun_append, h1]; rfl, h2, ?_⟩
  rw [timeOf_append]
  have := timeOf_mono (timeOf now a) b
  grind

/-- The task is suspended since the event `e`. -/
def Since (res : Rat) (rd : Rat → Rat) (delay : Option Rat) (now : Rat) (e : TaskEv) (tr : Trace) (cause : Trace → Trace → Prop) : Prop :=
  ∃ pre o mid, tr = pre ++ (e, o) :: mid ∧ Meanwhile mid ∧ cause pre mid

/-- Why `CancelledError` is thrown at an `await` of the caller. -/
def Why (res : Rat) (rd : Rat → Rat) (delay : Option Rat) (now : Rat) (pre mid : Trace) (tr : Trace) : Prop :=
  (∃ o, (TaskEv.cancel, o) ∈ mid) ∨ (Open pre ∧ (∃ id o, (TaskEv.run id, o) ∈ mid) ∧ Due res rd delay now tr)

structure TaskInv (res : Rat) (rd : Rat → Rat) (delay : Option Rat) (now : Rat) (s : StreamTask) (tr : Trace) : Prop where
  time : s.t.now = timeOf now tr
  timer : ∃ n w h, Inv n w s.t h
  fresh : s.t.state = .created → s.closed = true ∨ ∀ o, (TaskEv.ask, o) ∉ tr
  deadline : s.t.state ≠ .created → ∃ b, begun now tr = some b ∧ s.t.deadline = delay.map fun d => rd (b + d)
  closed : s.closed = true → s.t.state ≠ .entered ∧ s.t.state ≠ .expiring
  live : s.closed = false → s.t.state ≠ .expired ∧ s.t.state ≠ .exited
  clean : s.closed = false → ∀ x ∈ tr, x.1 ≠ .close ∧ ¬ CallerTold.Final x.2
  opened : Open tr ↔ s.closed = false ∧ s.t.state ≠ .created
  due : s.t.state = .expiring → Due res rd delay now tr
  fired : s.t.state = .expiring → s.pending = true ∨ ∃ r, (TaskEv.resume r, CallerTold.interrupted) ∈ tr
  running : s.place = .running → s.pending = false
  waiting : s.place = .waiting → ∃ pre o mid, tr = pre ++ (.wait, o) :: mid ∧ Meanwhile mid ∧ (Open pre ↔ Open tr) ∧
    (s.pending = true → Why res rd delay now pre mid tr)
  inside : s.place = .inside → s.closed = false ∧ s.t.state ≠ .created ∧ ∃ pre o mid, tr = pre ++ (.ask, o) :: mid ∧ Meanwhile mid ∧
    (s.pending = true → (∃ o, (TaskEv.cancel, o) ∈ mid) ∨ (s.t.state = .expiring ∧ ∃ id o, (TaskEv.run id, o) ∈ mid))

theorem open_snoc (tr : Trace) (e : TaskEv) (o : CallerTold) :
    Open (tr ++ [(e, o)]) ↔ (e = .ask ∨ ∃ o, (TaskEv.ask, o) ∈ tr) ∧ (∀ x ∈ tr, x.1 ≠ .close ∧ ¬ CallerTold.Final x.2) ∧ e ≠ .close ∧ ¬ CallerTold.Final o := by
  unfold Open
  constructor
  · rintro ⟨⟨o', h1⟩, h2⟩
    refine ⟨?_, fun x hx => h2 x (List.mem_append_left _ hx), h2 (e, o) (List.mem_append_right _ List.mem_cons_self)⟩
    rcases List.mem_append.1 h1 with h1 | h1
    · exact .inr ⟨o', h1⟩
    · exact .inl (congrArg Prod.fst (List.mem_singleton.1 h1)).symm
  · rintro ⟨h1, h2, h3⟩
    refine ⟨?_, ?_⟩
    · rcases h1 with rfl | ⟨o', h1⟩
      · exact ⟨o, List.mem_append_right _ List.mem_cons_self⟩
      · exact ⟨o', List.mem_append_left _ h1⟩
    · intro x hx
      rcases List.mem_append.1 hx with hx | hx
      · exact h2 x hx
      · rw [List.mem_singleton.1 hx]; exact h3

/-- Events that neither ask nor close, and tell nothing final, leave the stream as open as it was. -/
theorem open_quiet (tr : Trace) (e : TaskEv) (o : CallerTold) (h1 : e ≠ .ask) (h2 : e ≠ .close) (h3 : ¬ CallerTold.Final o) :
    Open (tr ++ [(e, o)]) ↔ Open tr := by
  rw [open_snoc]
  unfold Open
  constructor
  · rintro ⟨h | h, h', _⟩
    · exact absurd h h1
    · exact ⟨h, h'⟩
  · rintro ⟨h, h'⟩; exact ⟨.inr h, h', h2, h3⟩

theorem clean_snoc {tr : Trace} (h : ∀ x ∈ tr, x.1 ≠ .close ∧ ¬ CallerTold.Final x.2) {e : TaskEv} {o : CallerTold} (h1 : e ≠ .close) (h2 : ¬ CallerTold.Final o) :
    ∀ x ∈ tr ++ [(e, o)], x.1 ≠ .close ∧ ¬ CallerTold.Final x.2 := by
  intro x hx
  rcases List.mem_append.1 hx with hx | hx
  · exact h x hx
  · rw [List.mem_singleton.1 hx]; exact ⟨h1, h2⟩

theorem nothing_quiet : ¬ CallerTold.Final .nothing := by
  rintro (h | h | h | ⟨n, h⟩) <;> cases h
theorem message_quiet : ¬ CallerTold.Final .message := by
  rintro (h | h | h | ⟨n, h⟩) <;> cases h
theorem interrupted_quiet : ¬ CallerTold.Final .interrupted := by
  rintro (h | h | h | ⟨n, h⟩) <;> cases h

theorem tellOf_final (o : TOut) : CallerTold.Final (tellOf o) := by
  unfold tellOf CallerTold.Final
  split
  · exact .inr (.inl rfl)
  · split
    · exact .inr (.inl rfl)
    · exact .inr (.inr (.inl rfl))
    · exact .inr (.inr (.inr ⟨_, rfl⟩))
  · exact .inl rfl

/-- Leaving the block. -/
theorem exit_after {n : Rat} {w : Option Rat} {t : TWorld} {h : THist} (inv : Inv n w t h) (e : Option ExcChain) (hs : t.state = .entered ∨ t.state = .expiring) :
    (t.exit e).1.now = t.now ∧ (t.exit e).1.deadline = t.deadline ∧ ((t.exit e).1.state = .expired ∨ (t.exit e).1.state = .exited) := by
  unfold TWorld.exit
  rcases hs with hs | hs
  · simp [hs]
  · cases e with
    | none => simp [hs]
    | some x =>
      by_cases hx : x.cls = .cancelled <;> simp [hs, hx]

theorem begun_snoc {now b : Rat} {tr : Trace} (h : begun now tr = some b) (x : TaskEv × CallerTold) : begun now (tr ++ [x]) = some b := by
  rw [begun_append, h]; rfl

theorem timeOf_snoc_other (now : Rat) (tr : Trace) (e : TaskEv) (o : CallerTold) (h : ∀ d, e ≠ .pass d) : timeOf now (tr ++ [(e, o)]) = timeOf now tr := by
  rw [timeOf_snoc]
  cases e with
  | pass d => exact absurd rfl (h d)
  | _ => rfl

theorem meanwhile_snoc {mid : Trace} (h : Meanwhile mid) {x : TaskEv × CallerTold}
    (hx : (∃ d, x.1 = .pass d) ∨ (∃ id, x.1 = .run id) ∨ x.1 = .cancel) : Meanwhile (mid ++ [x]) := by
  intro y hy
  rcases List.mem_append.1 hy with hy | hy
  · exact h y hy
  · rw [List.mem_singleton.1 hy]; exact hx

theorem meanwhile_nil : Meanwhile [] := fun _ h => absurd h List.not_mem_nil

section
variable {res : Rat} {rd : Rat → Rat} {delay : Option Rat} {now : Rat}

theorem fired_snoc' {tr : Trace} {p : Bool} (x : TaskEv × CallerTold) (h : p = true ∨ ∃ r, (TaskEv.resume r, CallerTold.interrupted) ∈ tr) :
    p = true ∨ ∃ r, (TaskEv.resume r, CallerTold.interrupted) ∈ tr ++ [x] := by
  rcases h with h | ⟨r, h⟩
  · exact .inl h
  · exact .inr ⟨r, List.mem_append_left _ h⟩

theorem taskInv_start : TaskInv res rd delay now (.start now) [] where
  time := rfl
  timer := ⟨now, none, [], inv_new now none⟩
  fresh _ := .inr fun _ => List.not_mem_nil
  deadline h := absurd rfl h
  closed h := by cases h
  live _ := ⟨(by intro h; cases h), (by intro h; cases h)⟩
  clean _ := fun _ h => absurd h List.not_mem_nil
  opened := ⟨fun h => absurd h.1.choose_spec List.not_mem_nil, fun h => absurd rfl h.2⟩
  due h := by cases h
  fired h := by cases h
  running _ := rfl
  waiting h := by cases h
  inside h := by cases h

theorem why_snoc {pre mid tr : Trace} (x : TaskEv × CallerTold) (h : Why res rd delay now pre mid tr) :
    Why res rd delay now pre (mid ++ [x]) (tr ++ [x]) := by
  rcases h with ⟨o, h⟩ | ⟨h1, ⟨id, o, h2⟩, h3⟩
  · exact .inl ⟨o, List.mem_append_left _ h⟩
  · exact .inr ⟨h1, ⟨id, o, List.mem_append_left _ h2⟩, due_append h3 _⟩

/-- The generator comes to its end. -/
theorem taskInv_leave {s : StreamTask} {tr : Trace} (inv : TaskInv res rd delay now s tr) (hs : s.t.state = .entered ∨ s.t.state = .expiring) (x : Option ExcChain)
    (e : TaskEv) (o : CallerTold) (he : ∀ d, e ≠ .pass d) (hf : e = .close ∨ CallerTold.Final o) : TaskInv res rd delay now (s.leave x).1 (tr ++ [(e, o)]) := by
  obtain ⟨n, w, h, it⟩ := inv.timer
  obtain ⟨h1, h2, h3⟩ := exit_after it x hs
  have hne : s.t.state ≠ .created := by rcases hs with hs | hs <;> rw [hs] <;> intro h <;> cases h
  refine ⟨?_, ⟨n, w, _, inv_step 0 (.exit x) it⟩, ?_, ?_, ?_, ?_, (fun h => by cases h), ?_, ?_, ?_, fun _ => rfl, ?_, ?_⟩
  · rw [timeOf_snoc_other now tr e o he, ← inv.time]; exact h1
  · intro h; exact .inl rfl
  · intro _
    obtain ⟨b, hb, hd⟩ := inv.deadline hne
    exact ⟨b, begun_snoc hb _, h2.trans hd⟩
  · intro _
    have h3 : (s.leave x).1.t.state = .expired ∨ (s.leave x).1.t.state = .exited := h3
    rcases h3 with h3 | h3 <;> rw [h3] <;> exact ⟨(by intro h; cases h), (by intro h; cases h)⟩
  · intro h; cases h
  · constructor
    · intro h
      rw [open_snoc] at h
      rcases hf with hf | hf
      · exact absurd hf h.2.2.1
      · exact absurd hf h.2.2.2
    · rintro ⟨h, _⟩; cases h
  · intro h
    have h3 : (s.leave x).1.t.state = .expired ∨ (s.leave x).1.t.state = .exited := h3
    rw [h] at h3
    rcases h3 with h3 | h3 <;> cases h3
  · intro h
    have h3 : (s.leave x).1.t.state = .expired ∨ (s.leave x).1.t.state = .exited := h3
    rw [h] at h3
    rcases h3 with h3 | h3 <;> cases h3
  · intro h; cases h
  · intro h; cases h

theorem live_states {s : StreamTask} {tr : Trace} (inv : TaskInv res rd delay now s tr) (h1 : s.closed = false) (h2 : s.t.state ≠ .created) :
    s.t.state = .entered ∨ s.t.state = .expiring := by
  have h := inv.live h1
  cases hs : s.t.state with
  | created => exact absurd hs h2
  | entered => exact .inl rfl
  | expiring => exact .inr rfl
  | expired => exact absurd hs h.1
  | exited => exact absurd hs h.2

/-- Something happens while the task is suspended, or time passes. -/
theorem taskInv_meanwhile {s s' : StreamTask} {tr : Trace} (inv : TaskInv res rd delay now s tr) (e : TaskEv)
    (hm : (∃ d, e = .pass d) ∨ (∃ id, e = .run id) ∨ e = .cancel) (hp : s'.place = s.place) (hcl : s'.closed = s.closed) (hdl : s'.t.deadline = s.t.deadline)
    (htime : s'.t.now = timeOf now (tr ++ [(e, .nothing)])) (htimer : ∃ n w h, Inv n w s'.t h)
    (hstate : s'.t.state = s.t.state ∨ (s.t.state = .entered ∧ s'.t.state = .expiring ∧ Due res rd delay now (tr ++ [(e, .nothing)]) ∧ ∃ id, e = .run id))
    (hrun : s.place = .running → s'.pending = false)
    (hkeep : s.pending = true → s'.pending = true) (hset : s.t.state = .entered → s'.t.state = .expiring → s'.pending = true)
    (hpend : s'.pending = true → s.pending = true ∨ e = .cancel ∨
      (s.t.state = .entered ∧ s'.t.state = .expiring ∧ Due res rd delay now (tr ++ [(e, .nothing)]) ∧ ∃ id, e = .run id)) :
    TaskInv res rd delay now s' (tr ++ [(e, .nothing)]) := by
  have hask : e ≠ .ask := by rintro rfl; rcases hm with ⟨_, h⟩ | ⟨_, h⟩ | h <;> cases h
  have hclose : e ≠ .close := by rintro rfl; rcases hm with ⟨_, h⟩ | ⟨_, h⟩ | h <;> cases h
  have hcr : s'.t.state = .created ↔ s.t.state = .created := by
    rcases hstate with h | ⟨h1, h2, _⟩
    · rw [h]
    · rw [h1, h2]; exact ⟨(by intro h; cases h), (by intro h; cases h)⟩
  have hopen := open_quiet tr e .nothing hask hclose nothing_quiet
  refine ⟨htime, htimer, ?_, ?_, ?_, ?_, (fun h => clean_snoc (inv.clean (hcl ▸ h)) hclose nothing_quiet), ?_, ?_, ?_, ?_, ?_, ?_⟩
  · intro h
    rw [hcl]
    rcases inv.fresh (hcr.1 h) with h | h
    · exact .inl h
    · refine .inr fun o ho => ?_
      rcases List.mem_append.1 ho with ho | ho
      · exact h o ho
      · exact hask (congrArg Prod.fst (List.mem_singleton.1 ho)).symm
  · intro h
    obtain ⟨b, hb, hd⟩ := inv.deadline (fun h' => h (hcr.2 h'))
    exact ⟨b, begun_snoc hb _, hdl.trans hd⟩
  · intro h
    rw [hcl] at h
    rcases hstate with h' | ⟨h1, _⟩
    · rw [h']; exact inv.closed h
    · exact absurd h1 (inv.closed h).1
  · intro h
    rw [hcl] at h
    rcases hstate with h' | ⟨_, h2, _⟩
    · rw [h']; exact inv.live h
    · rw [h2]; exact ⟨(by intro h; cases h), (by intro h; cases h)⟩
  · rw [hopen, inv.opened, hcl, ne_eq, ne_eq, hcr]
  · intro h
    rcases hstate with h' | ⟨_, _, h3, _⟩
    · exact due_append (inv.due (h' ▸ h)) _
    · exact h3
  · intro h
    rcases hstate with h' | ⟨h1, h2, _, id, he⟩
    · rcases inv.fired (h' ▸ h) with h | ⟨r, h⟩
      · exact .inl (hkeep h)
      · exact .inr ⟨r, List.mem_append_left _ h⟩
    · exact .inl (hset h1 h2)
  · intro h; exact hrun (hp ▸ h)
  · intro h
    obtain ⟨pre, o, mid, h1, h2, h3, h4⟩ := inv.waiting (hp ▸ h)
    refine ⟨pre, o, mid ++ [(e, .nothing)], by rw [h1, List.append_assoc, List.cons_append], meanwhile_snoc h2 hm, h3.trans hopen.symm, ?_⟩
    intro hp'
    rcases hpend hp' with h' | rfl | ⟨g1, g2, g3, id, rfl⟩
    · exact why_snoc _ (h4 h')
    · exact .inl ⟨.nothing, List.mem_append_right _ List.mem_cons_self⟩
    · refine .inr ⟨h3.2 (inv.opened.2 ⟨?_, ?_⟩), ⟨id, .nothing, List.mem_append_right _ List.mem_cons_self⟩, g3⟩
      · cases hc : s.closed with
        | false => rfl
        | true => exact absurd g1 (inv.closed hc).1
      · rw [g1]; intro h; cases h
  · intro h
    obtain ⟨h1, h2, pre, o, mid, h3, h4, h5⟩ := inv.inside (hp ▸ h)
    refine ⟨hcl.trans h1, fun h => h2 (hcr.1 h), pre, o, mid ++ [(e, .nothing)], by rw [h3, List.append_assoc, List.cons_append], meanwhile_snoc h4 hm, ?_⟩
    intro hp'
    rcases hpend hp' with h' | rfl | ⟨g1, g2, g3, id, rfl⟩
    · rcases h5 h' with ⟨o, h5⟩ | ⟨h5, id, o, h6⟩
      · exact .inl ⟨o, List.mem_append_left _ h5⟩
      · refine .inr ⟨?_, id, o, List.mem_append_left _ h6⟩
        rcases hstate with h' | ⟨_, h2, _⟩
        · exact h'.trans h5
        · exact h2
    · exact .inl ⟨.nothing, List.mem_append_right _ List.mem_cons_self⟩
    · exact .inr ⟨g2, id, .nothing, List.mem_append_right _ List.mem_cons_self⟩

/-- Every step keeps the invariant. -/
theorem taskInv_step (hres : 0 ≤ res) {s s' : StreamTask} {tr : Trace} {e : TaskEv} {o : CallerTold} (inv : TaskInv res rd delay now s tr)
    (h : s.step res rd delay e = some (s', o)) : TaskInv res rd delay now s' (tr ++ [(e, o)]) := by
  cases e with
  | pass d =>
    cases h
    obtain ⟨n, w, h, it⟩ := inv.timer
    refine taskInv_meanwhile inv (.pass d) (.inl ⟨d, rfl⟩) rfl rfl rfl ?_ ⟨n, w, _, inv_step res (.pass d) it⟩ (.inl rfl) inv.running id (fun h h' => by rw [show s.t.state = .expiring from h'] at h; cases h) (fun h => .inl h)
    rw [timeOf_snoc, ← inv.time]
    rfl
  | run id =>
    unfold StreamTask.step at h
    dsimp only at h
    by_cases hp : s.place = .running
    · rw [if_pos hp] at h; cases h
    · rw [if_neg hp] at h
      cases h
      obtain ⟨n, w, h, it⟩ := inv.timer
      have ht : timeOf now (tr ++ [(TaskEv.run id, CallerTold.nothing)]) = s.t.now := by rw [timeOf_snoc, ← inv.time]
      have hi := inv_step res (.run id) it
      have hc := runHandle_cases it res id
      rcases hc with hc | ⟨x, _, _, _, hc⟩ | ⟨h1, h2, ⟨d, h3, h4⟩, hc⟩
      · have hq : s.t.step res (.run id) = (s.t, .ok) := hc
        rw [hq] at hi ⊢
        exact taskInv_meanwhile inv (.run id) (.inr (.inl ⟨id, rfl⟩)) rfl rfl rfl ht.symm ⟨n, w, _, hi⟩ (.inl rfl) (fun h => absurd h hp)
          (fun h => by simp [h]) (fun h h' => by rw [show s.t.state = .expiring from h'] at h; cases h) (fun h => .inl (by simpa using h))
      · have hq : s.t.step res (.run id) = _ := hc
        rw [hq] at hi ⊢
        exact taskInv_meanwhile inv (.run id) (.inr (.inl ⟨id, rfl⟩)) rfl rfl rfl ht.symm ⟨n, w, _, hi⟩ (.inl rfl) (fun h => absurd h hp)
          (fun h => by simp [h]) (fun h h' => by rw [show s.t.state = .expiring from h'] at h; cases h) (fun h => .inl (by simpa using h))
      · have hq : s.t.step res (.run id) = _ := hc
        rw [hq] at hi ⊢
        have hdue : Due res rd delay now (tr ++ [(TaskEv.run id, CallerTold.nothing)]) := by
          obtain ⟨b, hb, hd⟩ := inv.deadline (by rw [h1]; intro h; cases h)
          rw [h3] at hd
          cases hdel : delay with
          | none => rw [hdel] at hd; cases hd
          | some d' =>
            rw [hdel, Option.map_some, Option.some.injEq] at hd
            refine ⟨b, d', begun_snoc hb _, rfl, ?_⟩
            rw [ht, ← hd]
            rcases h4 with h4 | h4
            · exact h4
            · grind
        exact taskInv_meanwhile inv (.run id) (.inr (.inl ⟨id, rfl⟩)) rfl rfl rfl ht.symm ⟨n, w, _, hi⟩ (.inr ⟨h1, rfl, hdue, id, rfl⟩) (fun h => absurd h hp)
          (fun h => by simp) (fun _ _ => by simp) (fun _ => .inr (.inr ⟨h1, rfl, hdue, id, rfl⟩))
  | cancel =>
    unfold StreamTask.step at h
    dsimp only at h
    by_cases hp : s.place = .running
    · rw [if_pos hp] at h; cases h
    · rw [if_neg hp] at h
      cases h
      exact taskInv_meanwhile inv .cancel (.inr (.inr rfl)) rfl rfl rfl (by rw [timeOf_snoc]; exact inv.time) inv.timer (.inl rfl) (fun h => absurd h hp)
        (fun _ => rfl) (fun _ _ => rfl) (fun _ => .inr (.inl rfl))
  | ask =>
    unfold StreamTask.step at h
    dsimp only at h
    by_cases hp : s.place = .running
    · rw [if_pos hp, Option.some.injEq] at h
      unfold StreamTask.ask at h
      by_cases hc : s.closed = true
      · rw [if_pos hc] at h
        cases h
        have hno : ¬ Open tr := fun h => by have := (inv.opened.1 h).1; rw [hc] at this; cases this
        refine ⟨by rw [timeOf_snoc]; exact inv.time, inv.timer, fun _ => .inl hc, ?_, inv.closed, inv.live, (fun h => by rw [hc] at h; cases h), ?_, ?_, (fun h => absurd h (inv.closed hc).2), inv.running, ?_, ?_⟩
        · intro h
          obtain ⟨b, hb, hd⟩ := inv.deadline h
          exact ⟨b, begun_snoc hb _, hd⟩
        · constructor
          · intro h; rw [open_snoc] at h; exact absurd (.inl rfl) h.2.2.2
          · rintro ⟨h, _⟩; rw [hc] at h; cases h
        · intro h; exact absurd h (inv.closed hc).2
        · intro h; rw [hp] at h; cases h
        · intro h; rw [hp] at h; cases h
      · rw [if_neg hc] at h
        have hc : s.closed = false := by cases h : s.closed with | true => exact absurd h hc | false => rfl
        by_cases hst : s.t.state = .created
        · rw [if_pos hst] at h
          cases h
          have hnone : ∀ o, (TaskEv.ask, o) ∉ tr := by
            rcases inv.fresh hst with h | h
            · rw [hc] at h; cases h
            · exact h
          have hb : begun now (tr ++ [(TaskEv.ask, CallerTold.nothing)]) = some s.t.now := by
            rw [begun_append, begun_none now tr hnone, inv.time]; rfl
          have hi := inv_step res (.enter true) (inv_new s.t.now (delay.map fun d => rd (s.t.now + d)))
          have hen := reschedule_entered (t := { TWorld.new s.t.now (delay.map fun d => rd (s.t.now + d)) with state := .entered, hasTask := true })
            ⟨by simp [TWorld.new], by simp [TWorld.new], by simp [TWorld.new]⟩ rfl (delay.map fun d => rd (s.t.now + d))
          have hq : ((TWorld.timeout rd s.t.now delay).enter true) =
              TWorld.reschedule { TWorld.new s.t.now (delay.map fun d => rd (s.t.now + d)) with state := .entered, hasTask := true }
                (delay.map fun d => rd (s.t.now + d)) := by
            unfold TWorld.timeout TWorld.enter
            simp [TWorld.new]
          have hi' : Inv s.t.now (delay.map fun d => rd (s.t.now + d)) ((TWorld.timeout rd s.t.now delay).enter true).1 _ := hi
          dsimp only at hen
          rw [← hq] at hen
          have e4 : ((TWorld.timeout rd s.t.now delay).enter true).1.state = .entered := hen.2.2.2.1
          have hnc := inv.clean hc
          refine ⟨?_, ⟨_, _, _, hi'⟩, ?_, ?_, ?_, ?_, (fun _ => clean_snoc hnc (by intro h; cases h) nothing_quiet), ?_, ?_, ?_, ?_, ?_, ?_⟩
          · rw [timeOf_snoc, ← inv.time]; exact hen.2.2.2.2.2.2
          · intro h; rw [show _ = _ from e4] at h; cases h
          · intro _; exact ⟨_, hb, hen.2.2.2.2.2.1⟩
          · intro h; rw [show s.closed = true from h] at hc; cases hc
          · intro _
            have e4 : (⟨.inside, s.closed, ((TWorld.timeout rd s.t.now delay).enter true).1, s.pending⟩ : StreamTask).t.state = .entered := e4
            rw [e4]; exact ⟨(by intro h; cases h), (by intro h; cases h)⟩
          · rw [open_snoc]
            refine ⟨fun _ => ⟨hc, ?_⟩, fun _ => ⟨.inl rfl, hnc, (by intro h; cases h), nothing_quiet⟩⟩
            intro h; rw [show _ = _ from e4] at h; cases h
          · intro h; rw [show _ = _ from e4] at h; cases h
          · intro h; rw [show _ = _ from e4] at h; cases h
          · intro h; cases h
          · intro h; cases h
          · intro _
            refine ⟨hc, ?_, tr, .nothing, [], rfl, meanwhile_nil, ?_⟩
            · intro h; rw [show _ = _ from e4] at h; cases h
            · intro h; have := inv.running hp; rw [show s.pending = true from h] at this; cases this
        · rw [if_neg hst] at h
          cases h
          refine ⟨by rw [timeOf_snoc]; exact inv.time, inv.timer, fun h => absurd h hst, ?_, inv.closed, inv.live,
            (fun _ => clean_snoc (inv.clean hc) (by intro h; cases h) nothing_quiet), ?_, fun h => due_append (inv.due h) _, (fun h => fired_snoc' _ (inv.fired h)), ?_, ?_, ?_⟩
          · intro h
            obtain ⟨b, hb, hd⟩ := inv.deadline h
            exact ⟨b, begun_snoc hb _, hd⟩
          · refine ⟨fun _ => ⟨hc, hst⟩, fun _ => ?_⟩
            rw [open_snoc]
            have := inv.opened.2 ⟨hc, hst⟩
            exact ⟨.inl rfl, this.2, (by intro h; cases h), nothing_quiet⟩
          · intro h; cases h
          · intro h; cases h
          · intro _
            refine ⟨hc, hst, tr, .nothing, [], rfl, meanwhile_nil, ?_⟩
            intro h
            have := inv.running hp
            rw [show s.pending = true from h] at this; cases this
    · rw [if_neg hp] at h; cases h
  | wait =>
    unfold StreamTask.step at h
    dsimp only at h
    by_cases hp : s.place = .running
    · rw [if_pos hp] at h
      cases h
      have hopen := open_quiet tr .wait .nothing (by intro h; cases h) (by intro h; cases h) nothing_quiet
      refine ⟨by rw [timeOf_snoc]; exact inv.time, inv.timer, ?_, ?_, inv.closed, inv.live,
        (fun h => clean_snoc (inv.clean h) (by intro h; cases h) nothing_quiet), hopen.trans inv.opened, fun h => due_append (inv.due h) _, (fun h => fired_snoc' _ (inv.fired h)), ?_, ?_, ?_⟩
      · intro h
        rcases inv.fresh h with h | h
        · exact .inl h
        · refine .inr fun o ho => ?_
          rcases List.mem_append.1 ho with ho | ho
          · exact h o ho
          · cases List.mem_singleton.1 ho
      · intro h
        obtain ⟨b, hb, hd⟩ := inv.deadline h
        exact ⟨b, begun_snoc hb _, hd⟩
      · intro h; cases h
      · intro _
        refine ⟨tr, .nothing, [], rfl, meanwhile_nil, hopen.symm, ?_⟩
        intro h
        have := inv.running hp
        rw [show s.pending = true from h] at this; cases this
      · intro h; cases h
    · rw [if_neg hp] at h; cases h
  | close =>
    unfold StreamTask.step at h
    dsimp only at h
    by_cases hp : s.place = .running
    · rw [if_pos hp] at h
      have hs' : s' = s.close := by cases h; rfl
      have ho : o = .nothing := by cases h; rfl
      subst hs' ho
      have hnoopen : ¬ Open (tr ++ [(TaskEv.close, CallerTold.nothing)]) := fun h => by rw [open_snoc] at h; exact h.2.2.1 rfl
      unfold StreamTask.close
      by_cases hc : s.closed = true
      · rw [if_pos hc]
        refine ⟨by rw [timeOf_snoc]; exact inv.time, inv.timer, fun _ => .inl hc, ?_, inv.closed, inv.live, (fun h => by rw [hc] at h; cases h),
          ⟨fun h => absurd h hnoopen, ?_⟩, fun h => due_append (inv.due h) _, (fun h => fired_snoc' _ (inv.fired h)), inv.running, ?_, ?_⟩
        · intro h
          obtain ⟨b, hb, hd⟩ := inv.deadline h
          exact ⟨b, begun_snoc hb _, hd⟩
        · rintro ⟨h, _⟩; rw [hc] at h; cases h
        · intro h; rw [hp] at h; cases h
        · intro h; rw [hp] at h; cases h
      · rw [if_neg hc]
        have hc : s.closed = false := by cases h : s.closed with | true => exact absurd h hc | false => rfl
        by_cases hst : s.t.state = .created
        · rw [if_pos hst]
          refine ⟨by rw [timeOf_snoc]; exact inv.time, inv.timer, fun _ => .inl rfl, fun h => absurd hst h, fun _ => ?_, (fun h => by cases h), (fun h => by cases h),
            ⟨fun h => absurd h hnoopen, fun h => by cases h.1⟩, fun h => due_append (inv.due h) _, (fun h => fired_snoc' _ (inv.fired h)), inv.running, ?_, ?_⟩
          · rw [show _ = _ from hst]; exact ⟨(by intro h; cases h), (by intro h; cases h)⟩
          · intro h; rw [show s.place = .waiting from h] at hp; cases hp
          · intro h; rw [show s.place = .inside from h] at hp; cases hp
        · rw [if_neg hst]
          exact taskInv_leave inv (live_states inv hc hst) _ _ _ (by intro d h; cases h) (.inl rfl)
    · rw [if_neg hp] at h; cases h
  | resume r =>
    unfold StreamTask.step at h
    dsimp only at h
    -- the task goes on, and the stream is as it was
    have go : ∀ (p : Bool) (o : CallerTold), ¬ CallerTold.Final o → p = false → (s.pending = true → o = .interrupted) →
        TaskInv res rd delay now ⟨.running, s.closed, s.t, p⟩ (tr ++ [(.resume r, o)]) := by
      intro p o ho hpf hint
      have hopen := open_quiet tr (.resume r) o (by intro h; cases h) (by intro h; cases h) ho
      refine ⟨by rw [timeOf_snoc]; exact inv.time, inv.timer, ?_, ?_, inv.closed, inv.live,
        (fun h => clean_snoc (inv.clean h) (by intro h; cases h) ho), hopen.trans inv.opened, fun h => due_append (inv.due h) _, ?_, fun _ => hpf, ?_, ?_⟩
      · intro h
        rcases inv.fresh h with h | h
        · exact .inl h
        · refine .inr fun o ho => ?_
          rcases List.mem_append.1 ho with ho | ho
          · exact h o ho
          · cases List.mem_singleton.1 ho
      · intro h
        obtain ⟨b, hb, hd⟩ := inv.deadline h
        exact ⟨b, begun_snoc hb _, hd⟩
      · intro h
        rcases inv.fired h with h | ⟨r', h⟩
        · exact .inr ⟨r, List.mem_append_right _ (by rw [hint h]; exact List.mem_cons_self)⟩
        · exact .inr ⟨r', List.mem_append_left _ h⟩
      · intro h; cases h
      · intro h; cases h
    by_cases hp : s.place = .running
    · rw [if_pos hp] at h; cases h
    · rw [if_neg hp, Option.some.injEq] at h
      unfold StreamTask.resume at h
      cases hpl : s.place with
      | running => exact absurd hpl hp
      | waiting =>
        rw [hpl] at h
        dsimp only at h
        cases hpe : s.pending with
        | true => rw [hpe, if_pos rfl] at h; cases h; exact go false _ interrupted_quiet rfl (fun _ => rfl)
        | false =>
          rw [hpe, if_neg (by intro h; cases h)] at h
          cases h
          exact go false _ nothing_quiet rfl (fun h => by rw [hpe] at h; cases h)
      | inside =>
        rw [hpl] at h
        dsimp only at h
        obtain ⟨h1, h2, _⟩ := inv.inside hpl
        have hs := live_states inv h1 h2
        have hl : ∀ x, (s', o) = s.leave x → TaskInv res rd delay now s' (tr ++ [(.resume r, o)]) := by
          intro x hx
          cases hx
          exact taskInv_leave inv hs x _ _ (by intro d h; cases h) (.inr (tellOf_final _))
        cases hpe : s.pending with
        | true => rw [hpe, if_pos rfl] at h; exact hl _ h.symm
        | false =>
          rw [hpe, if_neg (by intro h; cases h)] at h
          cases r with
          | message =>
            cases h
            exact go false _ message_quiet rfl (fun h => by rw [hpe] at h; cases h)
          | last => exact hl _ h.symm
          | fails n => exact hl _ h.symm

theorem taskInv (hres : 0 ≤ res) {s : StreamTask} {tr : Trace} (h : Traces res rd delay now tr s) : TaskInv res rd delay now s tr := by
  induction h with
  | start => exact taskInv_start
  | step _ h' ih => exact taskInv_step hres ih h'

/-- Every beginning of a trace is a trace, and what follows is a step. -/
theorem traces_split {tr : Trace} {s : StreamTask} (h : Traces res rd delay now tr s) :
    ∀ {pre post : Trace} {e : TaskEv} {o : CallerTold}, tr = pre ++ (e, o) :: post →
      ∃ a b, Traces res rd delay now pre a ∧ a.step res rd delay e = some (b, o) := by
  induction h with
  | start => intro pre post e o h; simp at h
  | @step tr s s' e' o' h h' ih =>
    intro pre post e o heq
    rcases List.eq_nil_or_concat post with rfl | ⟨post', x, rfl⟩
    · obtain ⟨h1, h2⟩ := List.append_inj' heq rfl
      cases h2
      exact ⟨s, s', h1 ▸ h, h'⟩
    · rw [List.concat_eq_append, ← List.cons_append, ← List.append_assoc] at heq
      exact ih (List.append_inj' heq rfl).1

end
end Proofs
