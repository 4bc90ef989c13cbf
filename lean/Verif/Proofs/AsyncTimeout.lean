import Verif.Spec.AsyncTimeout
namespace Proofs
open Conn Spec

/-- the handles: distinct numbers below the next one, and none that could still call back but the current one. -/
structure HandlesOk (t : TWorld) : Prop where
  nodup : (t.handles.map TimerHandle.id).Nodup
  lt : ∀ h ∈ t.handles, h.id < t.nextId
  live : ∀ h ∈ t.handles, h.cancelled = false → t.handler = some h.id

def Scheduled (t : TWorld) : Prop :=
  (t.deadline = none ∧ t.handler = none) ∨
    ∃ w h, t.deadline = some w ∧ h ∈ t.handles ∧ h.cancelled = false ∧ t.handler = some h.id ∧
      (h.due = some w ∨ (h.due = none ∧ w ≤ t.now))

def StateOk (t : TWorld) (h : THist) : Prop :=
  match t.state with
  | .created => ¬ Entered h ∧ ¬ Left h ∧ ¬ Fired h ∧ t.handler = none
  | .entered => Entered h ∧ ¬ Left h ∧ ¬ Fired h ∧ t.hasTask = true ∧ Scheduled t
  | .expiring => Entered h ∧ ¬ Left h ∧ Fired h ∧ t.handler = none
  | .expired => Entered h ∧ Left h ∧ Fired h ∧ t.handler = none
  | .exited => Entered h ∧ Left h ∧ ¬ Fired h ∧ t.handler = none

structure Inv (now : Rat) (w : Option Rat) (t : TWorld) (h : THist) : Prop where
  handles : HandlesOk t
  state : StateOk t h
  deadline : t.deadline = deadlineOf w h
  clock : t.now = Spec.clock now h

theorem entered_snoc (h : THist) (x : TOp × TOut) : Entered (h ++ [x]) ↔ Entered h ∨ ∃ b, x = (.enter b, .ok) := by
  constructor
  · rintro ⟨b, hb⟩
    rcases List.mem_append.1 hb with hb | hb
    · exact .inl ⟨b, hb⟩
    · exact .inr ⟨b, by simpa using (List.mem_singleton.1 hb).symm⟩
  · rintro (⟨b, hb⟩ | ⟨b, rfl⟩)
    · exact ⟨b, by simp [hb]⟩
    · exact ⟨b, by simp⟩

theorem left_snoc (h : THist) (x : TOp × TOut) :
    Left (h ++ [x]) ↔ Left h ∨ ∃ e, x.1 = .exit e ∧ x.2 ≠ .assertion := by
  constructor
  · rintro ⟨e, o, hb, ho⟩
    rcases List.mem_append.1 hb with hb | hb
    · exact .inl ⟨e, o, hb, ho⟩
    · have := List.mem_singleton.1 hb
      subst this
      exact .inr ⟨e, rfl, ho⟩
  · rintro (⟨e, o, hb, ho⟩ | ⟨e, h1, h2⟩)
    · exact ⟨e, o, by simp [hb], ho⟩
    · obtain ⟨x1, x2⟩ := x
      simp only at h1 h2
      subst h1
      exact ⟨e, x2, by simp, h2⟩

theorem fired_snoc (h : THist) (x : TOp × TOut) : Fired (h ++ [x]) ↔ Fired h ∨ x.2 = .cancel := by
  constructor
  · rintro ⟨o, hb⟩
    rcases List.mem_append.1 hb with hb | hb
    · exact .inl ⟨o, hb⟩
    · have := List.mem_singleton.1 hb
      subst this
      exact .inr rfl
  · rintro (⟨o, hb⟩ | h1)
    · exact ⟨o, by simp [hb]⟩
    · obtain ⟨x1, x2⟩ := x
      simp only at h1
      subst h1
      exact ⟨x1, by simp⟩

theorem deadlineOf_snoc (w : Option Rat) (h : THist) (x : TOp × TOut) :
    deadlineOf w (h ++ [x]) = match x with
      | (.reschedule w', .ok) => w'
      | _ => deadlineOf w h := by
  induction h generalizing w with
  | nil =>
    obtain ⟨o, u⟩ := x
    cases o <;> cases u <;> rfl
  | cons y r ih =>
    obtain ⟨o, u⟩ := y
    cases o <;> cases u <;> exact ih _

theorem clock_snoc (now : Rat) (h : THist) (x : TOp × TOut) :
    clock now (h ++ [x]) = match x with
      | (.pass d, _) => if 0 ≤ d then clock now h + d else clock now h
      | _ => clock now h := by
  induction h generalizing now with
  | nil =>
    obtain ⟨o, u⟩ := x
    cases o <;> rfl
  | cons y r ih =>
    obtain ⟨o, u⟩ := y
    cases o <;> exact ih _

theorem inv_new (now : Rat) (w : Option Rat) : Inv now w (TWorld.new now w) [] where
  handles := ⟨by simp [TWorld.new], by simp [TWorld.new], by simp [TWorld.new]⟩
  state := by
    simp [StateOk, TWorld.new, Entered, Left, Fired]
  deadline := rfl
  clock := rfl

/-! ### handles -/

theorem map_cancel (id : Nat) (hs : List TimerHandle) :
    (TWorld.cancelHandle id hs).map TimerHandle.id = hs.map TimerHandle.id := by
  simp only [TWorld.cancelHandle, List.map_map]
  apply List.map_congr_left
  intro h _
  by_cases e : h.id = id <;> simp [e]

theorem mem_cancel {id : Nat} {hs : List TimerHandle} {h : TimerHandle} (hm : h ∈ TWorld.cancelHandle id hs) :
    ∃ h' ∈ hs, h'.id = h.id ∧ (h.cancelled = false → h' = h ∧ h.id ≠ id) := by
  simp only [TWorld.cancelHandle, List.mem_map] at hm
  obtain ⟨h', hm', rfl⟩ := hm
  by_cases e : h'.id = id
  · exact ⟨h', hm', by simp [e], by simp [e]⟩
  · exact ⟨h', hm', by simp [e], by simp [e]⟩

/-- after dropping the handler no callback is live. -/
theorem drop_dead {t : TWorld} (ok : HandlesOk t) :
    (t.dropHandler.handles.map TimerHandle.id).Nodup ∧ (∀ h ∈ t.dropHandler.handles, h.id < t.nextId) ∧
      ∀ h ∈ t.dropHandler.handles, h.cancelled = true := by
  unfold TWorld.dropHandler
  cases hh : t.handler with
  | none =>
    refine ⟨ok.nodup, ok.lt, ?_⟩
    intro h hm
    cases hc : h.cancelled with
    | true => rfl
    | false => have := ok.live h hm hc; rw [hh] at this; cases this
  | some id =>
    refine ⟨by simp only [map_cancel]; exact ok.nodup, ?_, ?_⟩
    · intro h hm
      obtain ⟨h', hm', e, _⟩ := mem_cancel hm
      rw [← e]; exact ok.lt h' hm'
    · intro h hm
      cases hc : h.cancelled with
      | true => rfl
      | false =>
        obtain ⟨h', hm', e, hx⟩ := mem_cancel hm
        obtain ⟨rfl, hne⟩ := hx hc
        have := ok.live h' hm' hc
        rw [hh] at this
        cases this
        exact absurd rfl hne

@[simp] theorem drop_nextId (t : TWorld) : t.dropHandler.nextId = t.nextId := by
  unfold TWorld.dropHandler; split <;> rfl
@[simp] theorem drop_state (t : TWorld) : t.dropHandler.state = t.state := by
  unfold TWorld.dropHandler; split <;> rfl
@[simp] theorem drop_now (t : TWorld) : t.dropHandler.now = t.now := by
  unfold TWorld.dropHandler; split <;> rfl
@[simp] theorem drop_deadline (t : TWorld) : t.dropHandler.deadline = t.deadline := by
  unfold TWorld.dropHandler; split <;> rfl
@[simp] theorem drop_hasTask (t : TWorld) : t.dropHandler.hasTask = t.hasTask := by
  unfold TWorld.dropHandler; split <;> rfl

theorem schedule_ok {t : TWorld} (due : Option Rat) (nd : (t.handles.map TimerHandle.id).Nodup)
    (lt : ∀ h ∈ t.handles, h.id < t.nextId) (dead : ∀ h ∈ t.handles, h.cancelled = true) :
    HandlesOk (t.schedule due) where
  nodup := by
    simp only [TWorld.schedule, List.map_append, List.map_cons, List.map_nil]
    rw [List.nodup_append]
    refine ⟨nd, by simp, ?_⟩
    intro a ha b hb
    obtain ⟨h, hm, rfl⟩ := List.mem_map.1 ha
    have := lt h hm
    simp only [List.mem_singleton] at hb
    omega
  lt := by
    intro h hm
    simp only [TWorld.schedule, List.mem_append, List.mem_singleton] at hm ⊢
    rcases hm with hm | rfl
    · have := lt h hm; omega
    · simp
  live := by
    intro h hm hc
    simp only [TWorld.schedule, List.mem_append, List.mem_singleton] at hm ⊢
    rcases hm with hm | rfl
    · rw [dead h hm] at hc; cases hc
    · rfl

/-- a successful `reschedule`. -/
theorem reschedule_entered {t : TWorld} (ok : HandlesOk t) (he : t.state = .entered) (w : Option Rat) :
    let r := t.reschedule w
    r.2 = .ok ∧ HandlesOk r.1 ∧ Scheduled r.1 ∧ r.1.state = .entered ∧ r.1.hasTask = t.hasTask ∧
      r.1.deadline = w ∧ r.1.now = t.now := by
  obtain ⟨now, hs, nid, st, hd, task, dl⟩ := t
  simp only at he
  subst he
  have ok' : HandlesOk ⟨now, hs, nid, .entered, hd, task, w⟩ := ⟨ok.nodup, ok.lt, ok.live⟩
  obtain ⟨nd, lt, dead⟩ := drop_dead ok'
  simp only [TWorld.reschedule, ne_eq, not_true_eq_false, if_false]
  cases w with
  | none =>
    refine ⟨rfl, ⟨nd, by simpa using lt, ?_⟩, .inl ⟨by simp, rfl⟩, by simp, by simp, by simp, by simp⟩
    intro h hm hc
    rw [dead h hm] at hc; cases hc
  | some w =>
    by_cases hw : w ≤ now
    · simp only [drop_now, hw, if_true]
      refine ⟨trivial, schedule_ok none nd (by simpa using lt) dead, .inr ⟨w, _, by simp [TWorld.schedule],
        List.mem_append_right _ (List.mem_singleton.2 rfl), rfl, rfl, .inr ⟨rfl, by simpa [TWorld.schedule] using hw⟩⟩,
        by simp [TWorld.schedule], by simp [TWorld.schedule], by simp [TWorld.schedule], by simp [TWorld.schedule]⟩
    · simp only [drop_now, hw, if_false]
      refine ⟨trivial, schedule_ok (some w) nd (by simpa using lt) dead, .inr ⟨w, _, by simp [TWorld.schedule],
        List.mem_append_right _ (List.mem_singleton.2 rfl), rfl, rfl, .inl rfl⟩,
        by simp [TWorld.schedule], by simp [TWorld.schedule], by simp [TWorld.schedule], by simp [TWorld.schedule]⟩

theorem find_id {hs : List TimerHandle} {id : Nat} {h : TimerHandle}
    (hf : hs.find? (fun h => decide (h.id = id)) = some h) : h ∈ hs ∧ h.id = id := by
  refine ⟨List.mem_of_find?_eq_some hf, ?_⟩
  have := List.find?_some hf
  simpa using this

theorem find_of_mem {hs : List TimerHandle} (nd : (hs.map TimerHandle.id).Nodup) {h : TimerHandle} (hm : h ∈ hs) :
    hs.find? (fun x => decide (x.id = h.id)) = some h := by
  induction hs with
  | nil => cases hm
  | cons x r ih =>
    simp only [List.map_cons, List.nodup_cons] at nd
    rcases List.mem_cons.1 hm with rfl | hm'
    · simp
    · have hne : x.id ≠ h.id := fun e => nd.1 (e ▸ List.mem_map.2 ⟨h, hm', rfl⟩)
      simp only [List.find?_cons, hne, decide_false]
      exact ih nd.2 hm'

theorem filter_ok {t : TWorld} (ok : HandlesOk t) (id : Nat) :
    HandlesOk { t with handles := t.handles.filter fun h => decide (h.id ≠ id) } where
  nodup := by
    have : ((t.handles.filter fun h => decide (h.id ≠ id)).map TimerHandle.id).Sublist (t.handles.map TimerHandle.id) :=
      (List.filter_sublist).map _
    exact this.nodup ok.nodup
  lt := fun h hm => ok.lt h (List.mem_filter.1 hm).1
  live := fun h hm => ok.live h (List.mem_filter.1 hm).1

/-- a history step that shows nothing relevant keeps the history facts. -/
theorem quiet {h : THist} {x : TOp × TOut} (h1 : ∀ b, x ≠ (.enter b, .ok)) (h2 : ∀ e, x.1 = .exit e → x.2 = .assertion)
    (h3 : x.2 ≠ .cancel) :
    (Entered (h ++ [x]) ↔ Entered h) ∧ (Left (h ++ [x]) ↔ Left h) ∧ (Fired (h ++ [x]) ↔ Fired h) := by
  refine ⟨?_, ?_, ?_⟩
  · rw [entered_snoc]; simp only [or_iff_left_iff_imp]; rintro ⟨b, hb⟩; exact absurd hb (h1 b)
  · rw [left_snoc]; simp only [or_iff_left_iff_imp]; rintro ⟨e, he, hn⟩; exact absurd (h2 e he) hn
  · rw [fired_snoc]; simp only [or_iff_left_iff_imp]; intro hb; exact absurd hb h3

theorem StateOk.congr {t t' : TWorld} {h h' : THist} (s : StateOk t h) (hs : t'.state = t.state)
    (hh : t'.handler = t.handler) (ht : t'.hasTask = t.hasTask) (hsch : Scheduled t → Scheduled t')
    (e : (Entered h' ↔ Entered h) ∧ (Left h' ↔ Left h) ∧ (Fired h' ↔ Fired h)) : StateOk t' h' := by
  unfold StateOk at s ⊢
  rw [hs]
  cases hst : t.state with
  | entered =>
    rw [hst] at s
    simp only at s ⊢
    rw [e.1, e.2.1, e.2.2, ht]
    exact ⟨s.1, s.2.1, s.2.2.1, s.2.2.2.1, hsch s.2.2.2.2⟩
  | created => rw [hst] at s; simp only at s ⊢; rw [e.1, e.2.1, e.2.2, hh]; exact s
  | expiring => rw [hst] at s; simp only at s ⊢; rw [e.1, e.2.1, e.2.2, hh]; exact s
  | expired => rw [hst] at s; simp only at s ⊢; rw [e.1, e.2.1, e.2.2, hh]; exact s
  | exited => rw [hst] at s; simp only at s ⊢; rw [e.1, e.2.1, e.2.2, hh]; exact s

/-- what `run id` does in a state that satisfies the invariant. -/
theorem runHandle_cases {now : Rat} {w : Option Rat} {t : TWorld} {h : THist} (inv : Inv now w t h) (res : Rat)
    (id : Nat) :
    (t.runHandle res id = (t, .ok)) ∨
      (∃ x ∈ t.handles, x.id = id ∧ x.cancelled = true ∧
        t.runHandle res id = ({ t with handles := t.handles.filter fun h => decide (h.id ≠ id) }, .ok)) ∨
      (t.state = .entered ∧ t.handler = some id ∧ (∃ d, t.deadline = some d ∧ (d ≤ t.now + res ∨ d ≤ t.now)) ∧
        t.runHandle res id = (⟨t.now, t.handles.filter fun h => decide (h.id ≠ id), t.nextId, .expiring, none, t.hasTask,
          t.deadline⟩, .cancel)) := by
  unfold TWorld.runHandle
  cases hf : t.handles.find? (fun h => decide (h.id = id)) with
  | none => exact .inl rfl
  | some x =>
    obtain ⟨hm, hid⟩ := find_id hf
    simp only
    by_cases hr : TWorld.ready res t.now x = true
    · cases hc : x.cancelled with
      | true => exact .inr (.inl ⟨x, hm, hid, hc, by simp [hr]⟩)
      | false =>
        have hl := inv.handles.live x hm hc
        have hst : t.state = .entered := by
          have := inv.state
          unfold StateOk at this
          cases hs : t.state with
          | entered => rfl
          | created => rw [hs] at this; simp only at this; rw [this.2.2.2] at hl; cases hl
          | expiring => rw [hs] at this; simp only at this; rw [this.2.2.2] at hl; cases hl
          | expired => rw [hs] at this; simp only at this; rw [this.2.2.2] at hl; cases hl
          | exited => rw [hs] at this; simp only at this; rw [this.2.2.2] at hl; cases hl
        have hso := inv.state
        unfold StateOk at hso
        rw [hst] at hso
        simp only at hso
        obtain ⟨_, _, _, htask, hsch⟩ := hso
        refine .inr (.inr ⟨hst, hid ▸ hl, ?_, ?_⟩)
        · rcases hsch with ⟨_, hn⟩ | ⟨d, y, hd, hym, hyc, hyh, hdue⟩
          · rw [hn] at hl; cases hl
          · have hxy : x = y := by
              have e : x.id = y.id := by rw [hl] at hyh; exact Option.some.inj hyh
              have h1 := find_of_mem inv.handles.nodup hm
              have h2 := find_of_mem inv.handles.nodup hym
              rw [← e, h1] at h2
              exact Option.some.inj h2
            subst hxy
            refine ⟨d, hd, ?_⟩
            rcases hdue with hdue | ⟨_, hle⟩
            · simp only [TWorld.ready, hdue, decide_eq_true_eq] at hr
              exact .inl hr
            · exact .inr hle
        · simp [hr, TWorld.onTimeout, hst, htask]
    · exact .inl (by simp [hr])

theorem inv_step {now : Rat} {w : Option Rat} {t : TWorld} {h : THist} (res : Rat) (o : TOp) (inv : Inv now w t h) :
    Inv now w (t.step res o).1 (h ++ [(o, (t.step res o).2)]) := by
  have same : ∀ out, (∀ b, (o, out) ≠ (TOp.enter b, TOut.ok)) → (∀ e, o = .exit e → out = .assertion) →
      (∀ w, (o, out) ≠ (TOp.reschedule w, TOut.ok)) → (∀ d, o ≠ .pass d) → out ≠ .cancel →
      Inv now w t (h ++ [(o, out)]) := by
    intro out h1 h2 h3 h4 h5
    refine ⟨inv.handles, inv.state.congr rfl rfl rfl id (quiet h1 h2 h5), ?_, ?_⟩
    · rw [inv.deadline, deadlineOf_snoc]
      split
      · rename_i heq; exact absurd heq (h3 _)
      · rfl
    · rw [inv.clock, clock_snoc]
      split
      · rename_i heq; exact absurd (congrArg Prod.fst heq) (h4 _)
      · rfl
  cases o with
  | enter b =>
    simp only [TWorld.step, TWorld.enter]
    by_cases hc : t.state = .created
    · cases b with
      | false => simp only [hc, ne_eq, not_true_eq_false, if_false, Bool.not_false, if_true]; exact same _ (by simp) (by simp) (by simp) (by simp) (by simp)
      | true =>
        simp only [hc, ne_eq, not_true_eq_false, if_false, Bool.not_true, Bool.false_eq_true]
        have hso := inv.state
        unfold StateOk at hso
        rw [hc] at hso
        simp only at hso
        have ok' : HandlesOk { t with state := .entered, hasTask := true } :=
          ⟨inv.handles.nodup, inv.handles.lt, inv.handles.live⟩
        obtain ⟨r1, r2, r3, r4, r5, r6, r7⟩ := reschedule_entered ok' rfl t.deadline
        refine ⟨r2, ?_, ?_, ?_⟩
        · unfold StateOk
          rw [r4]
          simp only
          rw [r1]
          refine ⟨(entered_snoc _ _).2 (.inr ⟨true, rfl⟩), ?_, ?_, r5, r3⟩
          · rw [left_snoc]; rintro (hl | ⟨e, he, _⟩)
            · exact hso.2.1 hl
            · cases he
          · rw [fired_snoc]; rintro (hl | he)
            · exact hso.2.2.1 hl
            · cases he
        · rw [r6, r1, deadlineOf_snoc]; exact inv.deadline
        · rw [r7, clock_snoc]; exact inv.clock
    · simp only [ne_eq, hc, not_false_eq_true, if_true]
      exact same _ (by simp) (by simp) (by simp) (by simp) (by simp)
  | reschedule w' =>
    simp only [TWorld.step]
    by_cases hc : t.state = .entered
    · obtain ⟨r1, r2, r3, r4, r5, r6, r7⟩ := reschedule_entered inv.handles hc w'
      have hso := inv.state
      unfold StateOk at hso
      rw [hc] at hso
      simp only at hso
      rw [r1]
      have q := quiet (h := h) (x := (TOp.reschedule w', TOut.ok)) (by simp) (by simp) (by simp)
      refine ⟨r2, ?_, ?_, ?_⟩
      · unfold StateOk
        rw [r4]
        simp only
        rw [q.1, q.2.1, q.2.2, r5]
        exact ⟨hso.1, hso.2.1, hso.2.2.1, hso.2.2.2.1, r3⟩
      · rw [r6, deadlineOf_snoc]
      · rw [r7, clock_snoc]; exact inv.clock
    · have e : t.reschedule w' = (t, .runtimeError) := by simp [TWorld.reschedule, hc]
      rw [e]
      exact same _ (by simp) (by simp) (by simp) (by simp) (by simp)
  | pass d =>
    simp only [TWorld.step]
    refine ⟨⟨inv.handles.nodup, inv.handles.lt, inv.handles.live⟩, ?_, ?_, ?_⟩
    · refine inv.state.congr rfl rfl rfl ?_ (quiet (by simp) (by simp) (by simp))
      rintro (hs | ⟨d', y, hd, hym, hyc, hyh, hdue⟩)
      · exact .inl hs
      · refine .inr ⟨d', y, hd, hym, hyc, hyh, ?_⟩
        rcases hdue with hdue | ⟨h1, h2⟩
        · exact .inl hdue
        · refine .inr ⟨h1, ?_⟩
          show d' ≤ if 0 ≤ d then t.now + d else t.now
          split <;> grind
    · rw [deadlineOf_snoc]; exact inv.deadline
    · rw [clock_snoc]; simp only; rw [inv.clock]
  | run id =>
    simp only [TWorld.step]
    rcases runHandle_cases inv res id with e | ⟨x, hm, hid, hc, e⟩ | ⟨hst, hh, _, e⟩
    · rw [e]
      exact same _ (by simp) (by simp) (by simp) (by simp) (by simp)
    · rw [e]
      refine ⟨filter_ok inv.handles id, ?_, ?_, ?_⟩
      · refine inv.state.congr rfl rfl rfl ?_ (quiet (by simp) (by simp) (by simp))
        rintro (hs | ⟨d', y, hd, hym, hyc, hyh, hdue⟩)
        · exact .inl hs
        · refine .inr ⟨d', y, hd, List.mem_filter.2 ⟨hym, ?_⟩, hyc, hyh, hdue⟩
          simp only [decide_eq_true_eq]
          intro he
          have h1 := find_of_mem inv.handles.nodup hm
          have h2 := find_of_mem inv.handles.nodup hym
          rw [he, ← hid, h1] at h2
          rw [Option.some.inj h2, hyc] at hc
          cases hc
      · rw [deadlineOf_snoc]; exact inv.deadline
      · rw [clock_snoc]; exact inv.clock
    · rw [e]
      have hso := inv.state
      unfold StateOk at hso
      rw [hst] at hso
      simp only at hso
      have fo := filter_ok inv.handles id
      refine ⟨⟨fo.nodup, fo.lt, ?_⟩, ?_, ?_, ?_⟩
      · intro x hx hc
        have := fo.live x hx hc
        rw [show t.handler = some id from hh] at this
        have hne := (List.mem_filter.1 hx).2
        simp only [decide_eq_true_eq] at hne
        exact absurd (Option.some.inj this).symm hne
      · unfold StateOk
        refine ⟨(entered_snoc _ _).2 (.inl hso.1), ?_, (fired_snoc _ _).2 (.inr rfl), rfl⟩
        rw [left_snoc]; rintro (hl | ⟨e, he, _⟩)
        · exact hso.2.1 hl
        · cases he
      · rw [deadlineOf_snoc]; exact inv.deadline
      · rw [clock_snoc]; exact inv.clock
  | exit e =>
    simp only [TWorld.step, TWorld.exit]
    by_cases hc : t.state ≠ .entered ∧ t.state ≠ .expiring
    · simp only [if_pos hc]
      exact same _ (by simp) (by simp) (by simp) (by simp) (by simp)
    · simp only [if_neg hc]
      obtain ⟨nd, lt, dead⟩ := drop_dead inv.handles
      have dk : ∀ st, HandlesOk { t.dropHandler with handler := none, state := st } := by
        intro st
        refine ⟨nd, by simpa using lt, ?_⟩
        intro x hx hcc
        rw [dead x hx] at hcc; cases hcc
      have hso := inv.state
      unfold StateOk at hso
      by_cases hx : t.state = .expiring
      · rw [hx] at hso
        simp only at hso
        simp only [drop_state, hx, if_true]
        have key : ∀ out, out ≠ TOut.assertion → out ≠ .cancel →
            Inv now w { t.dropHandler with handler := none, state := .expired } (h ++ [(.exit e, out)]) := by
          intro out h1 h2
          refine ⟨dk _, ?_, ?_, ?_⟩
          · unfold StateOk
            exact ⟨(entered_snoc _ _).2 (.inl hso.1), (left_snoc _ _).2 (.inr ⟨e, rfl, h1⟩),
              (fired_snoc _ _).2 (.inl hso.2.2.1), rfl⟩
          · rw [deadlineOf_snoc]; simp [inv.deadline]
          · rw [clock_snoc]; simp [inv.clock]
        cases e with
        | none => exact key _ (by simp) (by simp)
        | some x =>
          simp only
          by_cases hcl : x.cls = .cancelled
          · simp only [hcl, if_true]; exact key _ (by simp) (by simp)
          · simp only [hcl, if_false]; exact key _ (by simp) (by simp)
      · have hen : t.state = .entered := by
          by_cases h' : t.state = .entered
          · exact h'
          · exact absurd ⟨h', hx⟩ hc
        rw [hen] at hso
        simp only at hso
        simp only [drop_state, hen, reduceCtorEq, if_false]
        refine ⟨dk _, ?_, ?_, ?_⟩
        · unfold StateOk
          refine ⟨(entered_snoc _ _).2 (.inl hso.1), (left_snoc _ _).2 (.inr ⟨e, rfl, by simp⟩), ?_, rfl⟩
          rw [fired_snoc]; rintro (hl | he)
          · exact hso.2.2.1 hl
          · cases he
        · rw [deadlineOf_snoc]; simp [inv.deadline]
        · rw [clock_snoc]; simp [inv.clock]

theorem inv_run {now : Rat} {w : Option Rat} (res : Rat) : ∀ (ops : List TOp) {t : TWorld} {h : THist},
    Inv now w t h → Inv now w (t.run res ops).1 (h ++ (t.run res ops).2)
  | [], t, h, inv => by simpa [TWorld.run] using inv
  | o :: r, t, h, inv => by
    have := inv_run res r (inv_step res o inv)
    simpa [TWorld.run, List.append_assoc] using this

theorem inv_history (res now : Rat) (w : Option Rat) (ops : List TOp) :
    Inv now w ((TWorld.new now w).run res ops).1 (history res now w ops) := by
  simpa [history] using inv_run res ops (inv_new now w)

theorem run_append (res : Rat) : ∀ (a b : List TOp) (t : TWorld),
    t.run res (a ++ b) = (((t.run res a).1.run res b).1, (t.run res a).2 ++ ((t.run res a).1.run res b).2)
  | [], b, t => rfl
  | o :: r, b, t => by
    simp only [List.cons_append, TWorld.run, run_append res r b]

theorem run_ops (res : Rat) : ∀ (ops : List TOp) (t : TWorld), ((t.run res ops).2).map Prod.fst = ops
  | [], _ => rfl
  | o :: r, t => by simp [TWorld.run, run_ops res r]

/-- a split of a history comes from a split of the operations. -/
theorem history_split {res now : Rat} {w : Option Rat} {ops : List TOp} {pre post : THist} {o : TOp} {out : TOut}
    (e : history res now w ops = pre ++ (o, out) :: post) :
    ∃ a, pre = history res now w a ∧ out = (((TWorld.new now w).run res a).1.step res o).2 := by
  have hops : ops = pre.map Prod.fst ++ o :: post.map Prod.fst := by
    have := run_ops res ops (TWorld.new now w)
    rw [show ((TWorld.new now w).run res ops).2 = _ from e] at this
    simpa using this.symm
  refine ⟨pre.map Prod.fst, ?_⟩
  have h2 : history res now w ops = history res now w (pre.map Prod.fst) ++
      (o, (((TWorld.new now w).run res (pre.map Prod.fst)).1.step res o).2) ::
        ((((TWorld.new now w).run res (pre.map Prod.fst)).1.step res o).1.run res (post.map Prod.fst)).2 := by
    refine (congrArg (history res now w) hops).trans ?_
    simp only [history, run_append]
    simp only [TWorld.run]
  rw [e] at h2
  have hl : pre.length = (history res now w (pre.map Prod.fst)).length := by
    have := congrArg List.length (run_ops res (pre.map Prod.fst) (TWorld.new now w))
    simpa [history] using this.symm
  obtain ⟨h3, h4⟩ := List.append_inj h2 hl
  refine ⟨h3, ?_⟩
  have := (List.cons.inj h4).1
  exact congrArg Prod.snd this

theorem insert_repaired : ∀ c : List ExcClass, Repaired c (TWorld.insertTimeout c)
  | [] => .inl ⟨by simp, rfl⟩
  | .cancelled :: r => .inr ⟨[], r, rfl, by simp, rfl⟩
  | .timeout :: r => by
    rcases insert_repaired r with ⟨h1, h2⟩ | ⟨a, b, h1, h2, h3⟩
    · exact .inl ⟨by simp [h1], by simp [TWorld.insertTimeout, h2]⟩
    · exact .inr ⟨.timeout :: a, b, by simp [h1], by simp [h2], by simp [TWorld.insertTimeout, h3]⟩
  | .other n :: r => by
    rcases insert_repaired r with ⟨h1, h2⟩ | ⟨a, b, h1, h2, h3⟩
    · exact .inl ⟨by simp [h1], by simp [TWorld.insertTimeout, h2]⟩
    · exact .inr ⟨.other n :: a, b, by simp [h1], by simp [h2], by simp [TWorld.insertTimeout, h3]⟩

end Proofs
