import Verif.Spec.Lifespan
/-
C39: the service is set up before and torn down after requests, once.
-/
namespace Props
open Conn Py Spec

variable {Svc T : Type}

/-! ### lemmas -/

/-- what is known of an application after the history `h` -/
structure LifespanInv (resolve : Svc → Except Exc T) (st : LifespanState Svc T) (h : List (LifespanEv Svc T)) : Prop where
  gen : ∃ g, st.service = .gen g
  live : st.phase ≠ .over → ¬ SaidOver h ∧ ∀ c, .closed c ∉ h
  asked : Asked h → st.iter = true
  used : st.iter = true → st.phase ≠ .starting → Asked h
  started : st.phase = .starting → st.iter = true
  closing : st.phase = .closing → st.iter = true
  none : st.resolved = none → .told .startupComplete ∉ h
  some : ∀ t, st.resolved = some t → ∃ s, Current h s ∧ resolve s = .ok t

theorem saidOver_append {h evs : List (LifespanEv Svc T)} : SaidOver (h ++ evs) ↔ SaidOver h ∨ SaidOver evs := by
  unfold SaidOver
  simp only [List.mem_append, exists_or]
  constructor
  · rintro ((h | h) | (h | h) | (h | h))
    · exact .inl (.inl h)
    · exact .inr (.inl h)
    · exact .inl (.inr (.inl h))
    · exact .inr (.inr (.inl h))
    · exact .inl (.inr (.inr h))
    · exact .inr (.inr (.inr h))
  · rintro ((h | h | h) | (h | h | h))
    · exact .inl (.inl h)
    · exact .inr (.inl (.inl h))
    · exact .inr (.inr (.inl h))
    · exact .inl (.inr h)
    · exact .inr (.inl (.inr h))
    · exact .inr (.inr (.inr h))

theorem asked_append {h evs : List (LifespanEv Svc T)} : Asked (h ++ evs) ↔ Asked h ∨ Asked evs := by
  unfold Asked
  simp only [List.mem_append, exists_or]

theorem current_append {h evs : List (LifespanEv Svc T)} {s : Svc} (hc : Current h s) (hn : .told .startupComplete ∉ evs) :
    Current (h ++ evs) s := by
  obtain ⟨a, b, rfl, hb⟩ := hc
  refine ⟨a, b ++ evs, by simp, ?_⟩
  rw [List.mem_append]
  rintro (h | h)
  · exact hb h
  · exact hn h

/-- all of `evs` is allowed, one after the other, after `h` -/
def AllowedFrom (resolve : Svc → Except Exc T) (h evs : List (LifespanEv Svc T)) : Prop :=
  ∀ pre ev post, evs = pre ++ ev :: post → Allowed resolve (h ++ pre) ev

theorem allowedFrom_nil (resolve : Svc → Except Exc T) (h : List (LifespanEv Svc T)) : AllowedFrom resolve h [] := by
  intro pre ev post h
  cases pre <;> cases h

theorem allowedFrom_cons {resolve : Svc → Except Exc T} {h evs : List (LifespanEv Svc T)} {ev : LifespanEv Svc T}
    (h1 : Allowed resolve h ev) (h2 : AllowedFrom resolve (h ++ [ev]) evs) : AllowedFrom resolve h (ev :: evs) := by
  intro pre ev' post he
  cases pre with
  | nil =>
    injection he with e1 _
    subst e1
    rwa [List.append_nil]
  | cons p pre =>
    injection he with e1 e2
    subst e1
    have := h2 pre ev' post e2
    rwa [List.append_assoc] at this

theorem allowedFrom_one {resolve : Svc → Except Exc T} {h : List (LifespanEv Svc T)} {ev : LifespanEv Svc T}
    (h1 : Allowed resolve h ev) : AllowedFrom resolve h [ev] := allowedFrom_cons h1 (allowedFrom_nil _ _)

theorem allowedFrom_append {resolve : Svc → Except Exc T} {h a b : List (LifespanEv Svc T)}
    (h1 : AllowedFrom resolve h a) (h2 : AllowedFrom resolve (h ++ a) b) : AllowedFrom resolve h (a ++ b) := by
  induction a generalizing h with
  | nil => simpa using h2
  | cons x a ih =>
    refine allowedFrom_cons ?_ (ih ?_ ?_)
    · have := h1 [] x a rfl
      rwa [List.append_nil] at this
    · intro pre ev post he
      have := h1 (x :: pre) ev post (by rw [he]; rfl)
      rwa [List.append_assoc]
    · rwa [List.append_assoc]

/-- the invariant when the call has just ended -/
theorem inv_over {resolve : Svc → Except Exc T} {st st' : LifespanState Svc T} {h evs : List (LifespanEv Svc T)}
    (hi : LifespanInv resolve st h) (hg : ∃ g, st'.service = .gen g) (hp : st'.phase = .over) (hr : st'.resolved = st.resolved)
    (hit : st'.iter = st.iter) (hn : .told .startupComplete ∉ evs) (ha : Asked evs → st.iter = true)
    (hu : st.iter = true → Asked (h ++ evs)) : LifespanInv resolve st' (h ++ evs) where
  gen := hg
  live h := absurd hp h
  asked h := by
    rw [hit]
    rcases asked_append.1 h with h | h
    · exact hi.asked h
    · exact ha h
  used h _ := hu (hit ▸ h)
  started h := by rw [hp] at h; cases h
  closing h := by rw [hp] at h; cases h
  none h := by
    rw [List.mem_append]
    rintro (h' | h')
    · exact hi.none (hr ▸ h) h'
    · exact hn h'
  some t h := by
    obtain ⟨s, h1, h2⟩ := hi.some t (hr ▸ h)
    exact ⟨s, current_append h1 hn, h2⟩

/-- requests change nothing -/
theorem inv_request {resolve : Svc → Except Exc T} {st : LifespanState Svc T} {h evs : List (LifespanEv Svc T)}
    (hi : LifespanInv resolve st h) (h1 : ¬ SaidOver evs) (h2 : ∀ c, .closed c ∉ evs) (h3 : ¬ Asked evs)
    (h4 : .told .startupComplete ∉ evs) : LifespanInv resolve st (h ++ evs) where
  gen := hi.gen
  live hp := by
    obtain ⟨a, b⟩ := hi.live hp
    refine ⟨fun h => (saidOver_append.1 h).elim a h1, fun c hc => ?_⟩
    rcases List.mem_append.1 hc with h | h
    · exact b c h
    · exact h2 c h
  asked h := (asked_append.1 h).elim hi.asked fun h => absurd h h3
  used h hp := asked_append.2 (.inl (hi.used h hp))
  started := hi.started
  closing := hi.closing
  none h := by
    rw [List.mem_append]
    rintro (h' | h')
    · exact hi.none h h'
    · exact h4 h'
  some t h := by
    obtain ⟨s, a, b⟩ := hi.some t h
    exact ⟨s, current_append a h4, b⟩

theorem inv_step {resolve : Svc → Except Exc T} {empty : T → Bool} (hne : ∀ s t, resolve s = .ok t → empty t = false)
    {st : LifespanState Svc T} {h : List (LifespanEv Svc T)} (hi : LifespanInv resolve st h) (i : LifespanIn) :
    AllowedFrom resolve h (st.step resolve empty i).2 ∧ LifespanInv resolve (st.step resolve empty i).1 (h ++ (st.step resolve empty i).2) := by
  have same : AllowedFrom resolve h [] ∧ LifespanInv resolve st (h ++ []) := by
    rw [List.append_nil]
    exact ⟨allowedFrom_nil _ _, hi⟩
  obtain ⟨g, hg⟩ := hi.gen
  obtain ⟨service, resolved, iter, phase⟩ := st
  dsimp only at hg
  subst hg
  cases i with
  | request =>
    cases resolved with
    | none =>
      exact ⟨allowedFrom_one (.refused (hi.none rfl)), inv_request (evs := [.refused]) hi (by simp [SaidOver]) (by simp) (by simp [Asked]) (by simp)⟩
    | some t =>
      obtain ⟨s, hc, ht⟩ := hi.some t rfl
      have e := hne s t ht
      unfold LifespanState.step
      dsimp only
      rw [e, if_neg (by decide)]
      exact ⟨allowedFrom_one (.served hc ht), inv_request hi (by simp [SaidOver]) (by simp) (by simp [Asked]) (by simp)⟩
  | message m =>
    cases phase with
    | starting => exact same
    | closing => exact same
    | over => exact same
    | idle =>
      obtain ⟨l1, l2⟩ := hi.live (by simp)
      cases m with
      | other => exact same
      | startup =>
        refine ⟨allowedFrom_nil _ _, ?_⟩
        show LifespanInv resolve _ (h ++ [])
        rw [List.append_nil]
        exact ⟨⟨g, rfl⟩, fun _ => ⟨l1, l2⟩, fun _ => rfl, fun _ hp => absurd rfl hp, fun _ => rfl, fun _ => rfl, hi.none, hi.some⟩
      | shutdown =>
        cases iter with
        | true =>
          refine ⟨allowedFrom_nil _ _, ?_⟩
          show LifespanInv resolve _ (h ++ [])
          rw [List.append_nil]
          exact ⟨⟨g, rfl⟩, fun _ => ⟨l1, l2⟩, fun _ => rfl, fun _ _ => hi.used rfl (by simp), fun _ => rfl, fun _ => rfl,
            hi.none, hi.some⟩
        | false =>
          exact ⟨allowedFrom_one (.shutdownUnused l1 fun ha => by cases hi.asked ha),
            inv_over (evs := [.told .shutdownComplete]) hi ⟨g, rfl⟩ rfl rfl rfl (by simp) (by simp [Asked]) (fun h => by cases h)⟩
  | resume =>
    cases phase with
    | idle => exact same
    | over => exact same
    | starting =>
      obtain ⟨l1, l2⟩ := hi.live (by simp)
      have hit := hi.started rfl
      dsimp only at hit
      subst hit
      have hob : ∀ r, Allowed resolve h (.obtained r) := fun r => .obtained l1 l2
      have hno : ∀ r, ¬ SaidOver (h ++ [(.obtained r : LifespanEv Svc T)]) := fun r hs =>
        (saidOver_append.1 hs).elim l1 (by simp [SaidOver])
      have hask : ∀ r evs, Asked (h ++ (.obtained r : LifespanEv Svc T) :: evs) := fun r evs => ⟨r, by simp⟩
      unfold LifespanState.step
      dsimp only
      cases hn : g.next with
      | mk r g' =>
        cases r with
        | error e =>
          dsimp only
          cases he : e.isException with
          | true =>
            rw [if_pos rfl]
            exact ⟨allowedFrom_cons (hob _) (allowedFrom_one (.startupFailed (hno _) rfl)),
              inv_over hi ⟨g', rfl⟩ rfl rfl rfl (by simp) (fun _ => rfl) (fun _ => hask _ _)⟩
          | false =>
            rw [if_neg (by decide)]
            exact ⟨allowedFrom_cons (hob _) (allowedFrom_one (.raised (hno _) (.inr (.inl ⟨rfl, he⟩)))),
              inv_over hi ⟨g', rfl⟩ rfl rfl rfl (by simp) (fun _ => rfl) (fun _ => hask _ _)⟩
        | ok s =>
          dsimp only
          unfold LifespanState.complete
          cases hr : resolve s with
          | error e =>
            exact ⟨allowedFrom_cons (hob _) (allowedFrom_one (.raised (hno _) (.inl ⟨s, rfl, hr⟩))),
              inv_over hi ⟨g', rfl⟩ rfl rfl rfl (by simp) (fun _ => rfl) (fun _ => hask _ _)⟩
          | ok t =>
            refine ⟨allowedFrom_cons (hob _) (allowedFrom_one (.startupComplete (hno _) rfl hr)), ?_⟩
            refine ⟨⟨g', rfl⟩, fun _ => ⟨fun hs => ?_, fun c hc => ?_⟩, fun _ => rfl, fun _ _ => hask _ _, fun hp => (by cases hp),
              fun hp => (by cases hp), fun hp => (by cases hp), fun t' ht' => ?_⟩
            · exact (saidOver_append.1 hs).elim l1 (by simp [SaidOver])
            · rcases List.mem_append.1 hc with h | h
              · exact l2 c h
              · simp at h
            · cases ht'
              exact ⟨s, ⟨h, [], by simp, by simp⟩, hr⟩
    | closing =>
      obtain ⟨l1, l2⟩ := hi.live (by simp)
      have hit := hi.closing rfl
      dsimp only at hit
      subst hit
      have hask := hi.used rfl (by simp)
      have hcl : ∀ r, Allowed resolve h (.closed r) := fun r => .closed l1 l2 hask
      have hno : ∀ r, ¬ SaidOver (h ++ [(.closed r : LifespanEv Svc T)]) := fun r hs =>
        (saidOver_append.1 hs).elim l1 (by simp [SaidOver])
      unfold LifespanState.step
      dsimp only
      cases hc : g.aclose with
      | none =>
        exact ⟨allowedFrom_cons (hcl _) (allowedFrom_one (.shutdownComplete (hno _) rfl)),
          inv_over hi ⟨_, rfl⟩ rfl rfl rfl (by simp) (fun _ => rfl) (fun _ => asked_append.2 (.inl hask))⟩
      | some e =>
        dsimp only
        cases he : e.isException with
        | true =>
          rw [if_pos rfl]
          exact ⟨allowedFrom_cons (hcl _) (allowedFrom_one (.shutdownFailed (hno _) rfl)),
            inv_over hi ⟨_, rfl⟩ rfl rfl rfl (by simp) (fun _ => rfl) (fun _ => asked_append.2 (.inl hask))⟩
        | false =>
          rw [if_neg (by decide)]
          exact ⟨allowedFrom_cons (hcl _) (allowedFrom_one (.raised (hno _) (.inr (.inr ⟨rfl, he⟩)))),
            inv_over hi ⟨_, rfl⟩ rfl rfl rfl (by simp) (fun _ => rfl) (fun _ => asked_append.2 (.inl hask))⟩

theorem inv_run {resolve : Svc → Except Exc T} {empty : T → Bool} (hne : ∀ s t, resolve s = .ok t → empty t = false)
    (is : List LifespanIn) {st : LifespanState Svc T} {h : List (LifespanEv Svc T)} (hi : LifespanInv resolve st h) :
    AllowedFrom resolve h (st.run resolve empty is) := by
  induction is generalizing st h with
  | nil => exact allowedFrom_nil _ _
  | cons i is ih =>
    obtain ⟨h1, h2⟩ := inv_step (empty := empty) hne hi i
    exact allowedFrom_append h1 (ih h2)

/-! ### C39 -/

/-- C39, generator services: whatever the messages of the server, the requests, and their interleaving, everything that happens is
lawful. Missing: services without endpoints (see `C39_violation_no_endpoints`). -/
theorem C39_lawful_partial (resolve : Svc → Except Exc T) (empty : T → Bool) (hne : ∀ s t, resolve s = .ok t → empty t = false)
    (g : SvcGen Svc) (is : List LifespanIn) : Lawful resolve ((LifespanState.init (.gen (.fresh g))).run resolve empty is) := by
  have hi : LifespanInv resolve (LifespanState.init (.gen (.fresh g)) : LifespanState Svc T) [] :=
    ⟨⟨_, rfl⟩, fun _ => ⟨by simp [SaidOver], by simp⟩, by simp [Asked], fun h => (by cases h), fun h => (by cases h),
      fun h => (by cases h), fun _ => by simp, fun t h => (by cases h)⟩
  exact inv_run hne is hi

theorem run_cons (resolve : Svc → Except Exc T) (empty : T → Bool) (st : LifespanState Svc T) (i : LifespanIn) (is : List LifespanIn) :
    st.run resolve empty (i :: is) = (st.step resolve empty i).2 ++ (st.step resolve empty i).1.run resolve empty is := rfl

/-- the requests of a run in which nothing else happens -/
theorem run_requests (resolve : Svc → Except Exc T) (empty : T → Bool) (st : LifespanState Svc T) (ev : LifespanEv Svc T)
    (h : st.step resolve empty .request = (st, [ev])) (n : Nat) (is : List LifespanIn) :
    st.run resolve empty (List.replicate n .request ++ is) = List.replicate n ev ++ st.run resolve empty is := by
  induction n with
  | zero => rfl
  | succ n ih =>
    rw [List.replicate_succ, List.cons_append, run_cons, h]
    dsimp only
    rw [ih]
    rfl

/-- C39, a whole life: requests are refused until startup is complete, then served by the service obtained; the generator is closed
once, and shutdown is reported accordingly. -/
theorem C39_life (resolve : Svc → Except Exc T) (empty : T → Bool) (s : Svc) (rest : SvcGen Svc) (close : Option Exc)
    (hclose : ∀ e, close = some e → e.isException = true) (t : T)
    (ht : resolve s = .ok t) (hne : empty t = false) (a b c d : Nat) :
    (LifespanState.init (.gen (.fresh (.yields s rest close)))).run resolve empty
      (.message .startup :: (List.replicate a .request ++ .resume :: (List.replicate b .request ++ .message .shutdown ::
        (List.replicate c .request ++ .resume :: (List.replicate d .request ++ []))))) =
    List.replicate a .refused ++ [.obtained (.ok s), .told .startupComplete] ++ List.replicate b (.served t) ++
      List.replicate c (.served t) ++ [.closed close, match close with
        | none => .told .shutdownComplete
        | some e => .told (.shutdownFailed e.str)] ++ List.replicate d (.served t) := by
  have h1 : (LifespanState.init (.gen (.fresh (.yields s rest close))) : LifespanState Svc T).step resolve empty (.message .startup) =
      (⟨.gen (.fresh (.yields s rest close)), none, true, .starting⟩, []) := rfl
  have h2 : LifespanState.step resolve empty ⟨.gen (.fresh (.yields s rest close)), none, true, .starting⟩ .resume =
      (⟨.gen (.suspended rest close), some t, true, .idle⟩, [.obtained (.ok s), .told .startupComplete]) := by
    unfold LifespanState.step SvcGenState.next LifespanState.complete
    dsimp only
    rw [ht]
  have hs : ∀ g p, LifespanState.step resolve empty ⟨.gen g, some t, true, p⟩ .request = (⟨.gen g, some t, true, p⟩, [.served t]) := by
    intro g p
    unfold LifespanState.step
    dsimp only
    rw [hne, if_neg (by decide)]
  have h3 : LifespanState.step resolve empty ⟨.gen (.suspended rest close), some t, true, .closing⟩ .resume =
      (⟨.gen .finished, some t, true, .over⟩, [.closed close, match close with
        | none => .told .shutdownComplete
        | some e => .told (.shutdownFailed e.str)]) := by
    unfold LifespanState.step SvcGenState.aclose
    dsimp only
    cases close with
    | none => rfl
    | some e => dsimp only; rw [hclose e rfl, if_pos rfl]
  have h4 : LifespanState.step resolve empty ⟨.gen (.suspended rest close), some t, true, .idle⟩ (.message .shutdown) =
    (⟨.gen (.suspended rest close), some t, true, .closing⟩, []) := rfl
  rw [run_cons, h1]
  dsimp only
  rw [run_requests resolve empty _ .refused rfl, List.nil_append, run_cons, h2]
  dsimp only
  rw [run_requests resolve empty _ (.served t) (hs _ _), run_cons, h4]
  dsimp only
  rw [run_requests resolve empty _ (.served t) (hs _ _), run_cons, h3]
  dsimp only
  rw [run_requests resolve empty _ (.served t) (hs _ _)]
  simp only [LifespanState.run, List.append_nil, List.append_assoc, List.nil_append]
  cases close <;> rfl

/-- C39, services that are not generators: with or without lifespan messages, every request is served with the endpoints of the service;
startup and shutdown are reported complete, once each message. -/
theorem C39_plain (resolve : Svc → Except Exc T) (empty : T → Bool) (s : Svc) (t : T) (ht : resolve s = .ok t)
    (is : List LifespanIn) : ∀ ev ∈ (LifespanState.init (.plain s)).run resolve empty is,
      ev = .served t ∨ ev = .told .startupComplete ∨ ev = .told .shutdownComplete := by
  suffices ∀ st : LifespanState Svc T, st.service = .plain s → st.iter = false → (∀ t', st.resolved = some t' → t' = t) →
      ∀ ev ∈ st.run resolve empty is, ev = .served t ∨ ev = .told .startupComplete ∨ ev = .told .shutdownComplete from
    this _ rfl rfl (fun _ h => by cases h)
  induction is with
  | nil => intro st _ _ _ ev h; cases h
  | cons i is ih =>
    rintro ⟨service, resolved, iter, phase⟩ h1 h2 h3 ev hev
    dsimp only at h1 h2 h3
    subst h1 h2
    rw [run_cons] at hev
    cases i with
    | resume =>
      cases phase <;> exact ih _ rfl rfl h3 ev hev
    | message m =>
      cases phase with
      | idle =>
        cases m with
        | other => exact ih _ rfl rfl h3 ev hev
        | startup =>
          have e : LifespanState.step resolve empty ⟨.plain s, resolved, false, .idle⟩ (.message .startup) =
              (⟨.plain s, some t, false, .idle⟩, [.told .startupComplete]) := by
            unfold LifespanState.step LifespanState.complete
            dsimp only
            rw [ht]
          rw [e] at hev
          rcases List.mem_append.1 hev with h | h
          · rw [List.mem_singleton] at h; exact .inr (.inl h)
          · exact ih ⟨.plain s, some t, false, .idle⟩ rfl rfl (fun t' h => by cases h; rfl) ev h
        | shutdown =>
          rcases List.mem_append.1 hev with h | h
          · exact .inr (.inr (List.mem_singleton.1 h))
          · exact ih ⟨.plain s, resolved, false, .over⟩ rfl rfl h3 ev h
      | starting => exact ih _ rfl rfl h3 ev hev
      | closing => exact ih _ rfl rfl h3 ev hev
      | over => exact ih _ rfl rfl h3 ev hev
    | request =>
      have e : ∃ r, LifespanState.step resolve empty ⟨.plain s, resolved, false, phase⟩ .request =
          (⟨.plain s, r, false, phase⟩, [.served t]) ∧ ∀ t', r = some t' → t' = t := by
        unfold LifespanState.step
        dsimp only
        cases resolved with
        | none =>
          rw [if_pos rfl, ht]
          exact ⟨some t, rfl, fun t' h => by cases h; rfl⟩
        | some t' =>
          have := h3 t' rfl
          subst this
          dsimp only
          split
          · rw [ht]; exact ⟨_, rfl, h3⟩
          · exact ⟨_, rfl, h3⟩
      obtain ⟨r, e, hr⟩ := e
      rw [e] at hev
      rcases List.mem_append.1 hev with h | h
      · exact .inl (List.mem_singleton.1 h)
      · exact ih ⟨.plain s, r, false, phase⟩ rfl rfl hr ev h

/-! ### the hypotheses are met; violation -/

/-- a request before startup, one after it, and a shutdown that fails -/
example : (LifespanState.init (.gen (.fresh (.yields 7 (.raises stopAsyncIteration) (some (.other .valueError (pys! "bad"))))))).run
      (fun s : Nat => (.ok [s] : Except Exc (List Nat))) List.isEmpty
      [.request, .message .startup, .request, .resume, .request, .message .shutdown, .resume] =
    [.refused, .refused, .obtained (.ok 7), .told .startupComplete, .served [7], .closed (some (.other .valueError (pys! "bad"))),
      .told (.shutdownFailed (pys! "bad"))] := rfl

/-- C39 is false of a service without endpoints: after startup is complete, requests are still refused, as if the server did not
support lifespan. -/
theorem C39_violation_no_endpoints :
    let evs := (LifespanState.init (.gen (.fresh (.yields 7 (.raises stopAsyncIteration) none)))).run
      (fun _ : Nat => (.ok [] : Except Exc (List Nat))) List.isEmpty [.message .startup, .resume, .request]
    evs = [.obtained (.ok 7), .told .startupComplete, .refused] ∧ ¬ Lawful (fun _ : Nat => (.ok [] : Except Exc (List Nat))) evs := by
  refine ⟨rfl, fun h => ?_⟩
  have := h [.obtained (.ok 7), .told .startupComplete] .refused [] rfl
  cases this with
  | refused hn => exact hn (by simp)

end Props
