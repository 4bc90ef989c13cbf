import Verif.Props.Cleanup
import Verif.Spec.Cancel
/-
Lemmas for C84.
-/
namespace Props
open Conn Py Spec

variable {Req Res : Type}

theorem send_at {env : Env} {log : List (Sent × Option Exc)} (h : env.sendErr log.length = none) (m : Sent) :
    env.send log m = (log ++ [(m, none)], none) := by
  unfold Env.send
  dsimp only
  rw [h]

/-- the loop, past what the handler has done so far -/
theorem drive_past {c : AsgiCfg Res} {close : Option Exc} {h h' : HState Req} {pre : List (Act Res)} {o e : Option Exc} {i : Meta} {ms : List Res}
    (hr : Runs c.writer.write close h pre o i ms h' e) (ho : o = none) (hee : e = none) :
    ∃ bs : List Bytes, ms.map c.writer.write = bs.map .ok ∧ ∀ (rest : List (Act Res)) (outcome : Option Exc) log sent n tr,
      (∀ k, k < log.length + (if sent = true then 0 else 1) + ms.length → c.env.sendErr k = none) → (∀ j, j < n + ms.length → c.disconnected j = false) →
      ∃ tr', c.drive outcome (pre ++ rest) h log sent n tr =
        c.drive outcome rest h' (log ++ ((if sent ∨ ms = [] then [] else [c.startEvent i]) ++ bs.map (Sent.body · true)).map (·, none))
          (sent || !ms.isEmpty) (n + ms.length) tr' := by
  induction hr with
  | done h o => exact ⟨[], rfl, fun rest outcome log sent n tr _ _ => ⟨tr, by simp⟩⟩
  | step hs hr ih =>
    obtain ⟨bs, h1, h2⟩ := ih ho hee
    refine ⟨bs, h1, fun rest outcome log sent n tr hk hd => ?_⟩
    rw [List.cons_append, AsgiCfg.drive, does_iff.2 hs]
    exact h2 rest outcome log sent n tr hk hd
  | raised hs => cases hee
  | unwritable hw => cases hee
  | @emit h0 h1' m' as o' e' i' ms' b hw hr ih =>
    obtain ⟨bs, h1, h2⟩ := ih ho hee
    refine ⟨b :: bs, by rw [List.map_cons, List.map_cons, hw, h1], fun rest outcome log sent n tr hk hd => ?_⟩
    rw [List.length_cons] at hk hd
    rw [List.cons_append, AsgiCfg.drive, if_neg (by rw [hd n (by omega)]; simp)]
    cases sent with
    | true =>
      unfold AsgiCfg.ensureStart
      dsimp only
      rw [if_pos rfl]
      dsimp only
      rw [hw]
      dsimp only
      rw [send_at (hk _ (by omega))]
      dsimp only
      obtain ⟨tr', e⟩ := h2 rest outcome (log ++ [(.body b true, none)]) true (n + 1) (tr ++ [.sent (.body b true), .asked])
        (fun k hk' => hk k (by simp at hk'; omega)) (fun j hj => hd j (by omega))
      refine ⟨tr', ?_⟩
      rw [if_pos rfl, e]
      simp [Nat.add_assoc, Nat.add_comm 1]
    | false =>
      unfold AsgiCfg.ensureStart
      dsimp only
      rw [if_neg (by decide), send_at (hk _ (by omega))]
      dsimp only
      rw [hw]
      dsimp only
      rw [send_at (hk _ (by simp))]
      dsimp only
      obtain ⟨tr', e⟩ := h2 rest outcome (log ++ [(c.startEvent h0.info, none)] ++ [(.body b true, none)]) true (n + 1)
        (tr ++ [.sent (c.startEvent h0.info)] ++ [.sent (.body b true), .asked])
        (fun k hk' => hk k (by simp at hk' ⊢; omega)) (fun j hj => hd j (by omega))
      refine ⟨tr', ?_⟩
      rw [if_neg (by decide), e]
      simp [Nat.add_assoc, Nat.add_comm 1]

theorem sendAll_from {env : Env} (ms : List Sent) (log : List (Sent × Option Exc)) (hr : ∀ k, log.length ≤ k → env.sendErr k = none) :
    env.sendAll log ms = (log ++ ms.map fun m => (m, none), none) := by
  induction ms generalizing log with
  | nil => simp [Env.sendAll]
  | cons m ms ih =>
    unfold Env.sendAll
    rw [send_at (hr _ (Nat.le_refl _))]
    dsimp only
    rw [ih _ (fun k hk => hr k (by simp at hk; omega))]
    simp

/-- the end of a response whose sends succeed from now on -/
theorem finish_from (c : AsgiCfg Res) (calls : List (Called Req)) (h : HState Req) (log : List (Sent × Option Exc)) (sent : Bool)
    (exc : Option Exc) {out : EndOut} (hend : EndsWith c.writer c.proto c.sc h.info.trailers (asgiError exc) out)
    (hr : ∀ k, log.length ≤ k → c.env.sendErr k = none) :
    c.finish calls ⟨h, log, sent, exc⟩ =
      { calls, received := h.got,
        sends := log ++ ((if sent then [] else [c.startEvent h.info]) ++ asgiEnding out).map (·, none),
        escaped := asgiRaised exc } := by
  unfold EndsWith at hend
  rw [errorOf_eq] at hend
  unfold AsgiCfg.finish
  dsimp only
  rw [hend]
  dsimp only
  unfold AsgiCfg.ensureStart
  cases sent with
  | true =>
    rw [if_pos rfl]
    dsimp only
    rw [sendAll_from _ _ hr, ← asgiEnding_eq]
    dsimp only
    rw [if_pos rfl]
    rfl
  | false =>
    rw [if_neg (by decide), send_at (hr _ (Nat.le_refl _))]
    dsimp only
    rw [sendAll_from _ _ (fun k hk => hr k (by simp at hk; omega)), ← asgiEnding_eq]
    dsimp only
    rw [if_neg (by decide)]
    simp

/-- the `finally` clause, when the handler is over -/
theorem release_over (g : Producer Res) (watch : Option (Option Exc)) (hw : ∀ e, watch ≠ some (some e)) (o : LoopOut Req) (tr : List (GenEvent Sent)) :
    (g.release watch ⟨o, tr, none⟩).out = o := by
  have key : ∀ tr : List (GenEvent Sent), (g.close ⟨o, tr, none⟩).out = o := by
    intro tr
    unfold Producer.close
    cases g.closable <;> rfl
  cases watch with
  | none => exact key tr
  | some w =>
    cases w with
    | none => exact key _
    | some e => exact absurd rfl (hw e)

theorem call_after_error {h h' : HState Req} {ss : List Step} (hs : AfterSteps h ss h') (x : Exc) : h.call ss (.error x : Except Exc Unit) = (h', .error x) := by
  induction ss generalizing h with
  | nil => cases hs; rfl
  | cons s ss ih =>
    obtain ⟨h1, e1, e2⟩ := hs
    rw [HState.call, e1]
    exact ih e2

/-- … and when it is suspended: its cleanup code runs, and what that raises takes the place of the exception -/
theorem release_at (g : Producer Res) (hg : g.closable = true) (watch : Option (Option Exc)) (hw : ∀ e, watch ≠ some (some e)) (o : LoopOut Req)
    (tr : List (GenEvent Sent)) (n : Nat) {steps : List Step} {x : Option Exc} (hc : g.closing n = (steps, x)) {h' : HState Req} (hs : AfterSteps o.h steps h') :
    (g.release watch ⟨o, tr, some n⟩).out = ⟨h', o.log, o.sentHeaders, x.orElse fun _ => o.exc⟩ := by
  have key : ∀ tr : List (GenEvent Sent), (g.close ⟨o, tr, some n⟩).out = ⟨h', o.log, o.sentHeaders, x.orElse fun _ => o.exc⟩ := by
    intro tr
    unfold Producer.close
    rw [hg]
    dsimp only [Bool.not_true]
    rw [if_neg (by simp), hc]
    cases x with
    | none => dsimp only; rw [call_after hs]; rfl
    | some x => dsimp only; rw [call_after_error hs]; rfl
  cases watch with
  | none => exact key tr
  | some w =>
    cases w with
    | none => exact key _
    | some e => exact absurd rfl (hw e)

/-- the response is made from where the loop is left -/
theorem respond_fst (c : AsgiCfg Res) (calls : List (Called Req)) (g : Producer Res) (watch : Option (Option Exc)) (h : HState Req) :
    ∃ tr, (c.respond calls g watch h).1 = c.finish calls (g.release watch (c.drive g.outcome g.acts h [] false 0 tr)).out := by
  unfold AsgiCfg.respond
  cases watch with
  | none => exact ⟨_, rfl⟩
  | some w => exact ⟨_, rfl⟩

/-- a handler that has yielded nothing: the response metadata is that of its last state -/
theorem start_info {write : Res → Except Exc Bytes} {close : Option Exc} {h h' : HState Req} {acts : List (Act Res)} {o e : Option Exc} {i : Meta} {ms : List Res}
    (hr : Runs write close h acts o i ms h' e) (hm : ms = []) : i = h'.info := by
  induction hr with
  | done => rfl
  | step _ _ ih => exact ih hm
  | raised => rfl
  | unwritable => rfl
  | emit => cases hm

/-! ### sends that fail -/

/-- where the loop is left: no send has failed, or the last one has, and that is what ended it -/
def Halted (d : Driven Req) : Prop :=
  (∀ s ∈ d.out.log, s.2 = none) ∨
  ∃ pre m e k, d.out.log = pre ++ [(m, some e)] ∧ (∀ s ∈ pre, s.2 = none) ∧ d.out.exc = some e ∧ d.suspended = some k ∧ (IsMessage m → d.out.sentHeaders = true)

theorem drive_halted (c : AsgiCfg Res) (outcome : Option Exc) (acts : List (Act Res)) (h : HState Req) (log : List (Sent × Option Exc)) (sent : Bool)
    (n : Nat) (tr : List (GenEvent Sent)) (hl : ∀ s ∈ log, s.2 = none) : Halted (c.drive outcome acts h log sent n tr) := by
  induction acts generalizing h log sent n tr with
  | nil => exact .inl hl
  | cons a as ih =>
    cases a with
    | step s =>
      rw [AsgiCfg.drive]
      cases hs : h.step s with
      | mk h' e =>
        cases e with
        | some e => exact .inl hl
        | none => exact ih _ _ _ _ _ hl
    | emit m =>
      rw [AsgiCfg.drive]
      by_cases hd : c.disconnected n
      · rw [if_pos hd]; exact .inl hl
      · rw [if_neg hd]
        dsimp only
        have hst : (∃ log', c.ensureStart sent h.info log = (log', none) ∧ ∀ s ∈ log', s.2 = none) ∨
            ∃ e, c.ensureStart sent h.info log = (log ++ [(c.startEvent h.info, some e)], some e) := by
          unfold AsgiCfg.ensureStart
          cases sent with
          | true => exact .inl ⟨log, rfl, hl⟩
          | false =>
            rw [if_neg (by decide)]
            unfold Env.send
            dsimp only
            cases c.env.sendErr log.length with
            | none => exact .inl ⟨_, rfl, by
                intro s hs
                rcases List.mem_append.1 hs with hs | hs
                · exact hl s hs
                · rw [List.mem_singleton.1 hs]⟩
            | some e => exact .inr ⟨e, rfl⟩
        rcases hst with ⟨log', hst, hl'⟩ | ⟨e, hst⟩
        · rw [hst]
          dsimp only
          cases c.writer.write m with
          | error e => exact .inl hl'
          | ok b =>
            dsimp only
            unfold Env.send
            dsimp only
            cases c.env.sendErr log'.length with
            | none =>
              refine ih _ _ _ _ _ ?_
              intro s hs
              rcases List.mem_append.1 hs with hs | hs
              · exact hl' s hs
              · rw [List.mem_singleton.1 hs]
            | some e => exact .inr ⟨log', _, e, n, rfl, hl', rfl, rfl, fun _ => rfl⟩
        · rw [hst]
          refine .inr ⟨log, _, e, n, rfl, hl, rfl, rfl, ?_⟩
          rintro ⟨b, hb⟩
          cases hb

/-- `sendAll` stops at the first send that fails -/
theorem sendAll_halted (env : Env) (ms : List Sent) (log : List (Sent × Option Exc)) :
    (∃ l, env.sendAll log ms = (log ++ l, none) ∧ (∀ s ∈ l, s.1 ∈ ms) ∧ ∀ s ∈ l, s.2 = none) ∨
    ∃ l m e, env.sendAll log ms = (log ++ l ++ [(m, some e)], some e) ∧ (∀ s ∈ l, s.1 ∈ ms ∧ s.2 = none) ∧ m ∈ ms := by
  induction ms generalizing log with
  | nil => exact .inl ⟨[], by simp [Env.sendAll], by simp, by simp⟩
  | cons m ms ih =>
    unfold Env.sendAll Env.send
    dsimp only
    cases env.sendErr log.length with
    | some e => exact .inr ⟨[], m, e, by simp, by simp, by simp⟩
    | none =>
      dsimp only
      rcases ih (log ++ [(m, none)]) with ⟨l, h1, h2, h3⟩ | ⟨l, m', e, h1, h2, h3⟩
      · refine .inl ⟨(m, none) :: l, by rw [h1]; simp, ?_, ?_⟩
        · intro s hs
          rcases List.mem_cons.1 hs with rfl | hs
          · simp
          · exact List.mem_cons_of_mem _ (h2 s hs)
        · intro s hs
          rcases List.mem_cons.1 hs with rfl | hs
          · rfl
          · exact h3 s hs
      · refine .inr ⟨(m, none) :: l, m', e, by rw [h1]; simp, ?_, List.mem_cons_of_mem _ h3⟩
        intro s hs
        rcases List.mem_cons.1 hs with rfl | hs
        · simp
        · exact ⟨List.mem_cons_of_mem _ (h2 s hs).1, (h2 s hs).2⟩

theorem release_suspended (g : Producer Res) (watch : Option (Option Exc)) (hw : ∀ e, watch ≠ some (some e)) (d : Driven Req) :
    (g.release watch d).suspended = d.suspended := by
  have key : ∀ d : Driven Req, (g.close d).suspended = d.suspended := by
    intro d
    unfold Producer.close
    cases g.closable with
    | false => rfl
    | true =>
      dsimp only [Bool.not_true]
      rw [if_neg (by simp)]
      cases hs : d.suspended with
      | none => rfl
      | some n => dsimp only; split <;> rfl
  cases watch with
  | none => exact key d
  | some w =>
    cases w with
    | none => exact key _
    | some e => exact absurd rfl (hw e)

/-- the end marker can only fail to be made because it is too long -/
theorem end_error {M : Type} {w : EnvelopeWriter M} {p : Proto} {sc : StatusCodec} {user : Headers} {error : Option ConnectErr} {x : Exc}
    (h : w.end' p sc user error = .error x) : ∃ m, x = .other .structError m := by
  have hp : ∀ (a : UInt8) (d : Bytes), (packEnvelope a d).map EndOut.body = .error x → ∃ m, x = .other .structError m := by
    intro a d h
    unfold packEnvelope at h
    by_cases hl : d.length < 4294967296
    · rw [if_pos hl] at h; cases h
    · rw [if_neg hl] at h; cases h; exact ⟨_, rfl⟩
  cases p with
  | connect => exact hp _ _ h
  | grpc => cases h
  | grpcWeb => exact hp _ _ h

/-! ### lists of sends -/

/-- a failed send that follows sends which did not fail comes no later than any other failed one -/
theorem failed_split {a b c d : List (Sent × Option Exc)} {x y : Sent × Option Exc} (h : a ++ x :: b = c ++ y :: d) (ha : ∀ s ∈ a, s.2 = none) (hy : y.2 ≠ none) :
    ∃ c', c = a ++ c' ∧ x :: b = c' ++ y :: d := by
  induction a generalizing c with
  | nil => exact ⟨c, rfl, h⟩
  | cons z a ih =>
    cases c with
    | nil =>
      have := (List.cons.inj h).1
      exact absurd (this ▸ ha z (by simp)) hy
    | cons z' c =>
      obtain ⟨h1, h2⟩ := List.cons.inj h
      obtain ⟨c', e1, e2⟩ := ih h2 (fun s hs => ha s (List.mem_cons_of_mem _ hs))
      exact ⟨c', by rw [h1, e1]; rfl, e2⟩

theorem after_mem {a b c d : List (Sent × Option Exc)} {m' m : Sent} {e' e : Exc} (h : a ++ (m', some e') :: b = c ++ (m, some e) :: d)
    (ha : ∀ s ∈ a, s.2 = none) : ∀ s ∈ d, s ∈ b := by
  obtain ⟨c', _, e2⟩ := failed_split h ha (by simp)
  intro s hs
  cases c' with
  | nil => rw [(List.cons.inj e2).2]; exact hs
  | cons z c' => rw [(List.cons.inj e2).2]; simp [hs]

theorem after_failed {a c d : List (Sent × Option Exc)} {m' m : Sent} {e' e : Exc} (h : a ++ (m', some e') :: [] = c ++ (m, some e) :: d)
    (ha : ∀ s ∈ a, s.2 = none) : d = [] := by
  have := after_mem h ha
  cases d with
  | nil => rfl
  | cons s d => exact absurd (this s (by simp)) (by simp)

theorem first_failed {a b c d : List (Sent × Option Exc)} {m' m : Sent} {e' e : Exc} (h : a ++ (m', some e') :: b = c ++ (m, some e) :: d)
    (ha : ∀ s ∈ a, s.2 = none) (hb : ∀ s ∈ b, s.2 = none) : c = a ∧ (m', some e') = (m, some e) ∧ b = d := by
  obtain ⟨c', e1, e2⟩ := failed_split h ha (by simp)
  cases c' with
  | nil => exact ⟨by simpa using e1, (List.cons.inj e2).1, (List.cons.inj e2).2⟩
  | cons z c' =>
    have := (List.cons.inj e2).2
    exact absurd (hb (m, some e) (by rw [this]; simp)) (by simp)

theorem sendAll_none {env : Env} {ms : List Sent} {log l : List (Sent × Option Exc)} (h : env.sendAll log ms = (l, none)) :
    l = log ++ ms.map (·, none) := by
  induction ms generalizing log with
  | nil => unfold Env.sendAll at h; cases h; simp
  | cons m ms ih =>
    unfold Env.sendAll Env.send at h
    dsimp only at h
    cases he : env.sendErr log.length with
    | some e => rw [he] at h; cases h
    | none =>
      rw [he] at h
      rw [ih h]; simp

theorem sendAll_raises {env : Env} {ms : List Sent} {log l : List (Sent × Option Exc)} {e : Exc} (h : env.sendAll log ms = (l, some e)) :
    ∃ k, env.sendErr k = some e := by
  induction ms generalizing log with
  | nil => unfold Env.sendAll at h; cases h
  | cons m ms ih =>
    unfold Env.sendAll Env.send at h
    dsimp only at h
    cases he : env.sendErr log.length with
    | some e' => rw [he] at h; cases h; exact ⟨_, he⟩
    | none =>
      rw [he] at h
      exact ih h

end Props
