import Verif.Props.Stream
import Verif.Spec.Cleanup
/-
C82: the cleanup of handlers that stream.
-/
namespace Props
open Conn Py Spec

variable {Req Res : Type}

/-- what the loop leaves -/
structure Left (tr : List (GenEvent Sent)) (d : Driven Req) : Prop where
  keeps : ∀ e, e = .watch ∨ e = .unwatch ∨ e = .closed ∨ e = .ending → (e ∈ d.trace ↔ e ∈ tr)
  over : d.suspended = none → .over ∈ d.trace

theorem left_over (tr : List (GenEvent Sent)) (o : LoopOut Req) : Left tr ⟨o, tr ++ [.over], none⟩ := by
  refine ⟨?_, fun _ => by simp⟩
  rintro e (rfl | rfl | rfl | rfl) <;> simp

theorem left_at (tr : List (GenEvent Sent)) (l : List (GenEvent Sent)) (hl : ∀ e ∈ l, (∃ s, e = .sent s) ∨ e = .asked) (o : LoopOut Req) (n : Nat) :
    Left tr ⟨o, tr ++ l, some n⟩ := by
  refine ⟨?_, fun h => by cases h⟩
  have hn : ∀ e, e = .watch ∨ e = .unwatch ∨ e = .closed ∨ e = .ending → e ∉ l := by
    rintro e he hel
    rcases hl e hel with ⟨s, rfl⟩ | rfl <;> simp at he
  intro e he
  simp [hn e he]

theorem Left.trans {tr l : List (GenEvent Sent)} {d : Driven Req} (hl : ∀ e ∈ l, (∃ s, e = .sent s) ∨ e = .asked) (h : Left (tr ++ l) d) : Left tr d := by
  refine ⟨?_, h.over⟩
  have hn : ∀ e, e = .watch ∨ e = .unwatch ∨ e = .closed ∨ e = .ending → e ∉ l := by
    rintro e he hel
    rcases hl e hel with ⟨s, rfl⟩ | rfl <;> simp at he
  intro e he
  rw [h.keeps e he]
  simp [hn e he]

theorem drive_left (c : AsgiCfg Res) (outcome : Option Exc) (acts : List (Act Res)) (h : HState Req) (log : List (Sent × Option Exc)) (sent : Bool)
    (n : Nat) (tr : List (GenEvent Sent)) : Left tr (c.drive outcome acts h log sent n tr) := by
  induction acts generalizing h log sent n tr with
  | nil => exact left_over tr _
  | cons a as ih =>
    cases a with
    | step s =>
      rw [AsgiCfg.drive]
      cases hs : h.step s with
      | mk h' e =>
        cases e with
        | some e => exact left_over tr _
        | none => exact ih ..
    | emit m =>
      rw [AsgiCfg.drive]
      by_cases hd : c.disconnected n
      · rw [if_pos hd]
        have := left_at tr [] (by simp) (Req := Req) ⟨h, log, sent, some clientDisconnected⟩ n
        rwa [List.append_nil] at this
      · rw [if_neg hd]
        have hst : ∃ l : List (GenEvent Sent), (if sent then tr else tr ++ [.sent (c.startEvent h.info)]) = tr ++ l ∧ ∀ e ∈ l, (∃ s, e = .sent s) ∨ e = .asked := by
          cases sent
          · exact ⟨_, rfl, by simp⟩
          · exact ⟨[], by simp, by simp⟩
        obtain ⟨l, hl, hle⟩ := hst
        simp only [hl]
        cases c.ensureStart sent h.info log with
        | mk log' e =>
          cases e with
          | some e => exact left_at tr l hle _ n
          | none =>
            dsimp only
            cases c.writer.write m with
            | error e => exact left_at tr l hle _ n
            | ok b =>
              dsimp only
              cases c.env.send log' (.body b true) with
              | mk log'' e =>
                cases e with
                | some e =>
                  dsimp only
                  rw [List.append_assoc]
                  exact left_at tr _ (by
                    intro e he
                    rcases List.mem_append.1 he with he | he
                    · exact hle e he
                    · simp at he; exact .inl ⟨_, he⟩) _ n
                | none =>
                  dsimp only
                  rw [List.append_assoc]
                  exact Left.trans (by
                    intro e he
                    rcases List.mem_append.1 he with he | he
                    · exact hle e he
                    · simp at he
                      rcases he with rfl | rfl
                      · exact .inl ⟨_, rfl⟩
                      · exact .inr rfl) (ih ..)

theorem close_trace (g : Producer Res) (hg : g.closable = true) (d : Driven Req) : (g.close d).trace = d.trace ++ [.closed] := by
  unfold Producer.close
  rw [hg]
  cases d.suspended with
  | none => rfl
  | some n =>
    dsimp only [Bool.not_true]
    rw [if_neg (by simp)]
    split <;> rfl

/-- splitting where something occurs once -/
theorem split_unique {α : Type} {x : α} {a b c d : List α} (h : a ++ x :: b = c ++ x :: d) (ha : x ∉ a) (hb : x ∉ b) : a = c ∧ b = d := by
  induction a generalizing c with
  | nil =>
    cases c with
    | nil => exact ⟨rfl, (List.cons.inj h).2⟩
    | cons y c =>
      have h2 := (List.cons.inj h).2
      exact absurd (h2 ▸ (by simp : x ∈ c ++ x :: d)) hb
  | cons y a ih =>
    cases c with
    | nil =>
      have h1 := (List.cons.inj h).1
      exact absurd (by rw [h1]; simp) ha
    | cons z c =>
      obtain ⟨h1, h2⟩ := List.cons.inj h
      obtain ⟨e1, e2⟩ := ih h2 (fun hm => ha (by simp [hm]))
      exact ⟨by rw [h1, e1], e2⟩

theorem not_sent (l : List (Sent × Option Exc)) : GenEvent.ending ∉ l.map fun s => GenEvent.sent s.1 := by
  intro h
  obtain ⟨s, _, e⟩ := List.mem_map.1 h
  cases e

theorem all_sent (l : List (Sent × Option Exc)) : ∀ e ∈ l.map (fun s => GenEvent.sent s.1), ∃ s, e = GenEvent.sent s := by
  intro e h
  obtain ⟨s, _, rfl⟩ := List.mem_map.1 h
  exact ⟨_, rfl⟩

/-- **C82, ASGI (partial: unless `receive` raises in the task that watches for disconnects)**: whatever ends a response — the handler, a disconnect, a message that
cannot be encoded, a `send` that fails —, when its end marker is made the handler's generator is over or closed, and the task is stopped. -/
theorem C82_asgi_partial (c : AsgiCfg Res) (calls : List (Called Req)) (g : Producer Res) (hg : g.closable = true) (watch : Option (Option Exc))
    (hw : ∀ e, watch ≠ some (some e)) (h : HState Req) : DoneFirst (c.respond calls g watch h).2 := by
  intro pre post e
  unfold AsgiCfg.respond at e
  cases watch with
  | none =>
    dsimp only [Producer.release] at e
    rw [close_trace g hg] at e
    have hl := drive_left c g.outcome g.acts h [] false 0 [.asked]
    obtain ⟨rfl, rfl⟩ := split_unique e (by
      rw [List.mem_append]
      rintro (h' | h')
      · rw [hl.keeps _ (by simp)] at h'; simp at h'
      · simp at h') (not_sent _)
    refine ⟨.inr (by simp), ?_, ?_, all_sent _⟩
    · intro pre' post' e'
      have hc : GenEvent.closed ∉ (c.drive g.outcome g.acts h [] false 0 [.asked]).trace := by
        rw [hl.keeps _ (by simp)]; simp
      obtain ⟨_, rfl⟩ := split_unique e' hc (by simp)
      simp
    · intro hm
      rw [List.mem_append, hl.keeps _ (by simp)] at hm
      simp at hm
  | some w =>
    cases w with
    | some x => exact absurd rfl (hw x)
    | none =>
      dsimp only [Producer.release] at e
      rw [close_trace g hg] at e
      have hl := drive_left c g.outcome g.acts h [] false 0 [.watch, .asked]
      obtain ⟨rfl, rfl⟩ := split_unique e (by
        simp only [List.mem_append, hl.keeps GenEvent.ending (by simp)]
        simp) (not_sent _)
      refine ⟨.inr (by simp), ?_, fun _ => by simp, all_sent _⟩
      intro pre' post' e'
      obtain ⟨_, rfl⟩ := split_unique e' (by
        simp only [List.mem_append, hl.keeps GenEvent.closed (by simp)]
        simp) (by simp)
      simp

/-- the loop of `AsgiCfg.loop` -/
theorem drive_loop (c : AsgiCfg Res) (s : Script Res) (acts : List (Act Res)) (h : HState Req) (log : List (Sent × Option Exc)) (sent : Bool)
    (n : Nat) (tr : List (GenEvent Sent)) :
    ((genOf s).close (c.drive s.outcome acts h log sent n tr)).out = c.loop s.outcome s.closeErr acts h log sent n := by
  have hclose : ∀ (h : HState Req) (log : List (Sent × Option Exc)) (sent : Bool) (e : Exc) (tr : List (GenEvent Sent)) (n : Nat),
      ((genOf s).close ⟨⟨h, log, sent, some e⟩, tr, some n⟩).out = ⟨h, log, sent, some (afterClose s.closeErr e)⟩ := by
    intro h log sent e tr n
    unfold Producer.close genOf afterClose
    cases s.closeErr <;> rfl
  induction acts generalizing h log sent n tr with
  | nil => rfl
  | cons a as ih =>
    cases a with
    | step st =>
      rw [AsgiCfg.drive, AsgiCfg.loop]
      cases hs : h.step st with
      | mk h' e =>
        cases e with
        | some e => rfl
        | none => exact ih ..
    | emit m =>
      rw [AsgiCfg.drive, AsgiCfg.loop]
      by_cases hd : c.disconnected n
      · rw [if_pos hd, if_pos hd, hclose]
      · rw [if_neg hd, if_neg hd]
        cases c.ensureStart sent h.info log with
        | mk log' e =>
          cases e with
          | some e => exact hclose ..
          | none =>
            dsimp only
            cases c.writer.write m with
            | error e => exact hclose ..
            | ok b =>
              dsimp only
              cases c.env.send log' (.body b true) with
              | mk log'' e =>
                cases e with
                | some e => exact hclose ..
                | none => exact ih ..

/-- **C82 and the other properties of streams** are about the same program: with cleanup code that does nothing but raise, the response is that of `App.asgiStream`
(C31, C35, C36). -/
theorem C82_same_response (c : AsgiCfg Res) (calls : List (Called Req)) (s : Script Res) (watch : Option (Option Exc)) (hw : ∀ e, watch ≠ some (some e))
    (h : HState Req) : (c.respond calls (genOf s) watch h).1 = c.finish calls (c.loop s.outcome s.closeErr s.acts h [] false 0) := by
  unfold AsgiCfg.respond
  cases watch with
  | none => dsimp only [Producer.release]; rw [show (genOf s).outcome = s.outcome from rfl, show (genOf s).acts = s.acts from rfl, drive_loop]
  | some w =>
    cases w with
    | some x => exact absurd rfl (hw x)
    | none =>
      dsimp only [Producer.release]
      have : ∀ (d : Driven Req) (tr : List (GenEvent Sent)), ((genOf s).close { d with trace := tr }).out = ((genOf s).close d).out := by
        intro d tr
        unfold Producer.close
        rw [show (genOf s).closable = true from rfl]
        dsimp only [Bool.not_true]
        rw [if_neg (by simp), if_neg (by simp)]
        cases d.suspended with
        | none => rfl
        | some n => dsimp only; split <;> rfl
      rw [this, show (genOf s).outcome = s.outcome from rfl, show (genOf s).acts = s.acts from rfl, drive_loop]

theorem drive_disconnect {c : AsgiCfg Res} (hrel : Reliable c.env) {close : Option Exc} {h h' : HState Req} {pre post : List (Act Res)} {m : Res}
    {o e : Option Exc} {i : Meta} {ms : List Res} (hr : Runs c.writer.write close h pre o i ms h' e) (ho : o = none) (hee : e = none) (outcome : Option Exc)
    (log : List (Sent × Option Exc)) (sent : Bool) (n : Nat) (tr : List (GenEvent Sent)) (h1 : ∀ j, j < n + ms.length → c.disconnected j = false)
    (h2 : c.disconnected (n + ms.length) = true) :
    ∃ log' sent' tr', c.drive outcome (pre ++ .emit m :: post) h log sent n tr =
      ⟨⟨h', log', sent', some clientDisconnected⟩, tr', some (n + ms.length)⟩ := by
  induction hr generalizing log sent n tr with
  | done h o =>
    refine ⟨log, sent, tr, ?_⟩
    rw [List.nil_append, AsgiCfg.drive]
    rw [List.length_nil, Nat.add_zero] at h2 ⊢
    rw [if_pos h2, Nat.add_zero]
  | step hs hr ih =>
    rw [List.cons_append, AsgiCfg.drive, does_iff.2 hs]
    exact ih ho hee _ _ _ _ h1 h2
  | raised hs => cases hee
  | unwritable hw => cases hee
  | @emit h0 h1' m' as o' e' i' ms' b hw hr ih =>
    rw [List.length_cons] at h1 h2
    rw [List.cons_append, AsgiCfg.drive, if_neg (by rw [h1 n (by omega)]; simp)]
    have hst : ∃ log', c.ensureStart sent h0.info log = (log', none) := by
      unfold AsgiCfg.ensureStart
      cases sent with
      | true => exact ⟨log, rfl⟩
      | false => rw [if_neg (by decide), send_ok hrel]; exact ⟨_, rfl⟩
    obtain ⟨log', hst⟩ := hst
    dsimp only
    rw [hst]
    dsimp only
    rw [hw]
    dsimp only
    rw [send_ok hrel]
    dsimp only
    have := ih ho hee (log' ++ [(.body b true, none)]) true (n + 1) ((if sent then tr else tr ++ [.sent (c.startEvent h0.info)]) ++ [.sent (.body b true), .asked])
      (fun j hj => h1 j (by omega)) (by rw [show n + 1 + ms'.length = n + (ms'.length + 1) by omega]; exact h2)
    rw [show n + 1 + ms'.length = n + (ms'.length + 1) by omega] at this
    exact this

theorem call_after {h h' : HState Req} {ss : List Step} (hs : AfterSteps h ss h') : h.call ss (.ok () : Except Exc Unit) = (h', .ok ()) := by
  induction ss generalizing h with
  | nil => cases hs; rfl
  | cons s ss ih =>
    obtain ⟨h1, e1, e2⟩ := hs
    rw [HState.call, e1]
    exact ih e2

/-- **C82, trailers of cleanup code.** When the client of a server stream has disconnected after the messages `ms` and the handler yields another message, its cleanup code
runs, and the trailers it sets are in the end marker. -/
theorem C82_trailers (c : AsgiCfg Res) (hrel : Reliable c.env) (calls : List (Called Req)) (g : Producer Res) (hg : g.closable = true) (h0 h' h'' : HState Req)
    (pre post : List (Act Res)) (m : Res) (hacts : g.acts = pre ++ .emit m :: post) (i : Meta) (ms : List Res)
    (hr : Runs c.writer.write none h0 pre none i ms h' none) (hd : c.disconnectAt = some ms.length)
    (steps : List Step) (hc : g.closing ms.length = (steps, none)) (hs : AfterSteps h' steps h'') (out : EndOut)
    (hout : EndsWith c.writer c.proto c.sc h''.info.trailers (some clientDisconnected) out) :
    ∃ rest, (c.respond calls g (some none) h0).1.sends.map (·.1) = rest ++ asgiEnding out := by
  have hdis : ∀ j, c.disconnected j = decide (ms.length ≤ j) := by
    intro j; unfold AsgiCfg.disconnected; rw [hd]
  obtain ⟨log, sent, tr, e⟩ := drive_disconnect (m := m) (post := post) hrel hr rfl rfl g.outcome [] false 0 [.watch, .asked]
    (fun j hj => by rw [hdis]; exact decide_eq_false (by omega)) (by rw [hdis]; exact decide_eq_true (by omega))
  rw [← hacts] at e
  rw [Nat.zero_add] at e
  unfold AsgiCfg.respond
  dsimp only
  rw [e]
  unfold Producer.release Producer.close
  rw [hg]
  dsimp only [Bool.not_true]
  rw [if_neg (by simp), hc]
  dsimp only
  rw [call_after hs]
  dsimp only
  have hout' : EndsWith c.writer c.proto c.sc h''.info.trailers (asgiError (some clientDisconnected)) out := hout
  rw [finish_eq c calls _ _ _ _ hout' hrel]
  exact ⟨log.map (·.1) ++ (if sent then [] else [c.startEvent h''.info]), by simp [Function.comp_def]⟩

/-- **C82 violated** when `receive` raises in the task that watches for disconnects: a handler that has yielded a message that cannot be encoded is neither over nor
closed when the response ends, whatever its cleanup code. -/
theorem C82_violation_receive (c : AsgiCfg Res) (calls : List (Called Req)) (m : Res) (x e : Exc) (closing : Nat → List Step × Option Exc) (h : HState Req)
    (hw : c.writer.write m = .error x) (hd : c.disconnectAt = none) (hrel : Reliable c.env) :
    ¬ DoneFirst (c.respond calls ⟨[.emit m], none, closing, true⟩ (some (some e)) h).2 := by
  intro hdone
  have htr : (c.respond calls ⟨[.emit m], none, closing, true⟩ (some (some e)) h).2 =
      [.watch, .asked, .sent (c.startEvent h.info), .unwatch] ++ .ending ::
        (((c.finish calls ⟨h, [(c.startEvent h.info, none)], true, some e⟩).sends.drop 1).map fun s => .sent s.1) := by
    unfold AsgiCfg.respond
    dsimp only
    rw [AsgiCfg.drive, if_neg (by unfold AsgiCfg.disconnected; rw [hd]; simp)]
    dsimp only
    unfold AsgiCfg.ensureStart
    rw [if_neg (by decide), send_ok hrel]
    dsimp only
    rw [hw]
    rfl
  have := (hdone _ _ htr).1
  simp at this

/-! ### WSGI -/

theorem bodyTrace_fst (c : StreamCfg Req Res) (outcome : Option Exc) (acts : List (Act Res)) (h : HState Req) (events : List WEvent) (tr : List (GenEvent Unit)) :
    (c.wsgiBodyTrace outcome acts h events tr).1 = c.wsgiBody outcome acts h events := by
  induction acts generalizing h events tr with
  | nil => unfold StreamCfg.wsgiBodyTrace StreamCfg.wsgiBody; cases outcome <;> rfl
  | cons a as ih =>
    cases a with
    | step s =>
      rw [StreamCfg.wsgiBodyTrace, StreamCfg.wsgiBody]
      cases h.step s with
      | mk h' e => cases e with
        | some e => rfl
        | none => exact ih ..
    | emit m =>
      rw [StreamCfg.wsgiBodyTrace, StreamCfg.wsgiBody]
      cases c.writer.write m with
      | error e => rfl
      | ok b => exact ih ..

/-- **C82, WSGI (partial: if every message can be encoded)**: when the end marker is made the handler's generator is over. The response is that of C32 and C35. -/
theorem C82_wsgi_partial (c : StreamCfg Req Res) (g : Producer Res) (h : HState Req) (events : List WEvent) (hw : ∀ m, .emit m ∈ g.acts → ∃ b, c.writer.write m = .ok b) :
    (c.wsgiBodyTrace g.outcome g.acts h events [.asked]).1 = c.wsgiBody g.outcome g.acts h events ∧
    DoneFirst (c.wsgiBodyTrace g.outcome g.acts h events [.asked]).2 := by
  refine ⟨bodyTrace_fst .., ?_⟩
  have key : ∀ (acts : List (Act Res)) (h : HState Req) (events : List WEvent) (tr : List (GenEvent Unit)), (∀ m, .emit m ∈ acts → ∃ b, c.writer.write m = .ok b) →
      (∀ e ∈ tr, e = .sent () ∨ e = .asked) → ∃ pre fin, (c.wsgiBodyTrace g.outcome acts h events tr).2 = pre ++ .over :: fin ∧
        (∀ e ∈ pre, e = .sent () ∨ e = .asked) ∧ (fin = [.ending] ∨ fin = []) := by
    intro acts
    have haft : ∀ e, endingAfter e = [.ending] ∨ endingAfter e = [] := by
      intro e; unfold endingAfter; split
      · exact .inl rfl
      · exact .inr rfl
    induction acts with
    | nil =>
      intro h events tr _ ht
      unfold StreamCfg.wsgiBodyTrace
      cases g.outcome with
      | none => exact ⟨tr, _, rfl, ht, .inl rfl⟩
      | some e => exact ⟨tr, _, rfl, ht, haft e⟩
    | cons a as ih =>
      intro h events tr hm ht
      cases a with
      | step s =>
        rw [StreamCfg.wsgiBodyTrace]
        cases h.step s with
        | mk h' e => cases e with
          | some e => exact ⟨tr, _, rfl, ht, haft e⟩
          | none => exact ih _ _ _ (fun m hm' => hm m (List.mem_cons_of_mem _ hm')) ht
      | emit m =>
        rw [StreamCfg.wsgiBodyTrace]
        obtain ⟨b, hb⟩ := hm m (by simp)
        rw [hb]
        refine ih _ _ _ (fun m hm' => hm m (List.mem_cons_of_mem _ hm')) ?_
        intro e he
        rcases List.mem_append.1 he with he | he
        · exact ht e he
        · simpa using he
  obtain ⟨pre, fin, e, hp, hf⟩ := key g.acts h events [.asked] hw (by simp)
  intro pre' post' e'
  rw [e] at e'
  rcases hf with rfl | rfl
  · have e2 : (pre ++ [.over]) ++ .ending :: [] = pre' ++ .ending :: post' := by rw [← e']; simp
    obtain ⟨rfl, rfl⟩ := split_unique e2 (by
      intro h
      rcases List.mem_append.1 h with h | h
      · rcases hp _ h with h | h <;> cases h
      · simp at h) (by simp)
    refine ⟨.inl (by simp), ?_, ?_, by simp⟩
    · intro a b hab
      have : GenEvent.closed ∈ pre ++ [GenEvent.over] := by rw [hab]; simp
      rcases List.mem_append.1 this with h | h
      · rcases hp _ h with h | h <;> cases h
      · simp at h
    · intro h
      rcases List.mem_append.1 h with h | h
      · rcases hp _ h with h | h <;> cases h
      · simp at h
  · exfalso
    have : GenEvent.ending ∈ pre ++ [GenEvent.over] := by rw [e']; simp
    rcases List.mem_append.1 this with h | h
    · rcases hp _ h with h | h <;> cases h
    · simp at h

/-- **C82 violated** on WSGI: a message cannot be encoded; the end marker is made while the handler's generator is suspended, and nobody closes it. -/
theorem C82_violation_wsgi (c : StreamCfg Req Res) (m : Res) (x : Exc) (hx : x.isException = true) (outcome : Option Exc) (rest : List (Act Res)) (h : HState Req)
    (events : List WEvent) (hw : c.writer.write m = .error x) :
    (c.wsgiBodyTrace outcome (.emit m :: rest) h events [.asked]).2 = [.asked, .ending] ∧
    ¬ DoneFirst (c.wsgiBodyTrace outcome (.emit m :: rest) h events [.asked]).2 := by
  have e : (c.wsgiBodyTrace outcome (.emit m :: rest) h events [.asked]).2 = [.asked, .ending] := by
    rw [StreamCfg.wsgiBodyTrace, hw]
    simp [endingAfter, hx]
  refine ⟨e, fun hd => ?_⟩
  have := (hd [.asked] [] e).1
  simp at this

/-! ### concrete cases -/

/-- a codec that cannot encode `[9]` -/
def ninelessCodec : Codec Bytes := ⟨pys! "proto", fun m => if m = [9] then .error (.other .valueError (pys! "cannot")) else .ok m, .ok⟩
/-- a server of gRPC streams; the client disconnects when one message has been sent -/
def goneCfg : AsgiCfg Bytes :=
  ⟨.grpc, demoStatus, pys! "proto", .identity, ⟨ninelessCodec, some .identity⟩, demoEnv [], some 1⟩
def stayCfg : AsgiCfg Bytes := { goneCfg with disconnectAt := none }
/-- a handler whose cleanup code sets a trailer -/
def tidyGen (ms : List Bytes) : Producer Bytes :=
  ⟨ms.map .emit, none, fun _ => ([.update fun i => { i with trailers := i.trailers.add (pys! "x-rows") (pys! "7") }], none), true⟩

/-- `C82_asgi_partial`, `C82_trailers`: the handler is closed at its second `yield`, and then the trailers are sent -/
example : (goneCfg.respond (Req := Bytes) [] (tidyGen [[1], [2], [3]]) (some none) (.init ⟨[], none⟩)).2 =
    [.watch, .asked, .sent (goneCfg.startEvent .empty), .sent (.body [0, 0, 0, 0, 1, 1] true), .asked, .unwatch, .closed, .ending,
     .sent (.body [] false), .sent (.trailers [(pys! "x-rows", pys! "7"), (pys! "grpc-status", pys! "1"), (pys! "grpc-message", pys! "Client%20disconnected")] false)] := by decide +kernel

/-- the hypotheses of `C82_trailers` -/
example : ∃ h' h'' : HState Bytes, ∃ out, Reliable goneCfg.env ∧ (tidyGen [[1], [2], [3]]).acts = [.emit [1]] ++ .emit [2] :: [.emit [3]] ∧
    Runs goneCfg.writer.write none (.init ⟨[], none⟩) [.emit [1]] none .empty [[1]] h' none ∧ goneCfg.disconnectAt = some [([1] : Bytes)].length ∧
    AfterSteps h' ((tidyGen [[1], [2], [3]]).closing 1).1 h'' ∧
    EndsWith goneCfg.writer goneCfg.proto goneCfg.sc h''.info.trailers (some clientDisconnected) (.trailers out) :=
  ⟨.init ⟨[], none⟩, ⟨[], none, ⟨.empty, Headers.empty.add (pys! "x-rows") (pys! "7")⟩, []⟩,
    Headers.ofPairs [(pys! "x-rows", pys! "7"), (pys! "grpc-status", pys! "1"), (pys! "grpc-message", pys! "Client%20disconnected")], fun _ => rfl, rfl,
    .emit (b := [0, 0, 0, 0, 1, 1]) rfl (.done ..), rfl, ⟨_, rfl, rfl⟩, by unfold EndsWith; decide +kernel⟩

/-- a message that cannot be encoded: ASGI closes the handler, WSGI does not (`C82_violation_wsgi`, `C82_violation_receive`) -/
example : (stayCfg.respond (Req := Bytes) [] (tidyGen [[1], [9], [3]]) (some none) (.init ⟨[], none⟩)).2.filter (fun e => e = .over ∨ e = .closed ∨ e = .ending) =
      [.closed, .ending] ∧
    (StreamCfg.wsgiBodyTrace ⟨.grpc, demoStatus, pys! "proto", .identity, ⟨ninelessCodec, some .identity⟩, []⟩ none (tidyGen [[1], [9], [3]]).acts
      (.init ⟨[], none⟩ : HState Bytes) [] [.asked]).2 = [.asked, .sent (), .asked, .ending] ∧
    stayCfg.writer.write [9] = .error (.other .valueError (pys! "cannot")) ∧ (Exc.other .valueError (pys! "cannot")).isException = true ∧ stayCfg.disconnectAt = none ∧
    Reliable stayCfg.env := ⟨by decide +kernel, by decide +kernel, rfl, rfl, rfl, fun _ => rfl⟩

/-- `C82_wsgi_partial` -/
example : (∀ m, .emit m ∈ (tidyGen [[1], [2]]).acts → ∃ b, (⟨ninelessCodec, some .identity⟩ : EnvelopeWriter Bytes).write m = .ok b) ∧
    (StreamCfg.wsgiBodyTrace ⟨.grpc, demoStatus, pys! "proto", .identity, ⟨ninelessCodec, some .identity⟩, []⟩ none (tidyGen [[1], [2]]).acts
      (.init ⟨[], none⟩ : HState Bytes) [] [.asked]).2 = [.asked, .sent (), .asked, .sent (), .asked, .over, .ending] := by
  refine ⟨?_, by decide +kernel⟩
  intro m hm
  simp only [tidyGen, List.map_cons, List.map_nil, List.mem_cons, Act.emit.injEq, List.not_mem_nil, or_false] at hm
  rcases hm with rfl | rfl
  · exact ⟨_, rfl⟩
  · exact ⟨_, rfl⟩

end Props
