import Verif.Proofs.Cancel
import Verif.Props.UnaryResponse
/-
C84: requests that are cancelled.
-/
namespace Props
open Conn Py Spec

variable {Req Res : Type}

/-! ### streams -/

/-- **C84, the handler (partial: unless `receive` raises in the task that watches for disconnects)**: wherever the task is cancelled, when the end marker is made the handler's
generator is over or closed, the watching task is stopped, and nothing is asked of the handler later. -/
theorem C84_finished_partial (c : AsgiCfg Res) (calls : List (Called Req)) (g : Producer Res) (hg : g.closable = true) (watch : Option (Option Exc))
    (hw : ∀ e, watch ≠ some (some e)) (h : HState Req) (p : CancelPoint) : DoneFirst (c.respondCancelled calls g watch h p).2 := by
  cases p with
  | handler n => exact C82_asgi_partial c calls (g.cancelAfter n) hg watch hw h
  | send n => exact C82_asgi_partial (c.cancelSend n) calls g hg watch hw h
  | watcher =>
    refine C82_asgi_partial c calls g hg _ ?_ h
    intro e he
    cases watch with
    | none => cases he
    | some w => cases he
  | closing n => exact C82_asgi_partial c calls (g.cancelClosing n) hg watch hw h

/-- **C84, in the handler (partial: the client is told that the RPC has succeeded)**: the messages `ms` yielded so far have been sent, the task raises, no message follows — and the
response ends with an end marker without an error. -/
theorem C84_handler_partial (c : AsgiCfg Res) (hrel : Reliable c.env) (calls : List (Called Req)) (g : Producer Res) (watch : Option (Option Exc))
    (hw : ∀ e, watch ≠ some (some e)) (h h' : HState Req) (pre post : List (Act Res)) (hacts : g.acts = pre ++ post) (i : Meta) (ms : List Res)
    (hr : Runs c.writer.write none h pre none i ms h' none) (hd : ∀ j, j < ms.length → c.disconnected j = false) (out : EndOut)
    (hout : EndsWith c.writer c.proto c.sc h'.info.trailers none out) :
    ∃ bs : List (List UInt8), ms.map c.writer.write = bs.map .ok ∧
      (c.respondCancelled calls g watch h (.handler pre.length)).1 =
        { calls, received := h'.got
          sends := (c.startEvent i :: bs.map (Sent.body · true) ++ asgiEnding out).map (·, none)
          escaped := some requestCancelled } := by
  obtain ⟨bs, h1, h2⟩ := drive_past hr rfl rfl
  refine ⟨bs, h1, ?_⟩
  obtain ⟨tr, e⟩ := respond_fst c calls (g.cancelAfter pre.length) watch h
  obtain ⟨tr', e'⟩ := h2 [] (some .cancelled) [] false 0 tr (fun k _ => hrel k) (fun j hj => hd j (by omega))
  have ha : (g.cancelAfter pre.length).acts = pre ++ [] := by
    show g.acts.take pre.length = _
    rw [hacts]; simp
  unfold AsgiCfg.respondCancelled
  dsimp only
  rw [e, ha, show (g.cancelAfter pre.length).outcome = some .cancelled from rfl, e', AsgiCfg.drive, release_over _ _ hw]
  have hout' : EndsWith c.writer c.proto c.sc h'.info.trailers (asgiError (some .cancelled)) out := hout
  rw [finish_from c calls _ _ _ _ hout' (fun k _ => hrel k)]
  cases ms with
  | nil =>
    have hbs : bs = [] := by cases bs with
      | nil => rfl
      | cons b bs => cases h1
    have hi : i = h'.info := start_info hr rfl
    subst hbs hi
    simp; rfl
  | cons m ms => simp; rfl

/-- **C84, while a message is sent (partial: as above)**. `b` may or may not reach the client; no message follows. -/
theorem C84_send_partial (c : AsgiCfg Res) (hrel : Reliable c.env) (calls : List (Called Req)) (g : Producer Res) (hg : g.closable = true)
    (watch : Option (Option Exc)) (hw : ∀ e, watch ≠ some (some e)) (h h' h'' : HState Req) (pre post : List (Act Res)) (m : Res) (b : List UInt8)
    (hacts : g.acts = pre ++ .emit m :: post) (hm : c.writer.write m = .ok b) (i : Meta) (ms : List Res)
    (hr : Runs c.writer.write none h pre none i ms h' none) (hd : ∀ j, j ≤ ms.length → c.disconnected j = false)
    (steps : List Step) (hc : g.closing ms.length = (steps, none)) (hs : AfterSteps h' steps h'') (out : EndOut)
    (hout : EndsWith c.writer c.proto c.sc h''.info.trailers none out) :
    ∃ bs : List (List UInt8), ms.map c.writer.write = bs.map .ok ∧
      (c.respondCancelled calls g watch h (.send (ms.length + 1))).1 =
        { calls, received := h''.got
          sends := (c.startEvent i :: bs.map (Sent.body · true)).map (·, none) ++ (.body b true, some .cancelled) :: (asgiEnding out).map (·, none)
          escaped := some requestCancelled } := by
  obtain ⟨bs, h1, h2⟩ := drive_past (c := c.cancelSend (ms.length + 1)) hr rfl rfl
  have hlen : bs.length = ms.length := by have := congrArg List.length h1; simpa using this.symm
  refine ⟨bs, h1, ?_⟩
  obtain ⟨tr, e⟩ := respond_fst (c.cancelSend (ms.length + 1)) calls g watch h
  have hsend : ∀ k, k ≠ ms.length + 1 → (c.cancelSend (ms.length + 1)).env.sendErr k = none := by
    intro k hk
    show (if k = ms.length + 1 then some Exc.cancelled else c.env.sendErr k) = none
    rw [if_neg hk]; exact hrel k
  have hsend' : (c.cancelSend (ms.length + 1)).env.sendErr (ms.length + 1) = some .cancelled := by
    show (if ms.length + 1 = ms.length + 1 then some Exc.cancelled else c.env.sendErr _) = _
    rw [if_pos rfl]
  obtain ⟨tr', e'⟩ := h2 (.emit m :: post) g.outcome [] false 0 tr (fun k hk => hsend k (by simp at hk; omega)) (fun j hj => hd j (by omega))
  unfold AsgiCfg.respondCancelled
  dsimp only
  rw [e, hacts, e', AsgiCfg.drive, if_neg (by
    have : (c.cancelSend (ms.length + 1)).disconnected (0 + ms.length) = c.disconnected (0 + ms.length) := rfl
    rw [this, hd _ (by omega)]; simp)]
  have hst : (c.cancelSend (ms.length + 1)).ensureStart (false || !ms.isEmpty) h'.info
      ([] ++ ((if false = true ∨ ms = [] then [] else [(c.cancelSend (ms.length + 1)).startEvent i]) ++ bs.map (Sent.body · true)).map (·, none)) =
      ((c.startEvent i :: bs.map (Sent.body · true)).map (·, none), none) := by
    unfold AsgiCfg.ensureStart
    cases ms with
    | nil =>
      have hbs : bs = [] := by cases bs with
        | nil => rfl
        | cons b bs => cases h1
      have hi : i = h'.info := start_info hr rfl
      subst hbs hi
      dsimp only [List.isEmpty, Bool.not_true, Bool.or_self]
      rw [if_neg (by decide), send_at (hsend _ (by simp))]
      simp; rfl
    | cons m ms => simp; rfl
  dsimp only
  rw [hst]
  dsimp only
  have hm' : (c.cancelSend (ms.length + 1)).writer.write m = .ok b := hm
  rw [hm']
  dsimp only
  unfold Env.send
  dsimp only
  rw [show ((c.startEvent i :: bs.map (Sent.body · true)).map fun s => (s, (none : Option Exc))).length = ms.length + 1 by simp [hlen], hsend']
  dsimp only
  rw [release_at g hg watch hw _ _ _ (by rw [Nat.zero_add]; exact hc) hs]
  have hout' : EndsWith (c.cancelSend (ms.length + 1)).writer (c.cancelSend (ms.length + 1)).proto (c.cancelSend (ms.length + 1)).sc h''.info.trailers
    (asgiError (some .cancelled)) out := hout
  dsimp only [Option.orElse]
  rw [finish_from _ calls _ _ _ _ hout' (fun k hk => hsend k (by simp [hlen] at hk; omega))]
  simp; rfl

/-- **C84, in the handler's cleanup code (partial: as above)**: a message that cannot be encoded ends the response; while the handler is closed the task is cancelled. The client
is told that the RPC has succeeded. -/
theorem C84_closing_partial (c : AsgiCfg Res) (hrel : Reliable c.env) (calls : List (Called Req)) (g : Producer Res) (hg : g.closable = true)
    (watch : Option (Option Exc)) (hw : ∀ e, watch ≠ some (some e)) (h h' h'' : HState Req) (pre post : List (Act Res)) (m : Res) (x : Exc)
    (hacts : g.acts = pre ++ .emit m :: post) (hm : c.writer.write m = .error x) (i : Meta) (ms : List Res)
    (hr : Runs c.writer.write none h pre none i ms h' none) (hd : ∀ j, j ≤ ms.length → c.disconnected j = false) (n : Nat)
    (hs : AfterSteps h' ((g.closing ms.length).1.take n) h'') (out : EndOut) (hout : EndsWith c.writer c.proto c.sc h''.info.trailers none out) :
    ∃ bs : List (List UInt8), ms.map c.writer.write = bs.map .ok ∧
      (c.respondCancelled calls g watch h (.closing n)).1 =
        { calls, received := h''.got
          sends := (c.startEvent i :: bs.map (Sent.body · true) ++ asgiEnding out).map (·, none)
          escaped := some requestCancelled } := by
  obtain ⟨bs, h1, h2⟩ := drive_past hr rfl rfl
  refine ⟨bs, h1, ?_⟩
  obtain ⟨tr, e⟩ := respond_fst c calls (g.cancelClosing n) watch h
  obtain ⟨tr', e'⟩ := h2 (.emit m :: post) g.outcome [] false 0 tr (fun k _ => hrel k) (fun j hj => hd j (by omega))
  unfold AsgiCfg.respondCancelled
  dsimp only
  rw [e, show (g.cancelClosing n).acts = g.acts from rfl, show (g.cancelClosing n).outcome = g.outcome from rfl, hacts, e', AsgiCfg.drive,
    if_neg (by rw [hd _ (by omega)]; simp)]
  have hst : c.ensureStart (false || !ms.isEmpty) h'.info
      ([] ++ ((if false = true ∨ ms = [] then [] else [c.startEvent i]) ++ bs.map (Sent.body · true)).map (·, none)) =
      ((c.startEvent i :: bs.map (Sent.body · true)).map (·, none), none) := by
    unfold AsgiCfg.ensureStart
    cases ms with
    | nil =>
      have hbs : bs = [] := by cases bs with
        | nil => rfl
        | cons b bs => cases h1
      have hi : i = h'.info := start_info hr rfl
      subst hbs hi
      dsimp only [List.isEmpty, Bool.not_true, Bool.or_self]
      rw [if_neg (by decide), send_ok hrel]
      simp
    | cons m ms => simp
  dsimp only
  rw [hst]
  dsimp only
  rw [hm]
  dsimp only
  rw [release_at (g.cancelClosing n) hg watch hw _ _ _ (x := some .cancelled) (steps := (g.closing ms.length).1.take n) (by rw [Nat.zero_add]; rfl) hs]
  have hout' : EndsWith c.writer c.proto c.sc h''.info.trailers (asgiError (some .cancelled)) out := hout
  dsimp only [Option.orElse]
  rw [finish_from _ calls _ _ _ _ hout' (fun k _ => hrel k)]
  simp; rfl

theorem ending_no_message (out : EndOut) : ∀ s ∈ asgiEnd out, ¬ IsMessage s := by
  rintro s hs ⟨b, rfl⟩
  cases out <;> simp [asgiEnd] at hs

/-- what `finish` adds to the sends: no message; if a send fails, it is the last one, and its exception is raised -/
theorem finish_halted (c : AsgiCfg Res) (calls : List (Called Req)) (l : LoopOut Req) :
    ∃ more, (c.finish calls l).sends = l.log ++ more ∧ (∀ s ∈ more, ¬ IsMessage s.1) ∧
      (((∀ s ∈ more, s.2 = none) ∧ ((c.finish calls l).escaped = asgiRaised l.exc ∨ ∃ m, (c.finish calls l).escaped = some (.other .structError m))) ∨
        ∃ pre m e, more = pre ++ [(m, some e)] ∧ (∀ s ∈ pre, s.2 = none) ∧ (c.finish calls l).escaped = some e) := by
  have hstart : ¬ IsMessage (c.startEvent l.h.info) := by rintro ⟨b, hb⟩; cases hb
  unfold AsgiCfg.finish
  cases he : c.writer.end' c.proto c.sc l.h.info.trailers ((asgiError l.exc).map ConnectErr.fromException) with
  | error x =>
    obtain ⟨m, rfl⟩ := end_error he
    exact ⟨[], by simp, by simp, .inl ⟨by simp, .inr ⟨m, rfl⟩⟩⟩
  | ok out =>
    dsimp only
    have hst : (∃ l1, c.ensureStart l.sentHeaders l.h.info l.log = (l.log ++ l1, none) ∧ ∀ s ∈ l1, ¬ IsMessage s.1 ∧ s.2 = none) ∨
        ∃ e, c.ensureStart l.sentHeaders l.h.info l.log = (l.log ++ [(c.startEvent l.h.info, some e)], some e) := by
      unfold AsgiCfg.ensureStart
      cases l.sentHeaders with
      | true => exact .inl ⟨[], by simp, by simp⟩
      | false =>
        rw [if_neg (by decide)]
        unfold Env.send
        dsimp only
        cases c.env.sendErr l.log.length with
        | none => exact .inl ⟨_, rfl, by
            intro s hs
            rw [List.mem_singleton.1 hs]
            exact ⟨hstart, rfl⟩⟩
        | some e => exact .inr ⟨e, rfl⟩
    rcases hst with ⟨l1, h1, h2⟩ | ⟨e, h1⟩
    · rw [h1]
      dsimp only
      rcases sendAll_halted c.env (asgiEnd out) (l.log ++ l1) with ⟨l2, h3, h4, h5⟩ | ⟨l2, m, e, h3, h4, h5⟩
      · rw [h3]
        refine ⟨l1 ++ l2, by simp, ?_, .inl ⟨?_, .inl rfl⟩⟩
        · intro s hs
          rcases List.mem_append.1 hs with hs | hs
          · exact (h2 s hs).1
          · exact ending_no_message out _ (h4 s hs)
        · intro s hs
          rcases List.mem_append.1 hs with hs | hs
          · exact (h2 s hs).2
          · exact h5 s hs
      · rw [h3]
        refine ⟨l1 ++ l2 ++ [(m, some e)], by simp, ?_, .inr ⟨l1 ++ l2, m, e, rfl, ?_, rfl⟩⟩
        · intro s hs
          rcases List.mem_append.1 hs with hs | hs
          · rcases List.mem_append.1 hs with hs | hs
            · exact (h2 s hs).1
            · exact ending_no_message out _ (h4 s hs).1
          · rw [List.mem_singleton.1 hs]
            exact ending_no_message out _ h5
        · intro s hs
          rcases List.mem_append.1 hs with hs | hs
          · exact (h2 s hs).2
          · exact (h4 s hs).2
    · rw [h1]
      refine ⟨[(c.startEvent l.h.info, some e)], rfl, ?_, .inr ⟨[], _, e, rfl, by simp, rfl⟩⟩
      intro s hs
      rw [List.mem_singleton.1 hs]
      exact hstart

/-- **C84, whatever is being sent (partial: as above; unless the handler's cleanup code raises)**: a request one of whose sends is cancelled — the headers, a message, the end
marker — does not end normally, and no message is sent after that. -/
theorem C84_sends_partial (c : AsgiCfg Res) (calls : List (Called Req)) (g : Producer Res) (hg : g.closable = true) (hq : Silent Req g)
    (watch : Option (Option Exc)) (hw : ∀ e, watch ≠ some (some e)) (h : HState Req) (pre post : List (Sent × Option Exc)) (m : Sent)
    (hm : (c.respond calls g watch h).1.sends = pre ++ (m, some .cancelled) :: post) :
    (c.respond calls g watch h).1.escaped ≠ none ∧ ∀ s ∈ post, ¬ IsMessage s.1 := by
  obtain ⟨tr, e⟩ := respond_fst c calls g watch h
  rw [e] at hm ⊢
  have hh := drive_halted c g.outcome g.acts h [] false 0 tr (by simp)
  have hrel : Halted (g.release watch (c.drive g.outcome g.acts h [] false 0 tr)) ∨
      ∀ s ∈ (g.release watch (c.drive g.outcome g.acts h [] false 0 tr)).out.log, s.2 = none := by
    generalize hd : c.drive g.outcome g.acts h [] false 0 tr = d at hh
    obtain ⟨o, tr', sus⟩ := d
    cases sus with
    | none =>
      rcases hh with hh | ⟨_, _, _, _, _, _, _, hk, _⟩
      · refine .inr ?_
        rw [release_over g watch hw]; exact hh
      · cases hk
    | some k =>
      obtain ⟨h', hs, hc⟩ := hq k o.h
      have := release_at g hg watch hw o tr' k (steps := (g.closing k).1) (x := none) (by rw [← hc]) hs
      rcases hh with hh | ⟨pre, m, e, k', h1, h2, h3, h4, h5⟩
      · refine .inr ?_
        rw [this]; exact hh
      · refine .inl (.inr ⟨pre, m, e, k, ?_, h2, ?_, ?_, ?_⟩)
        · rw [this]; exact h1
        · rw [this]; exact h3
        · exact release_suspended g watch hw _
        · rw [this]; exact h5
  obtain ⟨more, f1, f2, f3⟩ := finish_halted c calls (g.release watch (c.drive g.outcome g.acts h [] false 0 tr)).out
  generalize (g.release watch (c.drive g.outcome g.acts h [] false 0 tr)) = d at *
  rw [f1] at hm
  have hclean : (∀ s ∈ d.out.log, s.2 = none) → (c.finish calls d.out).escaped ≠ none ∧ ∀ s ∈ post, ¬ IsMessage s.1 := by
    intro hl
    have hmem : (m, some Exc.cancelled) ∈ more := by
      have : (m, some Exc.cancelled) ∈ d.out.log ++ more := by rw [hm]; simp
      rcases List.mem_append.1 this with h | h
      · exact absurd (hl _ h) (by simp)
      · exact h
    rcases f3 with ⟨f3, _⟩ | ⟨pre', m', e', f3, f4, f5⟩
    · exact absurd (f3 _ hmem) (by simp)
    · refine ⟨by rw [f5]; simp, ?_⟩
      -- everything after the first failed send is in `more`
      intro s hs
      have hsplit : (d.out.log ++ pre') ++ (m', some e') :: [] = pre ++ (m, some .cancelled) :: post := by rw [← hm, f3]; simp
      have := after_failed hsplit (by
        intro s hs
        rcases List.mem_append.1 hs with hs | hs
        · exact hl s hs
        · exact f4 s hs)
      rw [this] at hs
      cases hs
  rcases hrel with (hl | ⟨pre', m', e', k, h1, h2, h3, _, _⟩) | hl
  · exact hclean hl
  · have hsplit : pre' ++ (m', some e') :: more = pre ++ (m, some .cancelled) :: post := by rw [← hm, h1]; simp
    refine ⟨?_, ?_⟩
    · rcases f3 with ⟨f3, f4 | ⟨msg, f4⟩⟩ | ⟨_, _, _, _, _, f5⟩
      · have hone := first_failed hsplit h2 (fun s hs => f3 s hs)
        cases hone.2.1
        rw [f4, h3]
        simp [asgiRaised]
      · rw [f4]; simp
      · rw [f5]; simp
    · intro s hs
      exact f2 s (after_mem hsplit h2 s hs)
  · exact hclean hl

/-- `finish` after which the server reports that the request was cancelled -/
theorem finish_told (c : AsgiCfg Res) (calls : List (Called Req)) (l : LoopOut Req) (hs : ∀ n, c.env.sendErr n ≠ some requestCancelled)
    (he : (c.finish calls l).escaped = some requestCancelled) : ToldSuccess c.writer c.proto c.sc (c.finish calls l).sends := by
  unfold AsgiCfg.finish at he ⊢
  cases hw : c.writer.end' c.proto c.sc l.h.info.trailers ((asgiError l.exc).map ConnectErr.fromException) with
  | error x =>
    rw [hw] at he
    obtain ⟨m, rfl⟩ := end_error hw
    cases he
  | ok out =>
    rw [hw] at he
    dsimp only at he ⊢
    cases hst : c.ensureStart l.sentHeaders l.h.info l.log with
    | mk log e =>
      rw [hst] at he
      cases e with
      | some x =>
        exfalso
        unfold AsgiCfg.ensureStart at hst
        cases hb : l.sentHeaders with
        | true => rw [hb, if_pos rfl] at hst; cases hst
        | false =>
          rw [hb, if_neg (by decide)] at hst
          unfold Env.send at hst
          exact hs _ ((Prod.mk.inj hst).2.trans he)
      | none =>
        dsimp only at he ⊢
        rcases sendAll_halted c.env (asgiEnd out) log with ⟨l2, h3, _, _⟩ | ⟨l2, m, e, h3, _, _⟩
        · have hd := sendAll_none h3
          rw [h3] at he ⊢
          dsimp only at he ⊢
          have hx : l.exc = some .cancelled := by
            cases hx : l.exc with
            | none => rw [hx] at he; cases he
            | some x => cases x with
              | cancelled => rfl
              | connect e => rw [hx] at he; cases he
              | http a b => rw [hx] at he; cases he
              | other a b => rw [hx] at he; cases he
          refine ⟨log, l.h.info.trailers, out, ?_, by rw [hd, ← asgiEnding_eq]⟩
          rw [hx] at hw
          exact hw
        · exfalso
          have := sendAll_raises h3
          rw [h3] at he
          obtain ⟨k, hk⟩ := this
          cases he
          exact hs k hk

/-- **C84 violated** for every stream the server takes for cancelled: whatever the handler, the protocol and the point, the client is told that the RPC has succeeded. -/
theorem C84_violation_success (app : App Req Res) (sc : StatusCodec) (scope : Scope) (env : Env) (headers : Headers) (key : List Char)
    (ep : Endpoint Req Res) (p : Proto) (codec : ServerCodec Req Res) (reqComp resComp : Compression)
    (h : AsgiStreamed app scope headers key ep p codec reqComp resComp) (hs : ∀ n, env.sendErr n ≠ some requestCancelled)
    (he : (app.asgi sc scope env).escaped = some requestCancelled) : ToldSuccess (writerOf codec resComp) p sc (app.asgi sc scope env).sends := by
  obtain ⟨name, hn, hcodec⟩ := h.codec
  obtain ⟨ctx, _, hcases⟩ := asgi_stream_cases h.streams hn hcodec h.resComp
  cases hst : ep.handler.start (app.asgiRequests env codec reqComp) ctx with
  | error e =>
    have := ((hcases sc env).2 reqComp h.reqComp).1 e hst
    rw [this] at he ⊢
    exact finish_told (asgiCfg p sc codec resComp env ep.handler) _ _ hs he
  | ok r =>
    have := ((hcases sc env).2 reqComp h.reqComp).2 r.1 r.2.1 r.2.2 hst
    rw [this] at he ⊢
    exact finish_told (asgiCfg p sc codec resComp env ep.handler) _ _ hs he

/-- **C84 violated** at the task that watches for disconnects: a request cancelled while that task is stopped ends normally, and is answered as if it had not been cancelled. -/
theorem C84_violation_watcher (c : AsgiCfg Res) (hrel : Reliable c.env) (calls : List (Called Req)) (g : Producer Res) (w : Option Exc) (h h' : HState Req)
    (hg : g.outcome = none) (i : Meta) (ms : List Res) (hr : Runs c.writer.write none h g.acts none i ms h' none)
    (hd : ∀ j, j < ms.length → c.disconnected j = false) (out : EndOut) (hout : EndsWith c.writer c.proto c.sc h'.info.trailers none out) :
    ∃ bs : List (List UInt8), ms.map c.writer.write = bs.map .ok ∧
      (c.respondCancelled calls g (some w) h .watcher).1 =
        { calls, received := h'.got
          sends := (c.startEvent i :: bs.map (Sent.body · true) ++ asgiEnding out).map (·, none)
          escaped := none } := by
  obtain ⟨bs, h1, h2⟩ := drive_past hr rfl rfl
  refine ⟨bs, h1, ?_⟩
  obtain ⟨tr, e⟩ := respond_fst c calls g (some none) h
  obtain ⟨tr', e'⟩ := h2 [] none [] false 0 tr (fun k _ => hrel k) (fun j hj => hd j (by omega))
  rw [List.append_nil] at e'
  unfold AsgiCfg.respondCancelled
  dsimp only [Option.map, suppressCancelled]
  rw [e, hg, e', AsgiCfg.drive, release_over _ _ (by intro e he; cases he)]
  have hout' : EndsWith c.writer c.proto c.sc h'.info.trailers (asgiError none) out := hout
  rw [finish_from c calls _ _ _ _ hout' (fun k _ => hrel k)]
  cases ms with
  | nil =>
    have hbs : bs = [] := by cases bs with
      | nil => rfl
      | cons b bs => cases h1
    have hi : i = h'.info := start_info hr rfl
    subst hbs hi
    simp; rfl
  | cons m ms => simp; rfl

/-- **C84 violated** for handlers that read a stream, cancelled after the `k + 1`st message: the handler is given these messages and then CANCELED, as from a client that has gone. If it passes that on
the client is told CANCELED; but whatever it does the task ends as the handler ends, and normally if it ends so. -/
theorem C84_violation_reading_stream (app : App Req Res) (ho : Ordinary app) (sc : StatusCodec) (scope : Scope) (env : Env) (k : Nat) (hcan : env.cancelAfter = some k)
    (hrel : Reliable env) (headers : Headers) (key : List Char) (ep : Endpoint Req Res) (p : Proto) (codec : ServerCodec Req Res) (reqComp resComp : Compression)
    (h : AsgiStreamed app scope headers key ep p codec reqComp resComp) (s : ReqStream Req) (hs : AsgiMessages app env codec reqComp s) (ht : ¬ TakesOne ep.handler) :
    ∃ ctx, CtxIs ctx ep.method scope.method (asgiScheme scope) headers (scope.client.map fun ca => ca.1 ++ pys! ":" ++ ca.2) ∧
      ∀ req h0 script, Starts (if k < s.messages.length then ⟨s.messages.take (k + 1), some requestCancelled⟩ else s) ctx ep.handler req h0 script →
      ∀ i ms h' e, Runs (writerOf codec resComp).write script.closeErr h0 script.acts script.outcome i ms h' e →
      e ≠ some .cancelled → ∀ out, EndsWith (writerOf codec resComp) p sc h'.info.trailers e out →
      ∃ bs : List (List UInt8), ms.map (writerOf codec resComp).write = bs.map .ok ∧
        app.asgi sc scope env =
          { calls := [⟨key, ctx, req⟩], received := h'.got
            sends := (.start 200 (streamFields p codec resComp i) (decide (p = .grpc)) :: bs.map (Sent.body · true) ++
              asgiEnding out).map (·, none)
            escaped := reraised e } := by
  obtain ⟨name, hn, hcodec⟩ := h.codec
  obtain ⟨ctx, hctx, hrun⟩ := asgi_stream_run app sc scope env headers key ep p codec reqComp resComp h hrel
  have hw : app.asgiRequests { env with cancelAfter := none } codec reqComp = s :=
    (asgiMessages_iff (env := { env with cancelAfter := none }) rfl ho ⟨name, hcodec⟩ (requestCompression_known h.reqComp)).1 hs
  have he : app.asgiRequests env codec reqComp = if k < s.messages.length then ⟨s.messages.take (k + 1), some requestCancelled⟩ else s := by
    subst hw
    unfold App.asgiRequests
    rw [hcan]
    rfl
  rw [he] at hrun
  refine ⟨ctx, hctx, fun req h0 script hst i ms h' e hr hne out hout => hrun req h0 script hst i ms h' e hr ?_ hne out hout⟩
  rintro ⟨f, hf⟩
  rw [hf] at ht
  exact absurd trivial ht

/-- **C84 violated** while the request is read: the client is told CANCELED, the handler is not called — and the task ends normally. -/
theorem C84_violation_reading (app : App Req Res) (ho : Ordinary app) (sc : StatusCodec) (scope : Scope) (env : Env) (hcan : env.cancelAfter = none)
    (hrel : Reliable env) (headers : Headers) (key : List Char) (ep : Endpoint Req Res) (p : Proto) (codec : ServerCodec Req Res) (reqComp resComp : Compression)
    (h : AsgiStreamed app scope headers key ep p codec reqComp resComp) (s : ReqStream Req) (hs : AsgiMessages app env codec reqComp s) (ht : TakesOne ep.handler)
    (hone : s.messages.length ≤ 1) (herr : s.err = some requestCancelled) (out : EndOut)
    (hout : EndsWith (writerOf codec resComp) p sc Headers.empty (some requestCancelled) out) :
    app.asgi sc scope env =
      { calls := [], received := []
        sends := (.start 200 (streamFields p codec resComp .empty) (decide (p = .grpc)) :: asgiEnding out).map (·, none)
        escaped := none } := by
  obtain ⟨e, hr, hx⟩ := C33_asgi_refused app ho sc scope env hcan hrel headers key ep p codec reqComp resComp h s hs ht (by
    rintro ⟨m, rfl⟩
    cases herr)
  have : e = requestCancelled := by
    cases hr with
    | several h2 => omega
    | none _ he => rw [herr] at he; cases he
    | failed _ e he => rw [herr] at he; exact (Option.some.inj he).symm
  subst this
  exact hx (by intro h; cases h) out hout

/-! ### unary requests -/

/-- a send that is cancelled is the last one, and the cancellation is raised -/
def StopsThere (o : AsgiOut Req) : Prop :=
  ∀ pre m post, o.sends = pre ++ (m, some .cancelled) :: post → post = [] ∧ o.escaped = some .cancelled

theorem none_cancelled {l pre post : List (Sent × Option Exc)} {m : Sent} (hl : ∀ s ∈ l, s.2 ≠ some .cancelled) (h : l = pre ++ (m, some .cancelled) :: post) : False :=
  hl (m, some .cancelled) (by rw [h]; simp) rfl

theorem last_cancelled {l pre post : List (Sent × Option Exc)} {m m' : Sent} {e : Exc} (hl : ∀ s ∈ l, s.2 ≠ some .cancelled)
    (h : l ++ [(m', some e)] = pre ++ (m, some .cancelled) :: post) : post = [] ∧ e = .cancelled := by
  induction l generalizing pre with
  | nil =>
    cases pre with
    | nil => obtain ⟨h1, h2⟩ := List.cons.inj h; cases h1; exact ⟨h2.symm, rfl⟩
    | cons z pre => have := (List.cons.inj h).2; simp at this
  | cons z l ih =>
    cases pre with
    | nil => exact absurd (by rw [(List.cons.inj h).1]) (hl z (by simp))
    | cons z' pre => exact ih (fun s hs => hl s (List.mem_cons_of_mem _ hs)) (List.cons.inj h).2

theorem fail_stops (env : Env) (calls : List (Called Req)) (log : List (Sent × Option Exc)) (e : Exc) (ctx : Option Meta)
    (hl : ∀ s ∈ log, s.2 ≠ some .cancelled) : StopsThere (asgiFail env calls log e ctx) := by
  intro pre m post h
  unfold asgiFail at h ⊢
  by_cases hx : e.isException
  · rw [if_pos hx] at h ⊢
    dsimp only at h ⊢
    rcases sendAll_halted env [.start (errorResponse (pys! "content-type") e ctx).1 (errorResponse (pys! "content-type") e ctx).2.1 false,
        .body (errorResponse (pys! "content-type") e ctx).2.2.flatten false] log with ⟨l2, h3, _, h5⟩ | ⟨l2, m', e', h3, h4, _⟩
    · rw [h3] at h
      exact (none_cancelled (by
        intro s hs
        rcases List.mem_append.1 hs with hs | hs
        · exact hl s hs
        · rw [h5 s hs]; simp) h).elim
    · rw [h3] at h ⊢
      obtain ⟨h1, h2⟩ := last_cancelled (by
        intro s hs
        rcases List.mem_append.1 hs with hs | hs
        · exact hl s hs
        · rw [(h4 s hs).2]; simp) h
      exact ⟨h1, by rw [h2]⟩
  · rw [if_neg hx] at h
    exact (none_cancelled hl h).elim

theorem unary_stops (app : App Req Res) (env : Env) (key httpMethod : Str) (headers : Headers) (codec : ServerCodec Req Res)
    (params : Dict Str (List Str)) (ctx : RequestContext) (f : Req → RequestContext → Call Res) :
    StopsThere (app.asgiUnary env key httpMethod headers codec params ctx f) := by
  unfold App.asgiUnary
  dsimp only
  cases (if httpMethod = pys! "GET" then app.asgiGet params codec else app.asgiPost env headers codec) with
  | error e => exact fail_stops _ _ _ _ _ (by simp)
  | ok req =>
    dsimp only
    cases (HState.init ⟨[], none⟩ : HState Req).call (f req ctx).steps (f req ctx).result with
    | mk h r =>
      cases r with
      | error e => exact fail_stops _ _ _ _ _ (by simp)
      | ok response =>
        dsimp only
        cases codec.res.encode response with
        | error e => exact fail_stops _ _ _ _ _ (by simp)
        | ok data =>
          dsimp only
          generalize [Sent.start 200 (asgiUnaryHeaders codec.name (negotiateCompression (headers.getD (pys! "accept-encoding") []) app.comps).name h.info) false,
            .body ((negotiateCompression (headers.getD (pys! "accept-encoding") []) app.comps).compress data) false] = evs
          rcases sendAll_halted env evs [] with ⟨l2, h3, _, h5⟩ | ⟨l2, m', e', h3, h4, _⟩
          · rw [h3]
            intro pre m post h
            exact (none_cancelled (by intro s hs; rw [h5 s hs]; simp) h).elim
          · rw [h3]
            dsimp only
            have hl2 : ∀ s ∈ [] ++ l2, s.2 ≠ some Exc.cancelled := by
              intro s hs
              rw [(h4 s hs).2]; simp
            by_cases hc : e' = .cancelled
            · subst hc
              intro pre m post h
              exact ⟨(last_cancelled hl2 h).1, rfl⟩
            · refine fail_stops _ _ _ _ _ ?_
              intro s hs
              rcases List.mem_append.1 hs with hs | hs
              · exact hl2 s hs
              · rw [List.mem_singleton.1 hs]
                intro h; exact hc (Option.some.inj h)

/-- **C84, unary Connect requests, sends**: nothing is sent after a send that is cancelled, whatever is being sent — a response, an error —, and the task raises
`CancelledError`. -/
theorem C84_unary_sends (app : App Req Res) (sc : StatusCodec) (scope : Scope) (env : Env) (headers : Headers) (key : List Char) (m : MethodInfo)
    (f : Req → RequestContext → Call Res) (h : AsgiConnectUnary app scope headers key m f) (pre post : List (Sent × Option Exc)) (s : Sent)
    (hs : (app.asgi sc scope env).sends = pre ++ (s, some .cancelled) :: post) :
    post = [] ∧ (app.asgi sc scope env).escaped = some .cancelled := by
  have : StopsThere (app.asgi sc scope env) := by
    unfold App.asgi
    cases hr : app.asgiRoute scope with
    | error e => exact fail_stops _ _ _ _ _ (by simp)
    | ok r =>
      obtain ⟨h1, _, h3, h4, _⟩ := asgiRoute_ok hr
      obtain ⟨_, hep⟩ := AsgiTarget.unique h1 h.target
      rw [h.decoded] at h3
      cases h3
      rw [(negotiate_connect _).2 h.connect] at h4
      dsimp only
      cases app.asgiCodec scope r with
      | error e => exact fail_stops _ _ _ _ _ (by simp)
      | ok pc =>
        dsimp only
        rw [hep, h4]
        exact unary_stops app env r.key r.httpMethod r.headers pc.2 pc.1 r.ctx f
  exact this pre s post hs

theorem body_waits {r : List Recv} (h : Waits r) : (asgiBody r).2 = some .cancelled := by
  induction r with
  | nil => rfl
  | cons e r ih =>
    obtain ⟨b, rfl⟩ := h e (by simp)
    unfold asgiBody
    rw [if_pos rfl]
    exact ih (fun e he => h e (List.mem_cons_of_mem _ he))

/-- **C84, unary Connect requests, reading and running**: a request cancelled while its body is read runs no handler; one cancelled in its handler has run it once. Nothing is
sent, and the task raises `CancelledError`. -/
theorem C84_unary (app : App Req Res) (sc : StatusCodec) (scope : Scope) (env : Env) (headers : Headers) (key : List Char) (m : MethodInfo)
    (f : Req → RequestContext → Call Res) (codec : ServerCodec Req Res) (h : AsgiPosted app scope headers key m f codec) :
    (Waits env.receive → app.asgi sc scope env = { calls := [], received := [], sends := [], escaped := some .cancelled }) ∧
    (Reliable env → ∀ req, AsgiCarries app scope env headers m codec req → (∀ ctx, (f req ctx).result = .error .cancelled) →
      (app.asgi sc scope env).calls.map (fun c => (c.path, c.req)) = [(key, some req)] ∧ (app.asgi sc scope env).sends = [] ∧
      (app.asgi sc scope env).escaped = some .cancelled) := by
  constructor
  · intro hw
    rw [asgi_posted (e := .cancelled) h sc env (by
      have := body_waits hw
      unfold App.asgiPost
      cases hb : asgiBody env.receive with
      | mk chunks e => rw [hb] at this; dsimp only at this; rw [this])]
    rfl
  · intro hrel req hc hf
    obtain ⟨ctx, _, h1, _, h3⟩ := C63_asgi app sc scope env headers key m f h.unary hrel codec req hc
    obtain ⟨h4, h5⟩ := h3 .cancelled (.inl (hf ctx)) rfl
    exact ⟨by rw [h1]; rfl, h4, h5⟩

/-! ### concrete cases -/

/-- `C84_handler_partial`, `C84_finished_partial`: a gRPC handler with three messages is cancelled after the first two: both are sent, and status 0 -/
example : (stayCfg.respondCancelled (Req := Bytes) [] (tidyGen [[1], [2], [3]]) (some none) (.init ⟨[], none⟩) (.handler 2)).1.sends.map (·.1) =
      [stayCfg.startEvent .empty, .body [0, 0, 0, 0, 1, 1] true, .body [0, 0, 0, 0, 1, 2] true, .body [] false,
       .trailers [(pys! "grpc-status", pys! "0")] false] ∧
    (stayCfg.respondCancelled (Req := Bytes) [] (tidyGen [[1], [2], [3]]) (some none) (.init ⟨[], none⟩) (.handler 2)).1.escaped = some requestCancelled := by
  decide +kernel

/-- the hypotheses of `C84_handler_partial`, `C84_send_partial`, `C84_closing_partial`, `C84_sends_partial` -/
example : Reliable stayCfg.env ∧ (tidyGen [[1], [2], [9]]).closable = true ∧ (tidyGen [[1], [2], [9]]).acts = [.emit [1]] ++ [.emit [2], .emit [9]] ∧
    Runs stayCfg.writer.write none (.init ⟨[], none⟩ : HState Bytes) [.emit [1]] none .empty [[1]] (.init ⟨[], none⟩) none ∧
    (∀ j, stayCfg.disconnected j = false) ∧ stayCfg.writer.write [2] = .ok [0, 0, 0, 0, 1, 2] ∧ Silent Bytes (tidyGen [[1], [2], [9]]) ∧
    (∃ out, EndsWith stayCfg.writer stayCfg.proto stayCfg.sc Headers.empty none out) :=
  ⟨fun _ => rfl, rfl, rfl, .emit (b := [0, 0, 0, 0, 1, 1]) rfl (.done ..), fun _ => rfl, rfl, fun n h => ⟨_, ⟨_, rfl, rfl⟩, rfl⟩, _, rfl⟩

/-- `C84_send_partial`: cancelled while the second message is sent; the cleanup code's trailer is there, and status 0 -/
example : (stayCfg.respondCancelled (Req := Bytes) [] (tidyGen [[1], [2], [3]]) (some none) (.init ⟨[], none⟩) (.send 2)).1.sends =
      [(stayCfg.startEvent .empty, none), (.body [0, 0, 0, 0, 1, 1] true, none), (.body [0, 0, 0, 0, 1, 2] true, some .cancelled), (.body [] false, none),
       (.trailers [(pys! "x-rows", pys! "7"), (pys! "grpc-status", pys! "0")] false, none)] := by decide +kernel

/-- `C84_sends_partial`: cancelled while the headers are sent (they are sent again), and while the trailers are sent -/
example : (stayCfg.respondCancelled (Req := Bytes) [] (tidyGen [[1]]) (some none) (.init ⟨[], none⟩) (.send 0)).1.sends.map (·.2) = [some .cancelled, none, none, none] ∧
    (stayCfg.respondCancelled (Req := Bytes) [] (tidyGen [[1]]) (some none) (.init ⟨[], none⟩) (.send 3)).1.sends.map (·.2) = [none, none, none, some .cancelled] ∧
    (stayCfg.respondCancelled (Req := Bytes) [] (tidyGen [[1]]) (some none) (.init ⟨[], none⟩) (.send 3)).1.escaped = some .cancelled := by decide +kernel

/-- `C84_closing_partial`: the second message cannot be encoded, and the cleanup code is cancelled: status 0 -/
example : (stayCfg.respondCancelled (Req := Bytes) [] (tidyGen [[1], [9], [3]]) (some none) (.init ⟨[], none⟩) (.closing 0)).1.sends.map (·.1) =
    [stayCfg.startEvent .empty, .body [0, 0, 0, 0, 1, 1] true, .body [] false, .trailers [(pys! "grpc-status", pys! "0")] false] := by decide +kernel

/-- `C84_violation_watcher` -/
example : (stayCfg.respondCancelled (Req := Bytes) [] (tidyGen [[1]]) (some none) (.init ⟨[], none⟩) .watcher).1.escaped = none ∧
    (tidyGen [[1]]).outcome = none ∧ Runs stayCfg.writer.write none (.init ⟨[], none⟩ : HState Bytes) (tidyGen [[1]]).acts none .empty [[1]] (.init ⟨[], none⟩) none :=
  ⟨by decide +kernel, rfl, .emit (b := [0, 0, 0, 0, 1, 1]) rfl (.done ..)⟩

/-- `C84_violation_success`: the handler of `C35_violation_cancelled` -/
example : AsgiStreamed flowApp (flowScope (pys! "/a.S/List") (pys! "application/grpc") []) (flowHeaders (pys! "application/grpc") []) (pys! "/a.S/List")
      ⟨listInfo, .serverStream listRun⟩ .grpc protoCodec .identity .identity ∧
    (∀ n, (demoEnv [.request [0, 0, 0, 0, 1, 3] false]).sendErr n ≠ some requestCancelled) ∧
    (flowApp.asgi demoStatus (flowScope (pys! "/a.S/List") (pys! "application/grpc") []) (demoEnv [.request [0, 0, 0, 0, 1, 3] false])).escaped =
      some requestCancelled := ⟨flow_asgi_list, (fun _ h => by cases h), by decide +kernel⟩

/-- `C84_violation_reading`: nothing arrives but the beginning of a message -/
example : AsgiMessages flowApp (demoEnv [.request [0, 0] true]) protoCodec .identity ⟨[], some requestCancelled⟩ ∧
    TakesOne (Handler.serverStream listRun) ∧ (demoEnv [.request [0, 0] true]).cancelAfter = none ∧ Ordinary flowApp ∧
    (flowApp.asgi demoStatus (flowScope (pys! "/a.S/List") (pys! "application/grpc") []) (demoEnv [.request [0, 0] true])).escaped = none :=
  ⟨(asgiMessages_iff rfl flow_ordinary ⟨pys! "proto", rfl⟩ (.inl rfl)).2 (by decide +kernel), trivial, rfl, flow_ordinary, by decide +kernel⟩

/-- `C84_violation_reading_stream`: three messages arrive, and the task is cancelled after the second -/
def cutEnv : Env := { demoEnv [.request [0, 0, 0, 0, 1, 3, 0, 0, 0, 0, 1, 4, 0, 0, 0, 0, 1, 5] false] with cancelAfter := some 1 }

example : AsgiStreamed flowApp (flowScope (pys! "/a.S/Chat") (pys! "application/grpc") []) (flowHeaders (pys! "application/grpc") []) (pys! "/a.S/Chat")
      ⟨chatInfo, .bidi chatRun⟩ .grpc protoCodec .identity .identity ∧ Reliable cutEnv ∧ ¬ TakesOne (Handler.bidi chatRun) ∧
    AsgiMessages flowApp cutEnv protoCodec .identity ⟨[[3], [4], [5]], none⟩ ∧
    (flowApp.asgi demoStatus (flowScope (pys! "/a.S/Chat") (pys! "application/grpc") []) cutEnv).received = [[3], [4]] ∧
    (flowApp.asgi demoStatus (flowScope (pys! "/a.S/Chat") (pys! "application/grpc") []) cutEnv).escaped = none :=
  ⟨⟨⟨asgiLookup_ok.1 rfl, by decide +kernel, .inl rfl, (speaks_iff ..).2 (by decide +kernel), fun _ => rfl,
      fun v hv => (by cases hv), fun h => (by cases h)⟩,
    ⟨pys! "proto", .inl ⟨by decide, (streamCodecName_iff ..).2 (by decide +kernel)⟩, rfl⟩, .inl rfl, responseCompression_iff.1 rfl⟩, fun _ => rfl, id,
   (asgiMessages_iff (env := { cutEnv with cancelAfter := none }) rfl flow_ordinary ⟨pys! "proto", rfl⟩ (.inl rfl)).2 (by decide +kernel),
   by decide +kernel, by decide +kernel⟩

/-- `C84_unary`, `C84_unary_sends`: cancelled while the body is read, in the handler (`[9]`), and while the headers of the response are sent -/
example : AsgiPosted tellApp (pickyScope []) (pickyHeaders []) (pys! "/a.S/Echo") echoInfo tellCall ⟨pys! "proto", rawCodec, rawCodec⟩ ∧
    Waits (demoEnv [.request [1] true]).receive ∧
    AsgiCarries tellApp (pickyScope []) (demoEnv [.request [9] false]) (pickyHeaders []) echoInfo ⟨pys! "proto", rawCodec, rawCodec⟩ [9] ∧
    (∀ ctx, (tellCall [9] ctx).result = .error .cancelled) ∧
    (tellApp.asgi demoStatus (pickyScope []) { demoEnv [.request [1] false] with sendErr := fun n => if n = 0 then some .cancelled else none }).sends.map (·.2) =
      [some .cancelled] :=
  ⟨⟨⟨asgiLookup_ok.1 rfl, by decide +kernel, (negotiate_connect _).1 (by decide +kernel)⟩, rfl,
    connectHeaders_of (by decide +kernel) (by decide +kernel), pys! "proto", (unaryCodecName_iff ..).2 (by decide +kernel), rfl⟩,
   (by intro e he; rw [List.mem_singleton.1 he]; exact ⟨_, rfl⟩),
   ⟨connectHeaders_of (by decide +kernel) (by decide +kernel),
    .inl ⟨rfl, pys! "proto", _, _, (unaryCodecName_iff ..).2 (by decide +kernel), rfl, .last [9] [],
      ⟨.identity, by
        rw [show lower ((pickyHeaders []).getD (pys! "content-encoding") (pys! "identity")) = pys! "identity" by decide +kernel]
        rfl, .inr ⟨by decide, rfl⟩⟩, (by intro n h; cases h), rfl⟩⟩, fun _ => rfl, by decide +kernel⟩

end Props
