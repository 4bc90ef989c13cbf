import Verif.Proofs.Duplex
import Verif.Props.StreamEndToEnd
/-
C71: bidirectional streams while both sides are active, for every schedule. C76: the same on WSGI servers.
-/
namespace Props
open Py Spec Conn

variable {Req Res : Type}

section
variable {l : Line Req Res} {h : LiveHandler Req Res} {sendable : Req → Prop}

theorem run_inv (hl : Fitting l sendable) (hr : Reasonable l h) {k' : Compression} (hk : Accepts l k') :
    ∀ (moves : List (Move Req)) (s s' : Duplex h), GivesOnly sendable moves → UpInv l s ∧ DownInv l k' s → l.run moves s = some s' →
      UpInv l s' ∧ DownInv l k' s'
  | [], s, s', _, hi, hs => by cases hs; exact hi
  | mv :: mvs, s, s', hg, hi, hs => by
    unfold Line.run at hs
    cases h1 : l.step mv s with
    | none => rw [h1] at hs; cases hs
    | some s1 =>
      rw [h1] at hs
      refine run_inv hl hr hk mvs s1 s' (fun m hm => hg m (List.mem_cons_of_mem _ hm)) ⟨?_, ?_⟩ hs
      · exact up_step hl (fun m hm => hg m (by rw [hm]; exact List.mem_cons_self)) hi.1 h1
      · exact down_step hk hr hi.2 h1

/-- the end of the iteration, as a whole -/
theorem concluded_reads {s : Duplex h} {i : Meta} {o : Inlet Res ClientSub} {k' : Compression} {chunks : List Bytes} {r : Sink × Option Exc}
    {t : List (Str × Str)} (ht : s.ended = some t) (hready : o.ready = [])
    (hf : feedAll (l.c.reader k') (.init (ClientSub.init (l.told i))) chunks = (s.received ++ o.ready, stopOf o.err, o.reader))
    (hc : Concluded l s i o r) {error : Option ConnectErr}
    (hs : Seen error (l.c.readBody l.sc (l.told i) k' ⟨200, l.seen (l.fields i), chunks, none, l.seen t, none⟩ ⟨false, false, none, false⟩).exc) :
    s.received = (l.c.readBody l.sc (l.told i) k' ⟨200, l.seen (l.fields i), chunks, none, l.seen t, none⟩ ⟨false, false, none, false⟩).messages ∧
    r.1 = (l.c.readBody l.sc (l.told i) k' ⟨200, l.seen (l.fields i), chunks, none, l.seen t, none⟩ ⟨false, false, none, false⟩).sink ∧
    r.2 = (l.c.readBody l.sc (l.told i) k' ⟨200, l.seen (l.fields i), chunks, none, l.seen t, none⟩ ⟨false, false, none, false⟩).exc := by
  have hcan : cancelPoint l.c.flavor none (feedAll (l.c.reader k') (.init (ClientSub.init (l.told i))) chunks).1.length = none := by
    cases l.c.flavor <;> rfl
  unfold Client.readBody at hs ⊢
  dsimp only at hs ⊢
  rw [hcan] at hs ⊢
  rw [hf, hready, List.append_nil] at hs ⊢
  have hfail : ∀ sink b sub e, Seen error (some e) → l.fail sink b sub e = (sink, some e) := by
    intro sink b sub e he
    cases error with
    | none => cases he
    | some x => obtain ⟨e', he, _⟩ := he; cases he; rfl
  rcases hc with ⟨e, h1, rfl⟩ | ⟨h1, h2, q, rfl, h3⟩
  · rw [h1] at hs ⊢
    dsimp only [stopOf] at hs ⊢
    rw [hfail _ _ _ _ hs]
    exact ⟨rfl, rfl, rfl⟩
  · rw [h1] at hs ⊢
    dsimp only [stopOf] at hs ⊢
    rw [if_neg (by simp)] at hs ⊢
    dsimp only at hs ⊢
    rw [ht] at h3
    rcases h3 with ⟨h3, rfl⟩ | ⟨e, h3, rfl⟩
    · exact ⟨rfl, rfl, h3.symm⟩
    · have h3' : (l.c.proto.complete l.sc o.reader.sub ⟨200, l.seen (l.fields i), l.seen t⟩ none).2 = some e := h3
      rw [h3'] at hs
      rw [hfail _ _ _ _ hs, h3']
      exact ⟨rfl, rfl, rfl⟩

/-- **C71, order.** Whatever the schedule: the handler has been told the caller's messages, in order, and the end of the stream only after all of them
and after the caller has ended it; it has yielded what it yields when told that; and the caller has received the first of those
messages, in order. -/
theorem C71_order (hl : Fitting l sendable) (hr : Reasonable l h) (moves : List (Move Req)) (hm : GivesOnly sendable moves)
    (s : Duplex h) (hs : l.run moves (Duplex.start h) = some s) :
    Answered s.given s.closed s.told ∧ Follows h s.told s.yielded s.handler ∧ s.received <+: s.yielded := by
  obtain ⟨k', hk, hk'⟩ := accepts_of hl
  obtain ⟨hu, hd⟩ := run_inv hl hr hk moves _ s hm ⟨up_start, down_start⟩ hs
  refine ⟨?_, hd.follows, ?_⟩
  · obtain ⟨_, heof, fs, chunks, msgs, j, c1, c2, c3, c4, c5, c6⟩ := hu
    obtain ⟨⟨k, p1⟩, _, p3⟩ := up_prefix c1 c2 c3
    rw [c4] at p1 p3
    dsimp only at p1 p3
    rcases Nat.eq_zero_or_pos j with rfl | hj
    · have : msgs = s.given.take msgs.length := by
        have h3 : msgs <+: s.given := by
          have : msgs <+: s.given.take k := by rw [← p1]; exact List.prefix_append _ _
          exact this.trans (List.take_prefix _ _)
        exact List.prefix_iff_eq_take.1 h3
      rw [c5, List.replicate_zero, List.append_nil, this]
      exact .some _
    · obtain ⟨e1, e2⟩ := c6 hj
      obtain ⟨e3, e4⟩ := heof e2
      have := p3 e4
      rw [e1, List.append_nil] at this
      rw [c5, this]
      exact .all e3 j
  · cases ho : s.outlet with
    | none =>
      obtain ⟨bs, tail, _, _, a6⟩ := hd.flow
      rw [ho] at a6
      rw [a6.1]
      exact List.nil_prefix
    | some co =>
      obtain ⟨comp, o⟩ := co
      exact (List.prefix_append _ _).trans (down_prefix hl hr hk hk' hd ho).1

/-- When nothing can happen unless the caller gives a message or ends the stream, and the caller has not got the end of the response: the handler is
waiting and no chunk of the request may arrive, or its stream has ended with an error and the request is being drained; and the caller has received all
the handler has yielded. -/
theorem stuck_state (hl : Fitting l sendable) (hr : Reasonable l h) (moves : List (Move Req)) (hm : GivesOnly sendable moves)
    (s : Duplex h) (hs : l.run moves (Duplex.start h) = some s) (hstuck : ∀ mv : Move Req, mv.byCaller = false → l.step mv s = none) :
    s.outcome.isSome = true ∨
    (s.received = s.yielded ∧
      (((∃ k, h.next s.handler = .read k) ∧ (∀ n last, l.host.mayArrive s.up s.closed n last = false) ∧
        (∃ n, s.told = (s.given.take n).map fun m => .ok (some m)) ∧
        (s.up = [] → s.told = s.given.map fun m => .ok (some m))) ∨
       (l.host.drains = true ∧ s.closed = false ∧
        ∃ info e, Finishes h (writerOf l.codec l.resComp) s.told s.yielded info (some e)))) := by
  obtain ⟨k', hk, hk'⟩ := accepts_of hl
  obtain ⟨hu, hd⟩ := run_inv hl hr hk moves _ s hm ⟨up_start, down_start⟩ hs
  cases hoc : s.outcome with
  | some r => exact .inl rfl
  | none =>
    right
    -- the client
    have client : ∀ i, s.started = some i → s.ended = none ∧ s.received = s.yielded := by
      intro i hst
      cases ho : s.outlet with
      | none =>
        have := hstuck .headers rfl
        unfold Line.step at this
        dsimp only at this
        rw [hst, ho, hoc] at this
        dsimp only at this
        rw [(hk i).1] at this
        dsimp only at this
        rw [(hk i).2] at this
        cases this
      | some co =>
        obtain ⟨comp, o⟩ := co
        have htake := hstuck .take rfl
        unfold Line.step at htake
        dsimp only at htake
        rw [ho, hoc, hst] at htake
        dsimp only at htake
        cases hready : o.ready with
        | cons m ms => rw [hready] at htake; cases htake
        | nil =>
          rw [hready] at htake
          cases herr : o.err with
          | some e => rw [herr] at htake; cases htake
          | none =>
            rw [herr] at htake
            dsimp only at htake
            cases heof : o.eof with
            | true =>
              rw [heof, if_pos rfl] at htake
              cases hq : (l.c.proto.complete l.sc o.reader.sub ⟨200, l.seen (l.fields i), l.seen (s.ended.getD [])⟩ none).2 with
              | none => rw [hq] at htake; cases htake
              | some e => rw [hq] at htake; cases htake
            | false =>
              have hidle : o.idle = true := idle_iff.2 ⟨hready, herr, heof⟩
              have hreply : ∀ n last, mayArrive s.down s.ended.isSome n last = true → False := by
                intro n last hmay
                have := hstuck (.reply n last) rfl
                unfold Line.step at this
                dsimp only at this
                rw [ho, hoc] at this
                dsimp only at this
                rw [hidle, hmay] at this
                cases this
              have hdown : s.down = [] := by
                cases hdn : s.down with
                | nil => rfl
                | cons b r =>
                  refine (hreply s.down.length false ?_).elim
                  rw [hdn]
                  simp [mayArrive]
              have hen : s.ended = none := by
                cases hen : s.ended with
                | none => rfl
                | some t =>
                  refine (hreply 0 true ?_).elim
                  rw [hen, hdown]
                  rfl
              have := (down_prefix hl hr hk hk' hd ho).2.2 hdown
              rw [hready, List.append_nil] at this
              exact ⟨hen, this⟩
    have hrec : s.received = s.yielded := by
      cases hst : s.started with
      | some i => exact (client i hst).2
      | none =>
        obtain ⟨e1, _, e3⟩ := hd.startNone hst
        obtain ⟨bs, tail, _, _, a6⟩ := hd.flow
        rw [e3] at a6
        rw [e1, a6.1]
    refine ⟨hrec, ?_⟩
    -- the application
    have undrained : ∀ e, AtEnd h l.writer s.handler e → l.drained s.closed e = false → l.host.drains = true ∧ s.closed = false ∧
        ∃ info e, Finishes h (writerOf l.codec l.resComp) s.told s.yielded info (some e) := by
      intro e ha hdr
      unfold Line.drained at hdr
      rw [Bool.or_eq_false_iff, Bool.not_eq_false', Bool.and_eq_true] at hdr
      obtain ⟨⟨h1, h2⟩, h3⟩ := hdr
      cases e with
      | none => cases h2
      | some e => exact ⟨h1, h3, _, e, finishes_of hd.follows ha⟩
    cases hn : h.next s.handler with
    | done e =>
      right
      cases hdr : l.drained s.closed e with
      | false => exact undrained e (.inl hn) hdr
      | true =>
      exfalso
      cases hen : s.ended with
      | some t =>
        cases hst : s.started with
        | none => have := (hd.startNone hst).2.1; rw [hen] at this; cases this
        | some i => have := (client i hst).1; rw [hen] at this; cases this
      | none =>
        have := hstuck .finish rfl
        unfold Line.step at this
        dsimp only at this
        rw [hen, hn] at this
        dsimp only at this
        have hfi : finalInfo h s.handler = h.info s.handler := by unfold finalInfo; rw [hn]
        obtain ⟨out, _, heq⟩ := duplex_finish hr hd (.inl hn) hdr
        rw [← hfi, heq] at this
        cases this
    | emit m st =>
      right
      cases hen : s.ended with
      | some t =>
        exfalso
        cases hst : s.started with
        | none => have := (hd.startNone hst).2.1; rw [hen] at this; cases this
        | some i => have := (client i hst).1; rw [hen] at this; cases this
      | none =>
        have := hstuck .emit rfl
        unfold Line.step at this
        dsimp only at this
        rw [hen, hn] at this
        dsimp only at this
        cases hw : (EnvelopeWriter.mk l.codec.res (some l.resComp)).write m with
        | ok b => rw [hw] at this; cases this
        | error e =>
          cases hdr : l.drained s.closed (some e) with
          | false => exact undrained (some e) (.inr ⟨m, st, e, hn, hw, rfl⟩) hdr
          | true =>
          exfalso
          rw [hw] at this
          dsimp only at this
          have hfi : finalInfo h s.handler = h.info st := by unfold finalInfo; rw [hn]
          obtain ⟨out, _, heq⟩ := duplex_finish hr hd (.inr ⟨m, st, e, hn, hw, rfl⟩) hdr
          rw [← hfi, ← hen, show ({ s with started := some (s.started.getD (finalInfo h s.handler)), ended := s.ended } : Duplex h) =
            { s with started := some (s.started.getD (finalInfo h s.handler)) } from rfl, finish_started, heq] at this
          cases this
    | read k =>
      left
      obtain ⟨uerr, ueof, fs, chunks, msgs, j, c1, c2, c3, c4, c5, c6⟩ := hu
      have hans := hstuck .answer rfl
      unfold Line.step at hans
      dsimp only at hans
      rw [hn] at hans
      dsimp only at hans
      cases hready : s.inlet.ready with
      | cons m ms => rw [hready] at hans; cases hans
      | nil =>
        rw [hready, uerr] at hans
        dsimp only at hans
        cases heof : s.inlet.eof with
        | true => rw [heof] at hans; cases hans
        | false =>
          have hidle : s.inlet.idle = true := idle_iff.2 ⟨hready, uerr, heof⟩
          have harr : ∀ n last, l.host.mayArrive s.up s.closed n last = false := by
            intro n last
            rw [Bool.eq_false_iff]
            intro hmay
            have := hstuck (.arrive n last) rfl
            unfold Line.step at this
            dsimp only at this
            rw [hn] at this
            dsimp only at this
            rw [hidle, hmay] at this
            cases this
          have hj : j = 0 := by
            rcases Nat.eq_zero_or_pos j with hj | hj
            · exact hj
            · have := (c6 hj).2
              rw [heof] at this
              cases this
          subst hj
          obtain ⟨⟨n, p1⟩, _, p3⟩ := up_prefix c1 c2 c3
          rw [c4, hready, List.append_nil] at p1 p3
          dsimp only at p1 p3
          rw [List.replicate_zero, List.append_nil] at c5
          exact ⟨⟨k, rfl⟩, harr, ⟨n, by rw [c5, p1]⟩, fun hup => by rw [c5, p3 hup]⟩

/-- no chunk may arrive on a server that hands on what there is -/
theorem nothing_arrives {host : Host} {b : Bytes} {e : Bool} (hw : ∀ http1, host ≠ .wsgi true http1) (h : ∀ n last, host.mayArrive b e n last = false) :
    b = [] ∧ e = false := by
  have hb : b = [] := by
    cases hb : b with
    | nil => rfl
    | cons x r =>
      exfalso
      cases host with
      | asgi =>
        have := h b.length false
        rw [hb] at this
        simp [Host.mayArrive, mayArrive] at this
      | wsgi fills http1 =>
        have hf : fills = false := by
          cases fills with
          | false => rfl
          | true => exact absurd rfl (hw http1)
        have := h 1 false
        rw [hb, hf] at this
        simp [Host.mayArrive, mayArrive] at this
  refine ⟨hb, ?_⟩
  cases e with
  | false => rfl
  | true =>
    have := h 0 true
    rw [hb] at this
    cases host <;> simp [Host.mayArrive, mayArrive] at this

/-- no chunk may arrive, on any server -/
theorem little_waits {host : Host} {b : Bytes} {e : Bool} (h : ∀ n last, host.mayArrive b e n last = false) : e = false ∧ b.length < 4096 := by
  rcases host with _ | ⟨_ | _, http1⟩
  · obtain ⟨h1, h2⟩ := nothing_arrives (fun _ h => by cases h) h
    rw [h1]; exact ⟨h2, by decide⟩
  · obtain ⟨h1, h2⟩ := nothing_arrives (fun _ h => by cases h) h
    rw [h1]; exact ⟨h2, by decide⟩
  have hb : b.length < 4096 := by
    rcases Nat.lt_or_ge b.length 4096 with hb | hb
    · exact hb
    · have := h 4096 false
      simp [Host.mayArrive, mayArrive] at this
      omega
  refine ⟨?_, hb⟩
  cases e with
  | false => rfl
  | true =>
    cases hc : b with
    | nil =>
      have := h 0 true
      rw [hc] at this
      simp [Host.mayArrive, mayArrive] at this
    | cons x r =>
      have := h b.length false
      simp [Host.mayArrive, mayArrive, hc] at this
      rw [hc, List.length_cons] at hb
      omega

/-- **C71, no waiting beyond need.** On ASGI, and on WSGI servers not of HTTP/1 whose `read(size)` returns what there is: when nothing can happen unless the caller
gives a message or ends the stream, then either the
caller has got the end of the response, or the handler is waiting for a message, has been told all the caller has given, and the caller has
received all the handler has yielded. -/
theorem C71_progress (hl : Fitting l sendable) (hr : Reasonable l h) (hw : l.host = .asgi ∨ l.host = .wsgi false false) (moves : List (Move Req))
    (hm : GivesOnly sendable moves)
    (s : Duplex h) (hs : l.run moves (Duplex.start h) = some s) (hstuck : ∀ mv : Move Req, mv.byCaller = false → l.step mv s = none) :
    s.outcome.isSome = true ∨
    ((∃ k, h.next s.handler = .read k) ∧ s.closed = false ∧ (s.told = s.given.map fun m => .ok (some m)) ∧ s.received = s.yielded) := by
  rcases stuck_state hl hr moves hm s hs hstuck with h1 | ⟨hrec, ⟨hk, harr, _, hall⟩ | ⟨hdr, _⟩⟩
  · exact .inl h1
  · obtain ⟨hup, hcl⟩ := nothing_arrives (by rcases hw with h | h <;> rw [h] <;> exact nofun) harr
    exact .inr ⟨hk, hcl, hall hup, hrec⟩
  · rcases hw with h | h <;> rw [h] at hdr <;> cases hdr

/-- **C76, on every server** (partial): when nothing can happen unless the caller acts, and the caller has not got the end of the response, the caller
has not ended the stream and has received all the handler has yielded. Either the handler is waiting, and what is held back from it is less than 4096
bytes, and nothing if `read(size)` returns what there is; or the server is a WSGI server of HTTP/1, and the handler's stream has ended with an error. -/
theorem C76_progress_partial (hl : Fitting l sendable) (hr : Reasonable l h) (moves : List (Move Req))
    (hm : GivesOnly sendable moves)
    (s : Duplex h) (hs : l.run moves (Duplex.start h) = some s) (hstuck : ∀ mv : Move Req, mv.byCaller = false → l.step mv s = none) :
    s.outcome.isSome = true ∨
    (s.closed = false ∧ s.received = s.yielded ∧
      (((∃ k, h.next s.handler = .read k) ∧ s.up.length < 4096 ∧
        (∃ n, s.told = (s.given.take n).map fun m => .ok (some m)) ∧
        (s.up = [] → s.told = s.given.map fun m => .ok (some m)) ∧
        ((∀ http1, l.host ≠ .wsgi true http1) → s.up = [])) ∨
       ((∃ fills, l.host = .wsgi fills true) ∧
        ∃ info e, Finishes h (writerOf l.codec l.resComp) s.told s.yielded info (some e)))) := by
  rcases stuck_state hl hr moves hm s hs hstuck with h1 | ⟨hrec, ⟨hk, harr, hsome, hall⟩ | ⟨hdr, hcl, hfin⟩⟩
  · exact .inl h1
  · obtain ⟨hcl, hup⟩ := little_waits harr
    exact .inr ⟨hcl, hrec, .inl ⟨hk, hup, hsome, hall, fun hw => (nothing_arrives hw harr).1⟩⟩
  · refine .inr ⟨hcl, hrec, .inr ⟨?_, hfin⟩⟩
    cases hh : l.host with
    | asgi => rw [hh] at hdr; cases hdr
    | wsgi fills http1 =>
      rw [hh] at hdr
      have hdr : http1 = true := hdr
      exact ⟨fills, by rw [hdr]⟩

/-- **C71, outcome.** When the caller gets the end of the response, the handler's stream has ended; the caller has received exactly the
messages the handler has yielded, and gets its outcome, its headers and its trailers. -/
theorem C71_outcome (hl : Fitting l sendable) (hr : Reasonable l h) (moves : List (Move Req)) (hm : GivesOnly sendable moves)
    (s : Duplex h) (hs : l.run moves (Duplex.start h) = some s) (sink : Sink) (exc : Option Exc) (ho : s.outcome = some (sink, exc)) :
    ∃ e info i, Finishes h (writerOf l.codec l.resComp) s.told s.yielded info e ∧ Begins h s.told s.yielded info i ∧
      StreamGets l.c.proto l.sink i.headers s.yielded info.trailers e ⟨sink, s.received, exc⟩ := by
  obtain ⟨k', hk, hk'⟩ := accepts_of hl
  obtain ⟨_, hd⟩ := run_inv hl hr hk moves _ s hm ⟨up_start, down_start⟩ hs
  obtain ⟨bs, tail, a4, a5, a6⟩ := hd.flow
  cases hout : s.outlet with
  | none =>
    rw [hout] at a6
    have := a6.2.1
    rw [ho] at this
    cases this
  | some co =>
    obtain ⟨comp, o⟩ := co
    have hpre := down_prefix hl hr hk hk' hd hout
    rw [hout] at a6
    obtain ⟨rfl, i, chunks, c2, c3, c4, c5, c6⟩ := a6
    obtain ⟨hready, hc⟩ := c6 _ ho
    have hend : s.down = [] ∧ s.ended.isSome = true := by
      rcases hc with ⟨e, h1, _⟩ | ⟨_, h2, _⟩
      · exact hpre.2.1 (by rw [h1]; exact nofun)
      · exact ⟨(c5 h2).2, (c5 h2).1⟩
    cases hen : s.ended with
    | none => rw [hen] at hend; cases hend.2
    | some t =>
      rw [hen] at a5
      rw [hend.1, List.append_nil] at c3
      obtain ⟨e, f1, f2, f3⟩ := whole_response hl hr hk hd a4 a5 c2 c3 (cs := ⟨false, false, none, false⟩) ⟨rfl, rfl⟩
      obtain ⟨g1, g2, g3⟩ := concluded_reads hen hready c4 hc f3.outcome
      refine ⟨e, _, i, f1, f2, ?_⟩
      have g2 : sink = _ := g2
      have g3 : exc = _ := g3
      rw [g1, g2, g3]
      exact f3

/-- **C71, no endless waiting.** Between two steps of the handler or two messages of the caller, only a bounded number of moves is possible. -/
theorem C71_bounded (l : Line Req Res) (s : Duplex h) :
    ∃ N, ∀ (moves : List (Move Req)), (∀ mv ∈ moves, mv.ofConnection = true) → ∀ s', l.run moves s = some s' → moves.length ≤ N := by
  refine ⟨effort s, ?_⟩
  intro moves
  induction moves generalizing s with
  | nil => intro _ _ _; exact Nat.zero_le _
  | cons mv mvs ih =>
    intro hm s' hs
    unfold Line.run at hs
    cases h1 : l.step mv s with
    | none => rw [h1] at hs; cases hs
    | some s1 =>
      rw [h1] at hs
      have h2 := ih s1 (fun m hm' => hm m (List.mem_cons_of_mem _ hm')) s' hs
      have h3 := effort_step (hm mv List.mem_cons_self) h1
      rw [List.length_cons]
      omega

end

/-! ### the hypotheses are met -/

/-- Answers every message at once, with its size, until the stream ends; then it raises an error with details. -/
inductive SizesState where
  | waiting
  | replying (m : Bytes)
  | over
  deriving DecidableEq

def sizesHandler : LiveHandler Bytes Bytes where
  State := SizesState
  init := .waiting
  next
    | .waiting => .read fun x => match x with
      | .ok (some m) => .replying m
      | _ => .over
    | .replying m => .emit [UInt8.ofNat m.length] .waiting
    | .over => .done (some (.connect demoError))
  info _ := ⟨chatHeaders, chatTrailers⟩

def sizesLine (p : Proto) (host : Host) : Line Bytes Bytes :=
  ⟨chatClient p, chatApp, host, chatCodec, revGzip, revGzip, protobufStatus, some RespMeta.new, fun fs => fs.map fun q => (lower q.1, q.2)⟩

theorem sizes_fitting (p : Proto) (host : Host) : Fitting (sizesLine p host) (fun m => m = [4, 5] ∨ m = [6]) where
  codec := (chat_call p (.bidi chatScript) (fun _ => rfl) [] (by simp)).codec
  comps := (chat_call p (.bidi chatScript) (fun _ => rfl) [] (by simp)).comps
  reqComp := by cases p <;> rfl
  resComp := (chat_comp p).symm
  conveys := ⟨by
    intro fields q hq
    obtain ⟨q, _, rfl⟩ := List.mem_map.1 hq
    exact Headers.lower_idem _, fun fields n _ => fieldValues_map_lower _ _⟩
  sink := by intro r hr; cases hr; exact ⟨[], rfl⟩
  messages m hm := (chat_call p (.bidi chatScript) (fun _ => rfl) [m] (by intro r hr; rw [List.mem_singleton] at hr; rw [hr]; exact hm)).messages
    m List.mem_cons_self

theorem sizes_emit {s s' : sizesHandler.State} {m : Bytes} (h : sizesHandler.next s = .emit m s') : m.length = 1 := by
  cases s with
  | waiting => cases h
  | replying m => cases h; rfl
  | over => cases h

theorem sizes_reasonable (p : Proto) (host : Host) : Reasonable (sizesLine p host) sizesHandler where
  message told out s m s' _ hn n h d hd := by
    cases h
    cases hd
    rw [sizes_emit hn]
    decide
  ends told out info e i hf hb := by
    have hi : info = ⟨chatHeaders, chatTrailers⟩ := by
      cases hf with
      | itself _ _ h => exact h.symm
      | unwritable _ _ _ h => exact h.symm
    have hi' : i = ⟨chatHeaders, chatTrailers⟩ := by
      cases hb with
      | first _ _ _ _ h => exact h.symm
      | none _ h => rw [← h, hi]
    have hfo : ∃ s, Follows sizesHandler told out s := by
      cases hf with
      | itself h _ _ => exact ⟨_, h⟩
      | unwritable h _ _ _ => exact ⟨_, h⟩
    have he : e = some (.connect demoError) := by
      cases hf with
      | @itself s _ _ hn _ =>
        cases s with
        | waiting => cases hn
        | replying m => cases hn
        | over => cases hn; rfl
      | @unwritable s s' m x hf hn hw _ =>
        have hlen := sizes_emit hn
        obtain ⟨h5, _⟩ := C08_write_exact (writerOf chatCodec revGzip) m m rfl
        rw [show (writerOf (sizesLine p host).codec (sizesLine p host).resComp).write m = _ from h5 (by
          show (m.reverse).length < 2 ^ 32
          rw [List.length_reverse, hlen]; decide)] at hw
        cases hw
    obtain ⟨s, hfo⟩ := hfo
    subst hi hi' he
    refine { chat_regular p with limit := ?_ }
    intro n hn
    refine ⟨?_, ((chat_regular p).limit n hn).2⟩
    intro m hm d hd
    cases hd
    obtain ⟨t', o', s, s', _, h2⟩ := follows_yielded hfo m hm
    rw [sizes_emit h2]
    cases hn
    decide

/-- the caller gives a message, which arrives in two parts, and gets the answer before it gives the next -/
def sizesMoves : List (Move Bytes) :=
  [.give [4, 5], .arrive 3 false, .arrive 4 false, .answer, .emit, .headers, .reply 2 false, .reply 4 false, .take]

/-- the next message, and the end -/
def sizesRest : List (Move Bytes) :=
  [.give [6], .arrive 6 false, .answer, .emit, .close, .arrive 0 true, .answer, .finish]

def sizesLast : Proto → Nat
  | .connect => 220
  | .grpc => 6
  | .grpcWeb => 203


/-- A history that meets the hypotheses of C71, by all three protocols: after the first moves nothing more can happen, the caller has the answer to
their first message and has not ended the stream; at the end they have all answers, and the error. -/
example (p : Proto) (host : Host) (hw : host = .asgi ∨ host = .wsgi false false) : Fitting (sizesLine p host) (fun m => m = [4, 5] ∨ m = [6]) ∧ Reasonable (sizesLine p host) sizesHandler ∧
    GivesOnly (fun m => m = [4, 5] ∨ m = [6]) (sizesMoves ++ sizesRest ++ [.reply (sizesLast p) true, .take, .take]) ∧
    (((sizesLine p host).run sizesMoves (Duplex.start sizesHandler)).map fun s => (s.given, s.closed, s.received, s.up, s.down)) =
      some ([[4, 5]], false, [[2]], [], []) ∧
    (((sizesLine p host).run (sizesMoves ++ sizesRest ++ [.reply (sizesLast p) true, .take, .take]) (Duplex.start sizesHandler)).map
      fun s => (s.given, s.told.length, s.received, s.outcome.isSome)) = some ([[4, 5], [6]], 3, [[2], [1]], true) := by
  refine ⟨sizes_fitting p host, sizes_reasonable p host, ?_, ?_, ?_⟩
  · intro m hm
    simp only [sizesMoves, sizesRest, List.cons_append, List.nil_append, List.mem_cons, List.not_mem_nil, or_false, Move.give.injEq, reduceCtorEq, false_or] at hm
    exact hm
  · rcases hw with rfl | rfl <;> cases p <;> decide +kernel
  · rcases hw with rfl | rfl <;> cases p <;> decide +kernel

/-- After the first moves nothing can happen unless the caller gives a message or ends the stream: the last hypothesis of `C71_progress`. -/
example (p : Proto) (host : Host) (hw : host = .asgi ∨ host = .wsgi false false) (s : Duplex sizesHandler) (hs : (sizesLine p host).run sizesMoves (Duplex.start sizesHandler) = some s) (mv : Move Bytes)
    (hm : mv.byCaller = false) : (sizesLine p host).step mv s = none := by
  have h : (((sizesLine p host).run sizesMoves (Duplex.start sizesHandler)).map fun s =>
      (s.up, s.closed, s.inlet.ready, s.inlet.err.isNone, s.inlet.eof, decide (s.handler = SizesState.waiting))) =
      some ([], false, [], true, false, true) := by
    rcases hw with rfl | rfl <;> cases p <;> decide +kernel
  have h' : (((sizesLine p host).run sizesMoves (Duplex.start sizesHandler)).map fun s =>
      (s.down, s.ended.isNone, s.outcome.isNone, s.outlet.map fun o => o.2.idle)) =
      some ([], true, true, some true) := by
    rcases hw with rfl | rfl <;> cases p <;> decide +kernel
  rw [hs] at h h'
  simp only [Option.map_some, Option.some.injEq, Prod.mk.injEq, Option.isNone_iff_eq_none, decide_eq_true_eq] at h
  simp only [Option.map_some, Option.some.injEq, Prod.mk.injEq, Option.isNone_iff_eq_none, Option.map_eq_some_iff] at h'
  obtain ⟨h1, h2, h3, h4, h5, h6⟩ := h
  obtain ⟨h7, h8, h9, ⟨comp, o⟩, h10, h11⟩ := h'
  have hr : sizesHandler.next s.handler = sizesHandler.next SizesState.waiting := by rw [h6]
  cases mv with
  | give m => cases hm
  | close => cases hm
  | arrive n last =>
    unfold Line.step
    dsimp only
    rw [hr, h1, h2]
    dsimp only [sizesHandler]
    cases host <;> cases last <;> cases n <;> simp [Host.mayArrive, mayArrive, sizesLine]
  | answer =>
    unfold Line.step
    dsimp only
    rw [hr]
    dsimp only [sizesHandler]
    rw [h3, h4, h5]
    rfl
  | emit => unfold Line.step; dsimp only; rw [hr, h8]; rfl
  | finish => unfold Line.step; dsimp only; rw [hr, h8]; rfl
  | headers => unfold Line.step; dsimp only; rw [h10]; cases s.started <;> rfl
  | reply n last =>
    unfold Line.step
    dsimp only
    rw [h10, h9, h7, h8]
    dsimp only
    cases last <;> cases n <;> simp [mayArrive]
  | take =>
    unfold Line.step
    dsimp only
    rw [h10, h9]
    cases s.started with
    | none => rfl
    | some i =>
      obtain ⟨h11, h12, h13⟩ := idle_iff.1 h11
      dsimp only at h11 h12 h13 ⊢
      rw [h11, h12, h13]
      rfl

/-- **C76, violation.** On a WSGI server whose `read(size)` waits for `size` bytes or the end of the body, as that of Python's files does, the handler is not
given a message that has been sent as a whole: a caller that waits for the answer before it sends more waits for ever. -/
theorem C76_violation_fills (p : Proto) (http1 : Bool) : ∃ (moves : List (Move Bytes)) (s : Duplex sizesHandler),
    Fitting (sizesLine p (.wsgi true http1)) (fun m => m = [4, 5] ∨ m = [6]) ∧ Reasonable (sizesLine p (.wsgi true http1)) sizesHandler ∧
    GivesOnly (fun m => m = [4, 5] ∨ m = [6]) moves ∧
    (sizesLine p (.wsgi true http1)).run moves (Duplex.start sizesHandler) = some s ∧
    (∀ mv : Move Bytes, mv.byCaller = false → (sizesLine p (.wsgi true http1)).step mv s = none) ∧
    s.outcome = none ∧ s.given = [[4, 5]] ∧ s.told = [] ∧ s.received = [] := by
  refine ⟨[.give [4, 5]], { Duplex.start sizesHandler with given := [[4, 5]], up := [1, 0, 0, 0, 2, 5, 4] },
    sizes_fitting p _, sizes_reasonable p _, ?_, ?_, ?_, rfl, rfl, rfl, rfl⟩
  · intro m hm
    simp only [List.mem_cons, List.not_mem_nil, or_false, Move.give.injEq] at hm
    exact .inl hm
  · cases http1 <;> cases p <;> rfl
  · intro mv hm
    cases mv with
    | give m => cases hm
    | close => cases hm
    | arrive n last =>
      unfold Line.step
      dsimp only [Duplex.start, sizesHandler, sizesLine]
      cases last with
      | true => rfl
      | false =>
        refine if_neg ?_
        simp only [Host.mayArrive, mayArrive, Inlet.idle]
        simp
        omega
    | answer => rfl
    | emit => rfl
    | finish => rfl
    | headers => rfl
    | reply n last => rfl
    | take => rfl

/-- On such a server: all the messages are there when the caller has ended the stream. -/
example (p : Proto) (http1 : Bool) : (((sizesLine p (.wsgi true http1)).run [.give [4, 5], .give [6], .close, .arrive 13 false, .answer, .emit, .headers, .reply 6 false,
    .take, .answer, .emit, .arrive 0 true, .answer, .finish] (Duplex.start sizesHandler)).map
      fun s => (s.given, s.told.length, s.received, s.ended.isSome)) = some ([[4, 5], [6]], 3, [[2]], true) := by
  cases http1 <;> cases p <;> decide +kernel

/-- Refuses the stream at once, without reading anything. -/
def closedDoor : LiveHandler Bytes Bytes where
  State := Unit
  init := ()
  next _ := .done (some (.connect demoError))
  info _ := ⟨chatHeaders, chatTrailers⟩

theorem closedDoor_reasonable (p : Proto) (host : Host) : Reasonable (sizesLine p host) closedDoor where
  message told out s m s' _ hn := by cases hn
  ends told out info e i hf hb := by
    have hi : info = ⟨chatHeaders, chatTrailers⟩ := by
      cases hf with
      | itself _ _ h => exact h.symm
      | unwritable _ _ _ h => exact h.symm
    have hi' : i = ⟨chatHeaders, chatTrailers⟩ := by
      cases hb with
      | first _ _ _ _ h => exact h.symm
      | none _ h => rw [← h, hi]
    have he : e = some (.connect demoError) := by
      cases hf with
      | itself _ hn _ => cases hn; rfl
      | unwritable _ hn _ _ => cases hn
    have hfo : ∃ s, Follows closedDoor told out s := by
      cases hf with
      | itself h _ _ => exact ⟨_, h⟩
      | unwritable h _ _ _ => exact ⟨_, h⟩
    obtain ⟨s, hfo⟩ := hfo
    subst hi hi' he
    refine { chat_regular p with limit := ?_ }
    intro n hn
    refine ⟨?_, ((chat_regular p).limit n hn).2⟩
    intro m hm d hd
    obtain ⟨t', o', s, s', _, h2⟩ := follows_yielded hfo m hm
    cases h2

/-- **C76, violation.** On a WSGI server of HTTP/1 an error of the handler is held back until the caller ends the request: a handler that refuses the
stream at once has ended, and a caller that waits for an answer before it goes on waits for ever. -/
theorem C76_violation_drain (p : Proto) (fills : Bool) :
    Fitting (sizesLine p (.wsgi fills true)) (fun m => m = [4, 5] ∨ m = [6]) ∧ Reasonable (sizesLine p (.wsgi fills true)) closedDoor ∧
    Finishes closedDoor (writerOf (sizesLine p (.wsgi fills true)).codec (sizesLine p (.wsgi fills true)).resComp) [] [] ⟨chatHeaders, chatTrailers⟩
      (some (.connect demoError)) ∧
    ∀ moves : List (Move Bytes), .close ∉ moves → ∀ s, (sizesLine p (.wsgi fills true)).run moves (Duplex.start closedDoor) = some s →
      s.outcome = none ∧ s.started = none := by
  refine ⟨sizes_fitting p _, closedDoor_reasonable p _, .itself .start rfl rfl, ?_⟩
  have hstep : ∀ (mv : Move Bytes) (s s' : Duplex closedDoor), mv ≠ .close → s.closed = false ∧ s.started = none ∧ s.outlet = none ∧ s.outcome = none →
      (sizesLine p (.wsgi fills true)).step mv s = some s' →
      s'.closed = false ∧ s'.started = none ∧ s'.outlet = none ∧ s'.outcome = none := by
    intro mv s s' hmv ⟨h1, h2, h3, h4⟩ hs
    cases mv with
    | close => exact absurd rfl hmv
    | give m =>
      unfold Line.step at hs
      dsimp only at hs
      rw [h1, if_neg Bool.false_ne_true] at hs
      cases hw : (EnvelopeWriter.mk (sizesLine p (.wsgi fills true)).c.codec (some (sizesLine p (.wsgi fills true)).c.send)).write m with
      | ok b => rw [hw] at hs; cases hs; exact ⟨rfl, h2, h3, h4⟩
      | error x => rw [hw] at hs; cases hs
    | arrive n last => cases hs
    | answer => cases hs
    | emit =>
      unfold Line.step at hs
      dsimp only [closedDoor] at hs
      cases hen : s.ended <;> rw [hen] at hs <;> cases hs
    | finish =>
      unfold Line.step at hs
      dsimp only [closedDoor] at hs
      cases hen : s.ended with
      | some t => rw [hen] at hs; cases hs
      | none =>
        rw [hen] at hs
        dsimp only at hs
        unfold Line.finish at hs
        rw [h1] at hs
        cases hs
    | headers => unfold Line.step at hs; dsimp only at hs; rw [h2] at hs; cases hs
    | reply n last => unfold Line.step at hs; dsimp only at hs; rw [h3] at hs; cases hs
    | take => unfold Line.step at hs; dsimp only at hs; rw [h3] at hs; cases hs
  have hrun : ∀ (moves : List (Move Bytes)) (s s' : Duplex closedDoor), .close ∉ moves →
      s.closed = false ∧ s.started = none ∧ s.outlet = none ∧ s.outcome = none →
      (sizesLine p (.wsgi fills true)).run moves s = some s' → s'.outcome = none ∧ s'.started = none := by
    intro moves
    induction moves with
    | nil => intro s s' _ hi hs; cases hs; exact ⟨hi.2.2.2, hi.2.1⟩
    | cons mv mvs ih =>
      intro s s' hm hi hs
      unfold Line.run at hs
      cases h1 : (sizesLine p (.wsgi fills true)).step mv s with
      | none => rw [h1] at hs; cases hs
      | some s1 =>
        rw [h1] at hs
        exact ih s1 s' (fun h => hm (List.mem_cons_of_mem _ h)) (hstep mv s s1 (fun h => hm (h ▸ List.mem_cons_self)) hi h1) hs
  intro moves hm s hs
  exact hrun moves _ s hm ⟨rfl, rfl, rfl, rfl⟩ hs

/-- On other servers the caller is told at once; on this one, when they have ended the request. -/
example (p : Proto) : (((sizesLine p (.wsgi false false)).run [.finish, .headers] (Duplex.start closedDoor)).map
      fun s => (s.closed, s.ended.isSome, s.outlet.isSome)) = some (false, true, true) ∧
    (((sizesLine p (.wsgi false true)).run [.give [6], .close, .finish, .headers] (Duplex.start closedDoor)).map
      fun s => (s.closed, s.ended.isSome, s.outlet.isSome)) = some (true, true, true) := by
  cases p <;> decide +kernel

end Props
