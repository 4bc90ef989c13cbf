import Verif.Proofs.StreamTransport
import Verif.Proofs.Conforming
import Verif.Props.Stream
import Verif.Spec.Duplex
/-
Lemmas for C71: invariants of bidirectional streams.
-/
namespace Conn
open Py Spec Props

/-! ### readers that have read a part of a body -/

section
variable {M σ : Type}

theorem feedAll_snoc (c : ReaderCfg M σ) (ch : Bytes) : ∀ (chs : List Bytes) (s : ReaderState σ) {ms : List M} {s' : ReaderState σ},
    feedAll c s chs = (ms, .done, s') → feedAll c s (chs ++ [ch]) = (ms ++ (feed c s' ch).1, (feed c s' ch).2)
  | [], s, ms, s', h => by
    have h : ([], Stop.done, s) = (ms, Stop.done, s') := h
    cases h
    rw [List.nil_append]
    unfold feedAll
    rcases feed c s ch with ⟨ms, st, s'⟩
    cases st <;> simp [feedAll]
  | c0 :: chs, s, ms, s', h => by
    unfold feedAll at h
    rw [List.cons_append]
    unfold feedAll
    rcases hf : feed c s c0 with ⟨m0, st, s0⟩
    rw [hf] at h
    cases st with
    | raised e => injection h with _ h; injection h with h _; cases h
    | done =>
      dsimp only at h ⊢
      rcases hr : feedAll c s0 chs with ⟨m1, st1, s1⟩
      rw [hr] at h
      simp only [Prod.mk.injEq] at h
      obtain ⟨rfl, rfl, rfl⟩ := h
      rw [feedAll_snoc c ch chs s0 hr]
      simp

/-- a beginning of whole frames -/
theorem prefix_frames {fs : List Frame} (hok : ∀ f ∈ fs, f.Ok) {a b : Bytes} (h : a ++ b = fs.flatMap Frame.bytes) :
    ∃ gs gs' rest, fs = gs ++ gs' ∧ Splits a gs rest ∧ rest ++ b = gs'.flatMap Frame.bytes ∧ (b = [] → gs' = []) := by
  obtain ⟨gs, rest, h1⟩ := splits_exists a
  obtain ⟨gs', rest', h2⟩ := splits_exists (rest ++ b)
  have h3 := splits_append h1 h2
  have h4 : Splits (a ++ b) fs [] := ⟨by rw [h, List.append_nil], hok, incomplete_of_lt_five (by decide)⟩
  obtain ⟨e1, e2⟩ := splits_unique h4 h3
  subst e2
  refine ⟨gs, gs', rest, e1, h1, by rw [h2.eq, List.append_nil], ?_⟩
  rintro rfl
  rw [List.append_nil] at h2
  have h5 : Splits rest [] rest := ⟨rfl, by simp, h1.inc⟩
  exact (splits_unique h2 h5).1

/-- what a reader makes of a beginning of messages -/
theorem feedAll_prefix (c : ReaderCfg M σ) (pass : σ → σ) (sub : σ) (fs : List Frame) (ms : List M) (chunks : List Bytes)
    (hdata : ∀ f ∈ fs, ∀ s d, c.handleEnd s f.flags d = (pass s, .ok false))
    (hm : fs.map (policyOf c).message = ms.map .ok) {rest : Bytes} (hs : Splits chunks.flatten fs rest) :
    (feedAll c (.init sub) chunks).1 = ms ∧ (feedAll c (.init sub) chunks).2.1 = .done := by
  have hrun := frameRun_messages c pass fs ms hdata hm sub
  obtain ⟨h1, h2, _⟩ := feedAll_splits c (.init sub) (by intro n h; cases h) chunks hs
    (fun _ => incomplete_of_lt_five (by show 0 < 5; decide)) (by
      intro h
      rw [show (ReaderState.init sub).sub = sub from rfl, hrun] at h
      cases h)
  rw [show (ReaderState.init sub).sub = sub from rfl, hrun] at h1 h2
  exact ⟨h1, h2⟩

theorem messages_split {c : ReaderCfg M σ} {gs gs' : List Frame} {ms : List M} (h : (gs ++ gs').map (policyOf c).message = ms.map .ok) :
    gs.map (policyOf c).message = (ms.take gs.length).map .ok ∧ gs'.map (policyOf c).message = (ms.drop gs.length).map .ok := by
  have h1 := congrArg (List.take gs.length) h
  have h2 := congrArg (List.drop gs.length) h
  rw [List.map_append, List.take_left' (by simp), ← List.map_take] at h1
  rw [List.map_append, List.drop_left' (by simp), ← List.map_drop] at h2
  exact ⟨h1, h2⟩

end

theorem idle_iff {M σ : Type} {i : Inlet M σ} : i.idle = true ↔ i.ready = [] ∧ i.err = none ∧ i.eof = false := by
  unfold Inlet.idle
  cases i.ready <;> cases i.err <;> cases i.eof <;> simp

section
variable {Req Res : Type} {l : Line Req Res} {h : LiveHandler Req Res} {sendable : Req → Prop}

/-! ### the request -/

/-- the reader of the application -/
abbrev Line.upReader (l : Line Req Res) : ReaderCfg Req Unit := l.app.reader l.codec l.reqComp

structure UpInv (l : Line Req Res) (s : Duplex h) : Prop where
  err : s.inlet.err = none
  eof : s.inlet.eof = true → s.closed = true ∧ s.up = []
  flow : ∃ (fs : List Frame) (chunks : List Bytes) (msgs : List Req) (j : Nat), (∀ f ∈ fs, f.Ok) ∧
    fs.map (policyOf l.upReader).message = s.given.map .ok ∧ chunks.flatten ++ s.up = fs.flatMap Frame.bytes ∧
    feedAll l.upReader (.init ()) chunks = (msgs ++ s.inlet.ready, .done, s.inlet.reader) ∧
    s.told = (msgs.map fun m => .ok (some m)) ++ List.replicate j (.ok none) ∧ (0 < j → s.inlet.ready = [] ∧ s.inlet.eof = true)

theorem up_start : UpInv l (Duplex.start h) :=
  ⟨rfl, nofun, [], [], [], 0, nofun, rfl, rfl, rfl, rfl, nofun⟩

/-- what the application has read is a beginning of what was given; all, if nothing is under way -/
theorem up_prefix {given : List Req} {up : Bytes} {fs : List Frame} {chunks : List Bytes} (hok : ∀ f ∈ fs, f.Ok)
    (hm : fs.map (policyOf l.upReader).message = given.map .ok) (hb : chunks.flatten ++ up = fs.flatMap Frame.bytes) :
    (∃ k, (feedAll l.upReader (.init ()) chunks).1 = given.take k) ∧ (feedAll l.upReader (.init ()) chunks).2.1 = .done ∧
    (up = [] → (feedAll l.upReader (.init ()) chunks).1 = given) := by
  obtain ⟨gs, gs', rest, rfl, h1, _, h3⟩ := prefix_frames hok hb
  obtain ⟨h4, h5⟩ := messages_split hm
  obtain ⟨h6, h7⟩ := feedAll_prefix l.upReader id () gs _ chunks (fun _ _ _ _ => rfl) h4 h1
  refine ⟨⟨_, h6⟩, h7, ?_⟩
  intro he
  rw [h3 he] at h5
  rw [h6]
  have : (given.drop gs.length) = [] := by simpa using h5.symm
  rw [List.drop_eq_nil_iff] at this
  exact List.take_of_length_le this

theorem send_frame (hl : Fitting l sendable) {m : Req} (hm : sendable m) :
    ∃ f : Frame, f.Ok ∧ (EnvelopeWriter.mk l.c.codec (some l.c.send)).write m = .ok f.bytes ∧ (policyOf l.upReader).message f = .ok m := by
  obtain ⟨data, h1, h2, h3⟩ := hl.messages m hm
  obtain ⟨h5, _⟩ := C08_write_exact ⟨l.c.codec, some l.c.send⟩ m data h1
  have hw := h5 h2
  obtain ⟨k, g1, g2⟩ := hl.comps.request
  rw [hl.reqComp] at g1
  cases g1
  obtain ⟨f, e1, e2, _, e4⟩ := write_frame ⟨l.c.codec, some l.c.send⟩ l.upReader ⟨hl.codec.request, by intro k' e; cases e; exact g2⟩ m _ hw
    (by
      intro n hn d hd
      rw [show (EnvelopeWriter.mk l.c.codec (some l.c.send)).codec = l.c.codec from rfl, h1] at hd
      cases hd
      exact h3 n hn)
  exact ⟨f, e1, by rw [hw, e2], e4⟩

/-- a move that leaves the request alone -/
theorem up_same {s s' : Duplex h} (hi : UpInv l s) (h1 : s'.given = s.given) (h2 : s'.closed = s.closed) (h3 : s'.up = s.up)
    (h4 : s'.inlet = s.inlet) (h5 : s'.told = s.told) : UpInv l s' := by
  obtain ⟨a, b, c⟩ := hi
  exact ⟨by rw [h4]; exact a, by rw [h4, h2, h3]; exact b, by rw [h1, h3, h4, h5]; exact c⟩

theorem finish_same {s s' : Duplex h} {info : Meta} {e : Option Exc} (hs : l.finish s info e = some s') :
    s'.given = s.given ∧ s'.closed = s.closed ∧ s'.up = s.up ∧ s'.inlet = s.inlet ∧ s'.told = s.told := by
  unfold Line.finish at hs
  cases hr : l.host.reports e with
  | none => rw [hr] at hs; cases hs
  | some e' =>
    rw [hr] at hs
    dsimp only at hs
    cases hdr : l.drained s.closed e' with
    | false => rw [hdr] at hs; cases hs
    | true =>
    rw [hdr, Bool.not_true, if_neg Bool.false_ne_true] at hs
    cases he : (EnvelopeWriter.mk l.codec.res (some l.resComp)).end' l.c.proto l.sc info.trailers (e'.map ConnectErr.fromException) with
    | error x => rw [he] at hs; cases hs
    | ok out =>
      rw [he] at hs
      cases out <;> cases hs <;> exact ⟨rfl, rfl, rfl, rfl, rfl⟩

theorem host_arrive {host : Host} {b : Bytes} {e last : Bool} {n : Nat} (hm : host.mayArrive b e n last = true) :
    mayArrive b e n last = true := by
  cases host with
  | asgi => exact hm
  | wsgi fills http1 =>
    unfold Host.mayArrive at hm
    rw [Bool.and_eq_true] at hm
    exact hm.1

theorem up_step (hl : Fitting l sendable) {mv : Move Req} (hmv : ∀ m, mv = .give m → sendable m) {s s' : Duplex h} (hi : UpInv l s)
    (hs : l.step mv s = some s') : UpInv l s' := by
  cases mv with
  | give m =>
    obtain ⟨f, h1, h2, h3⟩ := send_frame hl (hmv m rfl)
    unfold Line.step at hs
    dsimp only at hs
    rw [h2] at hs
    cases hc : s.closed with
    | true => rw [hc] at hs; cases hs
    | false =>
      rw [hc] at hs
      cases hs
      obtain ⟨a, b, fs, chunks, msgs, j, c1, c2, c3, c4, c5, c6⟩ := hi
      refine ⟨a, ?_, fs ++ [f], chunks, msgs, j, ?_, ?_, ?_, c4, c5, c6⟩
      · intro he; rw [hc] at b; exact absurd (b he).1 (by decide)
      · intro g hg
        rcases List.mem_append.1 hg with hg | hg
        · exact c1 g hg
        · rw [List.mem_singleton] at hg; subst hg; exact h1
      · simp [c2, h3]
      · show chunks.flatten ++ (s.up ++ f.bytes) = _
        rw [← List.append_assoc, c3, List.flatMap_append]; simp
  | close =>
    unfold Line.step at hs
    dsimp only at hs
    cases hc : s.closed with
    | true => rw [hc] at hs; cases hs
    | false =>
      rw [hc] at hs
      cases hs
      obtain ⟨a, b, c⟩ := hi
      exact ⟨a, fun he => ⟨rfl, (b he).2⟩, c⟩
  | arrive n last =>
    unfold Line.step at hs
    dsimp only at hs
    cases hn : h.next s.handler with
    | emit m st => rw [hn] at hs; cases hs
    | done e => rw [hn] at hs; cases hs
    | read k =>
      rw [hn] at hs
      dsimp only at hs
      cases hb : s.inlet.idle && l.host.mayArrive s.up s.closed n last with
      | false => rw [hb] at hs; cases hs
      | true =>
        rw [hb] at hs
        cases hs
        rw [Bool.and_eq_true] at hb
        obtain ⟨hb1, hb2⟩ := hb
        obtain ⟨a, b, fs, chunks, msgs, j, c1, c2, c3, c4, c5, c6⟩ := hi
        obtain ⟨hready, _, heof⟩ := idle_iff.1 hb1
        have c3' : (chunks ++ [s.up.take n]).flatten ++ s.up.drop n = fs.flatMap Frame.bytes := by
          rw [← c3]; simp
        have hsnoc := feedAll_snoc l.upReader (s.up.take n) chunks (.init ()) c4
        obtain ⟨_, hd, _⟩ := up_prefix c1 c2 c3'
        rw [hsnoc] at hd
        dsimp only at hd
        rcases hf : feed l.upReader s.inlet.reader (s.up.take n) with ⟨ms, st, rs⟩
        rw [hf] at hsnoc hd
        dsimp only at hd
        subst hd
        have hch : s.inlet.chunk l.upReader (s.up.take n) last = ⟨rs, ms, none, last⟩ := by
          unfold Inlet.chunk; rw [hf]
        refine ⟨by rw [hch], ?_, fs, chunks ++ [s.up.take n], msgs, j, c1, c2, c3', ?_, c5, ?_⟩
        · intro he
          rw [hch] at he
          dsimp only at he
          subst he
          have hb2 := host_arrive hb2
          unfold mayArrive at hb2
          simp only [if_true, Bool.and_eq_true, beq_iff_eq] at hb2
          exact ⟨hb2.1, by rw [hb2.2]; exact List.drop_length⟩
        · rw [hsnoc, hch, hready]; simp
        · intro hj
          rw [heof] at c6
          exact absurd (c6 hj).2 (by decide)
  | answer =>
    unfold Line.step at hs
    dsimp only at hs
    cases hn : h.next s.handler with
    | emit m st => rw [hn] at hs; cases hs
    | done e => rw [hn] at hs; cases hs
    | read k =>
      rw [hn] at hs
      dsimp only at hs
      obtain ⟨a, b, fs, chunks, msgs, j, c1, c2, c3, c4, c5, c6⟩ := hi
      cases hr : s.inlet.ready with
      | cons m ms =>
        rw [hr] at hs
        cases hs
        have hj : j = 0 := by
          rcases Nat.eq_zero_or_pos j with hj | hj
          · exact hj
          · rw [hr] at c6; exact absurd (c6 hj).1 (by simp)
        subst hj
        refine ⟨a, b, fs, chunks, msgs ++ [m], 0, c1, c2, c3, ?_, ?_, nofun⟩
        · rw [c4, hr]; simp
        · simp [c5]
      | nil =>
        rw [hr, a] at hs
        dsimp only at hs
        cases he : s.inlet.eof with
        | false => rw [he] at hs; cases hs
        | true =>
          rw [he] at hs
          cases hs
          refine ⟨a, b, fs, chunks, msgs, j + 1, c1, c2, c3, c4, ?_, fun _ => ⟨hr, he⟩⟩
          show s.told ++ _ = _
          rw [c5, List.append_assoc, ← List.replicate_succ']
  | emit =>
    unfold Line.step at hs
    dsimp only at hs
    cases hen : s.ended with
    | some t => rw [hen] at hs; cases hs
    | none =>
      cases hn : h.next s.handler with
      | read k => rw [hen, hn] at hs; cases hs
      | done e => rw [hen, hn] at hs; cases hs
      | emit m st =>
        rw [hen, hn] at hs
        dsimp only at hs
        cases hw : (EnvelopeWriter.mk l.codec.res (some l.resComp)).write m with
        | ok b => rw [hw] at hs; cases hs; exact up_same hi rfl rfl rfl rfl rfl
        | error e =>
          rw [hw] at hs
          obtain ⟨h1, h2, h3, h4, h5⟩ := finish_same hs
          exact up_same hi h1 h2 h3 h4 h5
  | finish =>
    unfold Line.step at hs
    dsimp only at hs
    cases hen : s.ended with
    | some t => rw [hen] at hs; cases hs
    | none =>
      cases hn : h.next s.handler with
      | read k => rw [hen, hn] at hs; cases hs
      | emit m st => rw [hen, hn] at hs; cases hs
      | done e =>
        rw [hen, hn] at hs
        obtain ⟨h1, h2, h3, h4, h5⟩ := finish_same hs
        exact up_same hi h1 h2 h3 h4 h5
  | headers =>
    unfold Line.step at hs
    dsimp only at hs
    split at hs
    · split at hs
      · cases hs; exact up_same hi rfl rfl rfl rfl rfl
      · split at hs <;> · cases hs; exact up_same hi rfl rfl rfl rfl rfl
    · cases hs
  | reply n last =>
    unfold Line.step at hs
    dsimp only at hs
    split at hs
    · split at hs
      · cases hs; exact up_same hi rfl rfl rfl rfl rfl
      · cases hs
    · cases hs
  | take =>
    unfold Line.step at hs
    dsimp only at hs
    split at hs
    · split at hs
      · cases hs; exact up_same hi rfl rfl rfl rfl rfl
      · cases hs; exact up_same hi rfl rfl rfl rfl rfl
      · split at hs
        · split at hs <;> · cases hs; exact up_same hi rfl rfl rfl rfl rfl
        · cases hs
    · cases hs

/-! ### the response -/

/-- the metadata if the stream ends now -/
def finalInfo (h : LiveHandler Req Res) (st : h.State) : Meta :=
  match h.next st with
  | .emit _ s' => h.info s'
  | _ => h.info st

/-- the stream ends here, with this outcome -/
def AtEnd (h : LiveHandler Req Res) (w : EnvelopeWriter Res) (st : h.State) (e : Option Exc) : Prop :=
  h.next st = .done e ∨ ∃ m s' x, h.next st = .emit m s' ∧ w.write m = .error x ∧ e = some x

abbrev Line.writer (l : Line Req Res) : EnvelopeWriter Res := writerOf l.codec l.resComp

/-- the metadata object when the headers have arrived -/
abbrev Line.told (l : Line Req Res) (i : Meta) : Sink := handleResponseHeaders l.sink (l.seen (l.fields i))

def stopOf : Option Exc → Stop
  | none => .done
  | some e => .raised e

/-- how the iteration over the responses has ended -/
def Concluded (l : Line Req Res) (s : Duplex h) (i : Meta) (o : Inlet Res ClientSub) (r : Sink × Option Exc) : Prop :=
  (∃ e, o.err = some e ∧ r = l.fail o.reader.sub.sink true (some o.reader.sub) e) ∨
  (o.err = none ∧ o.eof = true ∧ ∃ q, q = l.c.proto.complete l.sc o.reader.sub ⟨200, l.seen (l.fields i), l.seen (s.ended.getD [])⟩ none ∧
    ((q.2 = none ∧ r = (q.1, none)) ∨ ∃ e, q.2 = some e ∧ r = l.fail q.1 false (some (o.reader.sub.withSink q.1)) e))

/-- what follows the messages -/
def Tail (l : Line Req Res) (h : LiveHandler Req Res) (st : h.State) (tail : Bytes) : Option (List (Str × Str)) → Prop
  | none => tail = []
  | some t => ∃ e out, AtEnd h l.writer st e ∧ EndsWith l.writer l.c.proto l.sc (finalInfo h st).trailers e out ∧
    ((∃ b, out = .body b ∧ tail = b ∧ t = []) ∨ ∃ th, out = .trailers th ∧ tail = [] ∧ t = th.allitems)

/-- the client, when the bytes written so far are `total` -/
def Reading (l : Line Req Res) (k' : Compression) (s : Duplex h) (total : Bytes) : Option (Compression × Inlet Res ClientSub) → Prop
  | none => s.received = [] ∧ s.outcome = none ∧ s.down = total
  | some (comp, o) => comp = k' ∧ ∃ (i : Meta) (chunks : List Bytes), s.started = some i ∧ chunks.flatten ++ s.down = total ∧
    feedAll (l.c.reader k') (.init (ClientSub.init (l.told i))) chunks = (s.received ++ o.ready, stopOf o.err, o.reader) ∧
    (o.eof = true → s.ended.isSome = true ∧ s.down = []) ∧
    ∀ r, s.outcome = some r → o.ready = [] ∧ Concluded l s i o r

structure DownInv (l : Line Req Res) (k' : Compression) (s : Duplex h) : Prop where
  follows : Follows h s.told s.yielded s.handler
  startNone : s.started = none → s.yielded = [] ∧ s.ended = none ∧ s.outlet = none
  startSome : ∀ i, s.started = some i → (∃ told0 st st' m, told0 <+: s.told ∧ [m] <+: s.yielded ∧ Follows h told0 [] st ∧
    h.next st = .emit m st' ∧ h.info st' = i) ∨ (s.yielded = [] ∧ s.ended.isSome = true ∧ i = finalInfo h s.handler)
  flow : ∃ (bs : List Bytes) (tail : Bytes), s.yielded.map l.writer.write = bs.map .ok ∧ Tail l h s.handler tail s.ended ∧
    Reading l k' s (bs.flatten ++ tail) s.outlet

theorem down_start {k' : Compression} : DownInv l k' (Duplex.start h) :=
  ⟨.start, fun _ => ⟨rfl, rfl, rfl⟩, nofun, [], [], rfl, rfl, rfl, rfl, rfl⟩

theorem concluded_of {s s' : Duplex h} {i : Meta} {o : Inlet Res ClientSub} {r : Sink × Option Exc} (hc : Concluded l s i o r)
    (he : o.eof = true → s'.ended = s.ended) : Concluded l s' i o r := by
  rcases hc with h1 | ⟨h1, h2, h3⟩
  · exact .inl h1
  · exact .inr ⟨h1, h2, by rw [he h2]; exact h3⟩

/-- the application writes more -/
theorem reading_more {k' : Compression} {s s' : Duplex h} {total b : Bytes} (hr : Reading l k' s total s.outlet) (hen : s.ended = none)
    (h1 : s'.outlet = s.outlet) (h2 : s'.received = s.received) (h3 : s'.outcome = s.outcome) (h4 : s'.down = s.down ++ b)
    (h5 : ∀ i, s.started = some i → s'.started = some i) : Reading l k' s' (total ++ b) s'.outlet := by
  rw [h1]
  cases ho : s.outlet with
  | none =>
    rw [ho] at hr
    obtain ⟨a1, a2, a3⟩ := hr
    exact ⟨by rw [h2, a1], by rw [h3, a2], by rw [h4, a3]⟩
  | some co =>
    obtain ⟨comp, o⟩ := co
    rw [ho] at hr
    obtain ⟨a1, i, chunks, a2, a3, a4, a5, a6⟩ := hr
    have he : o.eof = true → False := by
      intro he
      have := (a5 he).1
      rw [hen] at this
      cases this
    refine ⟨a1, i, chunks, h5 i a2, ?_, by rw [h2]; exact a4, fun h => (he h).elim, ?_⟩
    · rw [h4, ← List.append_assoc, a3]
    · intro r hr
      rw [h3] at hr
      exact ⟨(a6 r hr).1, concluded_of (a6 r hr).2 fun h => (he h).elim⟩

/-- the application is told something, or the caller or the connection does something to the request -/
theorem down_up {k' : Compression} {s s' : Duplex h} (hi : DownInv l k' s) (hf : Follows h s'.told s'.yielded s'.handler)
    (h1 : s'.yielded = s.yielded) (h2 : s'.started = s.started) (h3 : s'.down = s.down) (h4 : s'.ended = s.ended) (h5 : s'.outlet = s.outlet)
    (h6 : s'.received = s.received) (h7 : s'.outcome = s.outcome) (h8 : s.told <+: s'.told)
    (h9 : s.ended.isSome = true → s'.handler = s.handler) : DownInv l k' s' := by
  obtain ⟨a1, a2, a3, bs, tail, a4, a5, a6⟩ := hi
  refine ⟨hf, by rw [h1, h2, h4, h5]; exact a2, ?_, bs, tail, by rw [h1]; exact a4, ?_, ?_⟩
  · intro i hs
    rw [h2] at hs
    rcases a3 i hs with ⟨t0, st, st', m, b1, b2, b3⟩ | ⟨b1, b2, b3⟩
    · exact .inl ⟨t0, st, st', m, b1.trans h8, by rw [h1]; exact b2, b3⟩
    · exact .inr ⟨by rw [h1, b1], by rw [h4]; exact b2, by rw [h9 b2]; exact b3⟩
  · rw [h4]
    cases he : s.ended with
    | none => rw [he] at a5; exact a5
    | some t => rw [h9 (by rw [he]; rfl), ← he]; exact a5
  · rw [h5]
    cases ho : s.outlet with
    | none =>
      rw [ho] at a6
      obtain ⟨c1, c2, c3⟩ := a6
      exact ⟨by rw [h6, c1], by rw [h7, c2], by rw [h3, c3]⟩
    | some co =>
      obtain ⟨comp, o⟩ := co
      rw [ho] at a6
      obtain ⟨c1, i, chunks, c2, c3, c4, c5, c6⟩ := a6
      refine ⟨c1, i, chunks, by rw [h2, c2], by rw [h3, c3], by rw [h6, c4], by rw [h4, h3]; exact c5, ?_⟩
      intro r hr
      rw [h7] at hr
      exact ⟨(c6 r hr).1, concluded_of (c6 r hr).2 fun _ => h4⟩

theorem not_read_of_ended {k' : Compression} {s : Duplex h} (hi : DownInv l k' s) (he : s.ended.isSome = true) {k : Except Exc (Option Req) → h.State}
    (hn : h.next s.handler = .read k) : False := by
  obtain ⟨_, _, _, bs, tail, _, a5, _⟩ := hi
  cases hen : s.ended with
  | none => rw [hen] at he; cases he
  | some t =>
    rw [hen] at a5
    obtain ⟨e, out, h1, _⟩ := a5
    rcases h1 with h1 | ⟨m, s', x, h1, _⟩ <;> rw [hn] at h1 <;> cases h1

theorem regular_caught {ms : List Res} {hs tr : Headers} {e : Option Exc} (hr : RegularStream l.c l.codec l.sc l.resComp hs ms tr e) :
    l.host.reports e = some e ∧ e.map ConnectErr.fromException = e.map errorOf := by
  have : e ≠ some .cancelled := by
    intro h
    have := hr.caught _ h
    cases this
  refine ⟨?_, by rw [errorOf_eq]⟩
  cases l.host with
  | asgi => exact congrArg some (asgiRaised_reraised this).2
  | wsgi fills http1 =>
    cases e with
    | none => rfl
    | some x =>
      cases x with
      | cancelled => exact absurd rfl this
      | _ => rfl

theorem finishes_of {w : EnvelopeWriter Res} {s : Duplex h} {e : Option Exc} (hf : Follows h s.told s.yielded s.handler)
    (ha : AtEnd h w s.handler e) : Finishes h w s.told s.yielded (finalInfo h s.handler) e := by
  rcases ha with h1 | ⟨m, s', x, h1, h2, rfl⟩
  · exact .itself hf h1 (by unfold finalInfo; rw [h1])
  · exact .unwritable hf h1 h2 (by unfold finalInfo; rw [h1])

theorem begins_of {k' : Compression} {s : Duplex h} (hi : DownInv l k' s) :
    Begins h s.told s.yielded (finalInfo h s.handler) (s.started.getD (finalInfo h s.handler)) := by
  cases hs : s.started with
  | none => exact .none (hi.startNone hs).1 rfl
  | some i =>
    rcases hi.startSome i hs with ⟨t0, st, st', m, b1, b2, b3, b4, b5⟩ | ⟨b1, _, b3⟩
    · exact .first b1 b2 b3 b4 b5
    · exact .none b1 b3.symm

/-- the stream ends -/
theorem duplex_finish {k' : Compression} (hr : Reasonable l h) {s : Duplex h} (hi : DownInv l k' s) {e : Option Exc} (ha : AtEnd h l.writer s.handler e)
    (hdr : l.drained s.closed e = true) :
    ∃ out, EndsWith l.writer l.c.proto l.sc (finalInfo h s.handler).trailers e out ∧
      l.finish s (finalInfo h s.handler) e = some (match out with
        | .body b => { s with started := some (s.started.getD (finalInfo h s.handler)), down := s.down ++ b, ended := some [] }
        | .trailers t => { s with started := some (s.started.getD (finalInfo h s.handler)), ended := some t.allitems }) := by
  have hreg := hr.ends _ _ _ _ _ (finishes_of hi.follows ha) (begins_of hi)
  obtain ⟨out, ho⟩ := hreg.ends
  refine ⟨out, ho, ?_⟩
  unfold Line.finish
  rw [(regular_caught hreg).1]
  dsimp only
  rw [hdr, Bool.not_true, if_neg Bool.false_ne_true]
  rw [(regular_caught hreg).2]
  have : (EnvelopeWriter.mk l.codec.res (some l.resComp)).end' l.c.proto l.sc (finalInfo h s.handler).trailers (e.map errorOf) = .ok out := ho
  rw [this]
  cases out <;> rfl

theorem down_finish {k' : Compression} (hr : Reasonable l h) {s s' : Duplex h} (hi : DownInv l k' s) (hen : s.ended = none) {e : Option Exc}
    (ha : AtEnd h l.writer s.handler e) (hs : l.finish s (finalInfo h s.handler) e = some s') : DownInv l k' s' := by
  have hdr : l.drained s.closed e = true := by
    have hreg := hr.ends _ _ _ _ _ (finishes_of hi.follows ha) (begins_of hi)
    unfold Line.finish at hs
    rw [(regular_caught hreg).1] at hs
    dsimp only at hs
    cases hdr : l.drained s.closed e with
    | true => rfl
    | false => rw [hdr] at hs; cases hs
  obtain ⟨out, ho, heq⟩ := duplex_finish hr hi ha hdr
  rw [heq] at hs
  obtain ⟨a1, a2, a3, bs, tail, a4, a5, a6⟩ := hi
  rw [hen] at a5
  have a5 : tail = [] := a5
  subst a5
  rw [List.append_nil] at a6
  have hst : ∀ i, s.started = some i → some (s.started.getD (finalInfo h s.handler)) = some i := by
    intro i hi; rw [hi]; rfl
  have hstart : ∀ i, some (s.started.getD (finalInfo h s.handler)) = some i → (∃ told0 st st' m, told0 <+: s.told ∧ [m] <+: s.yielded ∧
      Follows h told0 [] st ∧ h.next st = .emit m st' ∧ h.info st' = i) ∨ (s.yielded = [] ∧ true = true ∧ i = finalInfo h s.handler) := by
    intro i hi
    cases hs0 : s.started with
    | none => rw [hs0] at hi; cases hi; exact .inr ⟨(a2 hs0).1, rfl, rfl⟩
    | some i0 =>
      rw [hs0] at hi
      cases hi
      rcases a3 i0 hs0 with b | ⟨_, b, _⟩
      · exact .inl b
      · rw [hen] at b; cases b
  cases out with
  | body b =>
    cases hs
    exact ⟨a1, nofun, hstart, bs, b, a4, ⟨e, _, ha, ho, .inl ⟨b, rfl, rfl, rfl⟩⟩, reading_more a6 hen rfl rfl rfl rfl hst⟩
  | trailers t =>
    cases hs
    exact ⟨a1, nofun, hstart, bs, [], a4, ⟨e, _, ha, ho, .inr ⟨t, rfl, rfl, rfl⟩⟩,
      reading_more a6 hen rfl rfl rfl (List.append_nil _).symm hst⟩

theorem finish_started {s : Duplex h} {info : Meta} {e : Option Exc} :
    l.finish { s with started := some (s.started.getD info) } info e = l.finish s info e := by
  unfold Line.finish
  cases l.host.reports e with
  | none => rfl
  | some e' =>
    dsimp only
    cases l.drained s.closed e' with
    | false => rfl
    | true =>
    rw [Bool.not_true, if_neg Bool.false_ne_true, if_neg Bool.false_ne_true]
    cases (EnvelopeWriter.mk l.codec.res (some l.resComp)).end' l.c.proto l.sc info.trailers (e'.map ConnectErr.fromException) with
    | error x => rfl
    | ok out => cases out <;> cases s.started <;> rfl

/-- the client accepts the response headers -/
def Accepts (l : Line Req Res) (k' : Compression) : Prop :=
  ∀ i, l.c.proto.validateStream l.c.codec.name ((l.seen (l.fields i)).getD (pys! "content-type") []) = none ∧
    l.c.proto.responseCompression (l.seen (l.fields i)) l.c.comps true = .ok k'

theorem down_step {k' : Compression} (hk : Accepts l k') (hr : Reasonable l h) {mv : Move Req} {s s' : Duplex h} (hi : DownInv l k' s)
    (hs : l.step mv s = some s') : DownInv l k' s' := by
  cases mv with
  | give m =>
    unfold Line.step at hs
    dsimp only at hs
    cases hc : s.closed with
    | true => rw [hc] at hs; cases hs
    | false =>
      rw [hc] at hs
      cases hw : (EnvelopeWriter.mk l.c.codec (some l.c.send)).write m with
      | error e => rw [hw] at hs; cases hs
      | ok b =>
        rw [hw] at hs
        cases hs
        exact down_up hi hi.follows rfl rfl rfl rfl rfl rfl rfl (List.prefix_refl _) fun _ => rfl
  | close =>
    unfold Line.step at hs
    dsimp only at hs
    cases hc : s.closed with
    | true => rw [hc] at hs; cases hs
    | false =>
      rw [hc] at hs
      cases hs
      exact down_up hi hi.follows rfl rfl rfl rfl rfl rfl rfl (List.prefix_refl _) fun _ => rfl
  | arrive n last =>
    unfold Line.step at hs
    dsimp only at hs
    cases hn : h.next s.handler with
    | emit m st => rw [hn] at hs; cases hs
    | done e => rw [hn] at hs; cases hs
    | read k =>
      rw [hn] at hs
      dsimp only at hs
      cases hb : s.inlet.idle && l.host.mayArrive s.up s.closed n last with
      | false => rw [hb] at hs; cases hs
      | true =>
        rw [hb] at hs
        cases hs
        exact down_up hi hi.follows rfl rfl rfl rfl rfl rfl rfl (List.prefix_refl _) fun _ => rfl
  | answer =>
    unfold Line.step at hs
    dsimp only at hs
    cases hn : h.next s.handler with
    | emit m st => rw [hn] at hs; cases hs
    | done e => rw [hn] at hs; cases hs
    | read k =>
      rw [hn] at hs
      dsimp only at hs
      have key : ∀ x (s' : Duplex h), s'.told = s.told ++ [x] → s'.handler = k x → s'.yielded = s.yielded → s'.started = s.started →
          s'.down = s.down → s'.ended = s.ended → s'.outlet = s.outlet → s'.received = s.received → s'.outcome = s.outcome → DownInv l k' s' := by
        intro x s' e1 e2 e3 e4 e5 e6 e7 e8 e9
        refine down_up hi ?_ e3 e4 e5 e6 e7 e8 e9 (by rw [e1]; exact List.prefix_append _ _) fun he => (not_read_of_ended hi he hn).elim
        rw [e1, e2, e3]
        exact .told hi.follows hn x
      cases hready : s.inlet.ready with
      | cons m ms =>
        rw [hready] at hs
        cases hs
        exact key _ _ rfl rfl rfl rfl rfl rfl rfl rfl rfl
      | nil =>
        rw [hready] at hs
        cases herr : s.inlet.err with
        | some e =>
          rw [herr] at hs
          cases hs
          exact key _ _ rfl rfl rfl rfl rfl rfl rfl rfl rfl
        | none =>
          rw [herr] at hs
          dsimp only at hs
          cases he : s.inlet.eof with
          | false => rw [he] at hs; cases hs
          | true =>
            rw [he] at hs
            cases hs
            exact key _ _ rfl rfl rfl rfl rfl rfl rfl rfl rfl
  | emit =>
    unfold Line.step at hs
    dsimp only at hs
    cases hen : s.ended with
    | some t => rw [hen] at hs; cases hs
    | none =>
      cases hn : h.next s.handler with
      | read k => rw [hen, hn] at hs; cases hs
      | done e => rw [hen, hn] at hs; cases hs
      | emit m st =>
        rw [hen, hn] at hs
        dsimp only at hs
        cases hw : (EnvelopeWriter.mk l.codec.res (some l.resComp)).write m with
        | error e =>
          rw [hw] at hs
          dsimp only at hs
          have hfi : finalInfo h s.handler = h.info st := by unfold finalInfo; rw [hn]
          rw [← hfi, ← hen, show ({ s with started := some (s.started.getD (finalInfo h s.handler)), ended := s.ended } : Duplex h) =
            { s with started := some (s.started.getD (finalInfo h s.handler)) } from rfl, finish_started] at hs
          exact down_finish hr hi hen (.inr ⟨m, st, e, hn, hw, rfl⟩) hs
        | ok b =>
          rw [hw] at hs
          cases hs
          obtain ⟨a1, a2, a3, bs, tail, a4, a5, a6⟩ := hi
          rw [hen] at a5
          have a5 : tail = [] := a5
          subst a5
          rw [List.append_nil] at a6
          refine ⟨.yields a1 hn, nofun, ?_, bs ++ [b], [], ?_, rfl, ?_⟩
          · intro i hi
            cases hs0 : s.started with
            | none =>
              rw [hs0] at hi
              cases hi
              have h0 := (a2 hs0).1
              rw [h0] at a1
              exact .inl ⟨s.told, s.handler, st, m, List.prefix_refl _, by show _ <+: s.yielded ++ [m]; rw [h0]; exact List.prefix_refl _,
                a1, hn, rfl⟩
            | some i0 =>
              rw [hs0] at hi
              cases hi
              rcases a3 i0 hs0 with ⟨t0, st1, st2, m1, b1, b2, b3⟩ | ⟨_, b, _⟩
              · exact .inl ⟨t0, st1, st2, m1, b1, b2.trans (List.prefix_append _ _), b3⟩
              · rw [hen] at b; cases b
          · show (s.yielded ++ [m]).map l.writer.write = _
            rw [List.map_append, a4, List.map_append]
            congr 1
            show [l.writer.write m] = _
            rw [show l.writer.write m = .ok b from hw]; rfl
          · have := reading_more (b := b) a6 hen (s' := { s with handler := st, yielded := s.yielded ++ [m], started := some (s.started.getD (h.info st)), down := s.down ++ b, ended := none }) rfl rfl rfl rfl (by intro i hi; rw [hi]; rfl)
            simpa using this
  | finish =>
    unfold Line.step at hs
    dsimp only at hs
    cases hen : s.ended with
    | some t => rw [hen] at hs; cases hs
    | none =>
      cases hn : h.next s.handler with
      | read k => rw [hen, hn] at hs; cases hs
      | emit m st => rw [hen, hn] at hs; cases hs
      | done e =>
        rw [hen, hn] at hs
        have hfi : finalInfo h s.handler = h.info s.handler := by unfold finalInfo; rw [hn]
        rw [← hfi] at hs
        exact down_finish hr hi hen (.inl hn) hs
  | headers =>
    unfold Line.step at hs
    dsimp only at hs
    cases hst : s.started with
    | none => rw [hst] at hs; cases hs
    | some i =>
      rw [hst] at hs
      cases ho : s.outlet with
      | some co => rw [ho] at hs; cases hs
      | none =>
        rw [ho] at hs
        cases hoc : s.outcome with
        | some r => rw [hoc] at hs; cases hs
        | none =>
          rw [hoc] at hs
          dsimp only at hs
          rw [(hk i).1] at hs
          dsimp only at hs
          rw [(hk i).2] at hs
          cases hs
          obtain ⟨a1, a2, a3, bs, tail, a4, a5, a6⟩ := hi
          rw [ho] at a6
          obtain ⟨c1, c2, c3⟩ := a6
          refine ⟨a1, nofun, by intro i' h'; exact a3 i' (by rw [hst]; exact h'), bs, tail, a4, a5, rfl, i, [], rfl, ?_, ?_, nofun, nofun⟩
          · exact c3
          · show _ = (s.received ++ [], _, _)
            rw [c1]; rfl
  | reply n last =>
    unfold Line.step at hs
    dsimp only at hs
    cases ho : s.outlet with
    | none => rw [ho] at hs; cases hs
    | some co =>
      obtain ⟨comp, o⟩ := co
      rw [ho] at hs
      cases hoc : s.outcome with
      | some r => rw [hoc] at hs; cases hs
      | none =>
        rw [hoc] at hs
        dsimp only at hs
        cases hb : o.idle && mayArrive s.down s.ended.isSome n last with
        | false => rw [hb] at hs; cases hs
        | true =>
          rw [hb] at hs
          cases hs
          rw [Bool.and_eq_true] at hb
          obtain ⟨hb1, hb2⟩ := hb
          obtain ⟨hready, herr, heof⟩ := idle_iff.1 hb1
          obtain ⟨a1, a2, a3, bs, tail, a4, a5, a6⟩ := hi
          rw [ho] at a6
          obtain ⟨rfl, i, chunks, c2, c3, c4, c5, c6⟩ := a6
          refine ⟨a1, ?_, a3, bs, tail, a4, a5, rfl, i, chunks ++ [s.down.take n], c2, ?_, ?_, ?_, nofun⟩
          · intro hst; rw [show s.started = none from hst] at c2; cases c2
          · rw [← c3]; simp
          · rw [herr, hready] at c4
            have hsnoc := feedAll_snoc (l.c.reader comp) (s.down.take n) chunks _ c4
            rw [hsnoc]
            unfold Inlet.chunk
            rcases hf : feed (l.c.reader comp) o.reader (s.down.take n) with ⟨ms, st, rs⟩
            cases st <;> simp [stopOf]
          · intro he
            have hlast : last = true := by
              unfold Inlet.chunk at he
              rcases hf : feed (l.c.reader comp) o.reader (s.down.take n) with ⟨ms, st, rs⟩
              rw [hf] at he
              cases st <;> exact he
            subst hlast
            unfold mayArrive at hb2
            simp only [if_true, Bool.and_eq_true, beq_iff_eq] at hb2
            exact ⟨hb2.1, by show s.down.drop n = []; rw [hb2.2]; exact List.drop_length⟩
  | take =>
    unfold Line.step at hs
    dsimp only at hs
    cases ho : s.outlet with
    | none => rw [ho] at hs; cases hs
    | some co =>
      obtain ⟨comp, o⟩ := co
      rw [ho] at hs
      cases hoc : s.outcome with
      | some r => rw [hoc] at hs; cases hs
      | none =>
        rw [hoc] at hs
        obtain ⟨a1, a2, a3, bs, tail, a4, a5, a6⟩ := hi
        rw [ho] at a6
        obtain ⟨rfl, i, chunks, c2, c3, c4, c5, c6⟩ := a6
        rw [c2] at hs
        dsimp only at hs
        have hst : s.started = none → False := by intro hst; rw [hst] at c2; cases c2
        cases hready : o.ready with
        | cons m ms =>
          rw [hready] at hs
          cases hs
          refine ⟨a1, nofun, by intro i' h'; exact a3 i' (by rw [c2]; exact h'), bs, tail, a4, a5, rfl, i, chunks, rfl, c3, ?_, c5, nofun⟩
          rw [c4, hready]; simp
        | nil =>
          rw [hready] at hs
          cases herr : o.err with
          | some e =>
            rw [herr] at hs
            cases hs
            refine ⟨a1, nofun, by intro i' h'; exact a3 i' (by rw [c2]; exact h'), bs, tail, a4, a5, ?_⟩
            refine ⟨rfl, i, chunks, rfl, c3, c4, c5, ?_⟩
            intro r hr
            cases hr
            exact ⟨hready, .inl ⟨e, herr, rfl⟩⟩
          | none =>
            rw [herr] at hs
            dsimp only at hs
            cases he : o.eof with
            | false => rw [he] at hs; cases hs
            | true =>
              rw [he] at hs
              cases hq : (l.c.proto.complete l.sc o.reader.sub ⟨200, l.seen (l.fields i), l.seen (s.ended.getD [])⟩ none).2 with
              | none =>
                rw [if_pos rfl, hq] at hs
                cases hs
                refine ⟨a1, nofun, by intro i' h'; exact a3 i' (by rw [c2]; exact h'), bs, tail, a4, a5, ?_⟩
                refine ⟨rfl, i, chunks, rfl, c3, c4, c5, ?_⟩
                intro r hr
                cases hr
                exact ⟨hready, .inr ⟨herr, he, _, rfl, .inl ⟨hq, rfl⟩⟩⟩
              | some e =>
                rw [if_pos rfl, hq] at hs
                cases hs
                refine ⟨a1, nofun, by intro i' h'; exact a3 i' (by rw [c2]; exact h'), bs, tail, a4, a5, ?_⟩
                refine ⟨rfl, i, chunks, rfl, c3, c4, c5, ?_⟩
                intro r hr
                cases hr
                exact ⟨hready, .inr ⟨herr, he, _, rfl, .inr ⟨e, hq, rfl⟩⟩⟩

/-! ### what the invariants mean -/

/-- every message yielded was the handler's next -/
theorem follows_yielded {told : List (Except Exc (Option Req))} {out : List Res} {st : h.State} (hf : Follows h told out st) :
    ∀ m ∈ out, ∃ told' out' s s', Follows h told' out' s ∧ h.next s = .emit m s' := by
  induction hf with
  | start => exact nofun
  | told hf hn x ih => exact ih
  | yields hf hn ih =>
    intro m hm
    rcases List.mem_append.1 hm with hm | hm
    · exact ih m hm
    · rw [List.mem_singleton] at hm; subst hm; exact ⟨_, _, _, _, hf, hn⟩

/-- what the client needs from its compression -/
def Inflates (l : Line Req Res) (k' : Compression) : Prop :=
  l.resComp ≠ .identity → k' ≠ .identity ∧ ∀ b, k'.decompress (l.resComp.compress b) = .ok b

theorem accepts_of (hl : Fitting l sendable) : ∃ k', Accepts l k' ∧ Inflates l k' := by
  obtain ⟨k', h1, h2, h3⟩ := chosen_known hl.comps
  have hrc : l.resComp = chosen l.c l.app := hl.resComp
  refine ⟨k', ?_, by intro h; rw [hrc] at h ⊢; exact h3 h⟩
  intro i
  have hw : ∀ n, Py.lower n ∉ transportNames → fieldValues (l.seen (l.fields i)) n = fieldValues (streamFields l.c.proto l.codec l.resComp i) n := by
    intro n hn
    rw [hl.conveys.field _ n hn]
    have : l.fields i = streamFields l.c.proto l.codec l.resComp i := by
      unfold Line.fields streamHeaders streamFields
      cases l.c.proto <;> rfl
    rw [this]
  have hlow := hl.conveys.lower (l.fields i)
  constructor
  · have : (l.seen (l.fields i)).getD (pys! "content-type") [] = streamType l.c.proto l.c.codec.name := by
      unfold HTTPHeaders.getD
      rw [http_get_eq _ hlow, hw _ (by decide +kernel), ← hl.codec.name]
      unfold streamFields
      rw [List.cons_append, fieldValues_cons, if_pos rfl]
      rfl
    rw [this]
    exact validateStream_ok _ _
  · have h4 : l.c.proto.requestEncodingHeader true = encodingHeader l.c.proto := by cases l.c.proto <;> rfl
    have h5 : lower (encodingHeader l.c.proto) ∉ transportNames := by cases l.c.proto <;> decide +kernel
    have h6 : ¬ lower (pys! "content-type") = lower (encodingHeader l.c.proto) := by cases l.c.proto <;> decide +kernel
    unfold Proto.responseCompression
    rw [h4, http_get_eq _ hlow, hw _ h5]
    unfold streamFields
    rw [List.cons_append, fieldValues_cons, if_neg h6, List.cons_append, fieldValues_cons, if_pos rfl]
    dsimp only [List.head?]
    rw [hrc, if_neg (by simpa using h2), h1]

theorem pre_data (w : EnvelopeWriter Res) : w.pre = 0 ∨ w.pre = 1 := by
  unfold EnvelopeWriter.pre
  split
  · exact .inl rfl
  · split
    · exact .inl rfl
    · exact .inr rfl

/-- the envelopes of the messages yielded -/
theorem yielded_frames (hl : Fitting l sendable) (hr : Reasonable l h) {k' : Compression} (hk : Inflates l k') {told : List (Except Exc (Option Req))} {out : List Res} {st : h.State}
    (hf : Follows h told out st) {bs : List Bytes} (hw : out.map l.writer.write = bs.map .ok) :
    ∃ fs : List Frame, (∀ f ∈ fs, f.Ok ∧ (f.flags = 0 ∨ f.flags = 1)) ∧ bs.flatten = fs.flatMap Frame.bytes ∧
      fs.map (policyOf (l.c.reader k')).message = out.map .ok := by
  obtain ⟨fs, h1, h2, h3, h4⟩ := writeAll_frames l.writer (l.c.reader k') ⟨hl.codec.response, by intro k e; cases e; exact hk⟩ out bs hw (by
    intro n hn m hm d hd
    obtain ⟨t', o', s, s', g1, g2⟩ := follows_yielded hf m hm
    exact hr.message t' o' s m s' g1 g2 n hn d hd)
  refine ⟨fs, fun f hf => ⟨h1 f hf, ?_⟩, by rw [h2, List.flatMap_def], h4⟩
  rw [h3 f hf]
  exact pre_data _

/-- the end of a response is one envelope, or nothing -/
theorem tail_frame (hl : Fitting l sendable) (hr : Reasonable l h) {k' : Compression} (hk : Inflates l k') {s : Duplex h} (hi : DownInv l k' s)
    {t : List (Str × Str)} {tail : Bytes} (ht : Tail l h s.handler tail (some t)) : tail = [] ∨ ∃ g : Frame, g.Ok ∧ tail = g.bytes := by
  obtain ⟨e, out, h1, h2, h3⟩ := ht
  rcases h3 with ⟨b, rfl, rfl, rfl⟩ | ⟨th, rfl, rfl, rfl⟩
  · right
    unfold EndsWith EnvelopeWriter.end' at h2
    have key : ∀ pre d b, packEnvelope pre d = .ok b → ∃ g : Frame, g.Ok ∧ b = g.bytes := by
      intro pre d b hp
      unfold packEnvelope at hp
      by_cases hlt : d.length < 4294967296
      · rw [if_pos hlt] at hp
        cases hp
        exact ⟨⟨pre, d⟩, hlt, by rw [frame_bytes_eq]⟩
      · rw [if_neg hlt] at hp; cases hp
    cases hp : l.c.proto with
    | connect =>
      rw [hp] at h2
      dsimp only at h2
      unfold EnvelopeWriter.connectEnd at h2
      cases hx : packEnvelope (l.writer.pre ||| 2) (l.writer.compress (utf8Encode (dumps (connectEndJson (finalInfo h s.handler).trailers (e.map errorOf))))) with
      | error x => rw [hx] at h2; cases h2
      | ok b => rw [hx] at h2; cases h2; exact key _ _ _ hx
    | grpc => rw [hp] at h2; cases h2
    | grpcWeb =>
      rw [hp] at h2
      dsimp only at h2
      unfold EnvelopeWriter.grpcWebEnd at h2
      cases hx : packEnvelope (l.writer.pre ||| 128) (l.writer.compress (utf8Encode (trailerBlock (grpcTrailers l.sc (finalInfo h s.handler).trailers (e.map errorOf)).allitems))) with
      | error x => rw [hx] at h2; cases h2
      | ok b => rw [hx] at h2; cases h2; exact key _ _ _ hx
  · exact .inl rfl

/-- the client's view of the whole response -/
theorem whole_response (hl : Fitting l sendable) (hr : Reasonable l h) {k' : Compression} (hacc : Accepts l k') {s : Duplex h} (hi : DownInv l k' s)
    {bs : List Bytes} {tail : Bytes} {t : List (Str × Str)} (hb : s.yielded.map l.writer.write = bs.map .ok) (ht : Tail l h s.handler tail (some t))
    {i : Meta} (hst : s.started = some i) {chunks : List Bytes} (hch : chunks.flatten = bs.flatten ++ tail) {cs : Circumstances} (hcs : Calm cs) :
    ∃ e, Finishes h l.writer s.told s.yielded (finalInfo h s.handler) e ∧ Begins h s.told s.yielded (finalInfo h s.handler) i ∧
      StreamGets l.c.proto l.sink i.headers s.yielded (finalInfo h s.handler).trailers e
        ⟨(l.c.readBody l.sc (l.told i) k' ⟨200, l.seen (l.fields i), chunks, none, l.seen t, none⟩ cs).sink,
         (l.c.readBody l.sc (l.told i) k' ⟨200, l.seen (l.fields i), chunks, none, l.seen t, none⟩ cs).messages,
         (l.c.readBody l.sc (l.told i) k' ⟨200, l.seen (l.fields i), chunks, none, l.seen t, none⟩ cs).exc⟩ := by
  obtain ⟨e, out, h1, h2, h3⟩ := ht
  have hfin := finishes_of hi.follows h1
  have hbeg : Begins h s.told s.yielded (finalInfo h s.handler) i := by
    have := begins_of hi
    rw [hst] at this
    exact this
  have hreg := hr.ends _ _ _ _ _ hfin hbeg
  refine ⟨e, hfin, hbeg, ?_⟩
  have hrc : l.resComp = chosen l.c l.app := hl.resComp
  have hfields : l.fields i = streamFields l.c.proto l.codec l.resComp i := by
    unfold Line.fields streamHeaders streamFields
    cases l.c.proto <;> rfl
  have hw : Wrote l.c.proto l.codec l.sc (chosen l.c l.app) i s.yielded (finalInfo h s.handler).trailers e bs
      ⟨200, l.fields i, bs.flatten ++ tail, t⟩ := by
    rw [← hrc]
    refine ⟨hb, rfl, hfields, out, h2, ?_⟩
    rcases h3 with ⟨b, rfl, rfl, rfl⟩ | ⟨th, rfl, rfl, rfl⟩
    · exact ⟨rfl, rfl⟩
    · exact ⟨List.append_nil _, rfl⟩
  have hrec : ReceivedStream ⟨200, l.fields i, bs.flatten ++ tail, t⟩ ⟨200, l.seen (l.fields i), chunks, none, l.seen t, none⟩ :=
    ⟨rfl, hl.conveys.lower _, hl.conveys.field _, fun _ => hch, hl.conveys.lower _, hl.conveys.field _, rfl, rfl⟩
  rw [hrc] at hreg
  obtain ⟨g1, g2, g3⟩ := inside_reads hl.codec hl.comps hreg hw hrec hl.sink hcs
  have hin : l.c.inside l.sc l.sink ⟨200, l.seen (l.fields i), chunks, none, l.seen t, none⟩ cs =
      l.c.readBody l.sc (l.told i) k' ⟨200, l.seen (l.fields i), chunks, none, l.seen t, none⟩ cs := by
    unfold Client.inside
    dsimp only
    rw [if_pos rfl, (hacc i).1]
    dsimp only
    rw [(hacc i).2]
  rw [hin] at g1 g2 g3
  exact ⟨g1, g2, g3⟩

/-- what the client has made of a beginning of the response -/
theorem down_prefix (hl : Fitting l sendable) (hr : Reasonable l h) {k' : Compression} (hacc : Accepts l k') (hk : Inflates l k') {s : Duplex h}
    (hi : DownInv l k' s) {comp : Compression} {o : Inlet Res ClientSub} (ho : s.outlet = some (comp, o)) :
    s.received ++ o.ready <+: s.yielded ∧ (o.err ≠ none → s.down = [] ∧ s.ended.isSome = true) ∧ (s.down = [] → s.received ++ o.ready = s.yielded) := by
  obtain ⟨bs, tail, a4, a5, a6⟩ := hi.flow
  rw [ho] at a6
  obtain ⟨rfl, i, chunks, c2, c3, c4, c5, c6⟩ := a6
  obtain ⟨fs, h1, h2, h3⟩ := yielded_frames hl hr hk hi.follows a4
  have hdata : ∀ f ∈ fs, ∀ s d, (l.c.reader comp).handleEnd s f.flags d = (passOf l.c s, .ok false) :=
    fun f hf s d => client_data l.c comp f (h1 f hf).2 s d
  -- the part of the envelopes that has been read consists of messages
  have messages : ∀ gs gs' rest, fs = gs ++ gs' → Splits chunks.flatten gs rest → (s.received ++ o.ready = s.yielded.take gs.length ∧ o.err = none) := by
    intro gs gs' rest hfs hsp
    rw [hfs] at h3 hdata
    obtain ⟨g1, g2⟩ := feedAll_prefix (l.c.reader comp) (passOf l.c) (ClientSub.init (l.told i)) gs _ chunks
      (fun f hf => hdata f (List.mem_append_left _ hf)) (messages_split h3).1 hsp
    rw [c4] at g1 g2
    refine ⟨g1, ?_⟩
    cases herr : o.err with
    | none => rfl
    | some e => rw [herr] at g2; cases g2
  have hlen : fs.length = s.yielded.length := by simpa using congrArg List.length h3
  have all : s.down = [] → s.ended.isSome = true → s.received ++ o.ready = s.yielded := by
    intro hd he
    cases hen : s.ended with
    | none => rw [hen] at he; cases he
    | some t =>
      rw [hen] at a5
      rw [hd, List.append_nil] at c3
      obtain ⟨e, _, _, g⟩ := whole_response hl hr hacc hi a4 a5 c2 c3 (cs := ⟨false, false, none, false⟩) ⟨rfl, rfl⟩
      have := g.messages
      rw [← this]
      dsimp only
      unfold Client.readBody
      dsimp only
      have hcan : cancelPoint l.c.flavor none (feedAll (l.c.reader comp) (.init (ClientSub.init (l.told i))) chunks).1.length = none := by
        cases l.c.flavor <;> rfl
      rw [hcan]
      dsimp only
      rw [c4]
      dsimp only
      cases herr : o.err with
      | some e => rfl
      | none =>
        dsimp only [stopOf]
        split <;> rfl
  -- with or without an end
  have cases_tail : (tail = [] ∧ True) ∨ (∃ g : Frame, g.Ok ∧ tail = g.bytes ∧ s.ended.isSome = true) := by
    cases hen : s.ended with
    | none => rw [hen] at a5; exact .inl ⟨a5, trivial⟩
    | some t =>
      rw [hen] at a5
      rcases tail_frame hl hr hk hi a5 with h | ⟨g, g1, g2⟩
      · exact .inl ⟨h, trivial⟩
      · exact .inr ⟨g, g1, g2, rfl⟩
  rcases cases_tail with ⟨rfl, _⟩ | ⟨g, g1, rfl, g3⟩
  · rw [List.append_nil, h2] at c3
    obtain ⟨gs, gs', rest, p1, p2, _, p4⟩ := prefix_frames (fun f hf => (h1 f hf).1) c3
    obtain ⟨m1, m2⟩ := messages gs gs' rest p1 p2
    refine ⟨by rw [m1]; exact List.take_prefix _ _, fun h => absurd m2 h, ?_⟩
    intro hd
    rw [p4 hd, List.append_nil] at p1
    rw [m1, ← p1, hlen, List.take_length]
  · have c3' : chunks.flatten ++ s.down = (fs ++ [g]).flatMap Frame.bytes := by
      rw [c3, h2, List.flatMap_append]; simp
    obtain ⟨gs, gs', rest, p1, p2, p3, p4⟩ := prefix_frames (by
      intro f hf
      rcases List.mem_append.1 hf with hf | hf
      · exact (h1 f hf).1
      · rw [List.mem_singleton] at hf; subst hf; exact g1) c3'
    by_cases hd : s.down = []
    · have := all hd g3
      exact ⟨by rw [this]; exact List.prefix_refl _, fun _ => ⟨hd, g3⟩, fun _ => this⟩
    · have hgs' : gs' ≠ [] := by
        rintro rfl
        apply hd
        have := List.append_eq_nil_iff.1 p3
        exact this.2
      have hpre : ∃ gs'', fs = gs ++ gs'' := by
        have hl' : gs' = gs'.dropLast ++ [gs'.getLast hgs'] := (List.dropLast_concat_getLast hgs').symm
        rw [hl', ← List.append_assoc] at p1
        obtain ⟨e1, _⟩ := List.append_inj' p1 rfl
        exact ⟨_, e1⟩
      obtain ⟨gs'', hfs⟩ := hpre
      obtain ⟨m1, m2⟩ := messages gs gs'' rest hfs p2
      exact ⟨by rw [m1]; exact List.take_prefix _ _, fun h => absurd m2 h, fun h => absurd h hd⟩

/-! ### progress -/

/-- every message takes bytes from the buffer -/
theorem readMessages_size {M σ : Type} (c : ReaderCfg M σ) (s : ReaderState σ) :
    (readMessages c s).1.length + (readMessages c s).2.2.buffer.length ≤ s.buffer.length := by
  fun_induction readMessages c s <;> (simp_all +zetaDelta) <;> first | omega | skip
  rename_i hd _
  have := congrArg List.length hd
  simp only [List.length_drop, List.length_cons] at this
  omega

theorem feed_size {M σ : Type} (c : ReaderCfg M σ) (s : ReaderState σ) (b : Bytes) :
    (feed c s b).1.length + (feed c s b).2.2.buffer.length ≤ s.buffer.length + b.length := by
  have := readMessages_size c { s with buffer := s.buffer ++ b }
  rw [List.length_append] at this
  exact this

theorem chunk_size {M σ : Type} (c : ReaderCfg M σ) (i : Inlet M σ) (b : Bytes) (last : Bool) :
    (i.chunk c b last).eof = last ∧
    (i.chunk c b last).ready.length + (i.chunk c b last).reader.buffer.length ≤ i.reader.buffer.length + b.length := by
  have := feed_size c i.reader b
  unfold Inlet.chunk
  cases hf : feed c i.reader b with
  | mk ms r =>
    obtain ⟨st, s⟩ := r
    rw [hf] at this
    cases st <;> exact ⟨rfl, this⟩

/-- how much may happen without the handler and the caller -/
def effort (s : Duplex h) : Nat :=
  s.up.length + (if s.inlet.eof then 0 else 1) + 2 * s.down.length + (if s.outcome.isSome then 0 else 1) +
  match s.outlet with
  | none => 2
  | some (_, o) => o.reader.buffer.length + o.ready.length + if o.eof then 0 else 1

/-- the moves of the connection and of the caller's iteration over the responses -/
def Move.ofConnection {Req : Type} : Move Req → Bool
  | .arrive _ _ | .headers | .reply _ _ | .take => true
  | _ => false

theorem mayArrive_less {b : Bytes} {e last : Bool} {n : Nat} (hm : mayArrive b e n last = true) :
    n ≤ b.length ∧ (0 < n ∨ last = true) := by
  unfold mayArrive at hm
  cases last with
  | true =>
    rw [if_pos rfl, Bool.and_eq_true, beq_iff_eq] at hm
    exact ⟨by omega, .inr rfl⟩
  | false =>
    rw [if_neg (by simp), Bool.and_eq_true, decide_eq_true_eq, decide_eq_true_eq] at hm
    exact ⟨hm.2, .inl hm.1⟩

theorem effort_step {l : Line Req Res} {mv : Move Req} {s s' : Duplex h} (hc : mv.ofConnection = true) (hs : l.step mv s = some s') :
    effort s' < effort s := by
  cases mv with
  | give m => cases hc
  | close => cases hc
  | answer => cases hc
  | emit => cases hc
  | finish => cases hc
  | arrive n last =>
    unfold Line.step at hs
    dsimp only at hs
    split at hs
    · split at hs
      · rename_i hg
        rw [Bool.and_eq_true] at hg
        obtain ⟨hi, ha⟩ := hg
        cases hs
        have h1 := mayArrive_less (host_arrive ha)
        have h2 := chunk_size (l.app.reader l.codec l.reqComp) s.inlet (s.up.take n) last
        have h3 : s.inlet.eof = false := by
          unfold Inlet.idle at hi
          cases he : s.inlet.eof with
          | false => rfl
          | true => rw [he] at hi; simp at hi
        unfold effort
        dsimp only
        rw [h2.1, h3, List.length_drop]
        cases last <;> simp at h1 ⊢ <;> omega
      · cases hs
    · cases hs
  | headers =>
    unfold Line.step at hs
    dsimp only at hs
    split at hs
    · rename_i ho hout
      split at hs
      · cases hs
        unfold effort
        simp [ho, hout]
      · split at hs
        · cases hs
          unfold effort
          simp [ho, hout]
        · cases hs
          unfold effort
          simp [ho, hout, ReaderState.init]
    · cases hs
  | reply n last =>
    unfold Line.step at hs
    dsimp only at hs
    split at hs
    · rename_i comp o ho hout
      split at hs
      · rename_i hg
        rw [Bool.and_eq_true] at hg
        obtain ⟨hi, ha⟩ := hg
        cases hs
        have h1 := mayArrive_less ha
        have h2 := chunk_size (l.c.reader comp) o (s.down.take n) last
        have h3 : o.eof = false ∧ o.ready = [] := by
          unfold Inlet.idle at hi
          cases he : o.eof with
          | false => cases hr : o.ready with
            | nil => exact ⟨rfl, rfl⟩
            | cons x xs => rw [hr] at hi; simp at hi
          | true => rw [he] at hi; simp at hi
        unfold effort
        dsimp only
        rw [ho]
        dsimp only
        rw [h2.1, h3.1, h3.2, List.length_drop]
        have h4 := h2.2
        rw [List.length_take] at h4
        cases last <;> simp at h1 ⊢ <;> omega
      · cases hs
    · cases hs
  | take =>
    unfold Line.step at hs
    dsimp only at hs
    split at hs
    · rename_i comp o i ho hout hst
      split at hs
      · rename_i m ms he hr
        cases hs
        unfold effort
        simp [ho, hr]
      · cases hs
        unfold effort
        simp [ho, hout]
      · split at hs
        · split at hs
          · cases hs
            unfold effort
            simp [ho, hout]
          · cases hs
            unfold effort
            simp [ho, hout]
        · cases hs
    · cases hs

end

end Conn
