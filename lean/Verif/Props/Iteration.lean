import Verif.Proofs.Iteration
import Verif.Props.Rejected
/-
C77: streaming calls that are resumed message by message, and may be abandoned.
-/
namespace Props
open Py Spec Conn

variable {Req Res : Type}

/-! ### Examples -/

/-- A gRPC-Web call whose response comes in three chunks: a message and the prefix of another one; its payload; the trailers. -/
def pieces : List Bytes := [[0, 0, 0, 0, 1, 7, 0, 0, 0, 0, 1], [9], [128, 0, 0, 0, 16, 103, 114, 112, 99, 45, 115, 116, 97, 116, 117, 115, 58, 32, 48, 13, 10]]
def piecesCall (f : Flavor) (chunks : List Bytes) : StreamCall Bytes Bytes where
  c := demoClient f .grpcWeb
  sc := demoStatus
  http := fun _ => .ok (okStream (pys! "application/grpc-web+raw") chunks [])
  cs := calm
  ctx := (demoClient f .grpcWeb).context demoMethod (pys! "POST") .none none true
  reqs := [[1], [2]]
  srcErr := none

/-- What a caller sees of an iteration. -/
def seen {Res : Type} : Iteration × Got Res → List Effect × Option (Option Res)
  | (i, .message m) => (i.log, some (some m))
  | (i, .stop) => (i.log, some none)
  | (i, .raised _) => (i.log, none)

/-- **C77, released.** Whatever the caller does with a stream, in whatever order: the request is sent at most once; and the response is released, once, at the
latest when the caller closes the stream or `next` gives anything else than a message. -/
theorem C77_released (k : StreamCall Req Res) (sink : Sink) (us : List Use) :
    (∃ held, Tidy k.request held (after k (.start sink) us).log) ∧
    ∀ u, Concludes k (after k (.start sink) us) u → Tidy k.request false (k.use u (after k (.start sink) us)).log := by
  have hs := sound_after k us _ (sound_start k sink)
  refine ⟨?_, ?_⟩
  · unfold Sound at hs
    cases hp : (after k (.start sink) us).phase with
    | fresh => rw [hp] at hs; rw [show (after k (.start sink) us).log = [] from hs]; exact ⟨_, .nothing⟩
    | paused resp comp s rest => rw [hp] at hs; exact ⟨_, hs.1⟩
    | over => rw [hp] at hs; exact ⟨_, hs⟩
  · intro u hu
    cases u with
    | close => exact (close_over k _ hs).2
    | next b =>
      rcases next_left k b _ hs with ⟨m, _, _, _, _, h1, _⟩ | ⟨_, _, h3⟩
      · exact absurd h1 (hu m)
      · exact h3

/-- the first `next` gives a message and leaves the response held; then the stream is closed, and later `next`s do nothing -/
example : ((after (piecesCall .sync pieces) (.start none) [.next false]).log =
      [.sent (piecesCall .sync pieces).request, .opened, .chunk [0, 0, 0, 0, 1, 7, 0, 0, 0, 0, 1]]) ∧
    Concludes (piecesCall .sync pieces) (after (piecesCall .sync pieces) (.start none) [.next false]) .close ∧
    ((after (piecesCall .sync pieces) (.start none) [.next false, .close, .next false]).log =
      [.sent (piecesCall .sync pieces).request, .opened, .chunk [0, 0, 0, 0, 1, 7, 0, 0, 0, 0, 1], .released]) := by
  refine ⟨?_, trivial, ?_⟩ <;> decide +kernel

/-- **C77, nothing after the end.** Once the caller has closed the stream, or `next` has given anything else than a message, the stream is empty: nothing more
is done, `next` gives the end and `close` does not raise. -/
theorem C77_over (k : StreamCall Req Res) (sink : Sink) (us : List Use) (u : Use) (hu : Concludes k (after k (.start sink) us) u) (b : Bool) :
    k.next b (k.use u (after k (.start sink) us)) = (k.use u (after k (.start sink) us), .stop) ∧
    k.close (k.use u (after k (.start sink) us)) = (k.use u (after k (.start sink) us), none) := by
  have hs := sound_after k us _ (sound_start k sink)
  have hp : (k.use u (after k (.start sink) us)).phase = .over := by
    cases u with
    | close => exact (close_over k _ hs).1
    | next b =>
      rcases next_left k b _ hs with ⟨m, _, _, _, _, h1, _⟩ | ⟨_, h2, _⟩
      · exact absurd h1 (hu m)
      · exact h2
  unfold StreamCall.next StreamCall.close
  rw [hp]
  exact ⟨rfl, rfl⟩

/-- **C77, close.** Closing a stream raises nothing, unless leaving the HTTP response does; and a stream that is closed before the first `next` sends nothing. -/
theorem C77_close (k : StreamCall Req Res) (sink : Sink) (us : List Use) :
    ((∀ resp, k.http k.request = .ok resp → resp.exitErr = none) → (k.close (after k (.start sink) us)).2 = none) ∧
    ((∀ u ∈ us, u = .close) → (after k (.start sink) us).log = []) := by
  have hs := sound_after k us _ (sound_start k sink)
  refine ⟨?_, ?_⟩
  · intro he
    unfold Sound at hs
    unfold StreamCall.close
    cases hp : (after k (.start sink) us).phase with
    | fresh => rfl
    | over => rfl
    | paused resp comp s rest =>
      rw [hp] at hs
      dsimp only
      rw [he resp hs.2]
  · intro hc
    have gen : ∀ (us : List Use) (i : Iteration), (∀ u ∈ us, u = .close) → (i.phase = .fresh ∨ i.phase = .over) → i.log = [] → (after k i us).log = [] := by
      intro us
      induction us with
      | nil => intro i _ _ h; exact h
      | cons u us ih =>
        intro i hc hp hl
        rw [hc u List.mem_cons_self] at *
        refine ih (k.close i).1 (fun v hv => hc v (List.mem_cons_of_mem _ hv)) ?_ ?_
        · unfold StreamCall.close
          rcases hp with hp | hp
          · rw [hp]; exact .inr rfl
          · rw [hp]; exact .inr hp
        · unfold StreamCall.close
          rcases hp with hp | hp
          · rw [hp]; exact hl
          · rw [hp]; exact hl
    exact gen us _ hc (.inl rfl) rfl

/-- a stream closed at once has sent nothing, and its first `next` gives the end; closed after a message it raises nothing -/
example : seen ((piecesCall .async pieces).next false (after (piecesCall .async pieces) (.start none) [.close])) = ([], some none) ∧
    ((piecesCall .async pieces).close (after (piecesCall .async pieces) (.start none) [.next false, .next false])).2 = none := by
  refine ⟨?_, ?_⟩ <;> decide +kernel

/-- **C77, the same call.** Iterated to its end, the stream gives the messages, the outcome and the metadata of the call as a whole. -/
theorem C77_whole (k : StreamCall Req Res) (hc : k.cs.cancelAfter = none) (sink : Sink) :
    ∃ i, Yields k (k.next false (.start sink)) (k.c.bidi k.sc k.http sink k.cs k.ctx k.reqs k.srcErr).messages i
      (k.c.bidi k.sc k.http sink k.cs k.ctx k.reqs k.srcErr).exc ∧ i.sink = (k.c.bidi k.sc k.http sink k.cs k.ctx k.reqs k.srcErr).sink := by
  obtain ⟨i, h1, h2, _⟩ := call_yields k hc sink
  exact ⟨i, h1, h2⟩

/-- the call of the examples ends well, with two messages -/
example : (piecesCall .sync pieces).cs.cancelAfter = none ∧
    ((piecesCall .sync pieces).c.bidi demoStatus (piecesCall .sync pieces).http none calm (piecesCall .sync pieces).ctx [[1], [2]] none).messages = [[7], [9]] ∧
    ((piecesCall .sync pieces).c.bidi demoStatus (piecesCall .sync pieces).http none calm (piecesCall .sync pieces).ctx [[1], [2]] none).exc = none := by
  refine ⟨rfl, ?_, ?_⟩ <;> decide +kernel

/-- **C77, prompt.** A message is given to the caller when its last byte is there: no chunk is read beyond the one that completes it. -/
theorem C77_prompt (k : StreamCall Req Res) (sink : Sink) (resp : StreamResponse) (comp : Compression) (hh : k.http k.request = .ok resp)
    (hs : resp.status = 200) (hv : k.c.proto.validateStream k.c.codec.name (resp.headers.getD (pys! "content-type") []) = none)
    (hc : k.c.proto.responseCompression resp.headers k.c.comps true = .ok comp)
    (f : Frame) (fs : List Frame) (ms : List Res) (hok : ∀ g ∈ f :: fs, g.Ok) (hd : ∀ g ∈ f :: fs, DataFlags k.c.proto g.flags)
    (hm : (f :: fs).map (policyOf (k.c.reader comp)).message = ms.map .ok) (hb : (f :: fs).flatMap Frame.bytes <+: resp.chunks.flatten) :
    ∃ i read, Takes k (.start sink) ms i ∧ i.log = [.sent k.request, .opened] ++ read.map .chunk ∧
      Shortest resp.chunks read ((f :: fs).flatMap Frame.bytes).length := by
  have hd : ∀ g ∈ f :: fs, TreatsAsData (k.c.reader comp) g.flags := fun g hg s d => (endHook_data k.c.proto s g.flags d (hd g hg)).1
  cases ms with
  | nil => cases hm
  | cons m ms =>
    rw [List.map_cons, List.map_cons, List.cons.injEq] at hm
    obtain ⟨tail, ht⟩ := hb
    rw [List.flatMap_cons, List.append_assoc] at ht
    have h5 := frame_bytes_length f
    obtain ⟨read, rest, s, e1, e2, e3, e4, e5, e6⟩ := chunks_prompt k resp comp (hok f List.mem_cons_self) (hd f List.mem_cons_self) hm.1 resp.chunks
      (ReaderState.init (ClientSub.init (handleResponseHeaders sink resp.headers))) [.sent k.request, .opened] (by intro n hn; cases hn) ht.symm
      (by rw [h5]; show 0 < _; omega)
    have hsh := shortest_more (chunks := resp.chunks) (done := []) (n := 0) (b := 0) e1 (fun less h1 h2 => absurd (List.prefix_nil.1 h1) h2) rfl (by omega) e5 e6
    rw [List.nil_append] at hsh
    obtain ⟨i, read', g1, g2, g3⟩ := resume_takes k resp comp [.sent k.request, .opened] fs ms read rest s (0 + f.bytes.length) tail
      (fun g hg => hok g (List.mem_cons_of_mem _ hg)) (fun g hg => hd g (List.mem_cons_of_mem _ hg)) hm.2 e1 e3 e4
      (by
        have h3 := congrArg List.length e4
        have h4 := congrArg List.length ht
        rw [e1, List.flatten_append] at h4
        simp only [List.length_append] at h3 h4
        omega) hsh.needed
    refine ⟨i, read', .one ?_ g1, g2, ?_⟩
    · unfold StreamCall.next Iteration.start
      dsimp only
      rw [hh]
      dsimp only
      unfold StreamCall.begin
      dsimp only
      rw [if_pos hs, hv]
      dsimp only
      rw [hc]
      exact e2
    · rw [List.flatMap_cons, List.length_append]
      rw [Nat.zero_add] at g3
      exact g3

/-- the hypotheses are met by the first message, which takes one of the three chunks, and by both, which take two -/
example : ∃ i read, Takes (piecesCall .async pieces) (.start none) [[7], [9]] i ∧
    i.log = [.sent (piecesCall .async pieces).request, .opened] ++ read.map .chunk ∧ Shortest pieces read 12 :=
  C77_prompt (piecesCall .async pieces) none _ Compression.identity rfl rfl (by decide +kernel) (by rfl) ⟨0, [7]⟩ [⟨0, [9]⟩] [[7], [9]] (by simp [Frame.Ok])
    (by intro g hg; simp at hg; rcases hg with rfl | rfl <;> exact (rfl : (0 : UInt8) &&& 128 = 0)) (by decide +kernel) (by decide +kernel)
example : ∃ i read, Takes (piecesCall .sync pieces) (.start none) [[7]] i ∧
    i.log = [.sent (piecesCall .sync pieces).request, .opened] ++ read.map .chunk ∧ Shortest pieces read 6 :=
  C77_prompt (piecesCall .sync pieces) none _ Compression.identity rfl rfl (by decide +kernel) (by rfl) ⟨0, [7]⟩ [] [[7]] (by simp [Frame.Ok])
    (by intro g hg; simp at hg; subst hg; exact (rfl : (0 : UInt8) &&& 128 = 0)) (by decide +kernel) (by decide +kernel)

/-- **C77, single responses** (partial). A call that expects one message gives what it gives when its stream is read as a whole, and has released the
response, unless there are several messages. -/
theorem C77_single_partial (k : StreamCall Req Res) (hc : k.cs.cancelAfter = none) (sink : Sink) :
    (k.single (.start sink)).2 = consumeSingle (k.c.bidi k.sc k.http sink k.cs k.ctx k.reqs k.srcErr) ∧
    ((k.c.bidi k.sc k.http sink k.cs k.ctx k.reqs k.srcErr).messages.length ≤ 1 →
      Tidy k.request false (k.single (.start sink)).1.log ∧
      (k.single (.start sink)).1.sink = (k.c.bidi k.sc k.http sink k.cs k.ctx k.reqs k.srcErr).sink) := by
  obtain ⟨i, h1, h2, h3⟩ := call_yields k hc sink
  have hs := next_left k false _ (sound_start k sink)
  have hs1 := sound_use k (.next false) _ (sound_start k sink)
  have hs1 : Sound k (k.next false (.start sink)).1 := hs1
  revert h1 h2
  generalize k.c.bidi k.sc k.http sink k.cs k.ctx k.reqs k.srcErr = r
  rcases r with ⟨rs, rm, re⟩
  intro h1 h2
  dsimp only at h1 h2 ⊢
  unfold StreamCall.single consumeSingle
  rcases hn : k.next false (.start sink) with ⟨j, g⟩
  rw [hn] at h1 hs hs1
  cases h1 with
  | stop =>
    refine ⟨rfl, fun _ => ⟨?_, h2⟩⟩
    rcases hs with ⟨m, _, _, _, _, h1, _⟩ | ⟨_, _, h3⟩
    · cases h1
    · exact h3
  | raised =>
    refine ⟨rfl, fun _ => ⟨?_, h2⟩⟩
    rcases hs with ⟨m, _, _, _, _, h1, _⟩ | ⟨_, _, h3⟩
    · cases h1
    · exact h3
  | @message _ _ m ms _ h =>
    dsimp only at hs1 ⊢
    have hs2 := next_left k false j hs1
    rcases hn2 : k.next false j with ⟨j2, g2⟩
    rw [hn2] at h hs2
    cases h with
    | stop =>
      refine ⟨rfl, fun _ => ⟨?_, h2⟩⟩
      rcases hs2 with ⟨m, _, _, _, _, h1, _⟩ | ⟨_, _, h3⟩
      · cases h1
      · exact h3
    | raised =>
      refine ⟨rfl, fun _ => ⟨?_, h2⟩⟩
      rcases hs2 with ⟨m, _, _, _, _, h1, _⟩ | ⟨_, _, h3⟩
      · cases h1
      · exact h3
    | message h => exact ⟨rfl, fun hl => by simp at hl⟩

/-- a call whose response has one message: it is given, and the response is released -/
example : (((piecesCall .sync [pieces.flatten.drop 6]).single (.start none)).2 = .ok [9]) ∧
    ((piecesCall .sync [pieces.flatten.drop 6]).single (.start none)).1.log =
      [.sent (piecesCall .sync [pieces.flatten.drop 6]).request, .opened, .chunk (pieces.flatten.drop 6), .released] := by
  refine ⟨?_, ?_⟩ <;> decide +kernel

/-- C77 fails for every call that expects one message and gets several: the call raises, and the response is still held. -/
theorem C77_violation_single (k : StreamCall Req Res) (hc : k.cs.cancelAfter = none) (sink : Sink)
    (hm : 2 ≤ (k.c.bidi k.sc k.http sink k.cs k.ctx k.reqs k.srcErr).messages.length) :
    (k.single (.start sink)).2 = .error multipleMessages ∧ Tidy k.request true (k.single (.start sink)).1.log := by
  obtain ⟨i, h1, _, _⟩ := call_yields k hc sink
  have hs1 : Sound k (k.next false (.start sink)).1 := sound_use k (.next false) _ (sound_start k sink)
  revert h1 hm
  generalize k.c.bidi k.sc k.http sink k.cs k.ctx k.reqs k.srcErr = r
  rcases r with ⟨rs, rm, re⟩
  intro hm h1
  dsimp only at h1 hm
  unfold StreamCall.single
  rcases hn : k.next false (.start sink) with ⟨j, g⟩
  rw [hn] at h1 hs1
  cases h1 with
  | stop => cases hm
  | raised => cases hm
  | @message _ _ m ms _ h =>
    dsimp only at hs1 ⊢
    have hs2 := next_left k false j hs1
    rcases hn2 : k.next false j with ⟨j2, g2⟩
    rw [hn2] at h hs2
    cases h with
    | stop => simp at hm
    | raised => simp at hm
    | message h =>
      rcases hs2 with ⟨_, _, _, _, _, _, _, h3, _⟩ | ⟨h3, _, _⟩
      · exact ⟨rfl, h3⟩
      · exact absurd rfl (h3 _)

/-- such a call: it has read two of the three chunks of the response -/
example (f : Flavor) : 2 ≤ ((piecesCall f pieces).c.bidi (piecesCall f pieces).sc (piecesCall f pieces).http none (piecesCall f pieces).cs (piecesCall f pieces).ctx
      (piecesCall f pieces).reqs (piecesCall f pieces).srcErr).messages.length ∧ (piecesCall f pieces).cs.cancelAfter = none ∧
    ((piecesCall f pieces).single (.start none)).1.log = [.sent (piecesCall f pieces).request, .opened] ++ (pieces.take 2).map .chunk := by
  cases f <;> decide +kernel

end Props
