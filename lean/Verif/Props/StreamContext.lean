import Verif.Proofs.StreamContext
import Verif.Props.RespContext
import Verif.Props.Iteration
/-
C83: metadata blocks change nothing, and streams are recorded where they are read.
-/
namespace Props
open Py Spec Conn

variable {Req Res : Type}

/-- **C83, streams** (partial). However a stream is used, there are recordings for each use such that: whatever else happens in between, in whatever contexts and
blocks the uses are made, the caller gets what they would get without any block, and contexts and objects are left as if those recordings had been made by the
contexts that use the stream.
Missing: streams of the Connect protocol whose end message has metadata that cannot be recorded, for which this is false (`C83_violation_metadata`). -/
theorem C83_stream_partial (k : StreamCall Req Res) (hends : ∀ resp, k.http k.request = .ok resp → ReadableEnds k.c resp) (us : List Use) :
    ∃ rss, RecordedByUse k us (repliesTo k (.start none) us) rss ∧ ∀ ops, usesOf ops = us →
      (k.reading (CtxWorld.new, .start none) ops).2 = repliesTo k (.start none) us ∧
      (k.reading (CtxWorld.new, .start none) ops).1.1 = CtxWorld.new.run (recording ops rss) := by
  obtain ⟨rss, h⟩ := reading_whole k hends us (.start none) trivial
  refine ⟨rss, ⟨h.length, ?_, ?_, ?_, h.ended, h.message⟩, fun ops hops => h.run ops CtxWorld.new none hops⟩
  · intro e he rs hrs
    cases us with
    | nil => have := h.length; rw [List.length_nil] at this; rw [List.length_eq_zero_iff.1 this] at hrs; cases hrs
    | cons u us =>
      obtain ⟨rs0, rss', h1, h2, i', r, h3, h4, h5⟩ := h.head u us rfl
      have hover : i'.phase = .over := by
        rcases h3.phase with hp | ⟨_, m, rfl⟩
        · exact hp
        · cases hph : i'.phase with
          | over => rfl
          | fresh => rename_i hne; exact absurd hph hne
          | paused resp comp s rest =>
            have hpl := h3.placed
            unfold Placed at hpl
            rw [hph, he] at hpl
            cases hpl.1
      rw [h1] at hrs
      rcases List.mem_cons.1 hrs with hrs | hrs
      · subst hrs
        cases u with
        | close => exact h2
        | next b => unfold RecordedAt at h2; dsimp only [Iteration.start] at h2; rw [he] at h2; exact h2
      · exact h5 hover rs hrs
  · intro us' hus rs hrs
    obtain ⟨rs0, rss', h1, h2, i', r, h3, h4, h5⟩ := h.head _ us' hus
    have hover : i'.phase = .over := by
      rcases h3.phase with hp | ⟨_, m, rfl⟩
      · exact hp
      · have := h3.eq none
        injection this with h6 h7
        cases h7
    rw [h1] at hrs
    rcases List.mem_cons.1 hrs with hrs | hrs
    · subst hrs; exact h2
    · exact h5 hover rs hrs
  · intro resp b us' hh hus
    obtain ⟨rs0, rss', h1, h2, i', r, h3, h4, h5⟩ := h.head _ us' hus
    unfold RecordedAt at h2
    dsimp only [Iteration.start] at h2
    rw [hh] at h2
    obtain ⟨rs1, e1, e2⟩ := h2
    refine ⟨rs1, rss', by rw [h1, e1], fun q hq => ?_⟩
    rcases List.mem_append.1 hq with hq | hq
    · exact e2 q hq
    · obtain ⟨rs, hrs, hq⟩ := List.mem_flatten.1 hq
      exact h4 resp hh rs hrs q hq

/-- **C83, gRPC.** For gRPC and gRPC-Web this holds of every stream. -/
theorem C83_stream_grpc (k : StreamCall Req Res) (hp : k.c.proto ≠ .connect) (us : List Use) :
    ∃ rss, RecordedByUse k us (repliesTo k (.start none) us) rss ∧ ∀ ops, usesOf ops = us →
      (k.reading (CtxWorld.new, .start none) ops).2 = repliesTo k (.start none) us ∧
      (k.reading (CtxWorld.new, .start none) ops).1.1 = CtxWorld.new.run (recording ops rss) :=
  C83_stream_partial k (fun _ _ hc => absurd hc hp) us

/-- **C83, where they are read** (partial). In a well-nested history, every object holds what was recorded while a block of it was the innermost open in the context
that used the stream (or made the other calls), and nothing else. -/
theorem C83_innermost_partial (k : StreamCall Req Res) (hends : ∀ resp, k.http k.request = .ok resp → ReadableEnds k.c resp) (us : List Use) :
    ∃ rss, RecordedByUse k us (repliesTo k (.start none) us) rss ∧ ∀ ops, usesOf ops = us → WellNested (recording ops rss).reverse →
      ∀ i, (k.reading (CtxWorld.new, .start none) ops).1.1.content i = (recordedIn i (recording ops rss).reverse).foldr keep RespMeta.new := by
  obtain ⟨rss, h1, h2⟩ := C83_stream_partial k hends us
  refine ⟨rss, h1, fun ops hops hw i => ?_⟩
  rw [(h2 ops hops).2]
  have := C49_recorded_partial (recording ops rss).reverse hw i
  rw [List.reverse_reverse] at this
  exact this

/-- **C83, calls** (partial). Whether a block is open, and what it holds, changes nothing about the outcome of a call that is made and read at one place.
Missing: as above, and streams that are cancelled in between (for which see `C83_stream_partial`). There is nothing to ask of gRPC responses. -/
theorem C83_calls_partial (c : Client Req Res) (sc : StatusCodec) (http : HttpClient) (cs : Circumstances) (m : MethodInfo) (user : UserHeaders) (t : Option Int)
    (hends : ∀ r resp, http.stream r = .ok resp → ReadableEnds c resp) (hcs : cs.cancelAfter = none) (x y : Sink) :
    (∀ req get, (c.executeUnary sc http x cs req m user t get).2 = (c.executeUnary sc http y cs req m user t get).2) ∧
    (∀ reqs err, (c.executeClientStream sc http x cs reqs err m user t).2 = (c.executeClientStream sc http y cs reqs err m user t).2) ∧
    (∀ req, (c.executeServerStream sc http x cs req m user t).messages = (c.executeServerStream sc http y cs req m user t).messages ∧
      (c.executeServerStream sc http x cs req m user t).exc = (c.executeServerStream sc http y cs req m user t).exc) ∧
    (∀ reqs err, (c.executeBidiStream sc http x cs reqs err m user t).messages = (c.executeBidiStream sc http y cs reqs err m user t).messages ∧
      (c.executeBidiStream sc http x cs reqs err m user t).exc = (c.executeBidiStream sc http y cs reqs err m user t).exc) := by
  have key : ∀ ctx reqs err, (c.bidi sc http.stream x cs ctx reqs err).messages = (c.bidi sc http.stream y cs ctx reqs err).messages ∧
      (c.bidi sc http.stream x cs ctx reqs err).exc = (c.bidi sc http.stream y cs ctx reqs err).exc :=
    fun ctx reqs err => bidi_passive ⟨c, sc, http.stream, cs, ctx, reqs, err⟩ (fun _ hr => hends _ _ hr) hcs x y
  have keyS : ∀ ctx reqs err, (Client.single (c.bidi sc http.stream x cs ctx reqs err)).2 = (Client.single (c.bidi sc http.stream y cs ctx reqs err)).2 := by
    intro ctx reqs err
    obtain ⟨h1, h2⟩ := key ctx reqs err
    show consumeSingle _ = consumeSingle _
    unfold consumeSingle
    rw [h1, h2]
  refine ⟨fun req get => ?_, fun reqs err => keyS _ _ _, fun req => key _ _ _, fun reqs err => key _ _ _⟩
  unfold Client.executeUnary
  dsimp only
  cases hproto : c.proto with
  | connect => exact connectUnary_passive c http.full x y _ req
  | grpc => exact keyS _ _ _
  | grpcWeb => exact keyS _ _ _

/-- **C83, unary calls.** … and nothing about the outcome of a unary call of the Connect protocol. -/
theorem C83_unary_connect (c : Client Req Res) (hp : c.proto = .connect) (sc : StatusCodec) (http : HttpClient) (cs : Circumstances) (m : MethodInfo)
    (user : UserHeaders) (t : Option Int) (req : Req) (get : Bool) (x y : Sink) :
    (c.executeUnary sc http x cs req m user t get).2 = (c.executeUnary sc http y cs req m user t get).2 := by
  unfold Client.executeUnary
  dsimp only
  rw [hp]
  exact connectUnary_passive c http.full x y _ req

/-- **C83, made in a block, read after it** (partial). A stream that is made inside a block and read when all blocks have been left is not recorded anywhere. -/
theorem C83_read_after_partial (k : StreamCall Req Res) (hends : ∀ resp, k.http k.request = .ok resp → ReadableEnds k.c resp) (us : List Use) (c i : Nat) :
    ∀ j, (k.reading (CtxWorld.new, .start none) (.other (.enter c i) :: .other (.exit c i) :: us.map (.use c))).1.1.content j = RespMeta.new := by
  obtain ⟨rss, _, h2⟩ := C83_stream_partial k hends us
  have hus : ∀ us : List Use, usesOf (us.map (.use c)) = us := by
    intro us; induction us with
    | nil => rfl
    | cons u us ih => show u :: _ = _; rw [ih]
  have hrun := (h2 (.other (.enter c i) :: .other (.exit c i) :: us.map (.use c)) (hus us)).2
  intro j
  rw [hrun]
  have gen : ∀ (us : List Use) (rss : List (List Recording)) (w : CtxWorld), w.var c = none → (w.run (recording (us.map (.use c)) rss)).content j = w.content j := by
    intro us
    induction us with
    | nil => intro rss w _; rfl
    | cons u us ih =>
      intro rss w hw
      cases rss with
      | nil => exact ih [] w hw
      | cons rs rss =>
        show (w.run (rs.map (.record c) ++ recording (us.map (.use c)) rss)).content j = _
        rw [run_append]
        have hrs : w.run (rs.map (.record c)) = w := by
          induction rs with
          | nil => rfl
          | cons r rs ihr =>
            show (w.record c r).run _ = w
            have : w.record c r = w := by unfold CtxWorld.record; rw [hw]
            rw [this]
            exact ihr
        rw [hrs]
        exact ih rss w hw
  have hv : ((CtxWorld.new.enter c i).exit c i).var c = none := by
    simp [CtxWorld.enter, CtxWorld.exit, CtxWorld.reset, CtxWorld.new, setAt]
  show (((CtxWorld.new.enter c i).exit c i).run (recording (us.map (.use c)) rss)).content j = _
  rw [gen us rss _ hv]
  simp [CtxWorld.enter, CtxWorld.exit, CtxWorld.reset, CtxWorld.new, setAt]

/-! ### Examples -/

/-- A Connect stream with one message; the end message says `{"metadata": <text>}`. -/
def metaCall (f : Flavor) (text : String) : StreamCall Bytes Bytes where
  c := demoClient f .connect
  sc := demoStatus
  http := fun _ => .ok (okStream (pys! "application/connect+raw") [[0, 0, 0, 0, 1, 7],
    2 :: be32Encode ((utf8Encode (pys! "{\"metadata\": " ++ text.toList ++ pys! "}")).length) ++ utf8Encode (pys! "{\"metadata\": " ++ text.toList ++ pys! "}")] [])
  cs := calm
  ctx := (demoClient f .connect).context demoMethod (pys! "POST") .none none true
  reqs := [[1]]
  srcErr := none

/-- what the caller hears -/
inductive Heard where
  | message (m : Bytes)
  | stop
  | raised (e : Exc)
  | closed
deriving DecidableEq

def heard : Reply Bytes → Heard
  | .got (.message m) => .message m
  | .got .stop => .stop
  | .got (.raised e) => .raised e
  | .closed none => .closed
  | .closed (some e) => .raised e

/-- a message is asked for in block 1 of thread 0, the end is reached in block 2 of thread 5 -/
def demoReading : List ReadOp := [.other (.enter 0 1), .use 0 (.next false), .other (.exit 0 1), .other (.enter 5 2), .use 5 (.next false), .other (.exit 5 2)]

/-- the headers are in the first block, the trailers in the second; the caller gets what they get without blocks -/
example : let r := (metaCall .sync "{\"a\": [\"b\"]}").reading (CtxWorld.new, .start none) demoReading
    r.2.map heard = [.message [7], .stop] ∧ (r.1.1.content 1).getHeaders.getall (pys! "content-type") = [pys! "application/connect+raw"] ∧
    (r.1.1.content 1).getTrailers.getall (pys! "a") = [] ∧ (r.1.1.content 2).getTrailers.getall (pys! "a") = [pys! "b"] ∧
    (r.1.1.content 2).getHeaders.getall (pys! "content-type") = [] := by decide +kernel

/-- this reading is well nested, with a recording for each use -/
example : WellNested (recording demoReading [[.headers []], [.trailers []]]).reverse := by
  simp [demoReading, recording, WellNested, own]
  intro d; by_cases h : d = 0 <;> simp [h]

/-- calls of a gRPC client that are not cancelled, whatever the responses -/
example : (∀ resp, ReadableEnds (demoClient .async .grpc) resp) ∧ calm.cancelAfter = none := ⟨(fun _ h => by cases h), rfl⟩

/-- its metadata can be recorded -/
example : ∀ resp, (metaCall .sync "{\"a\": [\"b\"]}").http (metaCall .sync "{\"a\": [\"b\"]}").request = .ok resp → ReadableEnds (metaCall .sync "{\"a\": [\"b\"]}").c resp := by
  intro resp hr
  have hr : okStream (pys! "application/connect+raw") [[0, 0, 0, 0, 1, 7], 2 :: 0 :: 0 :: 0 :: 26 :: utf8Encode (pys! "{\"metadata\": {\"a\": [\"b\"]}}")] [] = resp := by
    injection hr
  subst hr
  intro _ comp hcomp fs rest hs f hf md hmd ht
  have h' : Splits (okStream (pys! "application/connect+raw") [[0, 0, 0, 0, 1, 7], 2 :: 0 :: 0 :: 0 :: 26 :: utf8Encode (pys! "{\"metadata\": {\"a\": [\"b\"]}}")] []).chunks.flatten
      [⟨0, [7]⟩, ⟨2, utf8Encode (pys! "{\"metadata\": {\"a\": [\"b\"]}}")⟩] [] :=
    ⟨by decide +kernel, by
      intro f hf
      simp only [List.mem_cons, List.not_mem_nil, or_false] at hf
      rcases hf with rfl | rfl <;> unfold Frame.Ok <;> decide +kernel,
      fun f _ h => by have h1 := h.length_le; rw [frame_bytes_length] at h1; simp at h1⟩
  obtain ⟨rfl, _⟩ := splits_unique hs h'
  simp only [List.mem_cons, List.not_mem_nil, or_false] at hf
  obtain ⟨hflag, d, o, h1, h2, h3⟩ := hmd
  rcases hf with rfl | rfl
  · exact absurd rfl hflag
  · have hd : utf8Encode (pys! "{\"metadata\": {\"a\": [\"b\"]}}") = d := by injection h1
    subst hd
    have ho : loadsBytes (utf8Encode (pys! "{\"metadata\": {\"a\": [\"b\"]}}")) = some (.obj [(pys! "metadata", .obj [(pys! "a", .arr [.str (pys! "b")])])]) := by decide +kernel
    rw [ho] at h2
    injection h2 with h2
    injection h2 with h2
    subst h2
    have hm : Json.obj [(pys! "a", .arr [.str (pys! "b")])] = md := by injection h3
    exact ⟨_, hm.symm, fun p hp => by simp only [List.mem_singleton] at hp; subst hp; exact .inr (.inl ⟨_, rfl⟩)⟩

/-- **C83, false of the code.** The end message of a Connect stream says `{"metadata": 5}`: without a block the stream ends, inside a block the same stream raises. -/
theorem C83_violation_metadata (f : Flavor) :
    ((metaCall f "5").reading (CtxWorld.new, .start none) [.use 0 (.next false), .use 0 (.next false)]).2.map heard = [.message [7], .stop] ∧
    ((metaCall f "5").reading (CtxWorld.new, .start none) [.other (.enter 0 1), .use 0 (.next false), .use 0 (.next false)]).2.map heard =
      [.message [7], .raised (.mk .unavailable (pys! "object has no attribute 'items'"))] := by
  cases f <;> refine ⟨?_, ?_⟩ <;> decide +kernel

/-- … and so when a member of the metadata is not a list -/
example : ((metaCall .async "{\"a\": 1}").reading (CtxWorld.new, .start none) [.use 0 (.next false), .use 0 (.next false)]).2.map heard = [.message [7], .stop] ∧
    ((metaCall .async "{\"a\": 1}").reading (CtxWorld.new, .start none) [.other (.enter 0 1), .use 0 (.next false), .use 0 (.next false)]).2.map heard =
      [.message [7], .raised (.mk .unavailable (pys! "object is not iterable"))] := by
  refine ⟨?_, ?_⟩ <;> decide +kernel

end Props
