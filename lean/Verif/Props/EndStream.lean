import Verif.Props.Errors
/-
C04 for readers with an end-of-stream message: bytes after that message make the outcome depend on the chunking.
-/
namespace Props
open Py Spec Conn

/-- a Connect client reader, and an end message without error followed by a data envelope -/
def connectReader : ReaderCfg Bytes ClientSub := ⟨rawCodec, .identity, none, connectEndHook⟩
def webReader : ReaderCfg Bytes ClientSub := ⟨rawCodec, .identity, none, grpcWebEndHook⟩

/-- **C04 violated, Connect client**: the same bytes in one chunk and in two chunks give different messages (a data
envelope after the end message is dropped when it arrives with it, delivered when it arrives later). -/
theorem C04_violation_connect :
    ∃ xs ys : List Bytes, xs.flatten = ys.flatten ∧
      (feedAll connectReader (.init (.init none)) xs).1 ≠ (feedAll connectReader (.init (.init none)) ys).1 := by
  refine ⟨[[2, 0, 0, 0, 2, 123, 125] ++ [0, 0, 0, 0, 1, 7]], [[2, 0, 0, 0, 2, 123, 125], [0, 0, 0, 0, 1, 7]], rfl, ?_⟩
  decide +kernel

/-- **C04 violated, gRPC-Web client**. -/
theorem C04_violation_grpc_web :
    ∃ xs ys : List Bytes, xs.flatten = ys.flatten ∧
      (feedAll webReader (.init (.init none)) xs).1 ≠ (feedAll webReader (.init (.init none)) ys).1 := by
  refine ⟨[[128, 0, 0, 0, 0] ++ [0, 0, 0, 0, 1, 7]], [[128, 0, 0, 0, 0], [0, 0, 0, 0, 1, 7]], rfl, ?_⟩
  decide +kernel

/-- hypotheses of `C04_chunking_independent_end_partial` met: a message, then an end message, cut in two ways. -/
example :
    let xs : List Bytes := [[0, 0, 0, 0, 1, 9], [2, 0, 0, 0, 2, 123, 125]]
    let ys : List Bytes := [[0, 0], [0, 0, 1, 9, 2, 0], [], [0, 0, 2, 123, 125]]
    (feedAll connectReader (.init (.init none)) xs).1 = (feedAll connectReader (.init (.init none)) ys).1 ∧
    (feedAll connectReader (.init (.init none)) xs).2.1 = (feedAll connectReader (.init (.init none)) ys).2.1 ∧
    (feedAll connectReader (.init (.init none)) xs).2.2.sub = (feedAll connectReader (.init (.init none)) ys).2.2.sub := by
  intro xs ys
  refine C04_chunking_independent_end_partial connectReader (.init none) xs ys rfl
    (fs := [⟨0, [9]⟩, ⟨2, [123, 125]⟩]) (rest := []) ⟨rfl, ?_, incomplete_of_lt_five (by decide)⟩ ?_
  · intro f hf
    simp only [List.mem_cons, List.not_mem_nil, or_false] at hf
    rcases hf with rfl | rfl <;> (unfold Frame.Ok; decide)
  · intro pre f post h hn
    match pre, h with
    | [], h =>
      exfalso
      simp only [List.nil_append, List.cons.injEq] at h
      rw [← h.1] at hn
      exact hn (fun s d => by simp [connectReader, connectEndHook])
    | [a], h =>
      simp only [List.cons_append, List.nil_append, List.cons.injEq] at h
      exact ⟨h.2.2.symm, rfl⟩
    | a :: b :: p, h =>
      exfalso
      have := congrArg List.length h
      simp at this

/-- C18: hypotheses met by compressed messages, an error with details and trailers with a repeated name. -/
example (bs : List Bytes) (hw : [[1, 2], [3]].map demoWriter.write = bs.map .ok) (eb : Bytes)
    (hend : demoWriter.end' .connect protobufStatus demoUser (some demoError) = .ok (.body eb)) :=
  C18_connect_stream_end demoWriter (⟨rawCodec, flipComp, none, connectEndHook⟩ : ReaderCfg Bytes ClientSub)
    ⟨by intro m b h; cases h; rfl, by
      intro k h _; cases h; exact ⟨(by intro h; cases h), by intro b; simp [flipComp, Compression.decompress, Compression.compress]⟩⟩
    rfl protobufStatus demoUser ⟨_, rfl⟩ (some demoError) (by intro e h; cases h; exact demoError_debug)
    [[1, 2], [3]] bs [bs.flatten, eb] hw eb hend (by simp) (by intro n h; cases h)
    (.init (some .new)) (by intro r h; cases h; exact ⟨[], rfl⟩)

/-- C19: hypotheses met. -/
example (bs : List Bytes) (hw : [[1, 2], [3]].map demoWriter.write = bs.map .ok) (eb : Bytes)
    (hend : demoWriter.end' .grpcWeb protobufStatus demoUser (some demoError) = .ok (.body eb)) :=
  C19_grpc_web_trailers demoWriter (⟨rawCodec, flipComp, none, grpcWebEndHook⟩ : ReaderCfg Bytes ClientSub)
    ⟨by intro m b h; cases h; rfl, by
      intro k h _; cases h; exact ⟨(by intro h; cases h), by intro b; simp [flipComp, Compression.decompress, Compression.compress]⟩⟩
    rfl protobufStatus protobufStatus_lawful demoUser ⟨_, rfl⟩ demoUser_legal (some demoError)
    (by intro e h; cases h; exact ⟨demoError_fits, by intro h; cases h⟩)
    [[1, 2], [3]] bs [bs.flatten, eb] hw eb hend (by simp) (by intro n h; cases h)
    (some .new) (by intro r h; cases h; exact ⟨[], rfl⟩) ⟨200, [], []⟩

end Props
