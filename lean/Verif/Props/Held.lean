import Verif.Props.Envelope
import Verif.Props.Client
import Verif.Proofs.Stream
/-
C80: what a reader of a stream holds between two chunks. `ReaderState.buffer` is all the reader keeps (`_envelope.py:35`), apart from the length of the
message it is waiting for.
-/
namespace Props
open Conn Py Spec

variable {M σ : Type}

theorem frameRun_count (c : ReaderCfg M σ) (sub : σ) (fs : List Frame) (h : (frameRun c sub fs).2.1 = .done) :
    (frameRun c sub fs).1.length = fs.length := by
  induction fs generalizing sub with
  | nil => rfl
  | cons f fs ih =>
    simp only [frameRun] at h ⊢
    cases hp : c.payload f.flags f.payload with
    | error e => rw [hp] at h; cases h
    | ok d =>
      rw [hp] at h
      dsimp only at h ⊢
      rcases hh : c.handleEnd sub f.flags d with ⟨sub', r⟩
      rw [hh] at h
      rcases r with e | b
      · cases h
      · cases b with
        | true => cases h
        | false =>
          dsimp only at h ⊢
          cases hc : c.codec.decode d with
          | error e => rw [hc] at h; cases h
          | ok m =>
            rw [hc] at h
            dsimp only at h ⊢
            rw [List.length_cons, List.length_cons, ih sub' h]

theorem feedAll_held (c : ReaderCfg M σ) (chunks : List Bytes) (s : ReaderState σ) (hs : Consistent s) (hinc : Incomplete s.buffer) {fs : List Frame}
    {rest : Bytes} (h : Splits (s.buffer ++ chunks.flatten) fs rest) (hpass : ∀ f ∈ fs, TreatsAsData c f.flags)
    (hdone : (feedAll c s chunks).2.1 = .done) :
    (feedAll c s chunks).2.2.buffer = rest ∧ (feedAll c s chunks).1.length = fs.length := by
  induction chunks generalizing s fs with
  | nil =>
    simp only [List.flatten_nil, List.append_nil] at h
    have h0 : Splits s.buffer [] s.buffer := ⟨by simp, by simp, hinc⟩
    obtain ⟨rfl, rfl⟩ := splits_unique h h0
    exact ⟨rfl, rfl⟩
  | cons ch chs ih =>
    obtain ⟨fs1, rest1, hs1⟩ := splits_exists (s.buffer ++ ch)
    obtain ⟨fs2, rest2, hs2⟩ := splits_exists (rest1 ++ chs.flatten)
    have hcomb := splits_append hs1 hs2
    rw [List.append_assoc, ← List.flatten_cons] at hcomb
    obtain ⟨rfl, rfl⟩ := splits_unique h hcomb
    obtain ⟨nx, h1, h2⟩ := readMessages_splits c hs1 s.sub
    rw [← feed_consistent c s hs] at h1
    have hst : (frameRun c s.sub fs1).2.1 = .done := by
      have hd := (frameRun_deliver c fs1 (fun f hf => hpass f (List.mem_append_left _ hf)) s.sub).2
      cases hdd : ((policyOf c).deliver fs1).2 with
      | none => rw [hdd] at hd; exact hd
      | some e =>
        rw [hdd] at hd
        simp only [feedAll, h1] at hdone
        rw [hd] at hdone
        cases hdone
    have hcount := frameRun_count c s.sub fs1 hst
    have hleft := frameRun_done_rest c s.sub fs1 hst
    simp only [feedAll, h1] at hdone ⊢
    rw [hst, hleft] at hdone ⊢
    rw [hleft] at h2
    simp only [HStop.toStop, List.flatMap_nil, List.nil_append] at hdone h2 ⊢
    obtain ⟨g1, g2⟩ := ih _ h2 hs1.inc hs2 (fun f hf => hpass f (List.mem_append_right _ hf)) hdone
    exact ⟨g1, by rw [List.length_append, List.length_append, hcount, g2]⟩

/-- **C80, servers.** However long a request stream is and however it is cut into chunks: between two chunks the application holds only the part of the
message that is arriving; all complete messages have been given to the handler. -/
theorem C80_held_server {Req Res : Type} (app : App Req Res) (codec : ServerCodec Req Res) (comp : Compression) (chunks : List Bytes) {fs : List Frame}
    {rest : Bytes} (h : Splits chunks.flatten fs rest) {ms : List Req} {s : ReaderState Unit}
    (hr : feedAll (app.reader codec comp) (.init ()) chunks = (ms, .done, s)) : s.buffer = rest ∧ ms.length = fs.length := by
  have := feedAll_held (app.reader codec comp) chunks (.init ()) (by intro n hn; cases hn) (incomplete_of_lt_five (by simp [ReaderState.init]))
    (by simpa [ReaderState.init] using h) (fun _ _ _ _ => rfl) (by rw [hr])
  rw [hr] at this
  exact this

/-- **C80, clients**: the same of responses, up to their end-of-stream message. -/
theorem C80_held_client {Req Res : Type} (c : Client Req Res) (comp : Compression) (sub : ClientSub) (chunks : List Bytes) {fs : List Frame}
    {rest : Bytes} (h : Splits chunks.flatten fs rest) (hd : ∀ f ∈ fs, DataFlags c.proto f.flags) {ms : List Res} {s : ReaderState ClientSub}
    (hr : feedAll (c.reader comp) (.init sub) chunks = (ms, .done, s)) : s.buffer = rest ∧ ms.length = fs.length := by
  have := feedAll_held (c.reader comp) chunks (.init sub) (by intro n hn; cases hn) (incomplete_of_lt_five (by simp [ReaderState.init]))
    (by simpa [ReaderState.init] using h) (fun f hf s d => (endHook_data c.proto s f.flags d (hd f hf)).1) (by rw [hr])
  rw [hr] at this
  exact this

/-- the beginning of a sequence of envelopes is a sequence of the first of them, and a beginning of the next -/
theorem prefix_splits (gs : List Frame) (hok : ∀ g ∈ gs, g.Ok) {bs : Bytes} (hp : bs <+: gs.flatMap Frame.bytes) {fs : List Frame} {rest : Bytes}
    (h : Splits bs fs rest) : rest = [] ∨ ∃ g ∈ gs, rest <+: g.bytes ∧ rest ≠ g.bytes := by
  induction gs generalizing bs fs with
  | nil =>
    have : bs = [] := List.prefix_nil.1 (by simpa using hp)
    subst this
    have := h.eq
    have := (List.append_eq_nil_iff.1 this.symm).2
    exact .inl this
  | cons g gs ih =>
    rw [List.flatMap_cons] at hp
    rcases Nat.lt_or_ge bs.length g.bytes.length with hl | hl
    · -- the first envelope is not complete
      have hpre : bs <+: g.bytes := List.prefix_of_prefix_length_le hp (List.prefix_append _ _) (Nat.le_of_lt hl)
      have hinc : Incomplete bs := by
        intro f ok hf
        obtain ⟨a, ha⟩ := hf.trans hpre
        have := (frame_prefix_unique ok (hok g List.mem_cons_self) (r := a) (s := []) (by rw [ha, List.append_nil])).1
        subst this
        have := hf.length_le
        omega
      have h0 : Splits bs [] bs := ⟨by simp, by simp, hinc⟩
      obtain ⟨rfl, rfl⟩ := splits_unique h h0
      exact .inr ⟨g, List.mem_cons_self, hpre, fun he => by rw [he] at hl; omega⟩
    · obtain ⟨bs', rfl⟩ := List.prefix_of_prefix_length_le (List.prefix_append _ _) hp hl
      have hp' : bs' <+: gs.flatMap Frame.bytes := (List.prefix_append_right_inj _).1 hp
      obtain ⟨fs', rest', hs'⟩ := splits_exists bs'
      have : Splits (g.bytes ++ bs') (g :: fs') rest' :=
        ⟨by rw [List.flatMap_cons, List.append_assoc, ← hs'.eq], by
          intro f hf
          rcases List.mem_cons.1 hf with rfl | hf
          · exact hok _ List.mem_cons_self
          · exact hs'.ok f hf, hs'.inc⟩
      obtain ⟨rfl, rfl⟩ := splits_unique h this
      rcases ih (fun x hx => hok x (List.mem_cons_of_mem _ hx)) hp' hs' with h | ⟨x, hx, h⟩
      · exact .inl h
      · exact .inr ⟨x, List.mem_cons_of_mem _ hx, h⟩

/-- **C80, bound** (partial): if the peer sends no message of more than `n` bytes, a reader never holds more than `n + 4` bytes between two chunks. Missing:
peers that send larger messages, whatever `read_max_bytes` is (see `C80_violation_declared`). -/
theorem C80_bounded_partial {Req Res : Type} (app : App Req Res) (codec : ServerCodec Req Res) (comp : Compression) (n : Nat) (gs : List Frame)
    (hok : ∀ g ∈ gs, g.Ok ∧ g.payload.length ≤ n) (chunks : List Bytes) (hp : chunks.flatten <+: gs.flatMap Frame.bytes)
    {ms : List Req} {s : ReaderState Unit} (hr : feedAll (app.reader codec comp) (.init ()) chunks = (ms, .done, s)) : s.buffer.length ≤ n + 4 := by
  obtain ⟨fs, rest, hs⟩ := splits_exists chunks.flatten
  obtain ⟨h1, _⟩ := C80_held_server app codec comp chunks hs hr
  rw [h1]
  rcases prefix_splits gs (fun g hg => (hok g hg).1) hp hs with rfl | ⟨g, hg, hpre, hne⟩
  · simp
  · have h2 := (hok g hg).2
    have h3 := hpre.length_le
    have h4 : rest.length ≠ g.bytes.length := fun he => hne (hpre.eq_of_length he)
    rw [frame_bytes_length] at h3 h4
    omega

/-- a message that declares more than the limit -/
theorem declared_held (c : ReaderCfg M σ) (sub : σ) (hd : TreatsAsData c 0) (n N : Nat)
    (hmax : c.readMax = some (n : Int)) (hn : n < N) (hN : N < 2 ^ 32) :
    ∃ chunks : List Bytes, ∃ s : ReaderState σ, feedAll c (.init sub) chunks = ([], .done, s) ∧ s.buffer.length = N + 4 ∧
      (feedAll c (.init sub) (chunks ++ [[0]])).2.1 = .raised (tooLarge n) := by
  have hb : ∃ b1 b2 b3 b4, be32Encode N = [b1, b2, b3, b4] ∧ be32Decode b1 b2 b3 b4 = N :=
    ⟨_, _, _, _, rfl, be32_roundtrip N hN⟩
  obtain ⟨b1, b2, b3, b4, henc, hdec⟩ := hb
  have hinc : Incomplete (0 :: b1 :: b2 :: b3 :: b4 :: List.replicate (N - 1) 0) := incomplete_iff_short.2 (by rw [hdec, List.length_replicate]; omega)
  obtain ⟨nx, h1, _⟩ := readMessages_incomplete (c) hinc sub
  refine ⟨[0 :: b1 :: b2 :: b3 :: b4 :: List.replicate (N - 1) 0],
    ⟨0 :: b1 :: b2 :: b3 :: b4 :: List.replicate (N - 1) 0, nx, sub⟩, ?_, ?_, ?_⟩
  · simp only [feedAll, feed, ReaderState.init, List.nil_append]
    rw [h1]
    rfl
  · simp; omega
  · have hsp : Splits ([0 :: b1 :: b2 :: b3 :: b4 :: List.replicate (N - 1) 0] ++ [[0]] : List Bytes).flatten [⟨0, List.replicate N 0⟩] [] := by
      refine ⟨?_, ?_, incomplete_of_lt_five (by decide)⟩
      · rw [List.flatMap_singleton, frame_bytes_eq, List.append_nil, List.length_replicate, henc]
        simp only [List.cons_append, List.nil_append, List.flatten_cons, List.flatten_nil, List.append_nil]
        rw [show ([0] : Bytes) = List.replicate 1 0 from rfl, List.replicate_append_replicate, show N - 1 + 1 = N by omega]
      · intro f hf
        rw [List.mem_singleton] at hf
        subst hf
        show (List.replicate N (0 : UInt8)).length < _
        rw [List.length_replicate]
        exact hN
    rw [(reader_delivers c sub _ hsp (fun f hf => by rw [List.mem_singleton] at hf; subst hf; exact hd)).2]
    have hlim : (policyOf (c)).limit = some (n : Int) := hmax
    simp only [Policy.deliver, Policy.message, Policy.inflate, Policy.checkSize, hlim]
    have hz : ¬ (0 : UInt8).toNat % 2 = 1 := by decide
    rw [if_neg hz]
    dsimp only
    rw [if_neg (by rw [List.length_replicate]; omega)]
    rfl

/-- **C80, violation.** With `read_max_bytes` set to any `n`, a peer can make the application hold any number of bytes up to the limit of the format: a message
that declares more than `n` bytes is refused only when the last of them has arrived. -/
theorem C80_violation_declared {Req Res : Type} (app : App Req Res) (codec : ServerCodec Req Res) (comp : Compression) (n N : Nat)
    (hmax : app.readMax = some (n : Int)) (hn : n < N) (hN : N < 2 ^ 32) :
    ∃ chunks : List Bytes, ∃ s : ReaderState Unit, feedAll (app.reader codec comp) (.init ()) chunks = ([], .done, s) ∧ s.buffer.length = N + 4 ∧
      (feedAll (app.reader codec comp) (.init ()) (chunks ++ [[0]])).2.1 = .raised (tooLarge n) :=
  declared_held _ _ (fun _ _ => rfl) n N hmax hn hN

/-- … and a server can make the client do so. -/
theorem C80_violation_declared_client {Req Res : Type} (c : Client Req Res) (comp : Compression) (sub : ClientSub) (n N : Nat)
    (hmax : c.readMax = some (n : Int)) (hn : n < N) (hN : N < 2 ^ 32) :
    ∃ chunks : List Bytes, ∃ s : ReaderState ClientSub, feedAll (c.reader comp) (.init sub) chunks = ([], .done, s) ∧ s.buffer.length = N + 4 ∧
      (feedAll (c.reader comp) (.init sub) (chunks ++ [[0]])).2.1 = .raised (tooLarge n) :=
  declared_held _ _ (fun s d => (endHook_data c.proto s 0 d (by cases c.proto <;> first | trivial | exact (rfl : (0 : UInt8) &&& _ = 0))).1) n N hmax hn hN

/-! ### the hypotheses are met -/

/-- three messages of at most 3 bytes, in chunks; the third is not complete: 2 + 5 bytes are held -/
example : feedAll (demoReader (some 3)) (.init ()) [[1, 0, 0], [], [0, 3, 3, 2, 1, 0, 0, 0, 0, 0, 0], [0, 0, 0, 3], [9, 9]] =
      ([[1, 2, 3], []], .done, ⟨[0, 0, 0, 0, 3, 9, 9], some 3, ()⟩) ∧
    ([[1, 0, 0], [], [0, 3, 3, 2, 1, 0, 0, 0, 0, 0, 0], [0, 0, 0, 3], [9, 9]] : List Bytes).flatten =
      ([(⟨1, [3, 2, 1]⟩ : Frame), ⟨0, []⟩]).flatMap Frame.bytes ++ [0, 0, 0, 0, 3, 9, 9] ∧
    ([[1, 0, 0], [], [0, 3, 3, 2, 1, 0, 0, 0, 0, 0, 0], [0, 0, 0, 3], [9, 9]] : List Bytes).flatten ++ [9] =
      ([(⟨1, [3, 2, 1]⟩ : Frame), ⟨0, []⟩, ⟨0, [9, 9, 9]⟩]).flatMap Frame.bytes := by
  refine ⟨by decide +kernel, by decide, by decide⟩

end Props
