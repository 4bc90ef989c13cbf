import Verif.Proofs.Envelope
/-
C03, C04 (readers without end message), C05 (envelope part), C06, C07, C08.
Specification: `Verif/Spec/Envelope.lean` (frames, `Policy.deliver`).
-/
namespace Props
open Py Spec Conn

variable {M σ : Type}

/-- What a reader configuration promises: its negotiated decompressor, its limit, its decoder. -/
def policyOf (c : ReaderCfg M σ) : Policy M where
  decompress := match c.compression with
    | .identity => none
    | .custom _ _ d => some d
  limit := c.readMax
  decode := c.codec.decode

/-- The reader treats envelopes with these flags as data (not as an end-of-stream message). -/
def TreatsAsData (c : ReaderCfg M σ) (flags : UInt8) : Prop := ∀ s d, (c.handleEnd s flags d).2 = .ok false

theorem odd_flag (b : UInt8) : (b &&& 1 != 0) = decide (b.toNat % 2 = 1) := by
  have h : (b &&& 1).toNat = b.toNat % 2 := by rw [UInt8.toNat_and]; exact Nat.and_one_is_mod _
  rw [Bool.eq_iff_iff, decide_eq_true_iff, bne_iff_ne, ne_eq, ← UInt8.toNat_inj, h]
  simp

theorem payload_eq (c : ReaderCfg M σ) (f : Frame) :
    c.payload f.flags f.payload = (match (policyOf c).inflate f with
      | .error e => .error e
      | .ok d => (policyOf c).checkSize d) := by
  have hinf : (if f.flags &&& 1 != 0 then
      if c.compression.isIdentity then .error compressedWithoutSupport
      else c.compression.decompress f.payload
    else .ok f.payload) = (policyOf c).inflate f := by
    unfold Policy.inflate
    rw [odd_flag]
    simp only [decide_eq_true_eq]
    by_cases h : f.flags.toNat % 2 = 1
    · rw [if_pos h, if_pos h]
      cases hc : c.compression <;> simp [Compression.isIdentity, policyOf, hc, Compression.decompress, compressedWithoutSupport]
    · rw [if_neg h, if_neg h]
  unfold ReaderCfg.payload
  simp only [hinf]
  cases (policyOf c).inflate f with
  | error e => rfl
  | ok d =>
    dsimp only
    unfold Policy.checkSize
    have : (policyOf c).limit = c.readMax := rfl
    rw [this]
    cases c.readMax with
    | none => rfl
    | some n =>
      dsimp only
      by_cases h : (d.length : Int) ≤ n
      · rw [if_neg (by omega), if_pos h]
      · rw [if_pos (by omega), if_neg h]; rfl

/-- frames treated as data: the reader loop is exactly `Policy.deliver` -/
theorem frameRun_deliver (c : ReaderCfg M σ) (fs : List Frame) (hpass : ∀ f ∈ fs, TreatsAsData c f.flags) (sub : σ) :
    (frameRun c sub fs).1 = ((policyOf c).deliver fs).1 ∧
    (frameRun c sub fs).2.1 = (match ((policyOf c).deliver fs).2 with
      | none => .done
      | some e => .raised e) := by
  induction fs generalizing sub with
  | nil => exact ⟨rfl, rfl⟩
  | cons f fs ih =>
    simp only [frameRun, Policy.deliver, Policy.message, payload_eq]
    cases hu : (policyOf c).inflate f with
    | error e => exact ⟨rfl, rfl⟩
    | ok d0 =>
     dsimp only
     cases hu : (policyOf c).checkSize d0 with
     | error e => exact ⟨rfl, rfl⟩
     | ok d =>
      have hp := hpass f (by simp) sub d
      rcases hh : c.handleEnd sub f.flags d with ⟨sub', r⟩
      rw [hh] at hp
      simp only at hp
      subst hp
      simp only [hh]
      have : (policyOf c).decode d = c.codec.decode d := rfl
      rw [this]
      cases c.codec.decode d with
      | error e => exact ⟨rfl, rfl⟩
      | ok m =>
        have := ih (fun g hg => hpass g (by simp [hg])) sub'
        exact ⟨by simp [this.1], this.2⟩

/-- **C04 / C07 core**: for any chunking of any byte string, a reader that treats all its envelopes as data
delivers exactly `Policy.deliver` of the envelopes of the concatenation. -/
theorem reader_delivers (c : ReaderCfg M σ) (sub : σ) (chunks : List Bytes) {fs : List Frame} {rest : Bytes}
    (h : Splits chunks.flatten fs rest) (hpass : ∀ f ∈ fs, TreatsAsData c f.flags) :
    (feedAll c (.init sub) chunks).1 = ((policyOf c).deliver fs).1 ∧
    (feedAll c (.init sub) chunks).2.1 = (match ((policyOf c).deliver fs).2 with
      | none => .done
      | some e => .raised e) := by
  have hd := frameRun_deliver c fs hpass sub
  have hclean : Clean (frameRun c sub fs) rest := by
    intro he
    rw [hd.2] at he
    cases hdd : ((policyOf c).deliver fs).2 <;> rw [hdd] at he <;> cases he
  have hr := feedAll_splits c (.init sub) (by intro n hn; cases hn) chunks (fs := fs) (rest := rest)
    (by simpa [ReaderState.init] using h) (fun _ => incomplete_of_lt_five (by simp [ReaderState.init])) hclean
  refine ⟨hr.1.trans hd.1, hr.2.1.trans ?_⟩
  show HStop.toStop (frameRun c sub fs).2.1 = _
  rw [hd.2]
  cases ((policyOf c).deliver fs).2 <;> rfl

/-- **C04** (all server-side readers and the gRPC client reader: readers without an end-of-stream message): two ways
of cutting the same bytes give the same messages and the same outcome. -/
theorem C04_chunking_independent (c : ReaderCfg M σ) (hdata : ∀ fl, TreatsAsData c fl) (sub : σ)
    (xs ys : List Bytes) (h : xs.flatten = ys.flatten) :
    (feedAll c (.init sub) xs).1 = (feedAll c (.init sub) ys).1 ∧
    (feedAll c (.init sub) xs).2.1 = (feedAll c (.init sub) ys).2.1 := by
  obtain ⟨fs, rest, hs⟩ := splits_exists xs.flatten
  have hx := reader_delivers c sub xs hs (fun f _ => hdata f.flags)
  have hy := reader_delivers c sub ys (h ▸ hs) (fun f _ => hdata f.flags)
  exact ⟨hx.1.trans hy.1.symm, hx.2.trans hy.2.symm⟩

/-- **C04, readers with an end-of-stream message, partial**: the same, for byte strings in which nothing follows the
end-of-stream message.  (What is missing: bytes after it; for them the property is false, see
`C04_violation_connect` and `C04_violation_grpc_web`.) The hypothesis is about the envelopes `fs` of the bytes: if the
reader stops at an end message, that is the last envelope and no bytes follow. -/
theorem C04_chunking_independent_end_partial (c : ReaderCfg M σ) (sub : σ) (xs ys : List Bytes)
    (h : xs.flatten = ys.flatten) {fs : List Frame} {rest : Bytes} (hs : Splits xs.flatten fs rest)
    (hend : ∀ pre f post, fs = pre ++ f :: post → ¬ TreatsAsData c f.flags → post = [] ∧ rest = []) :
    (feedAll c (.init sub) xs).1 = (feedAll c (.init sub) ys).1 ∧
    (feedAll c (.init sub) xs).2.1 = (feedAll c (.init sub) ys).2.1 ∧
    (feedAll c (.init sub) xs).2.2.sub = (feedAll c (.init sub) ys).2.2.sub := by
  have hclean : Clean (frameRun c sub fs) rest := by
    clear hs h
    induction fs generalizing sub with
    | nil => intro he; simp [frameRun] at he
    | cons f fs ih =>
      unfold Clean
      simp only [frameRun]
      cases c.payload f.flags f.payload with
      | error e => simp
      | ok d =>
        dsimp only
        rcases hh : c.handleEnd sub f.flags d with ⟨sub', r⟩
        rcases r with e | b
        · simp
        · cases b with
          | true =>
            intro _
            exact hend [] f fs rfl (by
              intro ht
              have := ht sub d
              rw [hh] at this
              simp at this)
          | false =>
            dsimp only
            cases c.codec.decode d with
            | error e => simp
            | ok m =>
              exact ih sub' (fun pre g post hg ht => hend (f :: pre) g post (by simp [hg]) ht)
  have hx := feedAll_splits c (.init sub) (by intro n hn; cases hn) xs (fs := fs) (rest := rest)
    (by simpa [ReaderState.init] using hs) (fun _ => incomplete_of_lt_five (by simp [ReaderState.init])) hclean
  have hy := feedAll_splits c (.init sub) (by intro n hn; cases hn) ys (fs := fs) (rest := rest)
    (by rw [h] at hs; simpa [ReaderState.init] using hs) (fun _ => incomplete_of_lt_five (by simp [ReaderState.init])) hclean
  exact ⟨hx.1.trans hy.1.symm, hx.2.1.trans hy.2.1.symm, hx.2.2.trans hy.2.2.symm⟩

theorem deliver_all (p : Policy M) (fs : List Frame) (ms : List M)
    (hok : fs.map p.message = ms.map .ok) : p.deliver fs = (ms, none) := by
  induction fs generalizing ms with
  | nil => cases ms with
    | nil => rfl
    | cons m ms => simp at hok
  | cons f fs ih =>
    cases ms with
    | nil => simp at hok
    | cons m ms =>
      simp only [List.map_cons, List.cons.injEq] at hok
      simp [Policy.deliver, hok.1, ih ms hok.2]

/-- frames `fs` that are data and decode to `ms`, then one that is not accepted: the reader loop stops there -/
theorem frameRun_fails (c : ReaderCfg M σ) (fs post : List Frame) (g : Frame) (ms : List M) (e : Exc)
    (hdata : ∀ f ∈ fs, TreatsAsData c f.flags) (hok : fs.map (policyOf c).message = ms.map .ok)
    (hbad : c.payload g.flags g.payload = .error e ∨ (TreatsAsData c g.flags ∧ (policyOf c).message g = .error e)) (sub : σ) :
    (frameRun c sub (fs ++ g :: post)).1 = ms ∧ (frameRun c sub (fs ++ g :: post)).2.1 = .raised e := by
  induction fs generalizing ms sub with
  | nil =>
    cases ms with
    | cons m ms => simp at hok
    | nil =>
      simp only [List.nil_append, frameRun]
      rcases hbad with hbad | ⟨ht, hbad⟩
      · rw [hbad]; exact ⟨rfl, rfl⟩
      · have h1 := (frameRun_deliver c [g] (by simpa using ht) sub)
        simp only [Policy.deliver, hbad, frameRun] at h1
        cases hp : c.payload g.flags g.payload with
        | error e' =>
          simp only [hp] at h1
          exact ⟨rfl, h1.2⟩
        | ok d =>
          have hh := ht sub d
          rcases hh' : c.handleEnd sub g.flags d with ⟨sub', r⟩
          rw [hh'] at hh
          simp only at hh
          subst hh
          simp only [hp, hh'] at h1 ⊢
          cases hd : c.codec.decode d with
          | error e' => simp only [hd] at h1; exact ⟨rfl, h1.2⟩
          | ok m => simp [hd] at h1
  | cons f fs ih =>
    cases ms with
    | nil => simp at hok
    | cons m ms =>
      simp only [List.map_cons, List.cons.injEq] at hok
      have h1 := (frameRun_deliver c [f] (by simpa using hdata f (by simp)) sub)
      simp only [Policy.deliver, hok.1, frameRun] at h1
      simp only [List.cons_append, frameRun]
      cases hp : c.payload f.flags f.payload with
      | error e' => simp [hp] at h1
      | ok d =>
        have hh := hdata f (by simp) sub d
        rcases hh' : c.handleEnd sub f.flags d with ⟨sub', r⟩
        rw [hh'] at hh
        simp only at hh
        subst hh
        simp only [hp, hh'] at h1 ⊢
        cases hd : c.codec.decode d with
        | error e' => simp [hd] at h1
        | ok m' =>
          simp only [hd, List.cons.injEq, and_true] at h1
          have := ih ms (fun x hx => hdata x (by simp [hx])) hok.2 sub'
          simp [this.1, this.2, h1]

theorem reader_fails (c : ReaderCfg M σ) (sub : σ) (chunks : List Bytes) (fs post : List Frame) (g : Frame) (rest : Bytes)
    (ms : List M) (e : Exc) (hdata : ∀ f ∈ fs, TreatsAsData c f.flags)
    (hbytes : chunks.flatten = (fs ++ g :: post).flatMap Frame.bytes ++ rest)
    (hsize : ∀ f ∈ fs ++ g :: post, f.Ok) (hok : fs.map (policyOf c).message = ms.map .ok)
    (hbad : c.payload g.flags g.payload = .error e ∨ (TreatsAsData c g.flags ∧ (policyOf c).message g = .error e)) :
    (feedAll c (.init sub) chunks).1 = ms ∧ (feedAll c (.init sub) chunks).2.1 = .raised e := by
  obtain ⟨fs', rest', hs'⟩ := splits_exists rest
  have hs : Splits chunks.flatten (fs ++ g :: (post ++ fs')) rest' := by
    refine ⟨?_, ?_, hs'.inc⟩
    · rw [hbytes, hs'.eq]; simp
    · intro f hf
      simp only [List.mem_append, List.mem_cons] at hf
      rcases hf with hf | hf | hf | hf
      · exact hsize f (by simp [hf])
      · exact hsize f (by simp [hf])
      · exact hsize f (by simp [hf])
      · exact hs'.ok f hf
  have hf := frameRun_fails c fs (post ++ fs') g ms e hdata hok hbad sub
  have hr := feedAll_splits c (.init sub) (by intro n hn; cases hn) chunks (fs := fs ++ g :: (post ++ fs')) (rest := rest')
    (by simpa [ReaderState.init] using hs) (fun _ => incomplete_of_lt_five (by simp [ReaderState.init]))
    (by intro he; exact absurd (hf.2.symm.trans he) (by simp))
  refine ⟨hr.1.trans hf.1, hr.2.1.trans ?_⟩
  show HStop.toStop (frameRun c sub (fs ++ g :: (post ++ fs'))).2.1 = _
  rw [hf.2]
  rfl

/-- **C07**: if the data envelopes `fs` decode to `ms`, the next one `g` cannot be accepted (error `e`), and anything follows,
then exactly `ms` are delivered and then `e` is raised, for every chunking. For all readers: those of servers and of
clients of all protocols. -/
theorem C07_messages_before_failure (c : ReaderCfg M σ) (sub : σ)
    (chunks : List Bytes) (fs post : List Frame) (g : Frame) (rest : Bytes) (ms : List M) (e : Exc)
    (hdata : ∀ f ∈ fs ++ [g], TreatsAsData c f.flags)
    (hbytes : chunks.flatten = (fs ++ g :: post).flatMap Frame.bytes ++ rest)
    (hsize : ∀ f ∈ fs ++ g :: post, f.Ok)
    (hok : fs.map (policyOf c).message = ms.map .ok) (hbad : (policyOf c).message g = .error e) :
    (feedAll c (.init sub) chunks).1 = ms ∧ (feedAll c (.init sub) chunks).2.1 = .raised e :=
  reader_fails c sub chunks fs post g rest ms e (fun f hf => hdata f (by simp [hf])) hbytes hsize hok
    (.inr ⟨hdata g (by simp), hbad⟩)

/-- **C06**: an envelope flagged compressed (also an end-of-stream message), when no compression was negotiated, ends the stream
with INTERNAL after the messages before it; its content is not decoded (the codec is only consulted for the earlier envelopes) and
nothing after it is delivered. -/
theorem C06_compressed_without_negotiation (c : ReaderCfg M σ) (sub : σ)
    (hid : c.compression = .identity)
    (chunks : List Bytes) (fs post : List Frame) (g : Frame) (rest : Bytes) (ms : List M)
    (hdata : ∀ f ∈ fs, TreatsAsData c f.flags)
    (hbytes : chunks.flatten = (fs ++ g :: post).flatMap Frame.bytes ++ rest)
    (hsize : ∀ f ∈ fs ++ g :: post, f.Ok)
    (hok : fs.map (policyOf c).message = ms.map .ok) (hflag : g.flags.toNat % 2 = 1) :
    (feedAll c (.init sub) chunks).1 = ms ∧
    ∃ msg, (feedAll c (.init sub) chunks).2.1 = .raised (.connect { code := .internal, message := msg }) := by
  have hbad : c.payload g.flags g.payload = .error (.mk .internal
      (pys! "protocol error: sent compressed message without compression support")) := by
    rw [payload_eq]
    simp [Policy.inflate, policyOf, hid, hflag]
  have := reader_fails c sub chunks fs post g rest ms _ hdata hbytes hsize hok (.inl hbad)
  exact ⟨this.1, _, this.2⟩

theorem frameRun_bounded (c : ReaderCfg M σ) (n : Int) (hmax : c.readMax = some n) (sub : σ) (fs : List Frame) :
    ∀ m ∈ (frameRun c sub fs).1, ∃ d : Bytes, (d.length : Int) ≤ n ∧ c.codec.decode d = .ok m := by
  induction fs generalizing sub with
  | nil => simp [frameRun]
  | cons f fs ih =>
    simp only [frameRun]
    cases hp : c.payload f.flags f.payload with
    | error e => simp
    | ok d =>
      dsimp only
      rcases hh : c.handleEnd sub f.flags d with ⟨sub', r⟩
      rcases r with e | b
      · simp
      · cases b with
        | true => simp
        | false =>
          dsimp only
          cases hd : c.codec.decode d with
          | error e => simp
          | ok m =>
            intro m' hm'
            simp only [List.mem_cons] at hm'
            rcases hm' with rfl | hm'
            · refine ⟨d, ?_, hd⟩
              rw [payload_eq] at hp
              split at hp
              · cases hp
              · have hl : (policyOf c).limit = some n := hmax
                simp only [Policy.checkSize, hl] at hp
                split at hp
                · cases hp; assumption
                · cases hp
            · exact ih sub' m' hm'

/-- **C05 (envelopes, limit)**: every message delivered by a reader with limit `n` - server or client, whatever its
end-of-stream handling - was decoded from at most `n` bytes, for every chunking of every byte string. -/
theorem C05_stream_messages_bounded (c : ReaderCfg M σ) (n : Int) (hmax : c.readMax = some n) (sub : σ)
    (chunks : List Bytes) :
    ∀ m ∈ (feedAll c (.init sub) chunks).1, ∃ d : Bytes, (d.length : Int) ≤ n ∧ c.codec.decode d = .ok m := by
  have key : ∀ (s : ReaderState σ), Consistent s →
      ∀ m ∈ (feedAll c s chunks).1, ∃ d : Bytes, (d.length : Int) ≤ n ∧ c.codec.decode d = .ok m := by
    induction chunks with
    | nil => intro s _ m hm; simp [feedAll] at hm
    | cons ch chs ih =>
      intro s hs m hm
      obtain ⟨fs, rest, hsp⟩ := splits_exists (s.buffer ++ ch)
      obtain ⟨nx, h1, h2⟩ := readMessages_splits c hsp s.sub
      rw [← feed_consistent c s hs] at h1
      simp only [feedAll, h1] at hm
      cases hst : (frameRun c s.sub fs).2.1.toStop with
      | raised e =>
        simp only [hst] at hm
        exact frameRun_bounded c n hmax s.sub fs m hm
      | done =>
        simp only [hst, List.mem_append] at hm
        rcases hm with hm | hm
        · exact frameRun_bounded c n hmax s.sub fs m hm
        · exact ih _ h2 m hm
  exact key _ (by intro n hn; cases hn)

/-- **C05 (envelopes, error)**: the first envelope whose (decompressed) content exceeds the limit - a message or an
end-of-stream message - ends the stream with RESOURCE_EXHAUSTED, after the messages before it. -/
theorem C05_stream_oversize_rejected (c : ReaderCfg M σ) (sub : σ)
    (n : Int) (hmax : c.readMax = some n)
    (chunks : List Bytes) (fs post : List Frame) (g : Frame) (rest : Bytes) (ms : List M)
    (hdata : ∀ f ∈ fs, TreatsAsData c f.flags)
    (hbytes : chunks.flatten = (fs ++ g :: post).flatMap Frame.bytes ++ rest)
    (hsize : ∀ f ∈ fs ++ g :: post, f.Ok)
    (hok : fs.map (policyOf c).message = ms.map .ok)
    (d : Bytes) (hd : (policyOf c).inflate g = .ok d) (hbig : n < d.length) :
    (feedAll c (.init sub) chunks).1 = ms ∧
    ∃ msg, (feedAll c (.init sub) chunks).2.1 = .raised (.connect { code := .resourceExhausted, message := msg }) := by
  have hbad : c.payload g.flags g.payload = .error (tooLarge n) := by
    have hl : (policyOf c).limit = some n := hmax
    rw [payload_eq]
    simp only [hd, Policy.checkSize, hl]
    rw [if_neg (by omega)]
    rfl
  have := reader_fails c sub chunks fs post g rest ms _ hdata hbytes hsize hok (.inl hbad)
  exact ⟨this.1, _, this.2⟩

/-! ### the writer -/

/-- **C08**: a written envelope is exactly: flag byte 1 iff a non-identity compression is configured (else 0), the
length of the (compressed) encoding in four big-endian bytes, and that encoding; an encoding of 2^32 bytes or more is
refused (an exception is raised, nothing is written). -/
theorem C08_write_exact (w : EnvelopeWriter M) (m : M) (d : Bytes) (henc : w.codec.encode m = .ok d) :
    let z := match w.compression with
      | some c => c.compress d
      | none => d
    let fl : UInt8 := match w.compression with
      | some (.custom _ _ _) => 1
      | _ => 0
    (z.length < 2^32 → w.write m = .ok ({ flags := fl, payload := z } : Frame).bytes) ∧
    (2^32 ≤ z.length → ∃ e, w.write m = .error e) := by
  intro z fl
  have hz : w.compress d = z := by
    unfold EnvelopeWriter.compress; cases h : w.compression <;> simp [z, h]
  have hfl : w.pre = fl := by
    unfold EnvelopeWriter.pre
    cases h : w.compression with
    | none => simp [fl, h]
    | some c => cases c <;> simp [fl, h, Compression.isIdentity]
  have hw : w.write m = packEnvelope fl z := by
    simp only [EnvelopeWriter.write, henc, hz, hfl]
  constructor
  · intro h
    rw [hw, packEnvelope, if_pos (by simpa using h), frame_bytes_eq]
  · intro h
    rw [hw, packEnvelope, if_neg (by omega)]
    exact ⟨_, rfl⟩

/-- A reader and a writer that agree: the reader's codec decodes what the writer's codec encodes, and if the writer compresses, the
reader undoes that compression. (The two sides may use different implementations.) -/
structure Agree (w : EnvelopeWriter M) (c : ReaderCfg M σ) : Prop where
  codec : ∀ m b, w.codec.encode m = .ok b → c.codec.decode b = .ok m
  comp : ∀ k, w.compression = some k → k ≠ .identity →
    c.compression ≠ .identity ∧ ∀ b, c.compression.decompress (k.compress b) = .ok b

theorem write_frame (w : EnvelopeWriter M) (c : ReaderCfg M σ) (ha : Agree w c) (m : M) (b : Bytes)
    (hw : w.write m = .ok b)
    (hmax : ∀ n, c.readMax = some n → ∀ d, w.codec.encode m = .ok d → (d.length : Int) ≤ n) :
    ∃ f : Frame, f.Ok ∧ b = f.bytes ∧ f.flags = w.pre ∧ (policyOf c).message f = .ok m := by
  unfold EnvelopeWriter.write at hw
  cases henc : w.codec.encode m with
  | error e => simp [henc] at hw
  | ok d =>
    simp only [henc, packEnvelope] at hw
    split at hw
    · rename_i hlen
      cases hw
      refine ⟨⟨w.pre, w.compress d⟩, hlen, by rw [frame_bytes_eq], rfl, ?_⟩
      have hdec : c.codec.decode d = .ok m := ha.codec m d henc
      have hlim : (policyOf c).checkSize d = .ok d := by
        have : (policyOf c).limit = c.readMax := rfl
        rw [Policy.checkSize, this]
        cases hm : c.readMax with
        | none => rfl
        | some n => simp only [if_pos (hmax n hm d henc)]
      have hun : (policyOf c).inflate ⟨w.pre, w.compress d⟩ = .ok d := by
        unfold Policy.inflate
        cases hc : w.compression with
        | none =>
          have h1 : w.pre = 0 := by simp [EnvelopeWriter.pre, hc]
          have h2 : w.compress d = d := by simp [EnvelopeWriter.compress, hc]
          simp [h1, h2]
        | some k =>
          cases k with
          | identity =>
            have h1 : w.pre = 0 := by simp [EnvelopeWriter.pre, hc, Compression.isIdentity]
            have h2 : w.compress d = d := by simp [EnvelopeWriter.compress, hc, Compression.compress]
            simp [h1, h2]
          | custom nm co de =>
            have h1 : w.pre = 1 := by simp [EnvelopeWriter.pre, hc, Compression.isIdentity]
            have h2 : w.compress d = co d := by simp [EnvelopeWriter.compress, hc, Compression.compress]
            obtain ⟨hk, hl⟩ := ha.comp _ hc (by intro h; cases h)
            have h4 : ∃ de', (policyOf c).decompress = some de' ∧ de' (co d) = .ok d := by
              have hl := hl d
              cases hcc : c.compression with
              | identity => exact absurd hcc hk
              | custom nm' co' de' =>
                rw [hcc] at hl
                exact ⟨de', by simp [policyOf, hcc], hl⟩
            obtain ⟨de', h4, h3⟩ := h4
            simp [h1, h2, h3, h4]
      simp only [Policy.message, hun, hlim]
      exact hdec
    · cases hw

theorem writeAll_frames (w : EnvelopeWriter M) (c : ReaderCfg M σ) (ha : Agree w c) (ms : List M) (bs : List Bytes)
    (hw : ms.map w.write = bs.map .ok)
    (hmax : ∀ n, c.readMax = some n → ∀ m ∈ ms, ∀ d, w.codec.encode m = .ok d → (d.length : Int) ≤ n) :
    ∃ fs : List Frame, (∀ f ∈ fs, f.Ok) ∧ bs = fs.map Frame.bytes ∧ (∀ f ∈ fs, f.flags = w.pre) ∧
      fs.map (policyOf c).message = ms.map .ok := by
  induction ms generalizing bs with
  | nil =>
    cases bs with
    | nil => exact ⟨[], by simp⟩
    | cons b bs => simp at hw
  | cons m ms ih =>
    cases bs with
    | nil => simp at hw
    | cons b bs =>
      simp only [List.map_cons, List.cons.injEq] at hw
      obtain ⟨f, h1, h2, h3, h4⟩ := write_frame w c ha m b hw.1 (fun n hn d hd => hmax n hn m (by simp) d hd)
      obtain ⟨fs, g1, g2, g3, g4⟩ := ih bs hw.2 (fun n hn m' hm' d hd => hmax n hn m' (by simp [hm']) d hd)
      refine ⟨f :: fs, ?_, by simp [h2, g2], ?_, by simp [h4, g4]⟩
      · intro x hx; simp only [List.mem_cons] at hx
        rcases hx with rfl | hx
        · exact h1
        · exact g1 x hx
      · intro x hx; simp only [List.mem_cons] at hx
        rcases hx with rfl | hx
        · exact h3
        · exact g3 x hx

/-- **C03**: whatever messages are written (`bs` is what `write` returned for each) and however the bytes are cut into
chunks, an agreeing reader (no limit, or a limit the encodings respect) delivers exactly those messages, in order,
and no error. -/
theorem C03_roundtrip_any_chunking (w : EnvelopeWriter M) (c : ReaderCfg M σ) (ha : Agree w c)
    (hdata : TreatsAsData c w.pre) (sub : σ) (ms : List M) (bs chunks : List Bytes)
    (hw : ms.map w.write = bs.map .ok) (hcut : chunks.flatten = bs.flatten)
    (hmax : ∀ n, c.readMax = some n → ∀ m ∈ ms, ∀ d, w.codec.encode m = .ok d → (d.length : Int) ≤ n) :
    (feedAll c (.init sub) chunks).1 = ms ∧ (feedAll c (.init sub) chunks).2.1 = .done := by
  obtain ⟨fs, h1, h2, h3, h4⟩ := writeAll_frames w c ha ms bs hw hmax
  have hs : Splits chunks.flatten fs [] := by
    refine ⟨?_, h1, incomplete_of_lt_five (by simp)⟩
    rw [hcut, h2, List.append_nil, List.flatMap_def]
  have hr := reader_delivers c sub chunks hs (fun f hf => by rw [h3 f hf]; exact hdata)
  rw [deliver_all _ fs ms h4] at hr
  exact hr

/-! ### non-vacuity -/

/-- a lawful codec on byte strings, and a lawful (toy) compression -/
def rawCodec : Codec Bytes := ⟨pys! "raw", .ok, .ok⟩
def flipComp : Compression := .custom (pys! "flip") List.reverse (fun b => .ok b.reverse)
def demoWriter : EnvelopeWriter Bytes := ⟨rawCodec, some flipComp⟩
def demoReader (mx : Option Int) : ReaderCfg Bytes Unit := ⟨rawCodec, flipComp, mx, noEndHook⟩

theorem demo_agree (mx : Option Int) : Agree demoWriter (demoReader mx) :=
  ⟨by intro m b h; cases h; rfl, by
    intro k h _; cases h; exact ⟨(by intro h; cases h), by
      show ∀ b, flipComp.decompress (flipComp.compress b) = .ok b
      intro b; simp [flipComp, Compression.decompress, Compression.compress]⟩⟩
theorem demo_data (mx : Option Int) : ∀ fl, TreatsAsData (demoReader mx) fl := fun _ _ _ => rfl

example : ∃ bs : List Bytes, [[1, 2, 3], [], [9]].map demoWriter.write = bs.map .ok ∧
    (feedAll (demoReader (some 3)) (.init ()) [[1, 0, 0], [], [0, 3, 3, 2, 1, 1, 0, 0, 0, 0], [1, 0, 0, 0, 1], [9]]).1
      = [[1, 2, 3], [], [9]] := by
  refine ⟨[[1, 0, 0, 0, 3, 3, 2, 1], [1, 0, 0, 0, 0], [1, 0, 0, 0, 1, 9]], by rfl, by decide +kernel⟩

/-- hypotheses of C06/C07 met: one good message, then a flagged one on a reader without compression, then more. -/
def plainReader : ReaderCfg Bytes Unit := ⟨rawCodec, .identity, none, noEndHook⟩
example :
    (feedAll plainReader (.init ()) [[0, 0, 0, 0, 1, 5, 1], [0, 0, 0, 0, 7, 7]]).1 = [[5]] ∧
    ([[0, 0, 0, 0, 1, 5, 1], [0, 0, 0, 0, 7, 7]] : List Bytes).flatten =
      ([(⟨0, [5]⟩ : Frame)] ++ (⟨1, []⟩ : Frame) :: []).flatMap Frame.bytes ++ [7, 7] ∧
    [(⟨0, [5]⟩ : Frame)].map (policyOf plainReader).message = [([5] : Bytes)].map .ok :=
  ⟨by decide +kernel, by decide, rfl⟩

/-- hypotheses of C05 met by a reader with an end-of-stream message (flag 2): a good message, then an end message that is too large. -/
def endReader : ReaderCfg Bytes Unit := ⟨rawCodec, .identity, some 2, fun s fl _ => (s, .ok (fl == 2))⟩
example : (∀ f ∈ [(⟨0, [5]⟩ : Frame)], TreatsAsData endReader f.flags) ∧ ¬ TreatsAsData endReader 2 ∧
    ([[0, 0, 0, 0, 1, 5, 2], [0, 0, 0, 3, 1, 2, 3]] : List Bytes).flatten =
      ([(⟨0, [5]⟩ : Frame)] ++ (⟨2, [1, 2, 3]⟩ : Frame) :: []).flatMap Frame.bytes ++ [] ∧
    [(⟨0, [5]⟩ : Frame)].map (policyOf endReader).message = [([5] : Bytes)].map .ok ∧
    (policyOf endReader).inflate ⟨2, [1, 2, 3]⟩ = .ok [1, 2, 3] ∧ (2 : Int) < [1, 2, 3].length := by
  refine ⟨?_, fun h => ?_, by decide, rfl, rfl, by decide⟩
  · intro f hf s d
    simp only [List.mem_singleton] at hf
    subst hf
    rfl
  · have := h () []
    cases this

end Props
