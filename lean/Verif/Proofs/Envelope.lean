import Verif.Model.Envelope
import Verif.Spec.Envelope
/- The buffering reader refines the frame-by-frame specification. -/
namespace Conn
open Py Spec

theorem frame_bytes_eq (f : Frame) :
    f.bytes = f.flags :: be32Encode f.payload.length ++ f.payload := by
  have h : ∀ n : Nat, UInt8.ofNat (n % 256) = UInt8.ofNat n := by
    intro n; apply UInt8.toNat_inj.1; simp
  simp [Frame.bytes, be32Encode, h]

theorem be32_roundtrip (n : Nat) (h : n < 4294967296) :
    be32Decode (UInt8.ofNat (n / 16777216 % 256)) (UInt8.ofNat (n / 65536 % 256)) (UInt8.ofNat (n / 256 % 256))
      (UInt8.ofNat (n % 256)) = n := by
  unfold be32Decode
  simp
  omega

theorem be32Decode_lt (b1 b2 b3 b4 : UInt8) : be32Decode b1 b2 b3 b4 < 4294967296 := by
  unfold be32Decode
  have := b1.toNat_lt; have := b2.toNat_lt; have := b3.toNat_lt; have := b4.toNat_lt
  omega

theorem be32Encode_decode (b1 b2 b3 b4 : UInt8) : be32Encode (be32Decode b1 b2 b3 b4) = [b1, b2, b3, b4] := by
  have h1 := b1.toNat_lt; have h2 := b2.toNat_lt; have h3 := b3.toNat_lt; have h4 := b4.toNat_lt
  unfold be32Encode
  simp only [List.cons.injEq, and_true]
  refine ⟨?_, ?_, ?_, ?_⟩ <;> apply UInt8.toNat_inj.1 <;> simp [be32Decode] <;> omega

theorem frame_bytes_length (f : Frame) : f.bytes.length = 5 + f.payload.length := by
  simp [Frame.bytes]; omega

/-- header form of a buffer of at least five bytes -/
theorem five_bytes {b : Bytes} (h : 5 ≤ b.length) :
    ∃ p b1 b2 b3 b4 t, b = p :: b1 :: b2 :: b3 :: b4 :: t := by
  match b, h with
  | p :: b1 :: b2 :: b3 :: b4 :: t, _ => exact ⟨p, b1, b2, b3, b4, t, rfl⟩

theorem complete_of_length {p b1 b2 b3 b4 : UInt8} {t : Bytes}
    (h : be32Decode b1 b2 b3 b4 ≤ t.length) :
    let n := be32Decode b1 b2 b3 b4
    ({ flags := p, payload := t.take n } : Frame).Ok ∧
    p :: b1 :: b2 :: b3 :: b4 :: t = ({ flags := p, payload := t.take n } : Frame).bytes ++ t.drop n := by
  intro n
  have hl : (t.take n).length = n := by simp; omega
  refine ⟨?_, ?_⟩
  · show (t.take n).length < 2^32
    rw [hl]; exact be32Decode_lt ..
  · rw [frame_bytes_eq]
    simp only [hl]
    rw [be32Encode_decode]
    simp

theorem incomplete_iff_short {p b1 b2 b3 b4 : UInt8} {t : Bytes} :
    Incomplete (p :: b1 :: b2 :: b3 :: b4 :: t) ↔ t.length < be32Decode b1 b2 b3 b4 := by
  constructor
  · intro h
    by_cases hl : be32Decode b1 b2 b3 b4 ≤ t.length
    · obtain ⟨ok, eq⟩ := complete_of_length (p := p) hl
      exact absurd ⟨_, eq.symm⟩ (h _ ok)
    · omega
  · intro hl f ok ⟨r, hr⟩
    rw [frame_bytes_eq] at hr
    simp only [be32Encode, List.cons_append, List.nil_append, List.cons.injEq] at hr
    obtain ⟨-, e1, e2, e3, e4, e5⟩ := hr
    have := be32_roundtrip f.payload.length ok
    rw [e1, e2, e3, e4] at this
    rw [this] at hl
    have : t.length = f.payload.length + r.length := by rw [← e5]; simp
    omega

theorem incomplete_of_lt_five {b : Bytes} (h : b.length < 5) : Incomplete b := by
  intro f ok hp
  have := hp.length_le
  rw [frame_bytes_length] at this
  omega

/-- every byte string has a unique-length decomposition -/
theorem splits_exists (bs : Bytes) : ∃ fs rest, Splits bs fs rest := by
  induction hn : bs.length using Nat.strongRecOn generalizing bs with
  | _ n ih =>
    by_cases h5 : bs.length < 5
    · exact ⟨[], bs, by simp, by simp, incomplete_of_lt_five h5⟩
    · obtain ⟨p, b1, b2, b3, b4, t, rfl⟩ := five_bytes (by omega : 5 ≤ bs.length)
      by_cases hl : be32Decode b1 b2 b3 b4 ≤ t.length
      · obtain ⟨ok, eq⟩ := complete_of_length (p := p) hl
        obtain ⟨fs, rest, hs⟩ := ih (t.drop (be32Decode b1 b2 b3 b4)).length (by subst hn; simp; omega) _ rfl
        refine ⟨{ flags := p, payload := t.take (be32Decode b1 b2 b3 b4) } :: fs, rest, ?_, ?_, hs.inc⟩
        · rw [List.flatMap_cons, List.append_assoc, ← hs.eq]; exact eq
        · intro f hf
          simp only [List.mem_cons] at hf
          rcases hf with rfl | hf
          · exact ok
          · exact hs.ok f hf
      · exact ⟨[], p :: b1 :: b2 :: b3 :: b4 :: t, by simp, by simp, incomplete_iff_short.2 (by omega)⟩

theorem frame_prefix_unique {f g : Frame} (hf : f.Ok) (hg : g.Ok) {r s : Bytes}
    (h : f.bytes ++ r = g.bytes ++ s) : f = g ∧ r = s := by
  rw [frame_bytes_eq, frame_bytes_eq] at h
  simp only [be32Encode, List.cons_append, List.nil_append, List.cons.injEq] at h
  obtain ⟨h0, e1, e2, e3, e4, e5⟩ := h
  have hl : f.payload.length = g.payload.length := by
    rw [← be32_roundtrip _ hf, ← be32_roundtrip _ hg, e1, e2, e3, e4]
  obtain ⟨h1, h2⟩ := List.append_inj e5 hl
  refine ⟨?_, h2⟩
  cases f; cases g; simp_all

theorem splits_unique {bs : Bytes} {fs gs : List Frame} {r s : Bytes}
    (h1 : Splits bs fs r) (h2 : Splits bs gs s) : fs = gs ∧ r = s := by
  induction fs generalizing bs gs with
  | nil =>
    cases gs with
    | nil =>
      have := h1.eq; have := h2.eq; simp_all
    | cons g gs =>
      exfalso
      have e1 := h1.eq; have e2 := h2.eq
      simp only [List.flatMap_nil, List.nil_append, List.flatMap_cons, List.append_assoc] at e1 e2
      exact h1.inc g (h2.ok g (by simp)) ⟨_, by rw [← e1, e2]⟩
  | cons f fs ih =>
    have e1 := h1.eq; have e2 := h2.eq
    cases gs with
    | nil =>
      exfalso
      simp only [List.flatMap_nil, List.nil_append, List.flatMap_cons, List.append_assoc] at e1 e2
      exact h2.inc f (h1.ok f (by simp)) ⟨_, by rw [← e2, e1]⟩
    | cons g gs =>
      simp only [List.flatMap_cons, List.append_assoc] at e1 e2
      rw [e1] at e2
      obtain ⟨rfl, e⟩ := frame_prefix_unique (h1.ok f (by simp)) (h2.ok g (by simp)) e2
      obtain ⟨rfl, rfl⟩ := ih (bs := fs.flatMap Frame.bytes ++ r) (gs := gs)
        ⟨rfl, fun x hx => h1.ok x (by simp [hx]), h1.inc⟩
        ⟨e, fun x hx => h2.ok x (by simp [hx]), h2.inc⟩
      exact ⟨rfl, rfl⟩

theorem splits_append {a b : Bytes} {fs gs : List Frame} {r s : Bytes}
    (h1 : Splits a fs r) (h2 : Splits (r ++ b) gs s) : Splits (a ++ b) (fs ++ gs) s := by
  refine ⟨?_, ?_, h2.inc⟩
  · rw [h1.eq, List.append_assoc, h2.eq, List.flatMap_append, List.append_assoc]
  · intro f hf
    simp only [List.mem_append] at hf
    rcases hf with hf | hf
    · exact h1.ok f hf
    · exact h2.ok f hf

/-! ### the reader on whole frames -/

variable {M σ : Type}

/-- outcome of processing frames with an end hook -/
inductive HStop where
  | done | ended | raised (e : Exc)
deriving DecidableEq

def HStop.toStop : HStop → Stop
  | .done => .done
  | .ended => .done
  | .raised e => .raised e

/-- frame-level semantics of the reader loop: messages, stop, subclass state, frames left unread -/
def frameRun (c : ReaderCfg M σ) : σ → List Frame → List M × HStop × σ × List Frame
  | sub, [] => ([], .done, sub, [])
  | sub, f :: fs =>
    match c.payload f.flags f.payload with
    | .error e => ([], .raised e, sub, fs)
    | .ok d =>
      match c.handleEnd sub f.flags d with
      | (sub', .error e) => ([], .raised e, sub', fs)
      | (sub', .ok true) => ([], .ended, sub', fs)
      | (sub', .ok false) =>
        match c.codec.decode d with
        | .error e => ([], .raised e, sub', fs)
        | .ok m =>
          let r := frameRun c sub' fs
          (m :: r.1, r.2)

/-- the cached length, if any, is the one in the buffer -/
def Consistent (s : ReaderState σ) : Prop :=
  ∀ n, s.next = some n → ∃ p b1 b2 b3 b4 t, s.buffer = p :: b1 :: b2 :: b3 :: b4 :: t ∧ n = be32Decode b1 b2 b3 b4

theorem readMessages_next {c : ReaderCfg M σ} {p b1 b2 b3 b4 : UInt8} {t : Bytes} {sub : σ} :
    readMessages c ⟨p :: b1 :: b2 :: b3 :: b4 :: t, none, sub⟩ =
      readMessages c ⟨p :: b1 :: b2 :: b3 :: b4 :: t, some (be32Decode b1 b2 b3 b4), sub⟩ := by
  rw [readMessages]

theorem readMessages_consistent (c : ReaderCfg M σ) (s : ReaderState σ) (h : Consistent s) :
    readMessages c s = readMessages c { s with next := none } := by
  cases hn : s.next with
  | none => cases s; simp_all
  | some n =>
    obtain ⟨p, b1, b2, b3, b4, t, hb, rfl⟩ := h n hn
    rcases s with ⟨b, nx, sub⟩
    simp only at hb hn
    subst hb hn
    exact readMessages_next.symm

theorem readMessages_short (c : ReaderCfg M σ) {b : Bytes} (h : b.length < 5) (sub : σ) :
    readMessages c ⟨b, none, sub⟩ = ([], .done, ⟨b, none, sub⟩) := by
  rw [readMessages]
  match b, h with
  | [], _ => rfl
  | [_], _ => rfl
  | [_, _], _ => rfl
  | [_, _, _], _ => rfl
  | [_, _, _, _], _ => rfl

theorem readMessages_incomplete (c : ReaderCfg M σ) {b : Bytes} (h : Incomplete b) (sub : σ) :
    ∃ nx, readMessages c ⟨b, none, sub⟩ = ([], .done, ⟨b, nx, sub⟩) ∧ Consistent (⟨b, nx, sub⟩ : ReaderState σ) := by
  by_cases h5 : b.length < 5
  · exact ⟨none, readMessages_short c h5 sub, by intro n hn; cases hn⟩
  · obtain ⟨p, b1, b2, b3, b4, t, rfl⟩ := five_bytes (by omega : 5 ≤ b.length)
    refine ⟨some (be32Decode b1 b2 b3 b4), ?_, ?_⟩
    · rw [readMessages_next, readMessages]
      have := incomplete_iff_short.1 h
      simp only
      rw [if_pos (by simp; omega)]
    · intro n hn; cases hn; exact ⟨p, b1, b2, b3, b4, t, rfl, rfl⟩

theorem readMessages_frame (c : ReaderCfg M σ) (f : Frame) (hf : f.Ok) (tail : Bytes) (sub : σ) :
    readMessages c ⟨f.bytes ++ tail, none, sub⟩ =
      match c.payload f.flags f.payload with
      | .error e => ([], .raised e, ⟨tail, none, sub⟩)
      | .ok d =>
        match c.handleEnd sub f.flags d with
        | (sub', .error e) => ([], .raised e, ⟨tail, none, sub'⟩)
        | (sub', .ok true) => ([], .done, ⟨tail, none, sub'⟩)
        | (sub', .ok false) =>
          match c.codec.decode d with
          | .error e => ([], .raised e, ⟨tail, none, sub'⟩)
          | .ok m => let r := readMessages c ⟨tail, none, sub'⟩; (m :: r.1, r.2) := by
  have hbytes : f.bytes ++ tail = f.flags :: UInt8.ofNat (f.payload.length / 16777216 % 256) ::
      UInt8.ofNat (f.payload.length / 65536 % 256) :: UInt8.ofNat (f.payload.length / 256 % 256) ::
      UInt8.ofNat (f.payload.length % 256) :: (f.payload ++ tail) := by
    rw [frame_bytes_eq]; simp [be32Encode]
  rw [hbytes, readMessages_next, be32_roundtrip _ hf, readMessages]
  have hlen : ¬ (f.flags :: UInt8.ofNat (f.payload.length / 16777216 % 256) ::
      UInt8.ofNat (f.payload.length / 65536 % 256) :: UInt8.ofNat (f.payload.length / 256 % 256) ::
      UInt8.ofNat (f.payload.length % 256) :: (f.payload ++ tail)).length < f.payload.length + 5 := by
    simp
  simp only
  rw [if_neg hlen]
  have hd : List.take f.payload.length (List.drop 5 (f.flags :: UInt8.ofNat (f.payload.length / 16777216 % 256) ::
      UInt8.ofNat (f.payload.length / 65536 % 256) :: UInt8.ofNat (f.payload.length / 256 % 256) ::
      UInt8.ofNat (f.payload.length % 256) :: (f.payload ++ tail))) = f.payload := by
    simp
  have hr : List.drop (5 + f.payload.length) (f.flags :: UInt8.ofNat (f.payload.length / 16777216 % 256) ::
      UInt8.ofNat (f.payload.length / 65536 % 256) :: UInt8.ofNat (f.payload.length / 256 % 256) ::
      UInt8.ofNat (f.payload.length % 256) :: (f.payload ++ tail)) = tail := by
    rw [show 5 + f.payload.length = f.payload.length + 5 by omega]
    simp
  rw [hd, hr]
  cases c.payload f.flags f.payload with
  | error e => rfl
  | ok d =>
    dsimp only
    rcases c.handleEnd sub f.flags d with ⟨sub', r⟩
    rcases r with e | b
    · rfl
    · cases b with
      | true => rfl
      | false =>
        dsimp only
        cases c.codec.decode d with
        | error e => rfl
        | ok m =>
          dsimp only
          by_cases h5 : tail.length < 5
          · rw [readMessages_short c h5]
            match tail, h5 with
            | [], _ => rfl
            | [_], _ => rfl
            | [_, _], _ => rfl
            | [_, _, _], _ => rfl
            | [_, _, _, _], _ => rfl
          · obtain ⟨p, b1, b2, b3, b4, t, rfl⟩ := five_bytes (by omega : 5 ≤ tail.length)
            dsimp only
            rw [readMessages_next]

/-- reading a split byte string -/
theorem readMessages_splits (c : ReaderCfg M σ) {bs : Bytes} {fs : List Frame} {rest : Bytes}
    (h : Splits bs fs rest) (sub : σ) :
    let r := frameRun c sub fs
    ∃ nx, readMessages c ⟨bs, none, sub⟩ =
      (r.1, r.2.1.toStop, ⟨r.2.2.2.flatMap Frame.bytes ++ rest, nx, r.2.2.1⟩) ∧
      Consistent (⟨r.2.2.2.flatMap Frame.bytes ++ rest, nx, r.2.2.1⟩ : ReaderState σ) := by
  induction fs generalizing bs sub with
  | nil =>
    have : bs = rest := by simpa using h.eq
    subst this
    exact readMessages_incomplete c h.inc sub
  | cons f fs ih =>
    have e := h.eq
    rw [List.flatMap_cons, List.append_assoc] at e
    subst e
    rw [readMessages_frame c f (h.ok f (by simp))]
    have ih := ih (bs := fs.flatMap Frame.bytes ++ rest) ⟨rfl, fun x hx => h.ok x (by simp [hx]), h.inc⟩
    simp only [frameRun]
    have none_ok : ∀ (b : Bytes) (s : σ), Consistent (⟨b, none, s⟩ : ReaderState σ) := by
      intro b s n hn; cases hn
    cases c.payload f.flags f.payload with
    | error e => exact ⟨none, rfl, none_ok _ _⟩
    | ok d =>
      dsimp only
      rcases c.handleEnd sub f.flags d with ⟨sub', r⟩
      rcases r with e | b
      · exact ⟨none, rfl, none_ok _ _⟩
      · cases b with
        | true => exact ⟨none, rfl, none_ok _ _⟩
        | false =>
          dsimp only
          cases c.codec.decode d with
          | error e => exact ⟨none, rfl, none_ok _ _⟩
          | ok m =>
            dsimp only
            obtain ⟨nx, h1, h2⟩ := ih sub'
            refine ⟨nx, ?_, h2⟩
            rw [h1]

theorem frameRun_append (c : ReaderCfg M σ) (sub : σ) (fs gs : List Frame) :
    frameRun c sub (fs ++ gs) =
      let r := frameRun c sub fs
      match r.2.1 with
      | .done => let r2 := frameRun c r.2.2.1 gs; (r.1 ++ r2.1, r2.2)
      | _ => (r.1, r.2.1, r.2.2.1, r.2.2.2 ++ gs) := by
  induction fs generalizing sub with
  | nil => simp [frameRun]
  | cons f fs ih =>
    simp only [List.cons_append, frameRun]
    cases c.payload f.flags f.payload with
    | error e => rfl
    | ok d =>
      dsimp only
      rcases c.handleEnd sub f.flags d with ⟨sub', r⟩
      rcases r with e | b
      · rfl
      · cases b with
        | true => rfl
        | false =>
          dsimp only
          cases c.codec.decode d with
          | error e => rfl
          | ok m =>
            dsimp only
            rw [ih]
            dsimp only
            rcases frameRun c sub' fs with ⟨a, st, b, l⟩
            cases st <;> rfl

theorem frameRun_done_rest (c : ReaderCfg M σ) (sub : σ) (fs : List Frame) :
    (frameRun c sub fs).2.1 = .done → (frameRun c sub fs).2.2.2 = [] := by
  induction fs generalizing sub with
  | nil => simp [frameRun]
  | cons f fs ih =>
    simp only [frameRun]
    cases c.payload f.flags f.payload with
    | error e => simp
    | ok d =>
      dsimp only
      rcases c.handleEnd sub f.flags d with ⟨sub', r⟩
      rcases r with e | b
      · simp
      · cases b with
        | true => simp
        | false =>
          dsimp only
          cases c.codec.decode d with
          | error e => simp
          | ok m => exact ih sub'

theorem feed_consistent (c : ReaderCfg M σ) (s : ReaderState σ) (h : Consistent s) (d : Bytes) :
    feed c s d = readMessages c ⟨s.buffer ++ d, none, s.sub⟩ := by
  unfold feed
  apply readMessages_consistent
  intro n hn
  obtain ⟨p, b1, b2, b3, b4, t, hb, hn'⟩ := h n hn
  exact ⟨p, b1, b2, b3, b4, t ++ d, by simp [hb], hn'⟩

/-- bytes following the end message, if the run ended -/
def Clean (r : List M × HStop × σ × List Frame) (rest : Bytes) : Prop :=
  r.2.1 = .ended → r.2.2.2 = [] ∧ rest = []

theorem feedAll_empty (c : ReaderCfg M σ) (sub : σ) (chunks : List Bytes) (h : chunks.flatten = []) :
    ∀ nx, Consistent (⟨[], nx, sub⟩ : ReaderState σ) →
    feedAll c ⟨[], nx, sub⟩ chunks = ([], .done, ⟨[], none, sub⟩) ∨
    feedAll c ⟨[], nx, sub⟩ chunks = ([], .done, ⟨[], nx, sub⟩) := by
  intro nx hc
  have hnx : nx = none := by
    cases nx with
    | none => rfl
    | some n => obtain ⟨_, _, _, _, _, _, hb, _⟩ := hc n rfl; simp at hb
  subst hnx
  left
  induction chunks with
  | nil => rfl
  | cons ch chs ih =>
    simp only [List.flatten_cons, List.append_eq_nil_iff] at h
    obtain ⟨rfl, h⟩ := h
    simp only [feedAll]
    rw [feed_consistent c _ hc, List.append_nil, readMessages_short c (by simp)]
    simp [ih h]

/-- **chunking lemma**: feeding chunk by chunk is running over the frames of the concatenation, provided nothing
follows an end message. -/
theorem feedAll_splits (c : ReaderCfg M σ) (s : ReaderState σ) (hs : Consistent s) (chunks : List Bytes)
    {fs : List Frame} {rest : Bytes} (h : Splits (s.buffer ++ chunks.flatten) fs rest)
    (hinc : chunks = [] → Incomplete s.buffer)
    (hclean : Clean (frameRun c s.sub fs) rest) :
    (feedAll c s chunks).1 = (frameRun c s.sub fs).1 ∧
    (feedAll c s chunks).2.1 = (frameRun c s.sub fs).2.1.toStop ∧
    (feedAll c s chunks).2.2.sub = (frameRun c s.sub fs).2.2.1 := by
  induction chunks generalizing s fs with
  | nil =>
    simp only [List.flatten_nil, List.append_nil] at h
    have h0 : Splits s.buffer [] s.buffer := ⟨by simp, by simp, hinc rfl⟩
    obtain ⟨rfl, -⟩ := splits_unique h h0
    simp [feedAll, frameRun, HStop.toStop]
  | cons ch chs ih =>
    obtain ⟨fs1, rest1, hs1⟩ := splits_exists (s.buffer ++ ch)
    obtain ⟨fs2, rest2, hs2⟩ := splits_exists (rest1 ++ chs.flatten)
    have hcomb := splits_append hs1 hs2
    rw [List.append_assoc, ← List.flatten_cons] at hcomb
    obtain ⟨rfl, rfl⟩ := splits_unique h hcomb
    obtain ⟨nx, h1, h2⟩ := readMessages_splits c hs1 s.sub
    rw [← feed_consistent c s hs] at h1
    simp only [feedAll, h1]
    rw [frameRun_append] at hclean ⊢
    generalize hr : frameRun c s.sub fs1 = r at *
    obtain ⟨ms, st, sub', left⟩ := r
    have hleft : st = .done → left = [] := by
      intro hst
      have := frameRun_done_rest c s.sub fs1
      rw [hr] at this
      exact this hst
    cases st with
    | raised e => simp [HStop.toStop]
    | done =>
      have hl := hleft rfl
      subst hl
      simp only [List.flatMap_nil, List.nil_append] at h2
      have := ih ⟨rest1, nx, sub'⟩ h2 (fs := fs2) hs2 (fun _ => hs1.inc) (by simpa [Clean] using hclean)
      simp only [HStop.toStop, List.flatMap_nil, List.nil_append]
      exact ⟨by rw [this.1], this.2.1, this.2.2⟩
    | ended =>
      have hc := hclean rfl
      simp only [List.append_eq_nil_iff] at hc
      obtain ⟨⟨rfl, rfl⟩, rfl⟩ := hc
      have hz := hs2.eq
      simp only [List.flatMap_nil, List.nil_append, List.append_eq_nil_iff] at hz
      obtain ⟨rfl, hz⟩ := hz
      simp only [List.flatMap_nil, List.nil_append] at h2
      simp only [HStop.toStop, List.flatMap_nil, List.nil_append]
      rcases feedAll_empty c sub' chs hz nx h2 with h' | h' <;> simp [h']

end Conn
