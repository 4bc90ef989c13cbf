import Verif.Props.Envelope
import Verif.Model.EndStream
/-
Invariants of a reader fed with arbitrary bytes: which exceptions it raises and what its subclass state is.
-/
namespace Conn
open Py Spec Props

variable {M σ : Type}

theorem frameRun_inv (c : ReaderCfg M σ) (P : Exc → Prop) (I : σ → Prop)
    (hpay : ∀ fl d e, c.payload fl d = .error e → P e)
    (hend : ∀ s fl d, I s → I (c.handleEnd s fl d).1 ∧ ∀ e, (c.handleEnd s fl d).2 = .error e → P e)
    (hdec : ∀ d e, c.codec.decode d = .error e → P e) (fs : List Frame) :
    ∀ sub, I sub → (∀ e, (frameRun c sub fs).2.1 = .raised e → P e) ∧ I (frameRun c sub fs).2.2.1 := by
  induction fs with
  | nil => intro sub h; exact ⟨fun e he => (by cases he), h⟩
  | cons f fs ih =>
    intro sub hI
    simp only [frameRun]
    cases hp : c.payload f.flags f.payload with
    | error e => exact ⟨fun e' he => by cases he; exact hpay _ _ _ hp, hI⟩
    | ok d =>
      dsimp only
      have he := hend sub f.flags d hI
      rcases hh : c.handleEnd sub f.flags d with ⟨sub', r⟩
      rw [hh] at he
      rcases r with e | b
      · exact ⟨fun e' h => by cases h; exact he.2 _ rfl, he.1⟩
      · cases b with
        | true => exact ⟨fun e' h => by (dsimp only at h; cases h), he.1⟩
        | false =>
          dsimp only
          cases hd : c.codec.decode d with
          | error e => exact ⟨fun e' h => by cases h; exact hdec _ _ hd, he.1⟩
          | ok m => exact ih sub' he.1

/-- every exception a reader raises satisfies `P`, and its subclass state keeps the invariant `I`, for every input -/
theorem feedAll_inv (c : ReaderCfg M σ) (P : Exc → Prop) (I : σ → Prop)
    (hpay : ∀ fl d e, c.payload fl d = .error e → P e)
    (hend : ∀ s fl d, I s → I (c.handleEnd s fl d).1 ∧ ∀ e, (c.handleEnd s fl d).2 = .error e → P e)
    (hdec : ∀ d e, c.codec.decode d = .error e → P e) (chunks : List Bytes) :
    ∀ s, Consistent s → I s.sub →
      (∀ e, (feedAll c s chunks).2.1 = .raised e → P e) ∧ I (feedAll c s chunks).2.2.sub := by
  induction chunks with
  | nil => intro s _ h; exact ⟨fun e he => (by cases he), h⟩
  | cons ch chs ih =>
    intro s hs hI
    obtain ⟨fs, rest, hsp⟩ := splits_exists (s.buffer ++ ch)
    obtain ⟨nx, h1, h2⟩ := readMessages_splits c hsp s.sub
    rw [← feed_consistent c s hs] at h1
    have hf := frameRun_inv c P I hpay hend hdec fs s.sub hI
    simp only [feedAll, h1]
    cases hst : (frameRun c s.sub fs).2.1 with
    | raised e =>
      rw [hst] at hf
      exact ⟨fun e' he => by cases he; exact hf.1 e rfl, hf.2⟩
    | done => exact ih _ h2 hf.2
    | ended => exact ih _ h2 hf.2

/-- a reader that never meets a frame flagged as end: the subclass state changes by `pass` only and the run does not end early -/
theorem frameRun_no_end (c : ReaderCfg M σ) (I : σ → Prop) (fs : List Frame)
    (hend : ∀ f ∈ fs, ∀ s d, I s → I (c.handleEnd s f.flags d).1 ∧ (c.handleEnd s f.flags d).2 = .ok false) :
    ∀ sub, I sub → (frameRun c sub fs).2.1 ≠ .ended ∧ I (frameRun c sub fs).2.2.1 := by
  induction fs with
  | nil => intro sub h; exact ⟨fun he => (by cases he), h⟩
  | cons f fs ih =>
    intro sub hI
    simp only [frameRun]
    cases hp : c.payload f.flags f.payload with
    | error e => exact ⟨fun he => (by dsimp only at he; cases he), hI⟩
    | ok d =>
      dsimp only
      have he := hend f (.head _) sub d hI
      rcases hh : c.handleEnd sub f.flags d with ⟨sub', r⟩
      rw [hh] at he
      obtain ⟨h1, h2⟩ := he
      dsimp only at h1 h2
      subst h2
      dsimp only
      cases hd : c.codec.decode d with
      | error e => exact ⟨fun he => (by dsimp only at he; cases he), h1⟩
      | ok m => exact ih (fun f hf => hend f (.tail _ hf)) sub' h1

theorem payload_error (c : ReaderCfg M σ) (fl : UInt8) (d : Bytes) (e : Exc) (h : c.payload fl d = .error e) :
    (∃ ce, e = .connect ce) ∨ c.compression.decompress d = .error e := by
  unfold ReaderCfg.payload at h
  dsimp only at h
  by_cases hf : (fl &&& 1 != 0) = true
  · rw [if_pos hf] at h
    by_cases hi : c.compression.isIdentity = true
    · rw [if_pos hi] at h; dsimp only at h; cases h; exact .inl ⟨_, rfl⟩
    · rw [if_neg hi] at h
      cases hd : c.compression.decompress d with
      | error e' => rw [hd] at h; cases h; exact .inr rfl
      | ok x =>
        rw [hd] at h
        dsimp only at h
        repeat' split at h
        all_goals first | (cases h; exact .inl ⟨_, rfl⟩) | cases h
  · rw [if_neg hf] at h
    dsimp only at h
    repeat' split at h
    all_goals first | (cases h; exact .inl ⟨_, rfl⟩) | cases h

end Conn
