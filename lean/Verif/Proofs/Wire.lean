import Verif.Proofs.WireJson
import Verif.Proofs.StreamTransport
/-
Lemmas for C69 and C70: the published formats and the model's writers and readers.
-/
namespace Conn
open Py Spec

/-! ### trailers as a JSON object -/

theorem jsonStrings_strs (vs : List Str) : jsonStrings (.arr (vs.map .str)) = vs := by
  unfold jsonStrings
  dsimp only
  rw [List.filterMap_map]
  induction vs with
  | nil => rfl
  | cons v vs ih => rw [List.filterMap_cons]; simp only [Function.comp]; rw [show _ = vs from ih]

theorem metadata_values (m : Multimap) (n : Str) :
    ((jsonMetadata m).filter fun p => lower p.1 = lower n).flatMap (fun p => jsonStrings p.2) = fieldValues m.pairs n := by
  induction m with
  | nil => rfl
  | cons p m ih =>
    obtain ⟨k, vs⟩ := p
    have hp : Multimap.pairs ((k, vs) :: m) = vs.map (fun v => (k, v)) ++ Multimap.pairs m := by simp [Multimap.pairs]
    rw [hp, fieldValues_append, ← ih]
    show (((k, Json.arr (vs.map .str)) :: jsonMetadata m).filter _).flatMap _ = _
    by_cases e : lower k = lower n
    · rw [List.filter_cons_of_pos (by simpa using e), List.flatMap_cons, jsonStrings_strs]
      congr 1
      unfold fieldValues
      rw [List.filter_eq_self.2 (by simp [e]), List.map_map]
      simp [Function.comp_def]
    · rw [List.filter_cons_of_neg (by simpa using e), fieldValues_none (by simpa using fun _ _ => e), List.nil_append]

theorem metadataObject_abs (t : Headers) : MetadataObject t.allitems (jsonMetadata (Headers.abs t)) := by
  refine ⟨?_, ?_⟩
  · intro p hp
    obtain ⟨q, _, rfl⟩ := List.mem_map.1 hp
    exact ⟨q.2, rfl⟩
  · intro n
    rw [metadata_values, Headers.pairs_abs]

theorem endObject_json {t : Headers} (hi : t.Inv) (error : Option ConnectErr) :
    ∃ m, connectEndJson t error = .obj m ∧ EndObject t.allitems error m := by
  unfold connectEndJson
  dsimp only
  cases htr : t.truthy with
  | true =>
    rw [if_pos rfl, metadataOf_allitems hi]
    cases error with
    | none => exact ⟨_, rfl, .inl rfl, .inl ⟨_, rfl, metadataObject_abs t⟩⟩
    | some e =>
      obtain ⟨em, h1, h2⟩ := errorObject_toDict e
      dsimp only
      rw [h1]
      exact ⟨_, rfl, ⟨em, rfl, h2⟩, .inl ⟨_, rfl, metadataObject_abs t⟩⟩
  | false =>
    rw [if_neg (by simp)]
    have h0 := (not_truthy_allitems t).1 htr
    cases error with
    | none => exact ⟨_, rfl, .inl rfl, .inr ⟨h0, .inl rfl⟩⟩
    | some e =>
      obtain ⟨em, h1, h2⟩ := errorObject_toDict e
      dsimp only
      rw [h1]
      exact ⟨_, rfl, ⟨em, rfl, h2⟩, .inr ⟨h0, .inl rfl⟩⟩

/-! ### status trailers and header blocks -/

theorem grpcStatus_number (c : Code) : c.grpcStatus = intStr (grpcNumber c) := by cases c <;> decide +kernel

/-- the status trailers the server writes -/
theorem statusFields_grpcTrailers (sc : StatusCodec) (hsc : sc.Lawful) (user : Headers) (hu : user.Inv) (error : Option ConnectErr)
    (hfit : ∀ e, error = some e → FitsProtobuf e)
    (hm : ∀ e, error = some e → e.message = [] → user.getall (pys! "grpc-message") = [])
    (hd : ∀ e, error = some e → e.details = [] → user.getall (pys! "grpc-status-details-bin") = []) :
    StatusFields sc user.allitems error (grpcTrailers sc user error).allitems := by
  have hi := inv_grpcTrailers sc user error
  have a1 : lower (pys! "grpc-status-details-bin") ≠ lower (pys! "grpc-message") := by decide +kernel
  have a2 : lower (pys! "grpc-status") ≠ lower (pys! "grpc-message") := by decide +kernel
  have a4 : lower (pys! "grpc-status") ≠ lower (pys! "grpc-status-details-bin") := by decide +kernel
  refine ⟨?_, ?_, ?_, ?_⟩
  · intro n hn
    rw [Props.fieldValues_allitems hi, Props.fieldValues_allitems hu, Props.trailers_user sc user hu error n hn]
  · rw [Props.fieldValues_allitems hi]
    cases error with
    | none => rw [grpcTrailers_ok_getall sc user hu, if_pos rfl]; decide +kernel
    | some e =>
      rw [grpcTrailers_getall sc user hu, if_neg (fun h => a4 h.1.symm), if_neg (fun h => a2 h.1.symm), if_pos rfl, grpcStatus_number]
      rfl
  · intro e he
    subst he
    rw [Props.fieldValues_allitems hi, grpcTrailers_getall sc user hu, if_neg (fun h => a1 h.1)]
    by_cases h0 : e.message = []
    · rw [if_neg (fun h => h.2 h0), if_neg a2]
      exact .inr ⟨h0, hm e rfl h0⟩
    · rw [if_pos ⟨rfl, h0⟩]
      exact .inl ⟨_, rfl, percent_quote _⟩
  · intro e he
    subst he
    rw [Props.fieldValues_allitems hi, grpcTrailers_getall sc user hu]
    by_cases h0 : e.details = []
    · rw [if_neg (fun h => h.2 h0), if_neg (fun h => a1 h.1.symm), if_neg a4]
      exact .inr ⟨h0, hd e rfl h0⟩
    · rw [if_pos ⟨rfl, h0⟩]
      refine .inl ⟨_, _, rfl, base64_unpadded _, ?_⟩
      rw [hsc.roundtrip _ (Props.fits_ok (hfit e rfl))]
      unfold ConnectErr.toStatus
      congr 2
      cases e.code <;> decide +kernel

theorem block_trailerBlock (items : List (Str × Str)) (h : LegalFields items) : Block items (trailerBlock items) := by
  induction items with
  | nil => exact .nil
  | cons p items ih =>
    obtain ⟨n, v⟩ := p
    obtain ⟨h1, h2⟩ := h (n, v) (by simp)
    have := Block.line (left := [' ']) (right := []) h1 h2 (by simp) (by simp) (ih fun q hq => h q (by simp [hq]))
    have e : trailerBlock ((n, v) :: items) = n ++ [':'] ++ [' '] ++ v ++ [] ++ ['\r', '\n'] ++ trailerBlock items := by
      simp [trailerBlock]
    rw [e]; exact this

/-! ### the end the server writes -/

theorem endFrame_pack {M : Type} (w : EnvelopeWriter M) (comp : Compression) (hc : ∀ k, w.compression = some k → k ≠ .identity →
      comp ≠ .identity ∧ ∀ b, comp.decompress (k.compress b) = .ok b) (flag : UInt8) (hflag : flag = 2 ∨ flag = 128) (d eb : Bytes)
    (h : packEnvelope (w.pre ||| flag) (w.compress d) = .ok eb) : ∃ f, EndFrame comp flag f d ∧ eb = f.bytes := by
  have hlt : (w.compress d).length < 4294967296 := by
    unfold packEnvelope at h
    by_cases e : (w.compress d).length < 4294967296
    · exact e
    · rw [if_neg e] at h; cases h
  refine ⟨⟨w.pre ||| flag, w.compress d⟩, ⟨hlt, ?_⟩, ?_⟩
  · cases hk : w.compression with
    | none =>
      left
      refine ⟨?_, ?_⟩
      · show w.pre ||| flag = flag
        rw [show w.pre = 0 by simp [EnvelopeWriter.pre, hk]]; rcases hflag with rfl | rfl <;> decide
      · show w.compress d = d
        simp [EnvelopeWriter.compress, hk]
    | some k =>
      cases k with
      | identity =>
        left
        refine ⟨?_, ?_⟩
        · show w.pre ||| flag = flag
          rw [show w.pre = 0 by simp [EnvelopeWriter.pre, hk, Compression.isIdentity]]; rcases hflag with rfl | rfl <;> decide
        · show w.compress d = d
          simp [EnvelopeWriter.compress, hk, Compression.compress]
      | custom nm co de =>
        right
        obtain ⟨h1, h2⟩ := hc _ hk (by intro h; cases h)
        refine ⟨?_, h1, ?_⟩
        · show w.pre ||| flag = flag + 1
          rw [show w.pre = 1 by simp [EnvelopeWriter.pre, hk, Compression.isIdentity]]; rcases hflag with rfl | rfl <;> decide
        · show comp.decompress (w.compress d) = .ok d
          simpa [EnvelopeWriter.compress, hk] using h2 d
  · unfold packEnvelope at h
    rw [if_pos hlt] at h
    rw [frame_bytes_eq]
    exact (Except.ok.inj h).symm

end Conn
