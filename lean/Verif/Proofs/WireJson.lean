import Verif.Spec.Wire
import Verif.Props.Errors
/-
Lemmas for C69 and C70: base64, percent-encoding and errors in JSON, as the formats have them and as the model writes and reads them.
-/
namespace Conn
open Py Spec

/-! ### JSON members, base64 and percent-encoding -/

theorem member_eq (m : List (Str × Json)) (k : Str) : member m k = Dict.get? m k := by
  unfold member
  induction m with
  | nil => rfl
  | cons p m ih =>
    obtain ⟨n, v⟩ := p
    rw [Dict.get?, List.find?_cons]
    by_cases e : n = k
    · simp [e]
    · rw [if_neg e]; simpa [e] using ih

theorem base64_unpadded (b : Bytes) : Base64 (rstripChar '=' (b64encode b)) b := by
  obtain ⟨k, _, e⟩ := b64encode_split b
  exact ⟨k, by rw [rstrip_b64encode, e]⟩

theorem pads_le {u : Str} {k j : Nat} {v : Str} (hu : ∀ c ∈ u, c ≠ '=') (e : v ++ List.replicate k '=' = u ++ List.replicate j '=') :
    k ≤ j := by
  have hc := congrArg (List.count '=') e
  have hn : u.count '=' = 0 := List.count_eq_zero.2 fun h => hu _ h rfl
  rw [List.count_append, List.count_append, List.count_replicate_self, List.count_replicate_self, hn] at hc
  omega

/-- every base64 text of the bytes is decoded, padded or not -/
theorem b64decode_base64 {v : Str} {b : Bytes} (h : Base64 v b) : b64decode (v ++ pys! "===") = some b := by
  obtain ⟨k, hk⟩ := h
  obtain ⟨j, hj, e⟩ := b64encode_split b
  have hkj : k ≤ 2 := by
    rw [e] at hk
    refine Nat.le_trans (pads_le ?_ hk) hj
    intro c hc
    obtain ⟨n, hn, rfl⟩ := b64unpadded_no_pad b c hc
    exact b64Char_ne_pad n hn
  have e1 : v ++ pys! "===" = b64encode b ++ List.replicate (3 - k) '=' := by
    rw [← hk, List.append_assoc, List.replicate_append_replicate, show k + (3 - k) = 3 by omega]; rfl
  have e2 : v ++ pys! "===" = b64unpadded b ++ List.replicate (j + (3 - k)) '=' := by
    rw [e1, e, List.append_assoc, List.replicate_append_replicate]
  unfold b64decode
  rw [if_pos]
  · rw [e1]; exact a2b_b64encode b 0 0 _
  · rw [e2]
    rw [List.all_eq_true]
    intro c hc
    rcases List.mem_append.1 hc with hc | hc
    · exact decide_eq_true (isB64_ascii (.inr (b64unpadded_no_pad b c hc)))
    · rw [List.eq_of_mem_replicate hc]; decide

theorem base64_nil {b : Bytes} (h : Base64 [] b) : b = [] := by
  have h1 := b64decode_base64 h
  have h0 : b64decode ([] ++ pys! "===") = some [] := by decide +kernel
  rw [h0] at h1
  simpa using h1.symm

theorem hexVal_digit {c : Char} {n : Nat} (h : HexDigit c n) : hexVal c.toNat = some n ∧ n < 16 ∧ c.toNat < 128 := by
  have e0 : ∀ a b : Char, a ≤ b ↔ a.toNat ≤ b.toNat := fun a b => Iff.rfl
  have n0 : '0'.toNat = 48 := rfl
  have n9 : '9'.toNat = 57 := rfl
  have na : 'a'.toNat = 97 := rfl
  have nf : 'f'.toNat = 102 := rfl
  have nA : 'A'.toNat = 65 := rfl
  have nF : 'F'.toNat = 70 := rfl
  unfold HexDigit at h
  simp only [e0, n0, n9, na, nf, nA, nF] at h
  unfold hexVal
  rcases h with h | h | h
  · exact ⟨by rw [if_pos (by omega)]; congr 1; omega, by omega, by omega⟩
  · exact ⟨by rw [if_neg (by omega), if_neg (by omega), if_pos (by omega)]; congr 1; omega, by omega, by omega⟩
  · exact ⟨by rw [if_neg (by omega), if_pos (by omega)]; congr 1; omega, by omega, by omega⟩

theorem percent_bytes {v : Str} {b : Bytes} (h : Percent v b) : (∀ c ∈ v, c.toNat < 128) ∧ unquoteToBytes (asBytes v) = b := by
  induction h with
  | nil => exact ⟨by simp, rfl⟩
  | @plain c s b hc hp _ ih =>
    refine ⟨?_, ?_⟩
    · intro x hx
      rcases List.mem_cons.1 hx with rfl | hx
      · omega
      · exact ih.1 x hx
    · show unquoteToBytes (UInt8.ofNat c.toNat :: asBytes s) = _
      rw [unquoteToBytes_ne, ih.2]
      rw [ofNat_byte _ (by omega)]
      intro e
      exact hp (Char.ext (UInt32.toNat.inj e))
  | @escaped x y h l s b hx hy _ ih =>
    obtain ⟨x1, x2, x3⟩ := hexVal_digit hx
    obtain ⟨y1, y2, y3⟩ := hexVal_digit hy
    refine ⟨?_, ?_⟩
    · intro c hc
      simp only [List.mem_cons] at hc
      rcases hc with rfl | rfl | rfl | hc
      · decide
      · exact x3
      · exact y3
      · exact ih.1 c hc
    · show unquoteToBytes (UInt8.ofNat '%'.toNat :: UInt8.ofNat x.toNat :: UInt8.ofNat y.toNat :: asBytes s) = _
      rw [unquoteToBytes, if_pos (by decide), ofNat_byte _ (by omega), ofNat_byte _ (by omega), x1, y1, ih.2]
      dsimp only
      rw [Nat.mul_comm]

/-- every percent-encoding of the text is decoded -/
theorem unquote_percent {v s : Str} (h : Percent v (utf8Encode s)) : unquote v = s := by
  obtain ⟨h1, h2⟩ := percent_bytes h
  unfold unquote
  rw [unquoteAux_ascii v [] h1, List.nil_append, h2, utf8DecodeReplace_encode]

theorem hexDigit_ok (n : Nat) (h : n < 16) : HexDigit (hexDigit n) n := by
  have : n = 0 ∨ n = 1 ∨ n = 2 ∨ n = 3 ∨ n = 4 ∨ n = 5 ∨ n = 6 ∨ n = 7 ∨ n = 8 ∨ n = 9 ∨ n = 10 ∨ n = 11 ∨ n = 12 ∨ n = 13 ∨ n = 14 ∨
    n = 15 := by omega
  unfold HexDigit
  rcases this with rfl | rfl | rfl | rfl | rfl | rfl | rfl | rfl | rfl | rfl | rfl | rfl | rfl | rfl | rfl | rfl <;> decide

theorem percent_quoteBytes (b : Bytes) : Percent (b.flatMap quoteByte) b := by
  induction b with
  | nil => exact .nil
  | cons x b ih =>
    have hx : x.toNat < 256 := x.toNat_lt
    rw [List.flatMap_cons]
    unfold quoteByte
    split
    · rename_i h
      have h1 := alwaysSafe_lt h
      have h2 : 0x20 ≤ x.toNat ∧ x.toNat ≤ 0x7E := by
        simp only [alwaysSafe, Bool.or_eq_true, Bool.and_eq_true, decide_eq_true_eq, beq_iff_eq] at h
        omega
      have e : (Char.ofNat x.toNat).toNat = x.toNat := ofNat_toNat' (by omega)
      have := Percent.plain (c := Char.ofNat x.toNat) (by rw [e]; exact h2) (by intro h; rw [h] at e; exact h1.2.1 e.symm) ih
      rw [e, UInt8.ofNat_toNat] at this
      exact this
    · have := Percent.escaped (hexDigit_ok (x.toNat / 16) (by omega)) (hexDigit_ok (x.toNat % 16) (by omega)) ih
      rw [show 16 * (x.toNat / 16) + x.toNat % 16 = x.toNat by omega, UInt8.ofNat_toNat] at this
      exact this

theorem percent_quote (s : Str) : Percent (quote s) (utf8Encode s) := percent_quoteBytes _

/-! ### errors as JSON objects -/

theorem codeName_eq (c : Code) : codeName c = c.value := by cases c <;> rfl

theorem detailObject_toJson (d : ErrorDetail) : DetailObject d (ConnectErr.detailToJson d) := by
  unfold ConnectErr.detailToJson
  dsimp only
  cases d.debug with
  | none => exact ⟨_, _, rfl, by rw [← typeName_eq]; rfl, rfl, base64_unpadded _⟩
  | some j => exact ⟨_, _, rfl, by rw [← typeName_eq]; rfl, rfl, base64_unpadded _⟩

theorem detailObjects_toJson : ∀ ds : List ErrorDetail, DetailObjects ds (ds.map ConnectErr.detailToJson)
  | [] => .nil
  | d :: ds => .cons (detailObject_toJson d) (detailObjects_toJson ds)

theorem errorObject_toDict (e : ConnectErr) : ∃ m, e.toDict = .obj m ∧ ErrorObject e m := by
  unfold ConnectErr.toDict
  dsimp only
  by_cases hd : e.details.isEmpty = true
  · rw [if_pos hd]
    exact ⟨_, rfl, by rw [codeName_eq]; rfl, .inl rfl, .inr ⟨by simpa using hd, rfl⟩⟩
  · rw [if_neg hd]
    exact ⟨_, rfl, by rw [codeName_eq]; rfl, .inl rfl, .inl ⟨_, rfl, detailObjects_toJson _⟩⟩

theorem errorBody_toJsonBytes (e : ConnectErr) (h : DebugOk e) : ErrorBody e e.toJsonBytes := by
  obtain ⟨m, h1, h2⟩ := errorObject_toDict e
  exact ⟨m, by unfold ConnectErr.toJsonBytes; rw [loadsBytes_dumps _ (toDict_wf e h), h1], h2⟩

theorem detailOfJson_object {d : ErrorDetail} {j : Json} (h : DetailObject d j) :
    ConnectErr.detailOfJson j = .ok (some { typeUrl := pys! "type.googleapis.com/" ++ typeNameOf d.typeUrl, value := d.value }) := by
  obtain ⟨m, v, rfl, h1, h2, h3⟩ := h
  rw [member_eq] at h1 h2
  unfold ConnectErr.detailOfJson
  dsimp only
  rw [h1, h2]
  dsimp only
  rw [b64decode_base64 h3]

theorem detailsOfList_objects {ds : List ErrorDetail} {l : List Json} (h : DetailObjects ds l) :
    ConnectErr.detailsOfList l =
      .ok (ds.map fun d => { typeUrl := pys! "type.googleapis.com/" ++ typeNameOf d.typeUrl, value := d.value }) := by
  induction h with
  | nil => rfl
  | cons hd _ ih => rw [ConnectErr.detailsOfList, detailOfJson_object hd, ih]; rfl

/-- every error object is understood -/
theorem fromDict_object {e : ConnectErr} {m : List (Str × Json)} (h : ErrorObject e m) (status : Int) (u : Code) :
    ∃ e', ConnectErr.fromDict m status u = .ok e' ∧ report e' = report e ∧ AsRead e e' := by
  have hcode : ConnectErr.codeOfDict m status u = e.code := by
    have hc := h.code
    rw [member_eq, codeName_eq] at hc
    unfold ConnectErr.codeOfDict
    rw [hc]
    cases e.code <;> rfl
  have hmsg : ConnectErr.messageOfDict m = e.message := by
    unfold ConnectErr.messageOfDict
    rcases h.message with hm | ⟨h0, hm⟩
    · rw [member_eq] at hm; rw [hm]
    · rw [member_eq] at hm; rw [hm, h0]
  have hdet : ∃ ds, ConnectErr.detailsOfJson (Dict.get? m (pys! "details")) = .ok ds ∧
      (ds.map (fun d => (typeNameOf d.typeUrl, d.value)) = e.details.map fun d => (typeNameOf d.typeUrl, d.value)) ∧
      AsRead e ⟨e.code, e.message, ds⟩ := by
    rcases h.details with ⟨l, hl, hd⟩ | ⟨h0, hm⟩
    · rw [member_eq] at hl
      rw [hl]
      unfold ConnectErr.detailsOfJson
      cases l with
      | nil =>
        refine ⟨[], rfl, ?_, fun _ h => by cases h⟩
        generalize e.details = ds at hd
        cases hd; rfl
      | cons j l =>
        dsimp only
        rw [if_pos (by rfl), detailsOfList_objects hd]
        refine ⟨_, rfl, ?_, ?_⟩
        · rw [List.map_map]
          apply List.map_congr_left
          intro d _
          simp only [Function.comp]
          rw [typeNameOf_url]
        · intro x hx
          obtain ⟨d, hd, rfl⟩ := List.mem_map.1 hx
          exact ⟨rfl, d, hd, rfl, .inr rfl⟩
    · rw [member_eq] at hm
      rw [hm, h0]
      exact ⟨[], rfl, rfl, fun _ h => by cases h⟩
  obtain ⟨ds, hd1, hd2, hd3⟩ := hdet
  refine ⟨⟨e.code, e.message, ds⟩, ?_, ?_, hd3⟩
  · unfold ConnectErr.fromDict
    rw [hd1, hcode, hmsg]
  · unfold report; rw [hd2]

theorem fromResponse_body {e : ConnectErr} {body : Bytes} (h : ErrorBody e body) (status : Int) :
    ∃ e', ConnectErr.fromResponse status body = .ok e' ∧ report e' = report e ∧ AsRead e e' := by
  obtain ⟨m, h1, h2⟩ := h
  obtain ⟨e', h3, h4⟩ := fromDict_object h2 status .unavailable
  exact ⟨e', by unfold ConnectErr.fromResponse; rw [h1]; exact h3, h4⟩

theorem errorOf_eq : errorOf = ConnectErr.fromException := by
  funext e; cases e <;> rfl

end Conn
