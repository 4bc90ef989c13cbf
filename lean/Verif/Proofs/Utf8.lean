import Verif.Py.Utf8
/-
UTF-8 decoding inverts encoding.
-/
namespace Py

theorem char_valid (c : Char) : c.toNat < 0xD800 ∨ (0xDFFF < c.toNat ∧ c.toNat < 0x110000) := c.valid

theorem ofNat_byte (n : Nat) (h : n < 256) : (UInt8.ofNat n).toNat = n := by
  simp [UInt8.toNat_ofNat', Nat.mod_eq_of_lt h]

theorem utf8Step_encode (c : Char) (rest : Bytes) :
    ∃ b0 r, utf8EncodeChar c = b0 :: r ∧ utf8Step b0 (r ++ rest) = (some c, r.length + 1) := by
  have hv := char_valid c
  have hc : Char.ofNat c.toNat = c := Char.ofNat_toNat c
  generalize hn : c.toNat = n at *
  unfold utf8EncodeChar
  rw [hn]
  dsimp only
  by_cases h1 : n < 0x80
  · refine ⟨_, _, by rw [if_pos h1], ?_⟩
    simp only [utf8Step, ofNat_byte n (by omega), if_pos h1, List.length_nil, Nat.zero_add, hc]
  by_cases h2 : n < 0x800
  · refine ⟨_, _, by rw [if_neg h1, if_pos h2], ?_⟩
    simp only [utf8Step, ofNat_byte (0xC0 + n / 64) (by omega)]
    rw [if_neg (by omega), if_neg (by omega), if_pos (by omega)]
    simp only [List.cons_append, List.nil_append, isCont, ofNat_byte (0x80 + n % 64) (by omega)]
    rw [if_pos (by simp only [Bool.and_eq_true, decide_eq_true_eq]; omega)]
    rw [show (0xC0 + n / 64 - 0xC0) * 64 + (0x80 + n % 64 - 0x80) = n by omega, hc]; rfl
  by_cases h3 : n < 0x10000
  · refine ⟨_, _, by rw [if_neg h1, if_neg h2, if_pos h3], ?_⟩
    simp only [utf8Step, ofNat_byte (0xE0 + n / 4096) (by omega)]
    rw [if_neg (by omega), if_neg (by omega), if_neg (by omega), if_pos (by omega)]
    simp only [List.cons_append, List.nil_append, isCont, isCont2, ofNat_byte (0x80 + n % 64) (by omega),
      ofNat_byte (0x80 + n / 64 % 64) (by omega), ofNat_byte (0xE0 + n / 4096) (by omega)]
    rw [if_pos (by
        simp only [Bool.and_eq_true, decide_eq_true_eq]
        refine ⟨by omega, ?_⟩
        split
        · simp only [decide_eq_true_eq]; omega
        · split
          · simp only [decide_eq_true_eq]; omega
          · rw [if_neg (by omega), if_neg (by omega)])]
    rw [if_pos (by simp only [Bool.and_eq_true, decide_eq_true_eq]; omega)]
    rw [show (0xE0 + n / 4096 - 0xE0) * 4096 + (0x80 + n / 64 % 64 - 0x80) * 64 + (0x80 + n % 64 - 0x80) = n by omega,
      hc]; rfl
  · refine ⟨_, _, by rw [if_neg h1, if_neg h2, if_neg h3], ?_⟩
    simp only [utf8Step, ofNat_byte (0xF0 + n / 262144) (by omega)]
    rw [if_neg (by omega), if_neg (by omega), if_neg (by omega), if_neg (by omega), if_pos (by omega)]
    simp only [List.cons_append, List.nil_append, isCont, isCont2, ofNat_byte (0x80 + n % 64) (by omega),
      ofNat_byte (0x80 + n / 64 % 64) (by omega), ofNat_byte (0x80 + n / 4096 % 64) (by omega),
      ofNat_byte (0xF0 + n / 262144) (by omega)]
    rw [if_pos (by
        simp only [Bool.and_eq_true, decide_eq_true_eq]
        refine ⟨by omega, ?_⟩
        rw [if_neg (by omega), if_neg (by omega)]
        split
        · simp only [decide_eq_true_eq]; omega
        · split
          · simp only [decide_eq_true_eq]; omega
          · rfl)]
    rw [if_pos (by simp only [Bool.and_eq_true, decide_eq_true_eq]; omega)]
    rw [if_pos (by simp only [Bool.and_eq_true, decide_eq_true_eq]; omega)]
    rw [show (0xF0 + n / 262144 - 0xF0) * 262144 + (0x80 + n / 4096 % 64 - 0x80) * 4096 +
      (0x80 + n / 64 % 64 - 0x80) * 64 + (0x80 + n % 64 - 0x80) = n by omega, hc]; rfl

theorem utf8DecodeAux_skip : ∀ (r rest : Bytes), utf8DecodeAux r.length (r ++ rest) = utf8DecodeAux 0 rest
  | [], _ => rfl
  | _ :: r, rest => by simp only [List.length_cons, List.cons_append, utf8DecodeAux]; exact utf8DecodeAux_skip r rest

theorem utf8DecodeReplaceAux_skip : ∀ (r rest : Bytes),
    utf8DecodeReplaceAux r.length (r ++ rest) = utf8DecodeReplaceAux 0 rest
  | [], _ => rfl
  | _ :: r, rest => by
    simp only [List.length_cons, List.cons_append, utf8DecodeReplaceAux]; exact utf8DecodeReplaceAux_skip r rest

theorem utf8Decode_encode_append (s : Str) (rest : Bytes) :
    utf8Decode (utf8Encode s ++ rest) = (utf8Decode rest).map (s ++ ·) := by
  induction s with
  | nil => simp [utf8Encode]
  | cons c s ih =>
    obtain ⟨b0, r, he, hs⟩ := utf8Step_encode c (utf8Encode s ++ rest)
    have e : utf8Encode (c :: s) ++ rest = b0 :: (r ++ (utf8Encode s ++ rest)) := by
      simp only [utf8Encode, List.flatMap_cons, he, List.cons_append, List.append_assoc]
    rw [e]
    unfold utf8Decode
    conv => lhs; rw [utf8DecodeAux]
    rw [hs]
    dsimp only
    rw [Nat.add_sub_cancel, utf8DecodeAux_skip]
    unfold utf8Decode at ih
    rw [ih]
    cases utf8DecodeAux 0 rest <;> rfl

/-- `s.encode().decode() == s` -/
theorem utf8Decode_encode (s : Str) : utf8Decode (utf8Encode s) = some s := by
  have := utf8Decode_encode_append s []
  simpa [utf8Decode, utf8DecodeAux] using this

/-- `s.encode().decode("utf-8", "replace") == s` -/
theorem utf8DecodeReplace_encode (s : Str) : utf8DecodeReplace (utf8Encode s) = s := by
  induction s with
  | nil => rfl
  | cons c s ih =>
    obtain ⟨b0, r, he, hs⟩ := utf8Step_encode c (utf8Encode s)
    have e : utf8Encode (c :: s) = b0 :: (r ++ utf8Encode s) := by
      simp only [utf8Encode, List.flatMap_cons, he, List.cons_append]
    rw [e]
    unfold utf8DecodeReplace utf8DecodeReplaceAux
    rw [hs]
    dsimp only
    rw [Nat.add_sub_cancel, utf8DecodeReplaceAux_skip]
    congr 1

/-- ASCII characters encode to one byte. -/
theorem utf8EncodeChar_ascii (c : Char) (h : c.toNat < 128) : utf8EncodeChar c = [UInt8.ofNat c.toNat] := by
  simp only [utf8EncodeChar]; rw [if_pos h]

theorem utf8Encode_append (a b : Str) : utf8Encode (a ++ b) = utf8Encode a ++ utf8Encode b := by
  simp [utf8Encode]

theorem utf8Encode_ascii (s : Str) (h : ∀ c ∈ s, c.toNat < 128) : utf8Encode s = s.map fun c => UInt8.ofNat c.toNat := by
  induction s with
  | nil => rfl
  | cons c s ih =>
    simp only [utf8Encode, List.flatMap_cons, List.map_cons] at ih ⊢
    rw [utf8EncodeChar_ascii c (h c (by simp)), ih (fun x hx => h x (by simp [hx]))]
    rfl

end Py
