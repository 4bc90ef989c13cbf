import Verif.Py.Base64
/-
base64 decoding inverts encoding, with or without padding.
-/
namespace Py

theorem ofNat_toNat' {n : Nat} (h : n < 0xD800) : (Char.ofNat n).toNat = n := by
  have hv : n.isValidChar := Or.inl h
  unfold Char.ofNat
  rw [dif_pos hv]
  exact UInt32.toNat_ofNatLT ..

theorem b64Val_b64Char (n : Nat) (h : n < 64) : b64Val (b64Char n) = some n := by
  unfold b64Char
  split
  · unfold b64Val; simp only [ofNat_toNat' (show 65 + n < 0xD800 by omega)]
    rw [if_pos (by omega)]; congr 1; omega
  · split
    · unfold b64Val; simp only [ofNat_toNat' (show 97 + (n - 26) < 0xD800 by omega)]
      rw [if_neg (by omega), if_pos (by omega)]; congr 1; omega
    · split
      · unfold b64Val; simp only [ofNat_toNat' (show 48 + (n - 52) < 0xD800 by omega)]
        rw [if_neg (by omega), if_neg (by omega), if_pos (by omega)]; congr 1; omega
      · split
        · subst n; decide
        · have : n = 63 := by omega
          subst this; decide

theorem b64Char_ne_pad (n : Nat) (h : n < 64) : b64Char n ≠ '=' := by
  intro e
  have := b64Val_b64Char n h
  rw [e] at this
  revert this; decide +revert

/-- characters of the alphabet and padding -/
def IsB64 (c : Char) : Prop := c = '=' ∨ ∃ n, n < 64 ∧ c = b64Char n

theorem b64encode_chars (b : Bytes) : ∀ c ∈ b64encode b, IsB64 c := by
  induction b using b64encode.induct with
  | case1 => intro c hc; simp [b64encode] at hc
  | case2 a =>
    intro c hc
    have ha : a.toNat < 256 := a.toNat_lt
    simp only [b64encode, List.mem_cons, List.not_mem_nil, or_false] at hc
    rcases hc with rfl | rfl | rfl | rfl
    · exact .inr ⟨_, by omega, rfl⟩
    · exact .inr ⟨_, by omega, rfl⟩
    · exact .inl rfl
    · exact .inl rfl
  | case3 a b =>
    intro c hc
    have ha : a.toNat < 256 := a.toNat_lt
    have hb : b.toNat < 256 := b.toNat_lt
    simp only [b64encode, List.mem_cons, List.not_mem_nil, or_false] at hc
    rcases hc with rfl | rfl | rfl | rfl
    · exact .inr ⟨_, by omega, rfl⟩
    · exact .inr ⟨_, by omega, rfl⟩
    · exact .inr ⟨_, by omega, rfl⟩
    · exact .inl rfl
  | case4 a b c r ih =>
    intro x hx
    have ha : a.toNat < 256 := a.toNat_lt
    have hb : b.toNat < 256 := b.toNat_lt
    have hc : c.toNat < 256 := c.toNat_lt
    simp only [b64encode, List.mem_cons] at hx
    rcases hx with rfl | rfl | rfl | rfl | hx
    · exact .inr ⟨_, by omega, rfl⟩
    · exact .inr ⟨_, by omega, rfl⟩
    · exact .inr ⟨_, by omega, rfl⟩
    · exact .inr ⟨_, by omega, rfl⟩
    · exact ih x hx

theorem isB64_ascii {c : Char} (h : IsB64 c) : c.toNat < 128 := by
  rcases h with rfl | ⟨n, hn, rfl⟩
  · decide
  · have hv := b64Val_b64Char n hn
    by_cases h : (b64Char n).toNat < 128
    · exact h
    · exfalso
      unfold b64Val at hv
      dsimp only at hv
      rw [if_neg (by omega), if_neg (by omega), if_neg (by omega), if_neg (by omega), if_neg (by omega)] at hv
      cases hv

theorem a2b_char (q left pads n : Nat) (hn : n < 64) (r : Str) :
    a2b q left pads (b64Char n :: r) =
        if q = 0 then a2b 1 n 0 r
        else if q = 1 then (a2b 2 (n % 16) 0 r).map (UInt8.ofNat (left * 4 + n / 16) :: ·)
        else if q = 2 then (a2b 3 (n % 4) 0 r).map (UInt8.ofNat (left * 16 + n / 4) :: ·)
        else (a2b 0 0 0 r).map (UInt8.ofNat (left * 64 + n) :: ·) := by
  rw [a2b, if_neg (b64Char_ne_pad n hn), b64Val_b64Char n hn]

theorem a2b_pads (l : Nat) : ∀ (k p : Nat), a2b 0 l p (List.replicate k '=') = some []
  | 0, _ => rfl
  | k + 1, p => by rw [List.replicate_succ, a2b, if_pos rfl, if_neg (by omega)]; exact a2b_pads l k p

/-- Decoding the encoding followed by any number of `=`, provided enough padding is there. -/
theorem a2b_b64encode (b : Bytes) : ∀ (l p k : Nat), a2b 0 l p (b64encode b ++ List.replicate k '=') = some b := by
  induction b using b64encode.induct with
  | case1 => intro l p k; simpa [b64encode] using a2b_pads l k p
  | case2 a =>
    intro l p k
    have ha : a.toNat < 256 := a.toNat_lt
    simp only [b64encode, List.cons_append]
    rw [a2b_char _ _ _ _ (by omega), if_pos rfl, a2b_char _ _ _ _ (by omega), if_neg (by omega), if_pos rfl]
    simp only [a2b, if_pos, Nat.le_refl]
    rw [if_neg (by omega)]
    simp only [Option.map_some, Option.some.injEq, List.cons.injEq, and_true]
    rw [show a.toNat / 4 * 4 + a.toNat % 4 * 16 / 16 = a.toNat by omega]
    exact UInt8.ofNat_toNat
  | case3 a b =>
    intro l p k
    have ha : a.toNat < 256 := a.toNat_lt
    have hb : b.toNat < 256 := b.toNat_lt
    simp only [b64encode, List.cons_append]
    rw [a2b_char _ _ _ _ (by omega), if_pos rfl, a2b_char _ _ _ _ (by omega), if_neg (by omega), if_pos rfl,
      a2b_char _ _ _ _ (by omega), if_neg (by omega), if_neg (by omega), if_pos rfl]
    rw [a2b, if_pos rfl, if_pos (by omega), if_pos (by omega)]
    simp only [Option.map_some, Option.some.injEq, List.cons.injEq, and_true]
    rw [show a.toNat / 4 * 4 + (a.toNat % 4 * 16 + b.toNat / 16) / 16 = a.toNat by omega,
      show (a.toNat % 4 * 16 + b.toNat / 16) % 16 * 16 + b.toNat % 16 * 4 / 4 = b.toNat by omega]
    exact ⟨UInt8.ofNat_toNat, UInt8.ofNat_toNat⟩
  | case4 a b c r ih =>
    intro l p k
    have ha : a.toNat < 256 := a.toNat_lt
    have hb : b.toNat < 256 := b.toNat_lt
    have hc : c.toNat < 256 := c.toNat_lt
    simp only [b64encode, List.cons_append]
    rw [a2b_char _ _ _ _ (by omega), if_pos rfl, a2b_char _ _ _ _ (by omega), if_neg (by omega), if_pos rfl,
      a2b_char _ _ _ _ (by omega), if_neg (by omega), if_neg (by omega), if_pos rfl,
      a2b_char _ _ _ _ (by omega), if_neg (by omega), if_neg (by omega), if_neg (by omega), ih]
    simp only [Option.map_some, Option.some.injEq, List.cons.injEq, and_true]
    rw [show a.toNat / 4 * 4 + (a.toNat % 4 * 16 + b.toNat / 16) / 16 = a.toNat by omega,
      show (a.toNat % 4 * 16 + b.toNat / 16) % 16 * 16 + (b.toNat % 16 * 4 + c.toNat / 64) / 4 = b.toNat by omega,
      show (b.toNat % 16 * 4 + c.toNat / 64) % 4 * 64 + c.toNat % 64 = c.toNat by omega]
    exact ⟨UInt8.ofNat_toNat, UInt8.ofNat_toNat, UInt8.ofNat_toNat⟩

/-- `b64encode` without its padding. -/
def b64unpadded : Bytes → Str
  | [] => []
  | [a] => [b64Char (a.toNat / 4), b64Char (a.toNat % 4 * 16)]
  | [a, b] => [b64Char (a.toNat / 4), b64Char (a.toNat % 4 * 16 + b.toNat / 16), b64Char (b.toNat % 16 * 4)]
  | a :: b :: c :: r =>
    b64Char (a.toNat / 4) :: b64Char (a.toNat % 4 * 16 + b.toNat / 16) ::
      b64Char (b.toNat % 16 * 4 + c.toNat / 64) :: b64Char (c.toNat % 64) :: b64unpadded r

theorem b64encode_split (b : Bytes) : ∃ k, k ≤ 2 ∧ b64encode b = b64unpadded b ++ List.replicate k '=' := by
  induction b using b64encode.induct with
  | case1 => exact ⟨0, by omega, rfl⟩
  | case2 a => exact ⟨2, by omega, rfl⟩
  | case3 a b => exact ⟨1, by omega, rfl⟩
  | case4 a b c r ih =>
    obtain ⟨k, hk, e⟩ := ih
    exact ⟨k, hk, by simp only [b64encode, b64unpadded, e, List.cons_append]⟩

theorem b64unpadded_no_pad (b : Bytes) : ∀ c ∈ b64unpadded b, ∃ n, n < 64 ∧ c = b64Char n := by
  induction b using b64unpadded.induct with
  | case1 => intro c hc; simp [b64unpadded] at hc
  | case2 a =>
    intro c hc
    have ha : a.toNat < 256 := a.toNat_lt
    simp only [b64unpadded, List.mem_cons, List.not_mem_nil, or_false] at hc
    rcases hc with rfl | rfl <;> exact ⟨_, by omega, rfl⟩
  | case3 a b =>
    intro c hc
    have ha : a.toNat < 256 := a.toNat_lt
    have hb : b.toNat < 256 := b.toNat_lt
    simp only [b64unpadded, List.mem_cons, List.not_mem_nil, or_false] at hc
    rcases hc with rfl | rfl | rfl <;> exact ⟨_, by omega, rfl⟩
  | case4 a b c r ih =>
    intro x hx
    have ha : a.toNat < 256 := a.toNat_lt
    have hb : b.toNat < 256 := b.toNat_lt
    have hc : c.toNat < 256 := c.toNat_lt
    simp only [b64unpadded, List.mem_cons] at hx
    rcases hx with rfl | rfl | rfl | rfl | hx
    · exact ⟨_, by omega, rfl⟩
    · exact ⟨_, by omega, rfl⟩
    · exact ⟨_, by omega, rfl⟩
    · exact ⟨_, by omega, rfl⟩
    · exact ih x hx

theorem dropWhile_replicate_append {p : Char → Bool} (x : Char) (hx : p x = true) (k : Nat) (s : Str) :
    (List.replicate k x ++ s).dropWhile p = s.dropWhile p := by
  induction k with
  | zero => rfl
  | succ k ih => rw [List.replicate_succ, List.cons_append, List.dropWhile_cons, if_pos hx, ih]

theorem dropWhile_none {p : Char → Bool} : ∀ (s : Str), (∀ c ∈ s, p c = false) → s.dropWhile p = s
  | [], _ => rfl
  | c :: r, h => by rw [List.dropWhile_cons, if_neg (by rw [h c (by simp)]; decide)]

/-- `b64encode(b).rstrip("=")` is the encoding without padding -/
theorem rstrip_b64encode (b : Bytes) : rstripChar '=' (b64encode b) = b64unpadded b := by
  obtain ⟨k, _, e⟩ := b64encode_split b
  unfold rstripChar rstripBy
  rw [e, List.reverse_append, List.reverse_replicate, dropWhile_replicate_append _ (by rfl), dropWhile_none,
    List.reverse_reverse]
  intro c hc
  rw [List.mem_reverse] at hc
  obtain ⟨n, hn, rfl⟩ := b64unpadded_no_pad b c hc
  simpa using b64Char_ne_pad n hn

/-- Decoding `b64encode(b)`, padded or not, with `===` appended. -/
theorem b64decode_unpadded (b : Bytes) : b64decode (rstripChar '=' (b64encode b) ++ pys! "===") = some b := by
  rw [rstrip_b64encode]
  unfold b64decode
  rw [if_pos]
  · -- extra padding beyond the first needed is ignored
    suffices h : ∀ (b : Bytes) (l p : Nat), a2b 0 l p (b64unpadded b ++ pys! "===") = some b from h b 0 0
    clear b
    intro b
    induction b using b64unpadded.induct with
    | case1 => intro l p; exact a2b_pads l 3 p
    | case2 a => intro l p; exact a2b_b64encode [a] l p 1
    | case3 a b => intro l p; exact a2b_b64encode [a, b] l p 2
    | case4 a b c r ih =>
      intro l p
      have ha : a.toNat < 256 := a.toNat_lt
      have hb : b.toNat < 256 := b.toNat_lt
      have hc : c.toNat < 256 := c.toNat_lt
      simp only [b64unpadded, List.cons_append]
      rw [a2b_char _ _ _ _ (by omega), if_pos rfl, a2b_char _ _ _ _ (by omega), if_neg (by omega), if_pos rfl,
        a2b_char _ _ _ _ (by omega), if_neg (by omega), if_neg (by omega), if_pos rfl,
        a2b_char _ _ _ _ (by omega), if_neg (by omega), if_neg (by omega), if_neg (by omega), ih]
      simp only [Option.map_some, Option.some.injEq, List.cons.injEq, and_true]
      rw [show a.toNat / 4 * 4 + (a.toNat % 4 * 16 + b.toNat / 16) / 16 = a.toNat by omega,
        show (a.toNat % 4 * 16 + b.toNat / 16) % 16 * 16 + (b.toNat % 16 * 4 + c.toNat / 64) / 4 = b.toNat by omega,
        show (b.toNat % 16 * 4 + c.toNat / 64) % 4 * 64 + c.toNat % 64 = c.toNat by omega]
      exact ⟨UInt8.ofNat_toNat, UInt8.ofNat_toNat, UInt8.ofNat_toNat⟩
  · rw [List.all_eq_true]
    intro c hc
    rcases List.mem_append.mp hc with h | h
    · exact decide_eq_true (isB64_ascii (.inr (b64unpadded_no_pad b c h)))
    · simp only [List.mem_cons, List.not_mem_nil, or_false, or_self] at h; subst h; decide

theorem urlsafe_undo (c : Char) (h : IsB64 c) :
    (let d := if c = '+' then '-' else if c = '/' then '_' else c
     if d = '-' then '+' else if d = '_' then '/' else d) = c := by
  have h1 : c ≠ '-' := by
    rintro rfl
    rcases h with h | ⟨n, hn, e⟩
    · exact absurd h (by decide)
    · have := b64Val_b64Char n hn; rw [← e] at this; exact absurd this (by decide +revert)
  have h2 : c ≠ '_' := by
    rintro rfl
    rcases h with h | ⟨n, hn, e⟩
    · exact absurd h (by decide)
    · have := b64Val_b64Char n hn; rw [← e] at this; exact absurd this (by decide +revert)
  by_cases e1 : c = '+'
  · subst e1; rfl
  · by_cases e2 : c = '/'
    · subst e2; rfl
    · simp [e1, e2, h1, h2]

/-- `urlsafe_b64decode(urlsafe_b64encode(b) + "===")` returns `b`. -/
theorem urlsafeB64decode_encode (b : Bytes) : urlsafeB64decode (urlsafeB64encode b ++ pys! "===") = some b := by
  unfold urlsafeB64decode urlsafeB64encode
  rw [List.map_append, List.map_map]
  have e : List.map ((fun c => if c = '-' then '+' else if c = '_' then '/' else c) ∘
      fun c => if c = '+' then '-' else if c = '/' then '_' else c) (b64encode b) = b64encode b := by
    conv => rhs; rw [← List.map_id (b64encode b)]
    apply List.map_congr_left
    intro c hc
    exact urlsafe_undo c (b64encode_chars b c hc)
  rw [e]
  unfold b64decode
  rw [if_pos]
  · exact a2b_b64encode b 0 0 3
  · rw [List.all_eq_true]
    intro c hc
    rcases List.mem_append.mp hc with h | h
    · exact decide_eq_true (isB64_ascii (b64encode_chars b c h))
    · simp at h; subst h; decide

end Py
