import Verif.Py.Int
import Verif.Spec.Timeout
/-
Lemmas about `int()`, `str(int)` and double rounding.
-/
namespace Py
open Spec

theorem isDigit_iff (c : Char) : IsDigit c ↔ 48 ≤ c.toNat ∧ c.toNat ≤ 57 := by
  constructor
  · intro h
    simp only [IsDigit, List.mem_cons, List.not_mem_nil, or_false] at h
    rcases h with h|h|h|h|h|h|h|h|h|h <;> subst h <;> decide
  · rintro ⟨h1, h2⟩
    have hc : c = Char.ofNat c.toNat := (Char.ofNat_toNat c).symm
    have : c.toNat = 48 ∨ c.toNat = 49 ∨ c.toNat = 50 ∨ c.toNat = 51 ∨ c.toNat = 52 ∨ c.toNat = 53 ∨ c.toNat = 54 ∨
      c.toNat = 55 ∨ c.toNat = 56 ∨ c.toNat = 57 := by omega
    rw [hc]
    rcases this with h|h|h|h|h|h|h|h|h|h <;> rw [h] <;> decide

theorem digitVal_of_isDigit {c : Char} (h : IsDigit c) : digitVal c = some (c.toNat - 48) := by
  rw [isDigit_iff] at h; simp [digitVal, h]

theorem not_underscore {c : Char} (h : IsDigit c) : c ≠ '_' := by
  rintro rfl; revert h; decide

theorem not_space {c : Char} (h : IsDigit c) : isSpace c = false := by
  simp only [IsDigit, List.mem_cons, List.not_mem_nil, or_false] at h
  rcases h with h|h|h|h|h|h|h|h|h|h <;> subst h <;> decide

theorem parseDigits_digits : ∀ (ds : Str) (acc : Nat) (p : Bool), (∀ c ∈ ds, IsDigit c) → ds ≠ [] →
    parseDigits acc p ds = some (ds.foldl (fun n c => 10 * n + (c.toNat - '0'.toNat)) acc) := by
  intro ds
  induction ds with
  | nil => intro _ _ _ h; exact absurd rfl h
  | cons c r ih =>
    intro acc p hd _
    have hc := hd c (by simp)
    have e : acc * 10 + (c.toNat - 48) = 10 * acc + (c.toNat - '0'.toNat) := by
      have : '0'.toNat = 48 := rfl
      omega
    rw [parseDigits, if_neg (not_underscore hc), digitVal_of_isDigit hc]
    dsimp only
    by_cases hr : r = []
    · subst hr; simp [parseDigits, e]
    · rw [ih _ _ (fun x hx => hd x (by simp [hx])) hr, List.foldl_cons, e]

theorem dropWhile_of_head {p : Char → Bool} : ∀ (s : Str), (∀ c, s.head? = some c → p c = false) → s.dropWhile p = s
  | [], _ => rfl
  | c :: r, h => by simp [h c rfl]

theorem strip_of_ends (s : Str) (h1 : ∀ c, s.head? = some c → isSpace c = false)
    (h2 : ∀ c, s.getLast? = some c → isSpace c = false) : strip s = s := by
  unfold strip lstripBy rstripBy
  rw [dropWhile_of_head s h1, dropWhile_of_head s.reverse (by simpa using h2), List.reverse_reverse]

theorem strip_no_space (s : Str) (h : ∀ c ∈ s, isSpace c = false) : strip s = s :=
  strip_of_ends s (fun c hc => h c (List.mem_of_mem_head? hc)) (fun c hc => h c (List.mem_of_mem_getLast? hc))

theorem parseInt_digits (ds : Str) (hd : ∀ c ∈ ds, IsDigit c) (hne : ds ≠ []) :
    parseInt ds = some (decimal ds : Int) := by
  unfold parseInt
  rw [strip_no_space ds (fun c hc => not_space (hd c hc))]
  obtain ⟨c, r, rfl⟩ : ∃ c r, ds = c :: r := by
    cases ds with
    | nil => exact absurd rfl hne
    | cons c r => exact ⟨c, r, rfl⟩
  have hc := hd c (by simp)
  have h1 : c ≠ '+' := by rintro rfl; revert hc; decide
  have h2 : c ≠ '-' := by rintro rfl; revert hc; decide
  split
  · rename_i heq; injection heq with h _; exact absurd h h1
  · rename_i heq; injection heq with h _; exact absurd h h2
  · rw [parseDigits_digits _ _ _ hd hne]; rfl

theorem digitChar_toNat (d : Nat) (h : d < 10) : (Char.ofNat (48 + d)).toNat = 48 + d := by
  have hv : (48 + d).isValidChar := Or.inl (by omega)
  unfold Char.ofNat
  rw [dif_pos hv]
  exact UInt32.toNat_ofNatLT ..

theorem digitChar_isDigit (d : Nat) (h : d < 10) : IsDigit (Char.ofNat (48 + d)) := by
  rw [isDigit_iff, digitChar_toNat d h]; omega

theorem natDigits_digits (n : Nat) : ∀ c ∈ natDigits n, IsDigit c := by
  induction n using natDigits.induct with
  | case1 n h =>
    rw [natDigits, dif_pos h]; intro c hc
    simp only [List.mem_singleton] at hc; subst hc; exact digitChar_isDigit n h
  | case2 n h ih =>
    rw [natDigits, dif_neg h]; intro c hc
    rcases List.mem_append.mp hc with hc | hc
    · exact ih c hc
    · simp only [List.mem_singleton] at hc; subst hc; exact digitChar_isDigit _ (Nat.mod_lt _ (by omega))

theorem natDigits_ne_nil (n : Nat) : natDigits n ≠ [] := by
  rw [natDigits]; split <;> simp

theorem decimal_append (a : Str) (c : Char) : decimal (a ++ [c]) = 10 * decimal a + (c.toNat - '0'.toNat) := by
  simp [decimal, List.foldl_append]

theorem decimal_natDigits (n : Nat) : decimal (natDigits n) = n := by
  induction n using natDigits.induct with
  | case1 n h =>
    rw [natDigits, dif_pos h]
    have : '0'.toNat = 48 := rfl
    simp [decimal, digitChar_toNat n h, this]
  | case2 n h ih =>
    rw [natDigits, dif_neg h, decimal_append, ih, digitChar_toNat _ (Nat.mod_lt _ (by omega))]
    have : '0'.toNat = 48 := rfl
    omega

theorem natDigits_length_le (n k : Nat) (hk : 1 ≤ k) (h : n < 10 ^ k) : (natDigits n).length ≤ k := by
  induction n using natDigits.induct generalizing k with
  | case1 n h' => rw [natDigits, dif_pos h']; simpa using hk
  | case2 n h' ih =>
    rw [natDigits, dif_neg h']
    obtain ⟨k, rfl⟩ : ∃ j, k = j + 1 := ⟨k - 1, by omega⟩
    have hk1 : 1 ≤ k := by
      rcases Nat.eq_zero_or_pos k with rfl | hp
      · simp at h; omega
      · exact hp
    have : n / 10 < 10 ^ k := by
      rw [Nat.pow_succ] at h; omega
    have := ih k hk1 this
    simp only [List.length_append, List.length_singleton]
    omega

theorem decimal_lt_aux : ∀ (ds : Str) (acc : Nat), (∀ c ∈ ds, IsDigit c) →
    ds.foldl (fun n c => 10 * n + (c.toNat - '0'.toNat)) acc < (acc + 1) * 10 ^ ds.length := by
  intro ds
  induction ds with
  | nil => intro acc _; simp
  | cons c r ih =>
    intro acc hd
    have h2 := (isDigit_iff c).mp (hd c (by simp))
    have e0 : '0'.toNat = 48 := rfl
    have h1 := ih (10 * acc + (c.toNat - '0'.toNat)) (fun x hx => hd x (by simp [hx]))
    rw [List.foldl_cons, List.length_cons, Nat.pow_succ]
    refine Nat.lt_of_lt_of_le h1 ?_
    rw [Nat.mul_comm (10 ^ r.length) 10, ← Nat.mul_assoc]
    exact Nat.mul_le_mul_right _ (by omega)

theorem decimal_lt (ds : Str) (hd : ∀ c ∈ ds, IsDigit c) : decimal ds < 10 ^ ds.length := by
  simpa [decimal] using decimal_lt_aux ds 0 hd

theorem parseInt_natDigits (n : Nat) : parseInt (natDigits n) = some (n : Int) := by
  rw [parseInt_digits _ (natDigits_digits n) (natDigits_ne_nil n), decimal_natDigits]

/-- `int(str(i)) == i`. -/
theorem parseInt_intStr (i : Int) : parseInt (intStr i) = some i := by
  cases i with
  | ofNat n => exact parseInt_natDigits n
  | negSucc n =>
    unfold intStr parseInt
    have hs : strip ('-' :: natDigits (n + 1)) = '-' :: natDigits (n + 1) := by
      apply strip_no_space
      intro c hc
      rcases List.mem_cons.mp hc with rfl | hc
      · decide
      · exact not_space (natDigits_digits _ c hc)
    rw [hs]
    show Option.map (fun n => -Int.ofNat n) (parseDigits 0 false (natDigits (n + 1))) = _
    rw [parseDigits_digits _ _ _ (natDigits_digits _) (natDigits_ne_nil _)]
    have := decimal_natDigits (n + 1)
    unfold decimal at this
    rw [this]; rfl

/-! ### rounding -/

theorem roundShift_lower (n s : Nat) : n / 2 ^ s ≤ roundShift n s := by
  unfold roundShift; dsimp only; split <;> (try split) <;> (try split) <;> omega

theorem roundShift_upper (n s : Nat) : roundShift n s ≤ n / 2 ^ s + 1 := by
  unfold roundShift; dsimp only; split <;> (try split) <;> (try split) <;> omega

/-- the rounding error is at most half a unit -/
theorem roundShift_near (n s : Nat) : 2 * n ≤ 2 * (roundShift n s * 2 ^ s) + 2 ^ s := by
  have hp : 0 < 2 ^ s := Nat.two_pow_pos s
  have e := Nat.div_add_mod n (2 ^ s)
  have hm := Nat.mod_lt n hp
  unfold roundShift; dsimp only
  generalize 2 ^ s = P at *
  have c1 : n / P * P = P * (n / P) := Nat.mul_comm ..
  have c2 : (n / P + 1) * P = P * (n / P) + P := by rw [Nat.add_mul, Nat.mul_comm]; omega
  split <;> (try split) <;> (try split) <;> first | (rw [c2]; omega) | (rw [c1]; omega)

theorem round53_small (n : Nat) (h : n < 2 ^ 53) : round53 n = (n, 0) := by
  unfold round53
  have hs : n.log2 - 52 = 0 := by
    rcases Nat.eq_zero_or_pos n with rfl | hp
    · decide
    · have := (Nat.log2_lt (by omega)).mpr h; omega
  dsimp only
  rw [hs]
  simp [roundShift, Nat.mod_one]

end Py
