import Verif.Spec.IntText
import Verif.Proofs.Int
/-
`parseInt` reads exactly the texts of integers.
-/
namespace Py
open Spec

theorem zeros_apart : ∀ a ∈ 0x30 :: decimalZeros, ∀ b ∈ 0x30 :: decimalZeros, a = b ∨ a + 10 ≤ b ∨ b + 10 ≤ a := by decide +kernel

theorem digitVal_find (c : Char) :
    digitVal c = ((0x30 :: decimalZeros).find? fun z => decide (z ≤ c.toNat ∧ c.toNat ≤ z + 9)).map (c.toNat - ·) := by
  unfold digitVal
  by_cases h : 48 ≤ c.toNat ∧ c.toNat ≤ 57
  · rw [if_pos h, List.find?_cons_of_pos (by simpa using h)]; rfl
  · rw [if_neg h, List.find?_cons_of_neg (by simpa using h)]

theorem digitVal_iff (c : Char) (d : Nat) : digitVal c = some d ↔ Decimal c d := by
  rw [digitVal_find, Option.map_eq_some_iff]
  constructor
  · rintro ⟨z, hz, rfl⟩
    have h1 := List.find?_some hz
    have h2 := List.mem_of_find?_eq_some hz
    simp only [decide_eq_true_eq] at h1
    exact ⟨by omega, z, h2, by omega⟩
  · rintro ⟨hd, z, hz, hc⟩
    cases hf : (0x30 :: decimalZeros).find? fun z => decide (z ≤ c.toNat ∧ c.toNat ≤ z + 9) with
    | none =>
      have := List.find?_eq_none.1 hf z hz
      simp only [decide_eq_true_eq] at this
      exact absurd ⟨by omega, by omega⟩ this
    | some z' =>
      have h1 := List.find?_some hf
      have h2 := List.mem_of_find?_eq_some hf
      simp only [decide_eq_true_eq] at h1
      refine ⟨z', rfl, ?_⟩
      rcases zeros_apart z hz z' h2 with h | h | h <;> omega

theorem decimal_unique {c : Char} {d e : Nat} (h1 : Decimal c d) (h2 : Decimal c e) : d = e := by
  rw [← digitVal_iff] at h1 h2
  rw [h1] at h2
  exact Option.some.inj h2

theorem isDigit_decimal {c : Char} (h : IsDigit c) : Decimal c (c.toNat - 48) := (digitVal_iff _ _).1 (digitVal_of_isDigit h)

theorem decimal_not_under {c : Char} {d : Nat} (h : Decimal c d) : c ≠ '_' := by
  rintro rfl
  rw [← digitVal_iff] at h
  have : digitVal '_' = none := by decide +kernel
  rw [this] at h
  cases h

theorem decimal_not_sign {c : Char} {d : Nat} (h : Decimal c d) : c ≠ '+' ∧ c ≠ '-' := by
  rw [← digitVal_iff] at h
  constructor
  · rintro rfl
    have : digitVal '+' = none := by decide +kernel
    rw [this] at h
    cases h
  · rintro rfl
    have : digitVal '-' = none := by decide +kernel
    rw [this] at h
    cases h

theorem decimal_not_space {c : Char} {d : Nat} (h : Decimal c d) : isSpace c = false := by
  obtain ⟨hd, z, hz, hc⟩ := h
  have key : ∀ z ∈ 0x30 :: decimalZeros, ∀ d ∈ List.range 10,
      ((9 ≤ z + d && z + d ≤ 13) || (28 ≤ z + d && z + d ≤ 32) || z + d == 0x85 || z + d == 0xa0 || z + d == 0x1680 ||
        (0x2000 ≤ z + d && z + d ≤ 0x200a) || z + d == 0x2028 || z + d == 0x2029 || z + d == 0x202f || z + d == 0x205f || z + d == 0x3000) = false := by
    decide +kernel
  unfold isSpace
  dsimp only
  rw [hc]
  exact key z hz d (List.mem_range.2 hd)

/-- what is left to read after a digit, and before one -/
theorem parseDigits_iff (s : Str) : ∀ (acc n : Nat),
    (parseDigits acc false s = some n ↔ ∃ ds, DigitText s ds ∧ n = ds.foldl (fun n d => 10 * n + d) acc) ∧
    (parseDigits acc true s = some n ↔ (s = [] ∧ n = acc) ∨ (∃ ds, DigitText s ds ∧ n = ds.foldl (fun n d => 10 * n + d) acc) ∨
      ∃ r ds, s = '_' :: r ∧ DigitText r ds ∧ n = ds.foldl (fun n d => 10 * n + d) acc) := by
  induction s with
  | nil =>
    intro acc n
    constructor
    · constructor
      · intro h; cases h
      · rintro ⟨ds, h, _⟩; cases h
    · constructor
      · intro h
        exact .inl ⟨rfl, (Option.some.inj h).symm⟩
      · rintro (⟨_, rfl⟩ | ⟨ds, h, _⟩ | ⟨r, ds, h, _⟩)
        · rfl
        · cases h
        · cases h
  | cons c r ih =>
    intro acc n
    by_cases hc : c = '_'
    · subst hc
      have hno : ∀ ds, ¬ DigitText ('_' :: r) ds := by
        intro ds h
        cases h with
        | one h => exact decimal_not_under h rfl
        | next h _ => exact decimal_not_under h rfl
        | under h _ => exact decimal_not_under h rfl
      constructor
      · constructor
        · intro h; rw [parseDigits, if_pos rfl, if_neg (by decide)] at h; cases h
        · rintro ⟨ds, h, _⟩; exact absurd h (hno ds)
      · rw [parseDigits, if_pos rfl, if_pos rfl, (ih acc n).1]
        constructor
        · rintro ⟨ds, h1, h2⟩; exact .inr (.inr ⟨r, ds, rfl, h1, h2⟩)
        · rintro (⟨h, _⟩ | ⟨ds, h, _⟩ | ⟨r', ds, h, h1, h2⟩)
          · cases h
          · exact absurd h (hno ds)
          · cases h; exact ⟨ds, h1, h2⟩
    · have both : ∀ b, parseDigits acc b (c :: r) = some n ↔ ∃ ds, DigitText (c :: r) ds ∧ n = ds.foldl (fun n d => 10 * n + d) acc := by
        intro b
        rw [parseDigits, if_neg hc]
        cases hv : digitVal c with
        | none =>
          constructor
          · intro h; cases h
          · rintro ⟨ds, h, _⟩
            have : ∃ d, Decimal c d := by
              cases h with
              | one h => exact ⟨_, h⟩
              | next h _ => exact ⟨_, h⟩
              | under h _ => exact ⟨_, h⟩
            obtain ⟨d, hd⟩ := this
            rw [(digitVal_iff c d).2 hd] at hv
            cases hv
        | some d =>
          have hd := (digitVal_iff c d).1 hv
          dsimp only
          have e : acc * 10 + d = 10 * acc + d := by omega
          rw [e, (ih _ n).2]
          constructor
          · rintro (⟨rfl, h⟩ | ⟨ds, h, h'⟩ | ⟨r', ds, rfl, h, h'⟩)
            · exact ⟨[d], .one hd, h⟩
            · exact ⟨d :: ds, .next hd h, h'⟩
            · exact ⟨d :: ds, .under hd h, h'⟩
          · rintro ⟨ds, h, h'⟩
            cases h with
            | one h =>
              rw [decimal_unique h hd] at h'
              exact .inl ⟨rfl, h'⟩
            | next h hs =>
              rw [decimal_unique h hd] at h'
              exact .inr (.inl ⟨_, hs, h'⟩)
            | under h hs =>
              rw [decimal_unique h hd] at h'
              exact .inr (.inr ⟨_, _, rfl, hs, h'⟩)
      refine ⟨both false, ?_⟩
      rw [both true]
      constructor
      · intro h; exact .inr (.inl h)
      · rintro (⟨h, _⟩ | h | ⟨r', ds, h, _⟩)
        · cases h
        · exact h
        · cases h; exact absurd rfl hc

theorem digitText_ends {s : Str} {ds : List Nat} (h : DigitText s ds) :
    s ≠ [] ∧ (∀ c, s.head? = some c → isSpace c = false ∧ c ≠ '+' ∧ c ≠ '-') ∧ (∀ c, s.getLast? = some c → isSpace c = false) := by
  induction h with
  | one h =>
    refine ⟨by simp, ?_, ?_⟩
    · rintro c' hc; cases hc; exact ⟨decimal_not_space h, decimal_not_sign h⟩
    · rintro c' hc; cases hc; exact decimal_not_space h
  | @next c d s ds h hs ih =>
    refine ⟨by simp, ?_, ?_⟩
    · rintro c' hc; cases hc; exact ⟨decimal_not_space h, decimal_not_sign h⟩
    · intro c' hc
      obtain ⟨x, t, rfl⟩ := List.exists_cons_of_ne_nil ih.1
      rw [List.getLast?_cons_cons] at hc
      exact ih.2.2 c' hc
  | @under c d s ds h hs ih =>
    refine ⟨by simp, ?_, ?_⟩
    · rintro c' hc; cases hc; exact ⟨decimal_not_space h, decimal_not_sign h⟩
    · intro c' hc
      obtain ⟨x, t, rfl⟩ := List.exists_cons_of_ne_nil ih.1
      rw [List.getLast?_cons_cons, List.getLast?_cons_cons] at hc
      exact ih.2.2 c' hc

theorem dropWhile_all_append {p : Char → Bool} (a b : Str) (h : ∀ c ∈ a, p c = true) : (a ++ b).dropWhile p = b.dropWhile p := by
  induction a with
  | nil => rfl
  | cons x a ih =>
    rw [List.cons_append, List.dropWhile_cons, if_pos (h x (by simp))]
    exact ih fun c hc => h c (by simp [hc])

/-- blanks around a text are stripped -/
theorem strip_around (pre t post : Str) (h1 : ∀ c ∈ pre, isSpace c = true) (h2 : ∀ c ∈ post, isSpace c = true)
    (h3 : ∀ c, t.head? = some c → isSpace c = false) (h4 : ∀ c, t.getLast? = some c → isSpace c = false) (hne : t ≠ []) :
    strip (pre ++ t ++ post) = t := by
  unfold strip lstripBy rstripBy
  rw [List.append_assoc, dropWhile_all_append _ _ h1]
  rw [dropWhile_of_head (t ++ post) (by
    intro c hc
    obtain ⟨x, t', rfl⟩ := List.exists_cons_of_ne_nil hne
    exact h3 c hc)]
  rw [List.reverse_append, dropWhile_all_append _ _ (fun c hc => h2 c (List.mem_reverse.1 hc)),
    dropWhile_of_head t.reverse (by simpa using h4), List.reverse_reverse]

theorem takeWhile_all {p : Char → Bool} (s : Str) : ∀ c ∈ s.takeWhile p, p c = true := by
  induction s with
  | nil => intro c h; cases h
  | cons x s ih =>
    intro c h
    rw [List.takeWhile_cons] at h
    by_cases hx : p x = true
    · rw [if_pos hx] at h
      rcases List.mem_cons.1 h with rfl | h
      · exact hx
      · exact ih c h
    · rw [if_neg hx] at h; cases h

/-- what is stripped are blanks -/
theorem strip_parts (s : Str) : ∃ pre post, s = pre ++ strip s ++ post ∧ (∀ c ∈ pre, isSpace c = true) ∧ (∀ c ∈ post, isSpace c = true) := by
  refine ⟨s.takeWhile isSpace, ((s.dropWhile isSpace).reverse.takeWhile isSpace).reverse, ?_, takeWhile_all s, ?_⟩
  · unfold strip lstripBy rstripBy
    rw [List.append_assoc, ← List.reverse_append, List.takeWhile_append_dropWhile, List.reverse_reverse, List.takeWhile_append_dropWhile]
  · intro c hc
    exact takeWhile_all _ c (List.mem_reverse.1 hc)

/-- `int(s)` -/
theorem parseInt_iff (s : Str) (n : Int) : parseInt s = some n ↔ IntText s n := by
  constructor
  · intro h
    obtain ⟨pre, post, hs, h1, h2⟩ := strip_parts s
    unfold parseInt at h
    split at h
    · rename_i r hr
      obtain ⟨m, hm, rfl⟩ := Option.map_eq_some_iff.1 h
      obtain ⟨ds, hd, rfl⟩ := (parseDigits_iff r 0 m).1.1 hm
      exact ⟨pre, ['+'], r, post, ds, by rw [hr] at hs; exact hs, h1, h2, hd, .inr (.inl ⟨rfl, rfl⟩)⟩
    · rename_i r hr
      obtain ⟨m, hm, rfl⟩ := Option.map_eq_some_iff.1 h
      obtain ⟨ds, hd, rfl⟩ := (parseDigits_iff r 0 m).1.1 hm
      exact ⟨pre, ['-'], r, post, ds, by rw [hr] at hs; exact hs, h1, h2, hd, .inr (.inr ⟨rfl, rfl⟩)⟩
    · obtain ⟨m, hm, rfl⟩ := Option.map_eq_some_iff.1 h
      obtain ⟨ds, hd, rfl⟩ := (parseDigits_iff _ 0 m).1.1 hm
      exact ⟨pre, [], strip s, post, ds, hs, h1, h2, hd, .inl ⟨rfl, rfl⟩⟩
  · rintro ⟨pre, sign, body, post, ds, rfl, h1, h2, hd, hn⟩
    obtain ⟨hne, hh, hl⟩ := digitText_ends hd
    have hp := (parseDigits_iff body 0 (digitsValue ds)).1.2 ⟨ds, hd, rfl⟩
    unfold parseInt
    rcases hn with ⟨rfl, rfl⟩ | ⟨rfl, rfl⟩ | ⟨rfl, rfl⟩
    · rw [List.nil_append, strip_around pre body post h1 h2 (fun c hc => (hh c hc).1) hl hne]
      split
      · exact absurd rfl (hh _ rfl).2.1
      · exact absurd rfl (hh _ rfl).2.2
      · rw [hp]; rfl
    · rw [List.singleton_append, strip_around pre ('+' :: body) post h1 h2 (by rintro c hc; cases hc; decide) (by
        obtain ⟨x, t, rfl⟩ := List.exists_cons_of_ne_nil hne
        rw [List.getLast?_cons_cons]; exact hl) (by simp)]
      show Option.map _ (parseDigits 0 false body) = _
      rw [hp]; rfl
    · rw [List.singleton_append, strip_around pre ('-' :: body) post h1 h2 (by rintro c hc; cases hc; decide) (by
        obtain ⟨x, t, rfl⟩ := List.exists_cons_of_ne_nil hne
        rw [List.getLast?_cons_cons]; exact hl) (by simp)]
      show Option.map _ (parseDigits 0 false body) = _
      rw [hp]; rfl

theorem parseInt_none (s : Str) : parseInt s = none ↔ ∀ n, ¬ IntText s n := by
  constructor
  · intro h n hn
    rw [(parseInt_iff s n).2 hn] at h
    cases h
  · intro h
    cases hp : parseInt s with
    | none => rfl
    | some n => exact absurd ((parseInt_iff s n).1 hp) (h n)

end Py
