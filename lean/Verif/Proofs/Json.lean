import Verif.Py.Json
import Verif.Proofs.Int
import Verif.Proofs.Url
import Verif.Proofs.Dict
/-
`json.loads(json.dumps(v)) == v`.
-/
namespace Py
open Spec

theorem hexLower_val (n : Nat) (h : n < 16) : hexVal (hexLower n).toNat = some n := by
  unfold hexLower
  split
  · rw [ofNat_toNat' (by omega)]; unfold hexVal; rw [if_pos (by omega)]; congr 1; omega
  · rw [ofNat_toNat' (by omega)]; unfold hexVal
    rw [if_neg (by omega), if_neg (by omega), if_pos (by omega)]; congr 1; omega

theorem hex4_uEscape (n : Nat) (h : n < 65536) (t : Str) :
    hex4 (hexLower (n / 4096 % 16) :: hexLower (n / 256 % 16) :: hexLower (n / 16 % 16) :: hexLower (n % 16) :: t) =
      some n := by
  unfold hex4
  dsimp only
  rw [hexLower_val _ (by omega), hexLower_val _ (by omega), hexLower_val _ (by omega), hexLower_val _ (by omega)]
  dsimp only
  congr 1; omega

theorem jsonUnescape_u (n : Nat) (h : n < 0xD800 ∨ 0xE000 ≤ n) (h' : n < 65536) (t : Str) :
    jsonUnescape ((uEscape n).drop 1 ++ t) = some (Char.ofNat n, 5) := by
  simp only [uEscape, List.drop_succ_cons, List.drop_zero, List.cons_append, List.nil_append]
  unfold jsonUnescape
  dsimp only
  rw [if_neg (by decide), if_neg (by decide), if_neg (by decide), if_neg (by decide), if_neg (by decide),
    if_neg (by decide), if_neg (by decide), if_neg (by decide), if_pos rfl, hex4_uEscape n h']
  dsimp only
  rw [if_neg (by omega), if_neg (by omega)]

theorem jsonUnescape_pair (u v : Nat) (hu : 0xD800 ≤ u ∧ u < 0xDC00) (hv : 0xDC00 ≤ v ∧ v < 0xE000) (t : Str) :
    jsonUnescape ((uEscape u).drop 1 ++ (uEscape v ++ t)) =
      some (Char.ofNat (0x10000 + (u - 0xD800) * 1024 + (v - 0xDC00)), 11) := by
  simp only [uEscape, List.drop_succ_cons, List.drop_zero, List.cons_append, List.nil_append]
  unfold jsonUnescape
  dsimp only
  rw [if_neg (by decide), if_neg (by decide), if_neg (by decide), if_neg (by decide), if_neg (by decide),
    if_neg (by decide), if_neg (by decide), if_neg (by decide), if_pos rfl, hex4_uEscape u (by omega)]
  dsimp only
  rw [if_pos hu]
  simp only [List.drop_succ_cons, List.drop_zero]
  rw [hex4_uEscape v (by omega)]
  dsimp only
  rw [if_pos hv]

theorem parseStr_escape (c : Char) (t : Str) :
    parseStr 0 (jsonEscape c ++ t) = (parseStr 0 t).map fun p => (c :: p.1, p.2) := by
  have hv := char_valid c
  unfold jsonEscape
  split
  · subst c; rfl
  split
  · subst c; rfl
  split
  · subst c; rfl
  split
  · subst c; rfl
  split
  · subst c; rfl
  rename_i n1 n2 _ _ _
  split
  · rename_i h
    have : c = Char.ofNat 12 := by rw [← h, Char.ofNat_toNat]
    subst this; rfl
  split
  · rename_i h
    have : c = Char.ofNat 8 := by rw [← h, Char.ofNat_toNat]
    subst this; rfl
  split
  · rename_i h
    rw [List.singleton_append, parseStr, if_neg n1, if_neg n2, if_neg (by omega)]
  split
  · rename_i h
    have hu := jsonUnescape_u c.toNat (by omega) h t
    rw [Char.ofNat_toNat] at hu
    have e : uEscape c.toNat ++ t = '\\' :: ((uEscape c.toNat).drop 1 ++ t) := rfl
    rw [e, parseStr, if_neg (by decide), if_pos rfl, hu]
    rfl
  · rename_i h
    have hu := jsonUnescape_pair (0xD800 + (c.toNat - 0x10000) / 1024) (0xDC00 + (c.toNat - 0x10000) % 1024)
      (by omega) (by omega) t
    rw [show 0x10000 + (0xD800 + (c.toNat - 0x10000) / 1024 - 0xD800) * 1024 +
      (0xDC00 + (c.toNat - 0x10000) % 1024 - 0xDC00) = c.toNat by omega, Char.ofNat_toNat] at hu
    generalize hx : 0xD800 + (c.toNat - 0x10000) / 1024 = x at *
    generalize hy : 0xDC00 + (c.toNat - 0x10000) % 1024 = y at *
    have e : uEscape x ++ uEscape y ++ t = '\\' :: ((uEscape x).drop 1 ++ (uEscape y ++ t)) := rfl
    rw [e, parseStr, if_neg (by decide), if_pos rfl, hu]
    rfl

theorem parseStr_dumps (s t : Str) : parseStr 0 (s.flatMap jsonEscape ++ '"' :: t) = some (s, t) := by
  induction s with
  | nil => simp [parseStr]
  | cons c r ih => rw [List.flatMap_cons, List.append_assoc, parseStr_escape, ih]; rfl

/-! ### numbers -/

/-- What may follow a printed value: nothing, or `,`, `]`, `}`. -/
def Delim (t : Str) : Prop := ∀ c, t.head? = some c → c = ',' ∨ c = ']' ∨ c = '}'

theorem delim_nil : Delim [] := by intro c h; simp at h
theorem delim_cons {c : Char} (t : Str) (h : c = ',' ∨ c = ']' ∨ c = '}') : Delim (c :: t) := by
  intro d hd; simp at hd; exact hd ▸ h

theorem delim_not_digit {t : Str} (h : Delim t) : ∀ c, t.head? = some c → isDigitC c = false := by
  intro c hc
  rcases h c hc with rfl | rfl | rfl <;> decide

theorem fracPart_delim {t : Str} (h : Delim t) : fracPart t = ([], t) := by
  cases t with
  | nil => rfl
  | cons c r =>
    rcases h c rfl with rfl | rfl | rfl <;> rfl

theorem expPart_delim {t : Str} (h : Delim t) : expPart t = ([], t) := by
  cases t with
  | nil => rfl
  | cons c r =>
    rcases h c rfl with rfl | rfl | rfl <;> rfl

theorem isDigitC_iff (c : Char) : isDigitC c = true ↔ IsDigit c := by
  rw [isDigit_iff]; simp [isDigitC]

theorem takeWhile_digits : ∀ (ds t : Str), (∀ c ∈ ds, IsDigit c) → (∀ c, t.head? = some c → isDigitC c = false) →
    (ds ++ t).takeWhile isDigitC = ds ∧ (ds ++ t).dropWhile isDigitC = t
  | [], t, _, h => by
    cases t with
    | nil => exact ⟨rfl, rfl⟩
    | cons c r => simp [h c rfl]
  | d :: ds, t, hd, h => by
    have ih := takeWhile_digits ds t (fun x hx => hd x (by simp [hx])) h
    have : isDigitC d = true := (isDigitC_iff d).mpr (hd d (by simp))
    simp only [List.cons_append, List.takeWhile_cons, List.dropWhile_cons, this, if_true]
    exact ⟨by rw [ih.1], ih.2⟩

/-- `str(n)` is `0` or starts with a non-zero digit -/
theorem natDigits_head (n : Nat) : natDigits n = ['0'] ∨ ∃ c r, natDigits n = c :: r ∧ c ≠ '0' ∧ IsDigit c := by
  induction n using natDigits.induct with
  | case1 n h =>
    rw [natDigits, dif_pos h]
    by_cases h0 : n = 0
    · subst h0; left; rfl
    · right
      refine ⟨_, _, rfl, ?_, digitChar_isDigit n h⟩
      intro e
      have := congrArg Char.toNat e
      rw [digitChar_toNat n h] at this
      have e0 : '0'.toNat = 48 := rfl
      omega
  | case2 n h ih =>
    rw [natDigits, dif_neg h]
    right
    rcases ih with h0 | ⟨c, r, e, hc, hd⟩
    · exfalso
      have := decimal_natDigits (n / 10)
      rw [h0] at this
      have e0 : decimal ['0'] = 0 := rfl
      omega
    · exact ⟨c, r ++ [Char.ofNat (48 + n % 10)], by rw [e]; rfl, hc, hd⟩

theorem decimalOf_eq (ds : Str) : decimalOf ds = decimal ds := rfl

theorem intPart_natDigits (n : Nat) (t : Str) (ht : Delim t) : intPart (natDigits n ++ t) = some (natDigits n, t) := by
  rcases natDigits_head n with h | ⟨c, r, e, hc, hd⟩
  · rw [h]; rfl
  · rw [e, List.cons_append, intPart, if_neg hc, if_pos ((isDigitC_iff c).mpr hd)]
    have hr : ∀ x ∈ r, IsDigit x := by
      intro x hx
      exact natDigits_digits n x (by rw [e]; simp [hx])
    have := takeWhile_digits r t hr (delim_not_digit ht)
    rw [this.1, this.2]

theorem parseNumber_natDigits (neg : Bool) (n : Nat) (t : Str) (ht : Delim t) :
    parseNumber neg (natDigits n ++ t) = some (.int (if neg then - (n : Int) else (n : Int)), t) := by
  unfold parseNumber
  rw [intPart_natDigits n t ht]
  dsimp only
  rw [fracPart_delim ht]
  dsimp only
  rw [expPart_delim ht, decimalOf_eq, decimal_natDigits]
  rfl

theorem all_isDigit {r : Str} (h : r.all isDigitC = true) : ∀ c ∈ r, IsDigit c := by
  intro c hc
  exact (isDigitC_iff c).mp (List.all_eq_true.mp h c hc)

theorem intPart_digits (ds t : Str)
    (hds : ds = ['0'] ∨ ∃ c r, ds = c :: r ∧ c ≠ '0' ∧ isDigitC c ∧ r.all isDigitC)
    (ht : ∀ c, t.head? = some c → isDigitC c = false) : intPart (ds ++ t) = some (ds, t) := by
  rcases hds with rfl | ⟨c, r, rfl, hc, hd, hr⟩
  · rfl
  · rw [List.cons_append, intPart, if_neg hc, if_pos hd]
    have := takeWhile_digits r t (all_isDigit hr) ht
    rw [this.1, this.2]

theorem parseNumber_float (neg : Bool) (ds f e t : Str) (ht : Delim t)
    (hds : ds = ['0'] ∨ ∃ c r, ds = c :: r ∧ c ≠ '0' ∧ isDigitC c ∧ r.all isDigitC)
    (hf : f = [] ∨ ∃ c r, f = '.' :: c :: r ∧ isDigitC c ∧ r.all isDigitC)
    (he : e = [] ∨ ∃ s c r, e = 'e' :: s :: c :: r ∧ (s = '+' ∨ s = '-') ∧ isDigitC c ∧ r.all isDigitC)
    (hne : f ≠ [] ∨ e ≠ []) :
    parseNumber neg (ds ++ (f ++ (e ++ t))) = some (.flt ((if neg then ['-'] else []) ++ ds ++ f ++ e), t) := by
  have hexp : expPart (e ++ t) = (e, t) := by
    rcases he with rfl | ⟨s, c, r, rfl, hs, hc, hr⟩
    · exact expPart_delim ht
    · have := takeWhile_digits r t (all_isDigit hr) (delim_not_digit ht)
      have hsd : isDigitC s = false := by rcases hs with rfl | rfl <;> decide
      simp only [List.cons_append, expPart, true_or, if_true, hsd, Bool.false_eq_true, if_false, hs, hc, this.1, this.2]
  have hhead : ∀ c, (e ++ t).head? = some c → isDigitC c = false ∧ c ≠ '.' := by
    intro c hc
    rcases he with rfl | ⟨s, c', r, rfl, hs, hc', hr⟩
    · refine ⟨delim_not_digit ht c hc, ?_⟩
      rcases ht c hc with rfl | rfl | rfl <;> decide
    · simp at hc; subst hc; decide
  have hfrac : fracPart (f ++ (e ++ t)) = (f, e ++ t) := by
    rcases hf with rfl | ⟨c, r, rfl, hc, hr⟩
    · rw [List.nil_append]
      cases h : e ++ t with
      | nil => rfl
      | cons c r =>
        have hd : c ≠ '.' := (hhead c (by rw [h]; rfl)).2
        unfold fracPart
        split
        · rename_i heq; injection heq with h1 h2; exact absurd h1 hd
        · rfl
    · have := takeWhile_digits r (e ++ t) (all_isDigit hr) (fun c hc => (hhead c hc).1)
      show fracPart ('.' :: c :: (r ++ (e ++ t))) = _
      rw [fracPart, if_pos hc, this.1, this.2]
  have hint : intPart (ds ++ (f ++ (e ++ t))) = some (ds, f ++ (e ++ t)) := by
    apply intPart_digits _ _ hds
    intro c hc
    rcases hf with rfl | ⟨c', r, rfl, hc', hr⟩
    · exact (hhead c hc).1
    · simp at hc; subst hc; decide
  unfold parseNumber
  rw [hint]
  dsimp only
  rw [hfrac]
  dsimp only
  rw [hexp]
  have : (f.isEmpty && e.isEmpty) = false := by
    rcases hne with h | h <;> cases f <;> cases e <;> simp_all
  rw [this, if_neg (by decide)]

theorem isDigit_cases {c : Char} (h : IsDigit c) :
    c ≠ '"' ∧ c ≠ '{' ∧ c ≠ '[' ∧ c ≠ '-' ∧ c ≠ 'n' ∧ c ≠ 't' ∧ c ≠ 'f' ∧ c ≠ 'N' ∧ c ≠ 'I' ∧ c ≠ '}' ∧ c ≠ ']' := by
  simp only [IsDigit, List.mem_cons, List.not_mem_nil, or_false] at h
  rcases h with h|h|h|h|h|h|h|h|h|h <;> subst h <;> decide

theorem startsWith_ne {p : Str} {a c : Char} (r : Str) (h : c ≠ a) : startsWith (a :: p) (c :: r) = false := by
  simp [startsWith, List.isPrefixOf, Ne.symm h]

theorem parseValue_digit (f : Nat) (c : Char) (r : Str) (h : IsDigit c) :
    parseValue (f + 1) (c :: r) = parseNumber false (c :: r) := by
  obtain ⟨h1, h2, h3, h4, h5, h6, h7, h8, h9, _⟩ := isDigit_cases h
  rw [parseValue]
  rw [if_neg h1, if_neg h2, if_neg h3, if_neg h4, startsWith_ne r h5, startsWith_ne r h6, startsWith_ne r h7,
    startsWith_ne r h8, startsWith_ne r h9]
  rfl

theorem parseValue_minus (f : Nat) (c : Char) (r : Str) (h : IsDigit c) :
    parseValue (f + 1) ('-' :: c :: r) = parseNumber true (c :: r) := by
  rw [parseValue]
  rw [if_neg (by decide), if_neg (by decide), if_neg (by decide), if_pos rfl,
    startsWith_ne r (isDigit_cases h).2.2.2.2.2.2.2.2.1]
  rfl

theorem floatText_parse {raw : Str} (h : FloatText raw) (f : Nat) (t : Str) (ht : Delim t) :
    parseValue (f + 1) (raw ++ t) = some (.flt raw, t) := by
  obtain ⟨neg, ds, fr, e, rfl, hds, hf, he, hne⟩ := h
  have hp := parseNumber_float neg ds fr e t ht hds hf he hne
  have hd : ∃ c r, ds = c :: r ∧ IsDigit c := by
    rcases hds with rfl | ⟨c, r, rfl, _, hd, _⟩
    · exact ⟨'0', [], rfl, by decide⟩
    · exact ⟨c, r, rfl, (isDigitC_iff c).mp hd⟩
  obtain ⟨c, r, rfl, hd⟩ := hd
  cases neg with
  | false =>
    have e1 : (if false = true then ['-'] else []) ++ (c :: r) ++ fr ++ e ++ t = c :: (r ++ (fr ++ (e ++ t))) := by simp
    rw [e1, parseValue_digit f c _ hd]; exact hp
  | true =>
    have e1 : (if true = true then ['-'] else []) ++ (c :: r) ++ fr ++ e ++ t = '-' :: c :: (r ++ (fr ++ (e ++ t))) := by simp
    rw [e1, parseValue_minus f c _ hd]; exact hp

theorem floatText_head {raw : Str} (h : FloatText raw) : ∃ c r, raw = c :: r ∧ (c = '-' ∨ IsDigit c) := by
  obtain ⟨neg, ds, fr, e, rfl, hds, hf, he, hne⟩ := h
  have hd : ∃ c r, ds = c :: r ∧ IsDigit c := by
    rcases hds with rfl | ⟨c, r, rfl, _, hd, _⟩
    · exact ⟨'0', [], rfl, by decide⟩
    · exact ⟨c, r, rfl, (isDigitC_iff c).mp hd⟩
  obtain ⟨c, r, rfl, hd⟩ := hd
  cases neg with
  | false => exact ⟨c, r ++ fr ++ e, by simp, .inr hd⟩
  | true => exact ⟨'-', c :: r ++ fr ++ e, by simp, .inl rfl⟩

theorem parseValue_int (f : Nat) (i : Int) (t : Str) (ht : Delim t) :
    parseValue (f + 1) (intStr i ++ t) = some (.int i, t) := by
  cases i with
  | ofNat n =>
    obtain ⟨c, r, e⟩ : ∃ c r, natDigits n = c :: r := by
      cases h : natDigits n with
      | nil => exact absurd h (natDigits_ne_nil n)
      | cons c r => exact ⟨c, r, rfl⟩
    have hd : IsDigit c := natDigits_digits n c (by rw [e]; simp)
    show parseValue (f + 1) (natDigits n ++ t) = _
    have := parseNumber_natDigits false n t ht
    rw [e, List.cons_append] at this ⊢
    rw [parseValue_digit f c _ hd, this]
    rfl
  | negSucc n =>
    show parseValue (f + 1) ('-' :: (natDigits (n + 1) ++ t)) = _
    rw [parseValue]
    rw [if_neg (by decide), if_neg (by decide), if_neg (by decide), if_pos rfl]
    have h : startsWith (pys! "Infinity") (natDigits (n + 1) ++ t) = false := by
      cases h : natDigits (n + 1) with
      | nil => exact absurd h (natDigits_ne_nil _)
      | cons c r =>
        have hd : IsDigit c := natDigits_digits (n + 1) c (by rw [h]; simp)
        exact startsWith_ne _ (isDigit_cases hd).2.2.2.2.2.2.2.2.1
    rw [h, if_neg (by decide), parseNumber_natDigits true _ t ht]
    rfl

/-! ### values -/

theorem skipWs_of_head (s : Str) (h : ∀ c, s.head? = some c → jsonSpace c = false) : skipWs s = s :=
  dropWhile_of_head s h

theorem skipWs_space (s : Str) (h : ∀ c, s.head? = some c → jsonSpace c = false) : skipWs (' ' :: s) = s := by
  unfold skipWs
  rw [List.dropWhile_cons, if_pos (by rfl)]
  exact dropWhile_of_head s h

/-- first character of a printed value -/
theorem dumps_head (j : Json) (hw : j.WF) : ∃ c r, dumps j = c :: r ∧ jsonSpace c = false ∧ c ≠ ']' ∧ c ≠ '}' := by
  cases j with
  | null => exact ⟨_, _, by rw [dumps], by decide⟩
  | bool b => cases b <;> exact ⟨_, _, by rw [dumps], by decide⟩
  | int i =>
    cases i with
    | ofNat n =>
      rcases natDigits_head n with h | ⟨c, r, e, _, hd⟩
      · exact ⟨'0', [], by rw [dumps]; exact h, by decide⟩
      · refine ⟨c, r, by rw [dumps]; exact e, ?_, (isDigit_cases hd).2.2.2.2.2.2.2.2.2.2,
          (isDigit_cases hd).2.2.2.2.2.2.2.2.2.1⟩
        simp only [IsDigit, List.mem_cons, List.not_mem_nil, or_false] at hd
        rcases hd with h|h|h|h|h|h|h|h|h|h <;> subst h <;> decide
    | negSucc n => exact ⟨'-', natDigits (n + 1), by rw [dumps]; rfl, by decide⟩
  | flt r =>
    obtain ⟨c, s, e, h⟩ := floatText_head (by simpa [Json.WF] using hw)
    refine ⟨c, s, by rw [dumps]; exact e, ?_⟩
    rcases h with rfl | hd
    · decide
    · refine ⟨?_, (isDigit_cases hd).2.2.2.2.2.2.2.2.2.2, (isDigit_cases hd).2.2.2.2.2.2.2.2.2.1⟩
      simp only [IsDigit, List.mem_cons, List.not_mem_nil, or_false] at hd
      rcases hd with h|h|h|h|h|h|h|h|h|h <;> subst h <;> decide
  | str s => exact ⟨'"', _, by rw [dumps]; rfl, by decide⟩
  | arr l =>
    cases l with
    | nil => exact ⟨_, _, by rw [dumps], by decide⟩
    | cons x r => exact ⟨_, _, by rw [dumps]; rfl, by decide⟩
  | obj l =>
    cases l with
    | nil => exact ⟨_, _, by rw [dumps], by decide⟩
    | cons p r => cases p; exact ⟨_, _, by rw [dumps]; rfl, by decide⟩

theorem delim_elems (r : List Json) (t : Str) : Delim (dumpsElems r ++ ']' :: t) := by
  cases r with
  | nil => rw [dumpsElems]; exact delim_cons _ (by simp)
  | cons x r => rw [dumpsElems]; exact delim_cons _ (by simp)

theorem delim_members (r : List (Str × Json)) (t : Str) : Delim (dumpsMembers r ++ '}' :: t) := by
  cases r with
  | nil => rw [dumpsMembers]; exact delim_cons _ (by simp)
  | cons x r => cases x; rw [dumpsMembers]; exact delim_cons _ (by simp)

theorem delim_not_space {t : Str} (h : Delim t) : ∀ c, t.head? = some c → jsonSpace c = false := by
  intro c hc
  rcases h c hc with rfl | rfl | rfl <;> decide

theorem head_append_cons {s : Str} {c : Char} {r t : Str} (e : s = c :: r) (P : Char → Prop) (h : P c) :
    ∀ d, (s ++ t).head? = some d → P d := by
  intro d hd; rw [e] at hd; simp at hd; exact hd ▸ h

theorem ofList_nodup (l : List (Str × Json)) (h : (l.map (·.1)).Nodup) : Dict.ofList l = l := by
  suffices ∀ (l : List (Str × Json)) (d : Dict Str Json), (d.keys ++ l.map (·.1)).Nodup →
      l.foldl (fun d p => d.set p.1 p.2) d = d ++ l by
    have := this l [] (by simpa [Dict.keys] using h)
    simpa [Dict.ofList] using this
  intro l
  induction l with
  | nil => intro d _; simp
  | cons p r ih =>
    intro d hn
    rw [List.foldl_cons]
    rw [List.map_cons, List.nodup_append] at hn
    obtain ⟨h1, h2, h3⟩ := hn
    have hk : p.1 ∉ d.keys := fun hc => h3 _ hc _ (by simp) rfl
    rw [Dict.set_of_not_mem hk, ih]
    · simp
    · rw [Dict.keys_append, List.append_assoc, List.nodup_append]
      refine ⟨h1, h2, h3⟩

theorem parse_dumps (f : Nat) :
    (∀ (j : Json) (_ : j.WF) (t : Str) (_ : (dumps j).length < f) (_ : Delim t),
      parseValue f (dumps j ++ t) = some (j, t)) ∧
    (∀ (x : Json) (r : List Json) (_ : x.WF) (_ : Json.WFElems r) (t : Str)
      (_ : (dumps x).length + (dumpsElems r).length + 1 < f),
      parseElems f (dumps x ++ (dumpsElems r ++ ']' :: t)) = some (x :: r, t)) ∧
    (∀ (k : Str) (x : Json) (r : List (Str × Json)) (_ : x.WF) (_ : Json.WFMembers r)
      (t : Str) (_ : (dumpsStr k ++ [':', ' '] ++ dumps x ++ dumpsMembers r).length + 1 < f),
      parseMembers f (dumpsStr k ++ [':', ' '] ++ dumps x ++ dumpsMembers r ++ '}' :: t) = some ((k, x) :: r, t)) := by
  induction f with
  | zero => exact ⟨fun _ _ _ h => absurd h (by omega), fun _ _ _ _ _ h => absurd h (by omega),
      fun _ _ _ _ _ _ h => absurd h (by omega)⟩
  | succ f ih =>
  obtain ⟨ihV, ihE, ihM⟩ := ih
  refine ⟨?_, ?_, ?_⟩
  · intro j hw t hf ht
    cases j with
    | null => rw [dumps]; rfl
    | bool b => cases b <;> rw [dumps] <;> rfl
    | int i => rw [dumps]; exact parseValue_int f i t ht
    | flt r => rw [dumps]; exact floatText_parse (by simpa [Json.WF] using hw) f t ht
    | str s =>
      rw [dumps]
      show parseValue (f + 1) ('"' :: (s.flatMap jsonEscape ++ ['"'] ++ t)) = _
      rw [parseValue]
      rw [if_pos rfl, List.append_assoc, List.singleton_append, parseStr_dumps]
      rfl
    | arr l =>
      cases l with
      | nil => rw [dumps]; rfl
      | cons x r =>
        rw [Json.WF, Json.WFElems] at hw
        rw [dumps] at hf ⊢
        simp only [List.length_append, List.length_singleton] at hf
        obtain ⟨c, s, e, h1, h2, _⟩ := dumps_head x hw.1
        have hE := ihE x r hw.1 hw.2 t (by omega)
        have eq : ['['] ++ dumps x ++ dumpsElems r ++ [']'] ++ t = '[' :: (dumps x ++ (dumpsElems r ++ ']' :: t)) := by simp
        rw [eq, parseValue]
        rw [if_neg (by decide), if_neg (by decide), if_pos rfl, skipWs_of_head _ (head_append_cons e _ h1)]
        rw [e, List.cons_append] at hE ⊢
        split
        · rename_i hh; cases hh
        · rename_i hh; injection hh with hh _; exact absurd hh h2
        · rename_i hh; rw [hE]; rfl
    | obj l =>
      cases l with
      | nil => rw [dumps]; rfl
      | cons p r =>
        obtain ⟨k, x⟩ := p
        rw [Json.WF, Json.WFMembers] at hw
        rw [dumps] at hf ⊢
        simp only [List.length_append, List.length_cons, List.length_nil] at hf
        have hM := ihM k x r hw.2.1 hw.2.2 t
          (by simp only [List.length_append, List.length_cons, List.length_nil]; omega)
        have eq : ['{'] ++ dumpsStr k ++ [':', ' '] ++ dumps x ++ dumpsMembers r ++ ['}'] ++ t =
            '{' :: '"' :: (k.flatMap jsonEscape ++ ['"'] ++ ([':', ' '] ++ (dumps x ++ (dumpsMembers r ++ '}' :: t)))) := by
          simp [dumpsStr]
        rw [eq, parseValue]
        rw [if_neg (by decide), if_pos rfl, skipWs_of_head _ (by intro c hc; simp at hc; subst hc; decide)]
        show Option.map (fun p => (Json.obj (Dict.ofList p.1), p.2)) (parseMembers f ('"' :: _)) = _
        have eM : dumpsStr k ++ [':', ' '] ++ dumps x ++ dumpsMembers r ++ '}' :: t =
            '"' :: (k.flatMap jsonEscape ++ ['"'] ++ ([':', ' '] ++ (dumps x ++ (dumpsMembers r ++ '}' :: t)))) := by
          simp [dumpsStr]
        rw [eM] at hM
        rw [hM]
        simp only [Option.map_some]
        rw [ofList_nodup _ hw.1]
  · intro x r hx hr t hf
    have hV := ihV x hx (dumpsElems r ++ ']' :: t) (by omega) (delim_elems r t)
    rw [parseElems, hV]
    dsimp only
    rw [skipWs_of_head _ (delim_not_space (delim_elems r t))]
    cases r with
    | nil => rw [dumpsElems]; rfl
    | cons y r =>
      rw [Json.WFElems] at hr
      rw [dumpsElems] at hf ⊢
      simp only [List.length_append, List.length_cons, List.length_nil] at hf
      obtain ⟨c, s, e, h1, _, _⟩ := dumps_head y hr.1
      have hE := ihE y r hr.1 hr.2 t (by omega)
      have eq : [',', ' '] ++ dumps y ++ dumpsElems r ++ ']' :: t = ',' :: ' ' :: (dumps y ++ (dumpsElems r ++ ']' :: t)) := by
        simp
      rw [eq]
      show Option.map _ (parseElems f (skipWs (' ' :: _))) = _
      rw [skipWs_space _ (head_append_cons e _ h1), hE]
      rfl
  · intro k x r hx hr t hf
    simp only [List.length_append, List.length_cons, List.length_nil] at hf
    have hV := ihV x hx (dumpsMembers r ++ '}' :: t) (by omega) (delim_members r t)
    have eM : dumpsStr k ++ [':', ' '] ++ dumps x ++ dumpsMembers r ++ '}' :: t =
        '"' :: (k.flatMap jsonEscape ++ '"' :: (':' :: ' ' :: (dumps x ++ (dumpsMembers r ++ '}' :: t)))) := by
      simp [dumpsStr]
    obtain ⟨c, s, e, h1, _, _⟩ := dumps_head x hx
    rw [eM, parseMembers]
    rw [parseStr_dumps]
    dsimp only
    rw [skipWs_of_head _ (by intro c hc; simp at hc; subst hc; decide)]
    show (match parseValue f (skipWs (' ' :: _)) with
      | none => none
      | some (v, r) =>
        match skipWs r with
        | '}' :: r' => some ([(k, v)], r')
        | ',' :: r' => (parseMembers f (skipWs r')).map fun (p : List (Str × Json) × Str) => ((k, v) :: p.1, p.2)
        | _ => none) = _
    rw [skipWs_space _ (head_append_cons e _ h1), hV]
    dsimp only
    rw [skipWs_of_head _ (delim_not_space (delim_members r t))]
    cases r with
    | nil => rw [dumpsMembers]; rfl
    | cons p r =>
      obtain ⟨k', y⟩ := p
      rw [Json.WFMembers] at hr
      rw [dumpsMembers] at hf ⊢
      simp only [List.length_append, List.length_cons, List.length_nil] at hf
      have hM := ihM k' y r hr.1 hr.2 t
        (by simp only [List.length_append, List.length_cons, List.length_nil]; omega)
      have eq : [',', ' '] ++ dumpsStr k' ++ [':', ' '] ++ dumps y ++ dumpsMembers r ++ '}' :: t =
          ',' :: ' ' :: (dumpsStr k' ++ [':', ' '] ++ dumps y ++ dumpsMembers r ++ '}' :: t) := by
        simp
      rw [eq]
      show Option.map _ (parseMembers f (skipWs (' ' :: _))) = _
      rw [skipWs_space _ (by intro c hc; simp [dumpsStr] at hc; subst hc; decide), hM]
      rfl

/-- `json.loads(json.dumps(v)) == v` -/
theorem loads_dumps (j : Json) (hw : j.WF) : loads (dumps j) = some j := by
  obtain ⟨c, s, e, h1, _, _⟩ := dumps_head j hw
  have h := (parse_dumps (2 * (dumps j).length + 1)).1 j hw [] (by omega) delim_nil
  rw [List.append_nil] at h
  unfold loads
  rw [skipWs_of_head _ (by rw [e]; intro d hd; simp at hd; exact hd ▸ h1), h]
  rfl

/-- every printed character is ASCII -/
theorem hexLower_ascii (n : Nat) (h : n < 16) : (hexLower n).toNat < 128 := by
  unfold hexLower; split <;> rw [ofNat_toNat' (by omega)] <;> omega

/-- `json.loads(json.dumps(v).encode()) == v` -/
theorem loadsBytes_dumps (j : Json) (hw : j.WF) : loadsBytes (utf8Encode (dumps j)) = some j := by
  unfold loadsBytes
  rw [utf8Decode_encode]
  exact loads_dumps j hw

end Py
