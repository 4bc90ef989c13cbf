import Verif.Proofs.Int
import Verif.Proofs.HeaderOps
import Verif.Spec.Client
/-
Lemmas about media types (`normalize_content_type`).
-/
namespace Conn
open Py Spec

theorem dropWhile_head {p : Char → Bool} : ∀ (s : Str) c, (s.dropWhile p).head? = some c → p c = false
  | [], c, h => by simp at h
  | x :: s, c, h => by
    rw [List.dropWhile_cons] at h
    by_cases e : p x = true
    · rw [if_pos e] at h; exact dropWhile_head s c h
    · rw [if_neg e] at h
      simp only [List.head?_cons, Option.some.injEq] at h
      subst h; simpa using e

theorem rstripBy_prefix (p : Char → Bool) (s : Str) : rstripBy p s <+: s := by
  unfold rstripBy
  have : s.reverse.dropWhile p <:+ s.reverse := List.dropWhile_suffix p
  have := List.reverse_prefix.2 this
  simpa using this

theorem strip_head (s : Str) (c : Char) (h : (strip s).head? = some c) : isSpace c = false := by
  unfold strip at h
  obtain ⟨t, ht⟩ := rstripBy_prefix isSpace (lstripBy isSpace s)
  have : (lstripBy isSpace s).head? = some c := by
    rw [← ht]
    cases hr : rstripBy isSpace (lstripBy isSpace s) with
    | nil => rw [hr] at h; simp at h
    | cons x r => rw [hr] at h; simpa using h
  exact dropWhile_head _ _ this

theorem strip_last (s : Str) (c : Char) (h : (strip s).getLast? = some c) : isSpace c = false := by
  unfold strip rstripBy at h
  rw [List.getLast?_reverse] at h
  exact dropWhile_head _ _ h

theorem strip_subset (s : Str) : ∀ c ∈ strip s, c ∈ s := by
  intro c hc
  have h1 := (rstripBy_prefix isSpace (lstripBy isSpace s)).subset hc
  exact (List.dropWhile_suffix isSpace).subset h1

theorem lowerChar_cases (c : Char) : lowerChar c = c ∨ (65 ≤ c.toNat ∧ c.toNat ≤ 90 ∧ (lowerChar c).toNat = c.toNat + 32) := by
  unfold lowerChar
  by_cases h : 'A' ≤ c ∧ c ≤ 'Z'
  · right
    rw [if_pos h]
    have h1 : 65 ≤ c.toNat := h.1
    have h2 : c.toNat ≤ 90 := h.2
    refine ⟨h1, h2, ?_⟩
    have h3 : (c.toNat + 32).isValidChar := Or.inl (by omega)
    rw [Char.ofNat, dif_pos h3]
    rfl
  · left; rw [if_neg h]

theorem lowerChar_space (c : Char) (h : isSpace c = false) : isSpace (lowerChar c) = false := by
  rcases lowerChar_cases c with e | ⟨h1, h2, h3⟩
  · rw [e]; exact h
  · unfold isSpace
    rw [h3]
    have : ∀ n, 65 ≤ n → n ≤ 90 → ((9 ≤ n + 32 && n + 32 ≤ 13) || (28 ≤ n + 32 && n + 32 ≤ 32) || n + 32 == 0x85 || n + 32 == 0xa0 ||
      n + 32 == 0x1680 || (0x2000 ≤ n + 32 && n + 32 ≤ 0x200a) || n + 32 == 0x2028 || n + 32 == 0x2029 || n + 32 == 0x202f ||
      n + 32 == 0x205f || n + 32 == 0x3000) = false := by
      intro n a b
      simp; omega
    exact this _ h1 h2

theorem lowerChar_ne_semi (c : Char) (h : c ≠ ';') : lowerChar c ≠ ';' := by
  rcases lowerChar_cases c with e | ⟨h1, h2, h3⟩
  · rw [e]; exact h
  · intro e
    rw [e] at h3
    have : (';' : Char).toNat = 59 := rfl
    omega

theorem takeWhile_self {p : Char → Bool} : ∀ (s : Str), (∀ c ∈ s, p c = true) → s.takeWhile p = s
  | [], _ => rfl
  | c :: s, h => by
    rw [List.takeWhile_cons, if_pos (h c (by simp)), takeWhile_self s fun c hc => h c (by simp [hc])]

theorem mediaType_idem (v : Str) : mediaType (mediaType v) = mediaType v := by
  have hns : ∀ c ∈ mediaType v, c ≠ ';' := by
    intro c hc
    unfold mediaType lower at hc
    rw [List.mem_map] at hc
    obtain ⟨x, hx, rfl⟩ := hc
    have hx := strip_subset _ _ hx
    apply lowerChar_ne_semi
    rintro rfl
    have h := List.all_takeWhile (p := (· != ';')) (l := v)
    rw [List.all_eq_true] at h
    have := h _ hx
    simp at this
  have h1 : (mediaType v).takeWhile (· != ';') = mediaType v := by
    exact takeWhile_self _ fun c hc => by simpa using hns c hc
  have h2 : strip (mediaType v) = mediaType v := by
    apply strip_of_ends
    · intro c hc
      unfold mediaType lower at hc
      rw [List.head?_map] at hc
      cases h : (strip (v.takeWhile (· != ';'))).head? with
      | none => rw [h] at hc; simp at hc
      | some x =>
        rw [h] at hc; simp only [Option.map_some, Option.some.injEq] at hc
        subst hc; exact lowerChar_space x (strip_head _ _ h)
    · intro c hc
      unfold mediaType lower at hc
      rw [List.getLast?_map] at hc
      cases h : (strip (v.takeWhile (· != ';'))).getLast? with
      | none => rw [h] at hc; simp at hc
      | some x =>
        rw [h] at hc; simp only [Option.map_some, Option.some.injEq] at hc
        subst hc; exact lowerChar_space x (strip_last _ _ h)
  have h3 : lower (mediaType v) = mediaType v := Headers.lower_idem _
  calc mediaType (mediaType v) = lower (strip ((mediaType v).takeWhile (· != ';'))) := rfl
    _ = mediaType v := by rw [h1, h2, h3]

/-- the content type of a unary response is accepted iff its media type is `application/<codec>` -/
theorem connectValidate_ok (codecName : Str) (v : Str) :
    connectValidateResponse codecName 200 v = none ↔ mediaType v = pys! "application/" ++ codecName := by
  unfold connectValidateResponse
  dsimp only
  have hm : normalizeContentType v = mediaType v := rfl
  rw [if_neg (by simp), hm]
  have hn : connectCodecName (mediaType v) false =
      if startsWith (pys! "application/") (mediaType v) then (mediaType v).drop (pys! "application/").length else mediaType v := by
    unfold connectCodecName
    have : normalizeContentType (mediaType v) = mediaType v := mediaType_idem v
    rw [this]; rfl
  by_cases h : startsWith (pys! "application/") (mediaType v) = true
  · have hp : pys! "application/" <+: mediaType v := List.isPrefixOf_iff_prefix.1 h
    obtain ⟨n, hn'⟩ := hp
    rw [if_neg (by simpa using h), hn, if_pos h, ← hn', List.drop_left]
    constructor
    · intro h'
      by_cases e : n = codecName
      · rw [e]
      · rw [if_neg e] at h'; cases h'
    · intro e; rw [if_pos (List.append_cancel_left e)]
  · rw [if_pos h]
    constructor
    · intro h'; cases h'
    · intro hn
      exact absurd (List.isPrefixOf_iff_prefix.2 ⟨codecName, hn.symm⟩) h

end Conn
