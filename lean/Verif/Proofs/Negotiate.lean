import Verif.Model.Protocol
import Verif.Spec.Negotiate
import Verif.Proofs.Dict
import Verif.Proofs.Int
import Verif.Proofs.Url
/-
Lemmas for compression negotiation.
-/
namespace Conn
open Py Spec

theorem dropWhile_all_append {p : Char → Bool} : ∀ (a s : Str), (∀ c ∈ a, p c = true) →
    (a ++ s).dropWhile p = s.dropWhile p
  | [], _, _ => rfl
  | c :: a, s, h => by
    rw [List.cons_append, List.dropWhile_cons, if_pos (h c (by simp))]
    exact dropWhile_all_append a s (fun c hc => h c (by simp [hc]))

/-- stripping blanks around a text without blanks at its ends -/
theorem strip_padded (l n t : Str) (hl : ∀ c ∈ l, isSpace c = true) (ht : ∀ c ∈ t, isSpace c = true)
    (h1 : ∀ c, n.head? = some c → isSpace c = false) (h2 : ∀ c, n.getLast? = some c → isSpace c = false) :
    strip (l ++ n ++ t) = n := by
  unfold strip lstripBy rstripBy
  rw [List.append_assoc, dropWhile_all_append l _ hl]
  cases n with
  | nil =>
    rw [List.nil_append]
    have : t.dropWhile isSpace = [] := by
      have := dropWhile_all_append (p := isSpace) t [] ht
      simpa using this
    rw [this]; rfl
  | cons c n =>
    have hc : isSpace c = false := h1 c rfl
    rw [List.cons_append, List.dropWhile_cons, if_neg (by simp [hc]), ← List.cons_append, List.reverse_append,
      dropWhile_all_append _ _ (by simpa using ht), dropWhile_of_head _ (by rw [List.head?_reverse]; exact h2), List.reverse_reverse]

theorem mem_text_ne_comma {e : AcceptEntry} (h : e.Ok) : ∀ x ∈ e.lead ++ e.name ++ e.trail, x ≠ ',' := by
  intro x hx
  have hsp : isSpace ',' = false := by decide
  simp only [List.mem_append] at hx
  rcases hx with (hx | hx) | hx
  · rintro rfl; have := h.lead _ hx; rw [hsp] at this; cases this
  · rintro rfl; exact h.comma hx
  · rintro rfl; have := h.trail _ hx; rw [hsp] at this; cases this

theorem split_acceptText : ∀ (es : List AcceptEntry), es ≠ [] → (∀ e ∈ es, e.Ok) →
    split ',' (acceptText es) = es.map fun e => e.lead ++ e.name ++ e.trail
  | [], h, _ => absurd rfl h
  | [e], _, h => by
    rw [acceptText, split_no_sep ',' _ (mem_text_ne_comma (h e (by simp)))]; rfl
  | e :: e' :: r, _, h => by
    rw [acceptText, List.append_assoc _ [','], List.singleton_append,
      split_append_sep ',' _ _ (mem_text_ne_comma (h e (by simp))),
      split_acceptText (e' :: r) (by simp) (fun x hx => h x (by simp [hx]))]
    rfl

theorem negotiateFrom_entries (comps : Dict Str Compression) (es : List AcceptEntry) (h : ∀ e ∈ es, e.Ok) :
    negotiateFrom comps (es.map fun e => e.lead ++ e.name ++ e.trail) =
      ((es.findSome? fun e => comps.get? e.name).getD .identity) := by
  induction es with
  | nil => rfl
  | cons e es ih =>
    have he := h e (by simp)
    rw [List.map_cons, negotiateFrom, strip_padded _ _ _ he.lead he.trail he.first he.last, List.findSome?_cons]
    cases comps.get? e.name with
    | some c => rfl
    | none => exact ih (fun x hx => h x (by simp [hx]))

theorem get?_ofList_aux {V : Type} (l : List (Str × V)) (n : Str) : ∀ (d : Dict Str V),
    (l.foldl (fun d p => d.set p.1 p.2) d).get? n =
      match (l.filter fun p => p.1 = n).getLast? with
      | some p => some p.2
      | none => d.get? n := by
  induction l with
  | nil => intro d; rfl
  | cons p l ih =>
    intro d
    rw [List.foldl_cons, ih, List.filter_cons]
    by_cases hp : p.1 = n
    · rw [if_pos (by simpa using hp)]
      cases hl : (l.filter fun p => p.1 = n).getLast? with
      | some q =>
        have : (p :: l.filter fun p => p.1 = n).getLast? = some q := by
          rw [List.getLast?_cons, hl]; rfl
        rw [this]
      | none =>
        rw [List.getLast?_eq_none_iff] at hl
        rw [hl]
        simp [Dict.get?_set, hp]
    · rw [if_neg (by simpa using hp)]
      cases hl : (l.filter fun p => p.1 = n).getLast? with
      | some q => rfl
      | none => simp [Dict.get?_set, hp]

/-- the registry built by `resolve_compressions` holds exactly the available compressions -/
theorem resolve_get? (gzip : Compression) (cfg : Option (List Compression)) (n : Str) :
    (resolveCompressions gzip cfg).get? n = available gzip cfg n := by
  cases cfg with
  | none =>
    unfold resolveCompressions defaultCompressions available
    by_cases h1 : n = pys! "identity"
    · subst h1; rfl
    · rw [if_neg h1]
      by_cases h2 : n = pys! "gzip"
      · subst h2; rfl
      · rw [if_neg h2]
        simp only [Dict.get?]
        rw [if_neg (Ne.symm h2), if_neg (Ne.symm h1)]
  | some cs =>
    unfold resolveCompressions available
    rw [Dict.get?_set]
    by_cases h1 : n = pys! "identity"
    · subst h1; rfl
    · rw [if_neg h1, if_neg (Ne.symm h1), Dict.ofList, get?_ofList_aux]
      rw [List.filter_map, List.getLast?_map]
      have : ((fun p : Str × Compression => decide (p.1 = n)) ∘ fun c : Compression => (c.name, c)) =
        fun c => decide (c.name = n) := rfl
      rw [this]
      dsimp only
      cases (cs.filter fun c => c.name = n).getLast? <;> rfl

theorem available_name {gzip : Compression} (hg : gzip.name = pys! "gzip") {cfg : Option (List Compression)} {n : Str}
    {c : Compression} (h : available gzip cfg n = some c) : c.name = n := by
  unfold available at h
  split at h
  · rename_i e; cases h; exact e.symm
  · split at h
    · split at h
      · rename_i e; cases h; rw [hg]; exact e.symm
      · cases h
    · have := List.mem_of_getLast? h
      rw [List.mem_filter] at this
      simpa using this.2

theorem available_identity (gzip : Compression) (cfg : Option (List Compression)) :
    available gzip cfg (pys! "identity") = some .identity := by
  unfold available; rw [if_pos rfl]

theorem join_split (c : Char) (s : Str) : join [c] (split c s) = s := by
  induction s with
  | nil => rfl
  | cons x xs ih =>
    rw [split]
    split
    · rename_i hx
      have hx : x = c := by simpa using hx
      cases hs : split c xs with
      | nil => exfalso; cases xs with
        | nil => simp [split] at hs
        | cons y ys =>
          rw [split] at hs
          split at hs
          · cases hs
          · split at hs <;> cases hs
      | cons p ps => rw [hs] at ih; rw [join, ih, hx]; rfl
    · cases hs : split c xs with
      | nil => rw [hs] at ih; simp only [join] at ih; rw [← ih]; rfl
      | cons p ps =>
        rw [hs] at ih
        cases ps with
        | nil => simp only [join] at ih ⊢; rw [ih]
        | cons q qs => simp only [join] at ih ⊢; rw [← ih]; rfl

theorem split_pieces_no_sep (c : Char) (s : Str) : ∀ p ∈ split c s, c ∉ p := by
  induction s with
  | nil => intro p hp; simp [split] at hp; subst hp; simp
  | cons x xs ih =>
    intro p hp
    rw [split] at hp
    split at hp
    · rcases List.mem_cons.1 hp with rfl | hp
      · simp
      · exact ih p hp
    · rename_i hx
      have hx : x ≠ c := by simpa using hx
      split at hp
      · simp at hp; subst hp; simp [Ne.symm hx]
      · rename_i q qs hs
        rcases List.mem_cons.1 hp with rfl | hp
        · have := ih q (by rw [hs]; simp)
          simp [Ne.symm hx, this]
        · exact ih p (by rw [hs]; simp [hp])

end Conn
