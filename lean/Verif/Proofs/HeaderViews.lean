import Verif.Spec.HeaderViews
/-
Lemmas for C86.
-/
namespace Proofs.HeaderViews
open Conn Py Spec Props

theorem headersAfter_append (h : Headers) (a b : List HOp) : headersAfter h (a ++ b) = headersAfter (headersAfter h a) b := by
  induction a generalizing h with
  | nil => rfl
  | cons op a ih => exact ih _

theorem setItem_extra {h : Headers} (hs : h.extra.isSome) (k v : Str) : (h.setItem k v).extra.isSome := by
  unfold Headers.setItem
  simpa using hs

theorem delItem_extra {h h' : Headers} (hs : h.extra.isSome) {k : Str} (hd : h.delItem k = some h') : h'.extra.isSome := by
  unfold Headers.delItem at hd
  dsimp only at hd
  split at hd
  · cases hd; simpa using hs
  · cases hd

theorem pop_extra {h h' : Headers} (hs : h.extra.isSome) {k v : Str} (hd : h.pop k = some (v, h')) : h'.extra.isSome := by
  unfold Headers.pop at hd
  cases hg : h.getItem k with
  | none => rw [hg] at hd; cases hd
  | some w =>
    rw [hg] at hd
    dsimp only at hd
    cases he : h.delItem k with
    | none => rw [he] at hd; cases hd
    | some x => rw [he] at hd; cases hd; exact delItem_extra hs he

/-- no method but `clear` drops the second dictionary -/
theorem call_extra {h : Headers} (hs : h.extra.isSome) {op : HOp} (hc : op ≠ .clear) : (headersCall h op).2.extra.isSome := by
  cases op with
  | clear => exact absurd rfl hc
  | setItem k v => exact setItem_extra hs k v
  | add k v =>
    show (h.add k v).extra.isSome
    unfold Headers.add
    dsimp only
    split
    · rfl
    · exact hs
  | delItem k =>
    unfold headersCall
    dsimp only
    cases he : h.delItem k with
    | none => exact hs
    | some x => exact delItem_extra hs he
  | pop k =>
    unfold headersCall
    dsimp only
    cases he : h.pop k with
    | none => exact hs
    | some x => obtain ⟨v, x⟩ := x; exact pop_extra hs he
  | popDefault k d =>
    unfold headersCall
    dsimp only
    cases he : h.pop k with
    | none => exact hs
    | some x => obtain ⟨v, x⟩ := x; exact pop_extra hs he
  | popitem =>
    unfold headersCall
    dsimp only
    unfold Headers.popitem
    cases h.iter with
    | nil => exact hs
    | cons k r =>
      dsimp only
      cases h.getItem k with
      | none => exact hs
      | some v =>
        dsimp only
        cases he : h.delItem k with
        | none => exact hs
        | some x => exact delItem_extra hs he
  | setdefault k d =>
    show (h.setdefault k d).2.extra.isSome
    unfold Headers.setdefault
    cases h.getItem k with
    | none => exact setItem_extra hs k d
    | some v => exact hs
  | update l =>
    show (h.update l).extra.isSome
    unfold Headers.update
    induction l generalizing h with
    | nil => exact hs
    | cons p l ih => exact ih (setItem_extra hs _ _) (fun h => by cases h)
  | getItem k => unfold headersCall; dsimp only; cases h.getItem k <;> exact hs
  | getDefault k d => exact hs
  | getall k => exact hs
  | contains k => exact hs
  | len => exact hs
  | iter => exact hs
  | items => exact hs
  | values => exact hs
  | allitems => exact hs
  | allitemsLen => exact hs
  | truthy => exact hs

theorem view_go (v : AllView) {h : Headers} {later : List HOp} (hc : HOp.clear ∉ later) :
    viewAfter.go v h later = (v, headersAfter h later) ∧ (h.extra.isSome → (headersAfter h later).extra.isSome) := by
  induction later generalizing h with
  | nil => exact ⟨rfl, id⟩
  | cons op later ih =>
    have hop : op ≠ .clear := fun e => hc (by rw [e]; exact List.mem_cons_self)
    obtain ⟨h1, h2⟩ := ih (h := (headersCall h op).2) (fun hm => hc (List.mem_cons_of_mem _ hm))
    refine ⟨?_, fun hs => h2 (call_extra hs hop)⟩
    unfold viewAfter.go
    cases op <;> first | exact absurd rfl hop | exact h1

theorem view_shared {h : Headers} (hs : h.extra.isSome) :
    AllView.iter h (.both none) = h.allitems ∧ AllView.len h (.both none) = h.allitemsLen := by
  unfold AllView.iter AllView.len Headers.allitems Headers.allitemsLen
  cases he : h.extra with
  | none => rw [he] at hs; cases hs
  | some e => exact ⟨rfl, rfl⟩

theorem repeats_extra {h : Headers} (hr : Repeats h.abs) : h.extra.isSome := by
  obtain ⟨e, he, hl⟩ := hr
  obtain ⟨p, _, rfl⟩ := List.mem_map.mp he
  unfold Headers.extraOf at hl
  cases hx : h.extra with
  | none => rw [hx] at hl; simp at hl
  | some x => rfl

theorem firsts_pairs {m : Multimap} (hw : ∀ e ∈ m, e.2 ≠ []) (hr : ¬ Repeats m) : m.firsts = m.pairs := by
  induction m with
  | nil => rfl
  | cons e m ih =>
    obtain ⟨k, vs⟩ := e
    have h1 := hw (k, vs) List.mem_cons_self
    have h2 : ¬ 2 ≤ vs.length := fun h => hr ⟨_, List.mem_cons_self, h⟩
    have ih := ih (fun e he => hw e (List.mem_cons_of_mem _ he)) (fun ⟨e, he, hl⟩ => hr ⟨e, List.mem_cons_of_mem _ he, hl⟩)
    cases vs with
    | nil => exact absurd rfl h1
    | cons v vs =>
      cases vs with
      | nil =>
        show (k, v) :: Multimap.firsts m = (k, v) :: Multimap.pairs m
        rw [ih]
      | cons w vs => exact absurd (by simp) h2

theorem subset_of_length {α : Type} [DecidableEq α] {a b : List α} (hn : a.Nodup) (hs : ∀ x ∈ a, x ∈ b) (hl : b.length ≤ a.length) : ∀ x ∈ b, x ∈ a := by
  induction a generalizing b with
  | nil =>
    intro x hx
    cases b with
    | nil => exact hx
    | cons y b => simp at hl
  | cons y a ih =>
    rw [List.nodup_cons] at hn
    have hy : y ∈ b := hs y List.mem_cons_self
    intro x hx
    by_cases e : x = y
    · rw [e]; exact List.mem_cons_self
    · refine List.mem_cons_of_mem _ (ih (b := b.erase y) hn.2 (fun z hz => ?_) ?_ x ((List.mem_erase_of_ne e).mpr hx))
      · exact (List.mem_erase_of_ne (fun e' => hn.1 (by rw [← e']; exact hz))).mpr (hs z (List.mem_cons_of_mem _ hz))
      · rw [List.length_erase_of_mem hy]
        simp only [List.length_cons] at hl
        omega

/-- dictionaries are equal when every key has the same value -/
theorem eqDict_iff {a b : Dict Str Str} (ha : a.keys.Nodup) (hb : b.keys.Nodup) : Headers.eqDict a b = true ↔ ∀ k, a.get? k = b.get? k := by
  unfold Headers.eqDict
  simp only [Bool.and_eq_true, beq_iff_eq, List.all_eq_true]
  constructor
  · rintro ⟨hl, h⟩ k
    cases hk : a.get? k with
    | some v => exact (h (k, v) (Dict.get?_some_mem hk)).symm
    | none =>
      cases hk' : b.get? k with
      | none => rfl
      | some v =>
        have hsub : ∀ x ∈ a.keys, x ∈ b.keys := by
          intro x hx
          obtain ⟨p, hp, rfl⟩ := List.mem_map.mp hx
          exact (Dict.get?_isSome_iff b p.1).mp (by rw [h p hp]; rfl)
        have : k ∈ a.keys := subset_of_length ha hsub (by simp only [Dict.keys, List.length_map]; omega) k
          ((Dict.get?_isSome_iff b k).mp (by rw [hk']; rfl))
        exact absurd this ((Dict.get?_eq_none_iff a k).mp hk)
  · intro h
    have hab : ∀ x, x ∈ a.keys ↔ x ∈ b.keys := by
      intro x
      rw [← Dict.get?_isSome_iff, ← Dict.get?_isSome_iff, h x]
    refine ⟨?_, fun p hp => ?_⟩
    · have h1 : a.keys.length ≤ b.keys.length := by
        rcases Nat.le_total a.keys.length b.keys.length with h' | h'
        · exact h'
        · exact Nat.le_of_eq (le_antisymm_len ha hb hab)
      have h2 : b.keys.length ≤ a.keys.length := Nat.le_of_eq (le_antisymm_len hb ha (fun x => (hab x).symm))
      simp only [Dict.keys, List.length_map] at h1 h2
      omega
    · rw [← h]
      exact Dict.get?_of_mem ha hp
where
  le_antisymm_len {a b : List Str} (ha : a.Nodup) (hb : b.Nodup) (h : ∀ x, x ∈ a ↔ x ∈ b) : a.length = b.length := by
    have := (List.perm_ext_iff_of_nodup ha hb).mpr h
    exact this.length_eq

end Proofs.HeaderViews
