import Verif.Model.Headers
import Verif.Spec.Multimap
import Verif.Proofs.Dict
/- Refinement of `Headers` to the ordered multimap of `Spec.Multimap`. -/
namespace Conn.Headers
open Py Spec

theorem lower_eq_foldCase (s : Str) : lower s = foldCase s := by
  unfold lower foldCase
  apply List.map_congr_left
  intro c _
  unfold lowerChar
  have h1 : ('A' ≤ c) ↔ c.toNat ≥ 65 := by
    rw [Char.le_def, UInt32.le_iff_toNat_le]; rfl
  have h2 : (c ≤ 'Z') ↔ c.toNat ≤ 90 := by
    rw [Char.le_def, UInt32.le_iff_toNat_le]; rfl
  simp only [h1, h2]

/-- duplicates stored for a key -/
def extraOf (h : Headers) (k : Str) : List Str :=
  match h.extra with
  | none => []
  | some e => match e.get? k with
    | none => []
    | some l => l

/-- abstraction map -/
def abs (h : Headers) : Multimap := h.store.map fun p => (p.1, p.2 :: h.extraOf p.1)

structure Inv (h : Headers) : Prop where
  nodup : h.store.keys.Nodup
  low : ∀ k ∈ h.store.keys, foldCase k = k
  enodup : ∀ e, h.extra = some e → e.keys.Nodup
  esub : ∀ e, h.extra = some e → ∀ k ∈ e.keys, k ∈ h.store.keys

theorem inv_empty : Inv empty := by
  constructor <;> simp [empty]

@[simp] theorem abs_empty : abs empty = [] := rfl

theorem foldCase_idem_char (c : Char) :
    (fun c : Char => if c.toNat ≥ 65 ∧ c.toNat ≤ 90 then Char.ofNat (c.toNat + 32) else c)
      (if c.toNat ≥ 65 ∧ c.toNat ≤ 90 then Char.ofNat (c.toNat + 32) else c)
    = if c.toNat ≥ 65 ∧ c.toNat ≤ 90 then Char.ofNat (c.toNat + 32) else c := by
  by_cases h : c.toNat ≥ 65 ∧ c.toNat ≤ 90
  · have hv : (c.toNat + 32).isValidChar := by left; omega
    have ht : (Char.ofNat (c.toNat + 32)).toNat = c.toNat + 32 := by
      unfold Char.ofNat; rw [dif_pos hv]; exact UInt32.toNat_ofNatLT ..
    simp only [h, if_true, and_self]
    have : ¬ ((Char.ofNat (c.toNat + 32)).toNat ≥ 65 ∧ (Char.ofNat (c.toNat + 32)).toNat ≤ 90) := by
      rw [ht]; omega
    simp [this]
  · simp [h]

theorem foldCase_idem (s : Str) : foldCase (foldCase s) = foldCase s := by
  unfold foldCase
  rw [List.map_map]
  apply List.map_congr_left
  intro c _
  exact foldCase_idem_char c

theorem present_abs (h : Headers) (k : Str) : (abs h).present k ↔ lower k ∈ h.store.keys := by
  unfold Multimap.present abs
  rw [lower_eq_foldCase, List.map_map]
  rfl

theorem contains_eq (h : Headers) (k : Str) : h.contains k = decide ((abs h).present k) := by
  rw [Bool.eq_iff_iff, decide_eq_true_iff, present_abs, contains, Dict.contains_iff]

theorem filter_abs_of_nodup {d : Dict Str Str} (hn : d.keys.Nodup) (f : Str → List Str) (k : Str) :
    ((d.map fun p => (p.1, p.2 :: f p.1)).filter fun e => e.1 = k).flatMap (·.2) =
      match d.get? k with
      | none => []
      | some v => v :: f k := by
  induction d with
  | nil => simp [Dict.get?]
  | cons p r ih =>
    obtain ⟨k', v⟩ := p
    simp only [Dict.keys_cons, List.nodup_cons] at hn
    by_cases h : k' = k
    · subst h
      have hr : Dict.get? r k' = none := (Dict.get?_eq_none_iff _ _).2 hn.1
      have := ih hn.2
      rw [hr] at this
      simp [Dict.get?, this]
    · simp [Dict.get?, h, ih hn.2]

theorem valuesOf_abs {h : Headers} (hi : Inv h) (k : Str) : (abs h).valuesOf k = h.getall k := by
  unfold Multimap.valuesOf abs
  rw [filter_abs_of_nodup hi.nodup h.extraOf (foldCase k)]
  unfold getall extraOf
  simp only [lower_eq_foldCase]
  cases hg : h.store.get? (foldCase k) with
  | none => rfl
  | some v =>
    cases h.extra with
    | none => rfl
    | some e => cases he : e.get? (foldCase k) <;> simp [he]

theorem head?_getall (h : Headers) (k : Str) : (h.getall k).head? = h.getItem k := by
  unfold getall getItem
  dsimp only
  cases hg : h.store.get? (lower k) with
  | none => rfl
  | some v =>
    cases h.extra with
    | none => rfl
    | some e => cases he : e.get? (lower k) <;> simp [he]

theorem valuesOf_head? {h : Headers} (hi : Inv h) (k : Str) : ((abs h).valuesOf k).head? = h.getItem k := by
  rw [valuesOf_abs hi, head?_getall]

theorem getItem_isSome (h : Headers) (k : Str) : (h.getItem k).isSome ↔ lower k ∈ h.store.keys := by
  rw [getItem, Dict.get?_isSome_iff]

/-! `h[k] = v` -/

theorem extraOf_setItem {h : Headers} (hi : Inv h) (k v k' : Str) :
    (h.setItem k v).extraOf k' = if lower k = k' then [] else h.extraOf k' := by
  unfold extraOf setItem
  cases he : h.extra with
  | none => simp
  | some e =>
    simp only [Option.map_some, Dict.get?_erase (hi.enodup e he)]
    by_cases hk : lower k = k' <;> simp [hk]

theorem inv_setItem {h : Headers} (hi : Inv h) (k v : Str) : Inv (h.setItem k v) := by
  constructor
  · exact Dict.nodup_set hi.nodup _ _
  · intro k' hk'
    simp only [setItem, Dict.keys_set] at hk'
    split at hk'
    · exact hi.low k' hk'
    · simp only [List.mem_append, List.mem_singleton] at hk'
      rcases hk' with hk' | rfl
      · exact hi.low k' hk'
      · rw [lower_eq_foldCase, foldCase_idem]
  · intro e he
    simp only [setItem, Option.map_eq_some_iff] at he
    obtain ⟨e', he', rfl⟩ := he
    exact Dict.nodup_erase (hi.enodup e' he') _
  · intro e he k' hk'
    simp only [setItem, Option.map_eq_some_iff] at he
    obtain ⟨e', he', rfl⟩ := he
    have := hi.esub e' he' k' (Dict.mem_keys_of_mem_erase hk')
    simp only [setItem, Dict.keys_set]
    split
    · exact this
    · simp [this]

theorem abs_setItem {h : Headers} (hi : Inv h) (k v : Str) : abs (h.setItem k v) = (abs h).assign k v := by
  unfold Multimap.assign
  by_cases hp : lower k ∈ h.store.keys
  · rw [if_pos ((present_abs h k).2 hp)]
    unfold abs
    have : (h.setItem k v).store = h.store.set (lower k) v := rfl
    rw [this, Dict.set_of_mem hi.nodup hp, List.map_map, List.map_map]
    apply List.map_congr_left
    intro p hp'
    simp only [Function.comp, extraOf_setItem hi, ← lower_eq_foldCase]
    by_cases hk : p.1 = lower k
    · simp [hk]
    · simp [hk, Ne.symm hk]
  · rw [if_neg (fun h' => hp ((present_abs h k).1 h'))]
    unfold abs
    have : (h.setItem k v).store = h.store.set (lower k) v := rfl
    rw [this, Dict.set_of_not_mem hp, List.map_append]
    congr 1
    · apply List.map_congr_left
      intro p hp'
      have : lower k ≠ p.1 := by
        intro h'; exact hp (h' ▸ List.mem_map.mpr ⟨p, hp', rfl⟩)
      simp [extraOf_setItem hi, this]
    · simp [extraOf_setItem hi, lower_eq_foldCase]

/-! `add` -/

theorem appendExtra_get? (e : Dict Str (List Str)) (k v k' : Str) :
    (appendExtra e k v).get? k' =
      if k = k' then some ((match e.get? k with | none => [] | some l => l) ++ [v]) else e.get? k' := by
  unfold appendExtra
  cases he : e.get? k with
  | none => simp [Dict.get?_set]
  | some l => simp [Dict.get?_set]

theorem appendExtra_keys (e : Dict Str (List Str)) (k v : Str) :
    (appendExtra e k v).keys = if k ∈ e.keys then e.keys else e.keys ++ [k] := by
  unfold appendExtra
  cases he : e.get? k <;> simp [Dict.keys_set]

theorem appendExtra_nodup {e : Dict Str (List Str)} (hn : e.keys.Nodup) (k v : Str) :
    (appendExtra e k v).keys.Nodup := by
  unfold appendExtra
  cases he : e.get? k <;> exact Dict.nodup_set hn _ _

theorem extraOf_add {h : Headers} (k v k' : Str) (hm : lower k ∈ h.store.keys) :
    (h.add k v).extraOf k' = if lower k = k' then h.extraOf k' ++ [v] else h.extraOf k' := by
  unfold add
  rw [if_pos ((Dict.contains_iff _ _).2 hm)]
  unfold extraOf
  cases he : h.extra with
  | none =>
    simp only [appendExtra_get?, Dict.get?]
    by_cases hk : lower k = k' <;> simp [hk]
  | some e =>
    simp only [appendExtra_get?]
    by_cases hk : lower k = k'
    · subst hk; simp
    · simp [hk]

theorem inv_add {h : Headers} (hi : Inv h) (k v : Str) : Inv (h.add k v) := by
  by_cases hm : lower k ∈ h.store.keys
  · have ha : h.add k v = { h with extra := some (appendExtra (match h.extra with | none => [] | some e => e) (lower k) v) } := by
      unfold add; rw [if_pos ((Dict.contains_iff _ _).2 hm)]; rfl
    rw [ha]
    constructor
    · exact hi.nodup
    · exact hi.low
    · intro e he
      simp only [Option.some.injEq] at he
      subst he
      apply appendExtra_nodup
      cases he : h.extra with
      | none => simp
      | some e => exact hi.enodup e he
    · intro e he k' hk'
      simp only [Option.some.injEq] at he
      subst he
      rw [appendExtra_keys] at hk'
      have hsub : ∀ k' ∈ Dict.keys (match h.extra with | none => [] | some e => e), k' ∈ h.store.keys := by
        cases he : h.extra with
        | none => simp
        | some e => exact hi.esub e he
      generalize (match h.extra with | none => [] | some e => e : Dict Str (List Str)) = E at hk' hsub
      split at hk'
      · exact hsub k' hk'
      · simp only [List.mem_append, List.mem_singleton] at hk'
        rcases hk' with hk' | rfl
        · exact hsub k' hk'
        · exact hm
  · have ha : h.add k v = { h with store := h.store.set (lower k) v } := by
      unfold add; rw [if_neg (fun h' => hm ((Dict.contains_iff _ _).1 h'))]
    rw [ha]
    constructor
    · exact Dict.nodup_set hi.nodup _ _
    · intro k' hk'
      simp only [Dict.keys_set, hm, if_false, List.mem_append, List.mem_singleton] at hk'
      rcases hk' with hk' | rfl
      · exact hi.low k' hk'
      · rw [lower_eq_foldCase, foldCase_idem]
    · exact hi.enodup
    · intro e he k' hk'
      simp only [Dict.keys_set, hm, if_false, List.mem_append]
      exact Or.inl (hi.esub e he k' hk')

theorem extraOf_of_not_mem {h : Headers} (hi : Inv h) {k : Str} (hm : k ∉ h.store.keys) : h.extraOf k = [] := by
  unfold extraOf
  cases he : h.extra with
  | none => rfl
  | some e =>
    have : e.get? k = none := (Dict.get?_eq_none_iff _ _).2 (fun h' => hm (hi.esub e he k h'))
    simp [this]

theorem abs_add {h : Headers} (hi : Inv h) (k v : Str) : abs (h.add k v) = (abs h).append k v := by
  unfold Multimap.append
  by_cases hm : lower k ∈ h.store.keys
  · rw [if_pos ((present_abs h k).2 hm)]
    unfold abs
    have hs : (h.add k v).store = h.store := by
      unfold add; rw [if_pos ((Dict.contains_iff _ _).2 hm)]
    rw [hs, List.map_map]
    apply List.map_congr_left
    intro p hp'
    simp only [Function.comp, extraOf_add k v _ hm, ← lower_eq_foldCase]
    by_cases hk : p.1 = lower k
    · simp [hk]
    · simp [hk, Ne.symm hk]
  · rw [if_neg (fun h' => hm ((present_abs h k).1 h'))]
    have ha : h.add k v = { h with store := h.store.set (lower k) v } := by
      unfold add; rw [if_neg (fun h' => hm ((Dict.contains_iff _ _).1 h'))]
    rw [ha]
    unfold abs
    simp only [Dict.set_of_not_mem hm, List.map_append, List.map_cons, List.map_nil]
    congr 1
    have : extraOf { store := h.store ++ [(lower k, v)], extra := h.extra } (lower k) = h.extraOf (lower k) := rfl
    rw [this, extraOf_of_not_mem hi hm, lower_eq_foldCase]

/-! `del` -/

theorem delItem_eq_none (h : Headers) (k : Str) : h.delItem k = none ↔ lower k ∉ h.store.keys := by
  unfold delItem
  by_cases hm : lower k ∈ h.store.keys
  · simp [(Dict.contains_iff _ _).2 hm, hm]
  · simp [(Dict.contains_false_iff _ _).2 hm, hm]

theorem delItem_some {h : Headers} {k : Str} (hm : lower k ∈ h.store.keys) :
    h.delItem k = some { store := h.store.erase (lower k), extra := h.extra.map (·.erase (lower k)) } := by
  unfold delItem
  simp [(Dict.contains_iff _ _).2 hm]

theorem inv_delItem {h h' : Headers} (hi : Inv h) {k : Str} (hd : h.delItem k = some h') : Inv h' := by
  have hm : lower k ∈ h.store.keys := by
    by_cases hm : lower k ∈ h.store.keys
    · exact hm
    · rw [(delItem_eq_none h k).2 hm] at hd; cases hd
  rw [delItem_some hm] at hd
  cases hd
  constructor
  · exact Dict.nodup_erase hi.nodup _
  · intro k' hk'; exact hi.low k' (Dict.mem_keys_of_mem_erase hk')
  · intro e he
    simp only [Option.map_eq_some_iff] at he
    obtain ⟨e', he', rfl⟩ := he
    exact Dict.nodup_erase (hi.enodup e' he') _
  · intro e he k' hk'
    simp only [Option.map_eq_some_iff] at he
    obtain ⟨e', he', rfl⟩ := he
    rw [Dict.keys_erase (hi.enodup e' he'), List.mem_filter] at hk'
    simp only [Dict.keys_erase hi.nodup, List.mem_filter]
    exact ⟨hi.esub e' he' k' hk'.1, hk'.2⟩

theorem abs_delItem {h h' : Headers} (hi : Inv h) {k : Str} (hd : h.delItem k = some h') :
    abs h' = (abs h).remove k := by
  have hm : lower k ∈ h.store.keys := by
    by_cases hm : lower k ∈ h.store.keys
    · exact hm
    · rw [(delItem_eq_none h k).2 hm] at hd; cases hd
  rw [delItem_some hm] at hd
  cases hd
  unfold abs Multimap.remove
  rw [Dict.erase_eq_filter hi.nodup, List.filter_map, ← lower_eq_foldCase]
  apply List.map_congr_left
  intro p hp
  simp only [List.mem_filter, decide_not, Bool.not_eq_eq_eq_not, Bool.not_true, decide_eq_false_iff_not] at hp
  simp only [Prod.mk.injEq, true_and, List.cons.injEq]
  unfold extraOf
  cases he : h.extra with
  | none => rfl
  | some e => simp [Dict.get?_erase (hi.enodup e he), Ne.symm hp.2]

/-! reading -/

theorem firsts_abs (h : Headers) : (abs h).firsts = h.items := by
  unfold abs Multimap.firsts items
  rw [List.filterMap_map]
  induction h.store with
  | nil => rfl
  | cons p r ih => simp [ih]

theorem pairs_abs (h : Headers) : (abs h).pairs = h.allitems := by
  unfold abs Multimap.pairs allitems
  cases he : h.extra with
  | none =>
    simp only [extraOf, he]
    induction h.store with
    | nil => rfl
    | cons p r ih => simp [ih]
  | some e =>
    simp only [allItemsIter, extraOf, he]
    induction h.store with
    | nil => rfl
    | cons p r ih =>
      simp only [List.map_cons, List.flatMap_cons, ih, List.cons_append, List.cons.injEq, true_and]
      congr 1
      cases e with
      | nil => simp [Dict.get?]
      | cons q e => cases Dict.get? (q :: e) p.1 <;> simp

theorem sum_zero {l : List Nat} (h : ∀ a ∈ l, a = 0) : l.sum = 0 := by
  induction l with
  | nil => rfl
  | cons a l ih =>
    have ha := h a (by simp)
    have := ih (fun b hb => h b (by simp [hb]))
    simp only [List.sum_cons]; omega

theorem sum_indicator {K : List Str} (hn : K.Nodup) {k : Str} (hk : k ∈ K) (c : Nat) :
    (K.map fun x => if x = k then c else 0).sum = c := by
  induction K with
  | nil => simp at hk
  | cons x K ih =>
    simp only [List.nodup_cons] at hn
    simp only [List.map_cons, List.sum_cons]
    by_cases hx : x = k
    · subst hx
      have : (K.map fun y => if y = x then c else 0).sum = 0 := by
        apply sum_zero
        intro a ha
        simp only [List.mem_map] at ha
        obtain ⟨y, hy, rfl⟩ := ha
        have : y ≠ x := by rintro rfl; exact hn.1 hy
        simp [this]
      simp [this]
    · simp only [hx, if_false, Nat.zero_add]
      exact ih hn.2 (by simpa [Ne.symm hx] using hk)

theorem sum_add (K : List Str) (f g : Str → Nat) :
    (K.map fun x => f x + g x).sum = (K.map f).sum + (K.map g).sum := by
  induction K with
  | nil => rfl
  | cons x K ih => simp only [List.map_cons, List.sum_cons, ih]; omega

theorem extra_sum {K : List Str} (hK : K.Nodup) {e : Dict Str (List Str)} (he : e.keys.Nodup)
    (hs : ∀ k ∈ e.keys, k ∈ K) :
    (e.values.map List.length).sum =
      (K.map fun k => (match e.get? k with | none => [] | some l => l).length).sum := by
  induction e with
  | nil =>
    simp only [Dict.values, List.map_nil, List.sum_nil, Dict.get?, List.length_nil]
    symm; apply sum_zero; intro a ha; simp at ha; exact ha.2.symm
  | cons p e ih =>
    obtain ⟨k, l⟩ := p
    simp only [Dict.keys_cons, List.nodup_cons] at he
    have hk : k ∈ K := hs k (by simp)
    have ih' := ih he.2 (fun k' hk' => hs k' (by simp [hk']))
    have hnone : Dict.get? e k = none := (Dict.get?_eq_none_iff _ _).2 he.1
    have hpt : ∀ x ∈ K, (match Dict.get? ((k, l) :: e) x with | none => [] | some l => l).length =
        (match Dict.get? e x with | none => [] | some l => l).length + (if x = k then l.length else 0) := by
      intro x _
      by_cases hx : x = k
      · subst hx; simp [Dict.get?, hnone]
      · simp [Dict.get?, hx, Ne.symm hx]
    rw [List.map_congr_left hpt, sum_add, sum_indicator hK hk, ← ih']
    simp [Dict.values]; omega

theorem pairs_length (m : Multimap) : m.pairs.length = (m.map fun e => e.2.length).sum := by
  unfold Multimap.pairs
  induction m with
  | nil => rfl
  | cons p r ih => simp [ih]

theorem allitemsLen_eq {h : Headers} (hi : Inv h) : h.allitemsLen = (abs h).pairs.length := by
  rw [pairs_length]
  unfold allitemsLen abs
  rw [List.map_map]
  cases he : h.extra with
  | none =>
    simp only [Function.comp_def, extraOf, he, List.length_cons, List.length_nil]
    induction h.store with
    | nil => rfl
    | cons p r ih => simp [← ih]; omega
  | some e =>
    have hsum := extra_sum hi.nodup (hi.enodup e he) (hi.esub e he)
    have hiff : (if e.isEmpty then 0 else (e.values.map List.length).sum) = (e.values.map List.length).sum := by
      cases e <;> simp [Dict.values]
    dsimp only
    rw [hiff]
    simp only [hsum, Function.comp_def, extraOf, he, List.length_cons]
    have : ∀ d : Dict Str Str, d.length + (List.map (fun k => (match e.get? k with | none => [] | some l => l).length) d.keys).sum =
        (List.map (fun x : Str × Str => (match e.get? x.1 with | none => [] | some l => l).length + 1) d).sum := by
      intro d
      induction d with
      | nil => rfl
      | cons p r ih => simp only [Dict.keys_cons, List.map_cons, List.sum_cons, List.length_cons, ← ih]; omega
    exact this h.store

theorem abs_tail {h : Headers} {k : Str} {r : List Str} (hi : Inv h) (hk : h.store.keys = k :: r) :
    (abs h).remove k = (abs h).tail := by
  have hlow : foldCase k = k := hi.low k (by simp [hk])
  have hn := hi.nodup
  cases hs : h.store with
  | nil => simp [hs] at hk
  | cons p d =>
    rw [hs] at hk hn
    simp only [Dict.keys_cons, List.cons.injEq] at hk
    simp only [Dict.keys_cons, List.nodup_cons] at hn
    obtain ⟨rfl, rfl⟩ := hk
    unfold abs Multimap.remove
    rw [hs, List.map_cons, List.tail_cons, List.filter_cons_of_neg (by simp [hlow]), List.filter_eq_self]
    intro a ha
    simp only [List.mem_map] at ha
    obtain ⟨q, hq, rfl⟩ := ha
    simp only [hlow, decide_not, Bool.not_eq_eq_eq_not, Bool.not_true, decide_eq_false_iff_not]
    rintro h'
    exact hn.1 (h' ▸ List.mem_map.mpr ⟨q, hq, rfl⟩)

theorem inv_update {h : Headers} (hi : Inv h) (l : List (Str × Str)) : Inv (h.update l) := by
  unfold update
  induction l generalizing h with
  | nil => exact hi
  | cons p l ih => exact ih (inv_setItem hi _ _)

theorem abs_update {h : Headers} (hi : Inv h) (l : List (Str × Str)) :
    abs (h.update l) = l.foldl (fun m p => m.assign p.1 p.2) (abs h) := by
  unfold update
  induction l generalizing h with
  | nil => rfl
  | cons p l ih => simp only [List.foldl_cons]; rw [← abs_setItem hi, ih (inv_setItem hi _ _)]

theorem inv_ofPairs_from {h : Headers} (hi : Inv h) (l : List (Str × Str)) :
    Inv (l.foldl (fun h p => h.add p.1 p.2) h) := by
  induction l generalizing h with
  | nil => exact hi
  | cons p l ih => exact ih (inv_add hi _ _)

theorem abs_ofPairs_from {h : Headers} (hi : Inv h) (l : List (Str × Str)) :
    abs (l.foldl (fun h p => h.add p.1 p.2) h) = l.foldl (fun m p => m.append p.1 p.2) (abs h) := by
  induction l generalizing h with
  | nil => rfl
  | cons p l ih => simp only [List.foldl_cons]; rw [← abs_add hi, ih (inv_add hi _ _)]

theorem ofMapping_eq_update (l : List (Str × Str)) : ofMapping l = empty.update l := by
  unfold ofMapping update Dict.ofList empty
  rw [List.foldl_map]
  have : ∀ d : Dict Str Str, (⟨l.foldl (fun d p => d.set (lower p.1) p.2) d, none⟩ : Headers) =
      l.foldl (fun h p => h.setItem p.1 p.2) ⟨d, none⟩ := by
    induction l with
    | nil => intro d; rfl
    | cons p l ih => intro d; simp only [List.foldl_cons]; rw [ih]; rfl
  exact this []

theorem inv_ofMapping (l : List (Str × Str)) : Inv (ofMapping l) := by
  rw [ofMapping_eq_update]; exact inv_update inv_empty l

theorem inv_ofPairs (l : List (Str × Str)) : Inv (ofPairs l) := inv_ofPairs_from inv_empty l

end Conn.Headers
