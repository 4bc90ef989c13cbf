import Verif.Model.Protocol
import Verif.Proofs.Headers
import Verif.Spec.Fields
/-
Reading headers after updates, key by key.
-/
namespace Conn
open Py Spec
namespace Headers

theorem getall_eq (h : Headers) (k : Str) :
    h.getall k = match h.store.get? (lower k) with
      | none => []
      | some v => v :: h.extraOf (lower k) := by
  unfold getall extraOf
  dsimp only
  cases h.store.get? (lower k) with
  | none => rfl
  | some v =>
    cases he : h.extra with
    | none => rfl
    | some e => cases hg : e.get? (lower k) <;> simp [hg]

theorem getall_congr {h : Headers} {k k' : Str} (e : lower k = lower k') : h.getall k = h.getall k' := by
  rw [getall_eq, getall_eq, e]

theorem getItem_eq (h : Headers) (k : Str) : h.getItem k = (h.getall k).head? := (head?_getall h k).symm

theorem get_eq (h : Headers) (k : Str) : h.get k = (h.getall k).head? := (head?_getall h k).symm

theorem getD_eq (h : Headers) (k d : Str) : h.getD k d = ((h.getall k).head?).getD d := by
  unfold getD; rw [getItem_eq]; cases (h.getall k).head? <;> rfl

theorem contains_iff_getall (h : Headers) (k : Str) : h.contains k = true ↔ h.getall k ≠ [] := by
  unfold contains
  rw [getall_eq]
  unfold Dict.contains
  cases h.store.get? (lower k) <;> simp

@[simp] theorem getall_empty (k : Str) : empty.getall k = [] := rfl

theorem getall_setItem {h : Headers} (hi : Inv h) (k v k' : Str) :
    (h.setItem k v).getall k' = if lower k = lower k' then [v] else h.getall k' := by
  rw [getall_eq, getall_eq, extraOf_setItem hi]
  have : (h.setItem k v).store = h.store.set (lower k) v := rfl
  rw [this, Dict.get?_set]
  by_cases e : lower k = lower k' <;> simp [e]

theorem getall_add {h : Headers} (hi : Inv h) (k v k' : Str) :
    (h.add k v).getall k' = if lower k = lower k' then h.getall k' ++ [v] else h.getall k' := by
  rw [getall_eq, getall_eq]
  by_cases hm : lower k ∈ h.store.keys
  · have hs : (h.add k v).store = h.store := by
      unfold add; rw [if_pos ((Dict.contains_iff _ _).2 hm)]
    rw [hs, extraOf_add _ _ _ hm]
    by_cases e : lower k = lower k'
    · rw [if_pos e, if_pos e]
      have : (h.store.get? (lower k')).isSome := by rw [Dict.get?_isSome_iff, ← e]; exact hm
      obtain ⟨v', hv'⟩ := Option.isSome_iff_exists.1 this
      simp [hv']
    · rw [if_neg e, if_neg e]
  · have ha : h.add k v = { h with store := h.store.set (lower k) v } := by
      unfold add; rw [if_neg (by simpa using fun h' => hm ((Dict.contains_iff _ _).1 h'))]
    have he : (h.add k v).extraOf (lower k') = h.extraOf (lower k') := by rw [ha]; rfl
    have hs : (h.add k v).store = h.store.set (lower k) v := by rw [ha]
    rw [he, hs, Dict.get?_set]
    by_cases e : lower k = lower k'
    · rw [if_pos e, if_pos e, ← e, (Dict.get?_eq_none_iff _ _).2 hm, extraOf_of_not_mem hi hm]
      rfl
    · rw [if_neg e, if_neg e]

theorem popDiscard_eq (h : Headers) (k : Str) :
    h.popDiscard k = if lower k ∈ h.store.keys then
      { store := h.store.erase (lower k), extra := h.extra.map (·.erase (lower k)) } else h := by
  unfold popDiscard pop
  by_cases hm : lower k ∈ h.store.keys
  · obtain ⟨v, hv⟩ := Option.isSome_iff_exists.1 ((getItem_isSome h k).2 hm)
    simp [hv, delItem_some hm, hm]
  · have : h.getItem k = none := by
      cases hg : h.getItem k with
      | none => rfl
      | some v => exact absurd ((getItem_isSome h k).1 (by simp [hg])) hm
    simp [this, hm]

theorem inv_popDiscard {h : Headers} (hi : Inv h) (k : Str) : Inv (h.popDiscard k) := by
  rw [popDiscard_eq]
  split
  · rename_i hm
    exact inv_delItem hi (delItem_some hm)
  · exact hi

theorem getall_popDiscard {h : Headers} (hi : Inv h) (k k' : Str) :
    (h.popDiscard k).getall k' = if lower k = lower k' then [] else h.getall k' := by
  rw [popDiscard_eq]
  by_cases hm : lower k ∈ h.store.keys
  · rw [if_pos hm, getall_eq, getall_eq]
    dsimp only
    rw [Dict.get?_erase hi.nodup]
    by_cases hne : lower k = lower k'
    · simp [hne]
    · rw [if_neg hne, if_neg hne]
      have : extraOf { store := Dict.erase h.store (lower k), extra := h.extra.map (·.erase (lower k)) } (lower k') =
          h.extraOf (lower k') := by
        unfold extraOf
        cases he : h.extra with
        | none => rfl
        | some e => simp [Dict.get?_erase (hi.enodup e he), hne]
      rw [this]
  · rw [if_neg hm]
    split
    · rename_i e
      rw [getall_eq, ← e, (Dict.get?_eq_none_iff _ _).2 hm]
    · rfl

theorem getall_foldl_add (l : List (Str × Str)) : ∀ {h : Headers}, Inv h → ∀ k,
    (l.foldl (fun h p => h.add p.1 p.2) h).getall k =
      h.getall k ++ (l.filter fun p => lower p.1 = lower k).map (·.2) := by
  induction l with
  | nil => intro h _ k; simp
  | cons p l ih =>
    intro h hi k
    rw [List.foldl_cons, ih (inv_add hi _ _), getall_add hi, List.filter_cons]
    by_cases e : lower p.1 = lower k <;> simp [e]

theorem inv_foldl_add (l : List (Str × Str)) : ∀ {h : Headers}, Inv h → Inv (l.foldl (fun h p => h.add p.1 p.2) h) := by
  induction l with
  | nil => intro h hi; exact hi
  | cons p l ih => intro h hi; exact ih (inv_add hi _ _)

theorem getall_ofPairs (l : List (Str × Str)) (k : Str) :
    (ofPairs l).getall k = (l.filter fun p => lower p.1 = lower k).map (·.2) := by
  unfold ofPairs
  rw [getall_foldl_add l inv_empty]; simp

theorem lower_idem (s : Str) : lower (lower s) = lower s := by
  rw [lower_eq_foldCase, lower_eq_foldCase, foldCase_idem]

/-- every name in `allitems` is in lower case -/
theorem allitems_low {h : Headers} (hi : Inv h) : ∀ p ∈ h.allitems, lower p.1 = p.1 := by
  intro p hp
  rw [← pairs_abs, Multimap.pairs, List.mem_flatMap] at hp
  obtain ⟨e, he, hp⟩ := hp
  rw [List.mem_map] at hp
  obtain ⟨v, _, rfl⟩ := hp
  unfold abs at he
  rw [List.mem_map] at he
  obtain ⟨q, hq, rfl⟩ := he
  dsimp only
  rw [lower_eq_foldCase]
  exact hi.low _ (List.mem_map.2 ⟨q, hq, rfl⟩)

theorem filter_pairs (m : Multimap) (k : Str) :
    (m.pairs.filter fun p => p.1 = foldCase k).map (·.2) = m.valuesOf k := by
  unfold Multimap.pairs Multimap.valuesOf
  induction m with
  | nil => rfl
  | cons e m ih =>
    rw [List.flatMap_cons, List.filter_append, List.map_append, ih, List.filter_cons]
    by_cases he : e.1 = foldCase k
    · simp [he, List.filter_map, Function.comp_def]
    · simp [he, List.filter_map, Function.comp_def]

theorem getall_allitems {h : Headers} (hi : Inv h) (k : Str) :
    (h.allitems.filter fun p => lower p.1 = lower k).map (·.2) = h.getall k := by
  rw [← valuesOf_abs hi, ← filter_pairs, pairs_abs]
  congr 1
  apply List.filter_congr
  intro p hp
  rw [allitems_low hi p hp, lower_eq_foldCase]

theorem getall_copy {h : Headers} (hi : Inv h) (k : Str) : (ofPairs h.allitems).getall k = h.getall k := by
  rw [getall_ofPairs, getall_allitems hi]

end Headers

open Headers

theorem Headers.getall_update (l : List (Str × Str)) : ∀ {h : Headers}, Inv h → ∀ k,
    (h.update l).getall k = match (fieldValues l k).getLast? with
      | some v => [v]
      | none => h.getall k := by
  induction l with
  | nil => intro h _ k; rfl
  | cons p l ih =>
    intro h hi k
    have := ih (inv_setItem hi p.1 p.2) k
    unfold update at this ⊢
    rw [List.foldl_cons, this, getall_setItem hi]
    unfold fieldValues
    rw [List.filter_cons]
    by_cases e : lower p.1 = lower k
    · rw [if_pos e, if_pos (decide_eq_true e), List.map_cons, List.getLast?_cons]
      cases ((l.filter fun p => lower p.1 = lower k).map (·.2)).getLast? <;> rfl
    · rw [if_neg e, if_neg (by simpa using e)]

/-- the client's copy says what the caller gave -/
theorem UserHeaders.getall_given (u : UserHeaders) (k : Str) : u.copy.getall k = given u k := by
  cases u with
  | headers h => exact getall_ofPairs _ k
  | mapping l =>
    show (ofMapping l).getall k = _
    rw [ofMapping_eq_update, getall_update l inv_empty]
    show _ = (fieldValues l k).getLast?.toList
    cases (fieldValues l k).getLast? <;> rfl
  | none => rfl

theorem UserHeaders.inv_copy (u : UserHeaders) : Inv u.copy := by
  cases u with
  | headers h => exact inv_ofPairs _
  | mapping l => exact inv_ofMapping _
  | none => exact inv_empty

theorem Headers.inv_setIfAbsent {h : Headers} (hi : Inv h) (k v : Str) : Inv (h.setIfAbsent k v) := by
  unfold setIfAbsent; split
  · exact hi
  · exact inv_setItem hi _ _

theorem Headers.inv_setOrDrop {h : Headers} (hi : Inv h) (k : Str) (o : Option Str) : Inv (h.setOrDrop k o) := by
  cases o with
  | some v => exact inv_setItem hi _ _
  | none => exact inv_popDiscard hi _

theorem Headers.inv_setIfSome {h : Headers} (hi : Inv h) (k : Str) (o : Option Str) : Inv (h.setIfSome k o) := by
  cases o with
  | some v => exact inv_setItem hi _ _
  | none => exact hi

theorem Headers.getall_setIfAbsent {h : Headers} (hi : Inv h) (k v k' : Str) :
    (h.setIfAbsent k v).getall k' =
      if lower k = lower k' then (if h.getall k' = [] then [v] else h.getall k') else h.getall k' := by
  unfold setIfAbsent
  by_cases hc : h.contains k = true
  · rw [if_pos hc]
    split
    · rename_i e
      have := (contains_iff_getall h k).1 hc
      rw [getall_congr e] at this
      simp [this]
    · rfl
  · rw [if_neg hc, getall_setItem hi]
    split
    · rename_i e
      have : h.getall k = [] := by
        by_cases h' : h.getall k = []
        · exact h'
        · exact absurd ((contains_iff_getall h k).2 h') hc
      rw [getall_congr e] at this
      simp [this]
    · rfl

theorem Headers.getall_setOrDrop {h : Headers} (hi : Inv h) (k : Str) (o : Option Str) (k' : Str) :
    (h.setOrDrop k o).getall k' = if lower k = lower k' then o.toList else h.getall k' := by
  cases o with
  | some v => exact getall_setItem hi k v k'
  | none => exact getall_popDiscard hi k k'

theorem Headers.getall_setIfSome {h : Headers} (hi : Inv h) (k : Str) (o : Option Str) (k' : Str) :
    (h.setIfSome k o).getall k' = if lower k = lower k' ∧ o.isSome then o.toList else h.getall k' := by
  cases o with
  | some v => simpa [setIfSome] using getall_setItem hi k v k'
  | none => simp [setIfSome]

/-! the pairs of other names stay as they are -/

namespace Headers
variable {own : List Str}

theorem kept_assign (m : Multimap) (k v : Str) (hk : foldCase k ∈ own) :
    (m.assign k v).pairs.filter (fun q => q.1 ∉ own) = m.pairs.filter (fun q => q.1 ∉ own) := by
  have key : ∀ vs : List Str, ((vs.map fun v => (foldCase k, v)).filter fun q => q.1 ∉ own) = [] := by
    intro vs
    rw [List.filter_eq_nil_iff]
    intro q hq
    obtain ⟨_, _, rfl⟩ := List.mem_map.1 hq
    simpa using hk
  unfold Multimap.assign
  split
  · rename_i hpr; clear hpr
    induction m with
    | nil => rfl
    | cons e m ih =>
      unfold Multimap.pairs at ih ⊢
      rw [List.map_cons, List.flatMap_cons, List.flatMap_cons, List.filter_append, List.filter_append, ih]
      congr 1
      split
      · rename_i he
        rw [he, key, key]
      · rfl
  · unfold Multimap.pairs
    rw [List.flatMap_append, List.filter_append]
    have := key [v]
    simp only [List.flatMap_cons, List.flatMap_nil, List.append_nil]
    rw [this, List.append_nil]

theorem kept_remove (m : Multimap) (k : Str) (hk : foldCase k ∈ own) :
    (m.remove k).pairs.filter (fun q => q.1 ∉ own) = m.pairs.filter (fun q => q.1 ∉ own) := by
  unfold Multimap.remove Multimap.pairs
  induction m with
  | nil => rfl
  | cons e m ih =>
    rw [List.filter_cons]
    by_cases he : e.1 = foldCase k
    · rw [if_neg (by simpa using he), ih, List.flatMap_cons, List.filter_append]
      have : ((e.2.map fun v => (e.1, v)).filter fun q => q.1 ∉ own) = [] := by
        rw [List.filter_eq_nil_iff]
        intro q hq
        obtain ⟨_, _, rfl⟩ := List.mem_map.1 hq
        simpa [he] using hk
      rw [this, List.nil_append]
    · rw [if_pos (by simpa using he), List.flatMap_cons, List.flatMap_cons, List.filter_append, List.filter_append, ih]

theorem kept_setItem {h : Headers} (hi : Inv h) {k v : Str} (hk : lower k ∈ own) :
    (h.setItem k v).allitems.filter (fun q => q.1 ∉ own) = h.allitems.filter (fun q => q.1 ∉ own) := by
  rw [← pairs_abs, ← pairs_abs, abs_setItem hi, kept_assign _ _ _ (by rw [← lower_eq_foldCase]; exact hk)]

theorem kept_popDiscard {h : Headers} (hi : Inv h) {k : Str} (hk : lower k ∈ own) :
    (h.popDiscard k).allitems.filter (fun q => q.1 ∉ own) = h.allitems.filter (fun q => q.1 ∉ own) := by
  unfold popDiscard pop
  cases h.getItem k with
  | none => rfl
  | some v =>
    cases hd : h.delItem k with
    | none => rfl
    | some h' =>
      dsimp only
      rw [← pairs_abs, ← pairs_abs, abs_delItem hi hd, kept_remove _ _ (by rw [← lower_eq_foldCase]; exact hk)]

theorem kept_setIfAbsent {h : Headers} (hi : Inv h) {k v : Str} (hk : lower k ∈ own ∨ h.contains k = true) :
    (h.setIfAbsent k v).allitems.filter (fun q => q.1 ∉ own) = h.allitems.filter (fun q => q.1 ∉ own) := by
  unfold setIfAbsent
  split
  · rfl
  · rename_i hc
    exact kept_setItem hi (hk.resolve_right hc)

theorem kept_setOrDrop {h : Headers} (hi : Inv h) {k : Str} {o : Option Str} (hk : lower k ∈ own) :
    (h.setOrDrop k o).allitems.filter (fun q => q.1 ∉ own) = h.allitems.filter (fun q => q.1 ∉ own) := by
  cases o with
  | none => exact kept_popDiscard hi hk
  | some v => exact kept_setItem hi hk

theorem kept_setIfSome {h : Headers} (hi : Inv h) {k : Str} {o : Option Str} (hk : o = none ∨ lower k ∈ own) :
    (h.setIfSome k o).allitems.filter (fun q => q.1 ∉ own) = h.allitems.filter (fun q => q.1 ∉ own) := by
  cases o with
  | none => rfl
  | some v => exact kept_setItem hi (hk.resolve_left nofun)

end Headers

/-- what the client's headers answer for each name -/
theorem connectClientHeaders_getall (ua : Str) (user : UserHeaders) (t : Option Int) (codec : Str) (stream : Bool)
    (accept : Str) (send : Option Compression) (k : Str) :
    (connectClientHeaders ua user t codec stream accept send).getall k =
      if lower (pys! "connect-timeout-ms") = lower k ∧ t.isSome then (t.map intStr).toList
      else if lower (pys! "content-type") = lower k then [Proto.requestContentType .connect stream codec]
      else if lower (Proto.requestEncodingHeader .connect stream) = lower k then (send.map (·.name)).toList
      else if lower (Proto.acceptEncodingHeader .connect stream) = lower k then [accept]
      else if lower (pys! "connect-protocol-version") = lower k then [pys! "1"]
      else if lower (pys! "user-agent") = lower k then (if given user k = [] then [ua] else given user k)
      else given user k := by
  have h0 := user.inv_copy
  have h1 := inv_setIfAbsent h0 (pys! "user-agent") ua
  have h2 := inv_setItem h1 (pys! "connect-protocol-version") (pys! "1")
  have h3 := inv_setItem h2 (Proto.acceptEncodingHeader .connect stream) accept
  have h4 := inv_setOrDrop h3 (Proto.requestEncodingHeader .connect stream) (send.map (·.name))
  have h5 := inv_setItem h4 (pys! "content-type") (Proto.requestContentType .connect stream codec)
  unfold connectClientHeaders
  dsimp only
  rw [getall_setIfSome h5, getall_setItem h4, getall_setOrDrop h3, getall_setItem h2, getall_setItem h1,
    getall_setIfAbsent h0, Option.isSome_map, UserHeaders.getall_given]

theorem grpcClientHeaders_getall (p : Proto) (ua : Str) (user : UserHeaders) (t : Option Int) (codec : Str) (stream : Bool)
    (accept : Str) (send : Option Compression) (k : Str) :
    (grpcClientHeaders p ua user t codec stream accept send).getall k =
      if lower (pys! "grpc-timeout") = lower k ∧ t.isSome then (t.map serializeTimeout).toList
      else if lower (pys! "content-type") = lower k then [p.requestContentType stream codec]
      else if lower (pys! "grpc-encoding") = lower k then (send.map (·.name)).toList
      else if lower (pys! "grpc-accept-encoding") = lower k then [accept]
      else if lower (pys! "user-agent") = lower k ∧ lower (pys! "te") ≠ lower k then
        (if given user k = [] then [ua] else given user k)
      else if lower (pys! "te") = lower k then [pys! "trailers"]
      else given user k := by
  have h0 := user.inv_copy
  have h1 := inv_setItem h0 (pys! "te") (pys! "trailers")
  have h2 := inv_setIfAbsent h1 (pys! "user-agent") ua
  have h3 := inv_setItem h2 (pys! "grpc-accept-encoding") accept
  have h4 := inv_setOrDrop h3 (pys! "grpc-encoding") (send.map (·.name))
  have h5 := inv_setItem h4 (pys! "content-type") (p.requestContentType stream codec)
  unfold grpcClientHeaders
  dsimp only
  rw [getall_setIfSome h5, getall_setItem h4, getall_setOrDrop h3, getall_setItem h2, getall_setIfAbsent h1,
    getall_setItem h0, Option.isSome_map, UserHeaders.getall_given]
  by_cases hte : lower (pys! "te") = lower k
  · have : lower (pys! "user-agent") ≠ lower k := by rw [← hte]; decide
    simp [hte, this]
  · simp [hte]

theorem inv_connectClientHeaders (ua : Str) (user : UserHeaders) (t : Option Int) (codec : Str) (stream : Bool)
    (accept : Str) (send : Option Compression) : Inv (connectClientHeaders ua user t codec stream accept send) :=
  inv_setIfSome (inv_setItem (inv_setOrDrop (inv_setItem (inv_setItem (inv_setIfAbsent user.inv_copy _ _) _ _) _ _) _ _) _ _) _ _

theorem inv_grpcClientHeaders (p : Proto) (ua : Str) (user : UserHeaders) (t : Option Int) (codec : Str) (stream : Bool)
    (accept : Str) (send : Option Compression) : Inv (grpcClientHeaders p ua user t codec stream accept send) :=
  inv_setIfSome (inv_setItem (inv_setOrDrop (inv_setItem (inv_setIfAbsent (inv_setItem user.inv_copy _ _) _ _) _ _) _ _) _ _) _ _

theorem Proto.inv_clientHeaders (p : Proto) (ua : Str) (user : UserHeaders) (t : Option Int) (codec : Str) (stream : Bool)
    (accept : Str) (send : Option Compression) : Inv (p.clientHeaders ua user t codec stream accept send) := by
  cases p
  · exact inv_connectClientHeaders ..
  · exact inv_grpcClientHeaders ..
  · exact inv_grpcClientHeaders ..

end Conn
