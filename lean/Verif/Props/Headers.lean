import Verif.Proofs.Headers
/-
C01 — `Headers` is a case-insensitive ordered multimap.
C02 — copying headers keeps every value.
Specification: `Verif/Spec/Multimap.lean`.
-/
namespace Props
open Py Spec Conn

/-- One API call on a `Headers` object: what it returns and the object afterwards (`_headers.py:42-122` and the
`MutableMapping` mixins). -/
def headersCall (h : Headers) : HOp → HOut × Headers
  | .setItem k v => (.unit, h.setItem k v)
  | .add k v => (.unit, h.add k v)
  | .delItem k => match h.delItem k with
    | some h' => (.unit, h')
    | none => (.keyError, h)
  | .pop k => match h.pop k with
    | some (v, h') => (.str v, h')
    | none => (.keyError, h)
  | .popDefault k d => match h.pop k with
    | some (v, h') => (.str v, h')
    | none => (.str d, h)
  | .popitem => match h.popitem with
    | some (p, h') => (.pair p, h')
    | none => (.keyError, h)
  | .setdefault k d => let r := h.setdefault k d; (.str r.1, r.2)
  | .update l => (.unit, h.update l)
  | .clear => (.unit, h.clear)
  | .getItem k => match h.getItem k with
    | some v => (.str v, h)
    | none => (.keyError, h)
  | .getDefault k d => (.str (h.getD k d), h)
  | .getall k => (.strs (h.getall k), h)
  | .contains k => (.bool (h.contains k), h)
  | .len => (.nat h.len, h)
  | .iter => (.strs h.iter, h)
  | .items => (.pairs h.items, h)
  | .values => (.strs h.values, h)
  | .allitems => (.pairs h.allitems, h)
  | .allitemsLen => (.nat h.allitemsLen, h)
  | .truthy => (.bool h.truthy, h)

/-- Outputs of a history of calls on one object. -/
def headersRun : Headers → List HOp → List HOut
  | _, [] => []
  | h, op :: ops => (headersCall h op).1 :: headersRun (headersCall h op).2 ops

/-- The object after a history of calls. -/
def headersAfter : Headers → List HOp → Headers
  | h, [] => h
  | h, op :: ops => headersAfter (headersCall h op).2 ops

theorem headersCall_refines {h : Headers} (hi : h.Inv) (op : HOp) :
    (headersCall h op).1 = (op.spec h.abs).1 ∧ (headersCall h op).2.abs = (op.spec h.abs).2 ∧
      (headersCall h op).2.Inv := by
  have hpop : ∀ k, (h.pop k = none ↔ h.getItem k = none) ∧
      ∀ v h', h.pop k = some (v, h') → h.getItem k = some v ∧ h.delItem k = some h' := by
    intro k
    unfold Headers.pop
    cases hg : h.getItem k with
    | none => simp
    | some v =>
      have hm : lower k ∈ h.store.keys := (Headers.getItem_isSome h k).1 (by simp [hg])
      simp [Headers.delItem_some hm]
  have hv := Headers.valuesOf_head? hi
  cases op with
  | setItem k v => exact ⟨rfl, Headers.abs_setItem hi k v, Headers.inv_setItem hi k v⟩
  | add k v => exact ⟨rfl, Headers.abs_add hi k v, Headers.inv_add hi k v⟩
  | delItem k =>
    simp only [headersCall, HOp.spec, Headers.present_abs]
    cases hd : h.delItem k with
    | none =>
      have := (Headers.delItem_eq_none h k).1 hd
      simp [this, hi]
    | some h' =>
      have hm : lower k ∈ h.store.keys := by
        by_cases hm : lower k ∈ h.store.keys
        · exact hm
        · rw [(Headers.delItem_eq_none h k).2 hm] at hd; cases hd
      simp [hm, Headers.abs_delItem hi hd, Headers.inv_delItem hi hd]
  | pop k =>
    simp only [headersCall, HOp.spec, hv]
    cases hp : h.pop k with
    | none => simp [((hpop k).1).1 hp, hi]
    | some r =>
      obtain ⟨v, h'⟩ := r
      obtain ⟨h1, h2⟩ := (hpop k).2 v h' hp
      simp [h1, Headers.abs_delItem hi h2, Headers.inv_delItem hi h2]
  | popDefault k d =>
    simp only [headersCall, HOp.spec, hv]
    cases hp : h.pop k with
    | none => simp [((hpop k).1).1 hp, hi]
    | some r =>
      obtain ⟨v, h'⟩ := r
      obtain ⟨h1, h2⟩ := (hpop k).2 v h' hp
      simp [h1, Headers.abs_delItem hi h2, Headers.inv_delItem hi h2]
  | popitem =>
    simp only [headersCall, HOp.spec, Headers.firsts_abs, Headers.popitem, Headers.iter, Headers.items]
    cases hs : h.store with
    | nil => simp [hi]
    | cons p r =>
      obtain ⟨k, v⟩ := p
      have hk : h.store.keys = k :: Dict.keys r := by rw [hs]; rfl
      have hlow : lower k = k := by rw [Headers.lower_eq_foldCase]; exact hi.low k (by simp [hk])
      have hg : h.getItem k = some v := by
        unfold Headers.getItem; rw [hlow, hs]; simp [Dict.get?]
      have hm : lower k ∈ h.store.keys := by rw [hlow, hk]; simp
      have hd := Headers.delItem_some hm
      simp only [Dict.keys_cons, hg]
      rw [hd]
      refine ⟨rfl, ?_, Headers.inv_delItem hi hd⟩
      rw [Headers.abs_delItem hi hd, Headers.abs_tail hi hk]
  | setdefault k d =>
    simp only [headersCall, HOp.spec, hv, Headers.setdefault]
    cases hg : h.getItem k with
    | none => simp [Headers.abs_setItem hi, Headers.inv_setItem hi]
    | some v => simp [hi]
  | update l => exact ⟨rfl, Headers.abs_update hi l, Headers.inv_update hi l⟩
  | clear => exact ⟨rfl, rfl, Headers.inv_empty⟩
  | getItem k =>
    simp only [headersCall, HOp.spec, hv]
    cases hg : h.getItem k <;> simp [hi]
  | getDefault k d =>
    simp only [headersCall, HOp.spec, hv, Headers.getD]
    cases hg : h.getItem k <;> simp [hi]
  | getall k => simp [headersCall, HOp.spec, Headers.valuesOf_abs hi, hi]
  | contains k => simp [headersCall, HOp.spec, Headers.contains_eq, hi]
  | len => simp [headersCall, HOp.spec, Headers.len, Headers.abs, hi]
  | iter => simp [headersCall, HOp.spec, Headers.iter, Headers.abs, Dict.keys, hi]
  | items => simp [headersCall, HOp.spec, Headers.firsts_abs, hi]
  | values => simp [headersCall, HOp.spec, Headers.firsts_abs, Headers.values, Dict.values, Headers.items, hi]
  | allitems => simp [headersCall, HOp.spec, Headers.pairs_abs, hi]
  | allitemsLen => simp [headersCall, HOp.spec, Headers.allitemsLen_eq hi, hi]
  | truthy =>
    simp only [headersCall, HOp.spec, Headers.truthy, Headers.len, Headers.abs, and_true, hi]
    rcases h with ⟨s, e⟩
    cases s <;> simp

/-- **C01** (fresh object): any history of API calls on `Headers()` returns exactly what the ordered
case-insensitive multimap returns. -/
theorem C01_headers_multimap (ops : List HOp) :
    headersRun Headers.empty ops = HOp.specRun [] ops := by
  have key : ∀ (h : Headers), h.Inv → headersRun h ops = HOp.specRun h.abs ops := by
    induction ops with
    | nil => intros; rfl
    | cons op ops ih =>
      intro h hi
      obtain ⟨h1, h2, h3⟩ := headersCall_refines hi op
      simp only [headersRun, HOp.specRun, h1, ih _ h3, h2]
  exact key _ Headers.inv_empty

theorem headersRun_of_inv {h : Headers} (hi : h.Inv) (ops : List HOp) :
    headersRun h ops = HOp.specRun h.abs ops := by
  induction ops generalizing h with
  | nil => rfl
  | cons op ops ih =>
    obtain ⟨h1, h2, h3⟩ := headersCall_refines hi op
    simp only [headersRun, HOp.specRun, h1, ih h3, h2]

theorem headersAfter_inv {h : Headers} (hi : h.Inv) (ops : List HOp) : (headersAfter h ops).Inv := by
  induction ops generalizing h with
  | nil => exact hi
  | cons op ops ih => exact ih (headersCall_refines hi op).2.2

/-- **C01** (objects built from a mapping): as if every pair had been assigned to an empty multimap, in order. -/
theorem C01_headers_from_mapping (items : List (Str × Str)) (ops : List HOp) :
    headersRun (Headers.ofMapping items) ops =
      HOp.specRun (items.foldl (fun m p => m.assign p.1 p.2) []) ops := by
  rw [headersRun_of_inv (Headers.inv_ofMapping items), Headers.ofMapping_eq_update, Headers.abs_update Headers.inv_empty]
  rfl

/-- **C01** (objects built from pairs): as if every pair had been appended to an empty multimap, in order. -/
theorem C01_headers_from_pairs (items : List (Str × Str)) (ops : List HOp) :
    headersRun (Headers.ofPairs items) ops =
      HOp.specRun (items.foldl (fun m p => m.append p.1 p.2) []) ops := by
  rw [headersRun_of_inv (Headers.inv_ofPairs items), Headers.ofPairs, Headers.abs_ofPairs_from Headers.inv_empty]
  rfl

/-- non-vacuity / reading check: a history that exercises duplicates, replacement and deletion. -/
example : headersRun Headers.empty
    [.add (pys! "A") (pys! "1"), .add (pys! "a") (pys! "2"), .allitems, .setItem (pys! "a") (pys! "3"), .getall (pys! "A")]
    = [.unit, .unit, .pairs [(pys! "a", pys! "1"), (pys! "a", pys! "2")], .unit, .strs [pys! "3"]] := by decide

/-- specification sanity: names stay distinct and lower-case and values non-empty along every history. -/
theorem C01_reachable_wellformed (ops : List HOp) :
    let m := (headersAfter Headers.empty ops).abs
    (m.map (·.1)).Nodup ∧ ∀ e ∈ m, foldCase e.1 = e.1 ∧ e.2 ≠ [] := by
  have hi := headersAfter_inv Headers.inv_empty ops
  generalize headersAfter Headers.empty ops = h at hi
  refine ⟨?_, ?_⟩
  · have : (h.abs.map (·.1)) = h.store.keys := by simp [Headers.abs, Dict.keys]
    rw [this]; exact hi.nodup
  · intro e he
    simp only [Headers.abs, List.mem_map] at he
    obtain ⟨p, hp, rfl⟩ := he
    exact ⟨hi.low _ (List.mem_map.mpr ⟨p, hp, rfl⟩), by simp⟩

theorem append_other_entry (m : Multimap) (hn : (m.map (·.1)).Nodup) (k : Str) (hk : foldCase k = k)
    (hp : k ∉ m.map (·.1)) (v : Str) (vs : List Str) :
    (vs.map fun v => (k, v)).foldl (fun m p => m.append p.1 p.2) (m ++ [(k, [v])]) = m ++ [(k, v :: vs)] := by
  have : ∀ (pre : List Str), vs.foldl (fun m v => m.append k v) (m ++ [(k, v :: pre)]) = m ++ [(k, (v :: pre) ++ vs)] := by
    induction vs with
    | nil => simp
    | cons w vs ih =>
      intro pre
      have hstep : Multimap.append (m ++ [(k, v :: pre)]) k w = m ++ [(k, v :: (pre ++ [w]))] := by
        unfold Multimap.append
        rw [if_pos (by unfold Multimap.present; simp [hk]), List.map_append, hk]
        congr 1
        · have : ∀ e ∈ m, (if e.1 = k then (e.1, e.2 ++ [w]) else e) = id e := by
            intro e he
            have : e.1 ≠ k := by rintro rfl; exact hp (List.mem_map.mpr ⟨e, he, rfl⟩)
            simp [this]
          rw [List.map_congr_left this, List.map_id]
        · simp
      simp only [List.foldl_cons]
      rw [hstep, ih]
      simp
  rw [List.foldl_map]
  exact this []

theorem rebuild (m m₀ : Multimap) (hn : ((m₀ ++ m).map (·.1)).Nodup)
    (hw : ∀ e ∈ m, foldCase e.1 = e.1 ∧ e.2 ≠ []) :
    m.pairs.foldl (fun m p => m.append p.1 p.2) m₀ = m₀ ++ m := by
  induction m generalizing m₀ with
  | nil => simp [Multimap.pairs]
  | cons e m ih =>
    obtain ⟨k, vs⟩ := e
    obtain ⟨hk, hne⟩ := hw (k, vs) (by simp)
    cases vs with
    | nil => exact absurd rfl hne
    | cons v vs =>
      have hkm : k ∉ m₀.map (·.1) := by
        rw [List.map_append, List.nodup_append] at hn
        intro h'; exact hn.2.2 k h' k (by simp) rfl
      have hn0 : (m₀.map (·.1)).Nodup := by
        rw [List.map_append, List.nodup_append] at hn; exact hn.1
      have hp : Multimap.pairs ((k, v :: vs) :: m) = (k, v) :: (vs.map fun v => (k, v)) ++ Multimap.pairs m := by
        simp [Multimap.pairs]
      rw [hp, List.cons_append, List.foldl_cons, List.foldl_append]
      have h0 : m₀.append k v = m₀ ++ [(k, [v])] := by
        unfold Multimap.append
        rw [if_neg (by unfold Multimap.present; rw [hk]; exact hkm), hk]
      rw [h0, append_other_entry m₀ hn0 k hk hkm]
      rw [ih (m₀ ++ [(k, v :: vs)]) (by simpa using hn) (fun e he => hw e (by simp [he]))]
      simp

/-- **C02**: a copy made the way the client makes it (`Headers(tuple(h.allitems()))`,
`_protocol_connect.py:196`, `_protocol_grpc.py:217`) of any reachable `Headers` answers every future history of
API calls exactly like the original.  (The copy is a separate value: model objects have no sharing; in the code
the copy has its own two dictionaries, filled by `add`.) -/
theorem C02_copy_is_faithful (history ops : List HOp) :
    headersRun (Headers.ofPairs (headersAfter Headers.empty history).allitems) ops =
      headersRun (headersAfter Headers.empty history) ops := by
  have hw := C01_reachable_wellformed history
  have hi := headersAfter_inv Headers.inv_empty history
  generalize headersAfter Headers.empty history = h at hw hi
  rw [C01_headers_from_pairs, headersRun_of_inv hi, ← Headers.pairs_abs, rebuild h.abs [] (by simpa using hw.1) hw.2]
  rfl

theorem allitems_copy {h : Headers} (hi : h.Inv) : (Headers.ofPairs h.allitems).allitems = h.allitems := by
  have hw : (h.abs.map (·.1)).Nodup ∧ ∀ e ∈ h.abs, foldCase e.1 = e.1 ∧ e.2 ≠ [] := by
    refine ⟨?_, ?_⟩
    · have : (h.abs.map (·.1)) = h.store.keys := by simp [Headers.abs, Dict.keys]
      rw [this]; exact hi.nodup
    · intro e he
      simp only [Headers.abs, List.mem_map] at he
      obtain ⟨p, hp, rfl⟩ := he
      exact ⟨hi.low _ (List.mem_map.mpr ⟨p, hp, rfl⟩), by simp⟩
  rw [← Headers.pairs_abs (Headers.ofPairs _), Headers.ofPairs, Headers.abs_ofPairs_from Headers.inv_empty, ← Headers.pairs_abs h]
  have := rebuild h.abs [] (by simpa using hw.1) hw.2
  rw [List.nil_append] at this
  exact congrArg _ this

/-- **C02** for objects built by the constructors. -/
theorem C02_copy_is_faithful_from_pairs (items : List (Str × Str)) (history ops : List HOp) :
    let h := headersAfter (Headers.ofPairs items) history
    headersRun (Headers.ofPairs h.allitems) ops = headersRun h ops := by
  intro h
  have hi : h.Inv := headersAfter_inv (Headers.inv_ofPairs items) history
  have hw : ((h.abs.map (·.1)).Nodup ∧ ∀ e ∈ h.abs, foldCase e.1 = e.1 ∧ e.2 ≠ []) := by
    refine ⟨?_, ?_⟩
    · have : (h.abs.map (·.1)) = h.store.keys := by simp [Headers.abs, Dict.keys]
      rw [this]; exact hi.nodup
    · intro e he
      simp only [Headers.abs, List.mem_map] at he
      obtain ⟨p, hp, rfl⟩ := he
      exact ⟨hi.low _ (List.mem_map.mpr ⟨p, hp, rfl⟩), by simp⟩
  rw [C01_headers_from_pairs, headersRun_of_inv hi, ← Headers.pairs_abs, rebuild h.abs [] (by simpa using hw.1) hw.2]
  rfl

example : (Headers.ofPairs [(pys! "X", pys! "1"), (pys! "y", pys! "2"), (pys! "x", pys! "3")]).allitems
    = [(pys! "x", pys! "1"), (pys! "x", pys! "3"), (pys! "y", pys! "2")] := by decide

end Props
