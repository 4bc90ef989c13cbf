import Verif.Proofs.HeaderViews
/-
C86: views of headers, comparing headers, and headers made from headers.
-/
namespace Props
open Conn Py Spec Proofs.HeaderViews

/-- **C86, views** (partial). A view `allitems()` returned shows the headers as they are when it is used, if `clear` has not been called since it was taken, and some name
had several values then, or no name has several now. Missing: the other cases (`C86_violation_missing`, `C86_violation_stale`). -/
theorem C86_view_partial (history later : List HOp) (hc : HOp.clear ∉ later)
    (hr : Repeats (contents history) ∨ ¬ Repeats (contents (history ++ later))) :
    let v := viewAfter history later
    AllView.iter v.2 v.1 = (contents (history ++ later)).pairs ∧ AllView.len v.2 v.1 = (contents (history ++ later)).pairs.length := by
  intro v
  obtain ⟨h1, h2⟩ := view_go (headersAfter Headers.empty history).allitemsView (h := headersAfter Headers.empty history) hc
  have hv : v = (_, _) := h1
  have hi : (headersAfter Headers.empty (history ++ later)).Inv := headersAfter_inv Headers.inv_empty _
  rw [hv]
  dsimp only
  unfold contents at hr ⊢
  rw [← headersAfter_append] at h2 ⊢
  generalize hh : headersAfter Headers.empty (history ++ later) = h at *
  have hw := (C01_reachable_wellformed (history ++ later)).2
  rw [hh] at hw
  unfold Headers.allitemsView
  cases he : (headersAfter Headers.empty history).extra with
  | none =>
    have hn : ¬ Repeats h.abs := by
      rcases hr with hr | hr
      · have := repeats_extra hr
        rw [he] at this
        cases this
      · exact hr
    have hp := firsts_pairs (fun e he => (hw e he).2) hn
    rw [Headers.firsts_abs] at hp
    exact ⟨hp, congrArg List.length hp⟩
  | some e =>
    have hs : h.extra.isSome := h2 (by rw [he]; rfl)
    obtain ⟨k1, k2⟩ := view_shared hs
    exact ⟨k1.trans (Headers.pairs_abs h).symm, k2.trans (Headers.allitemsLen_eq hi)⟩

/-- C86 is false of a view taken while no name had several values: it does not show the further values that are added later. -/
theorem C86_violation_missing (k v w : List Char) :
    let r := viewAfter [.setItem k v] [.add k w]
    AllView.iter r.2 r.1 = [(lower k, v)] ∧ (contents [.setItem k v, .add k w]).pairs = [(lower k, v), (lower k, w)] := by
  simp [viewAfter, viewAfter.go, headersAfter, headersCall, Headers.setItem, Headers.add, Headers.empty, Headers.allitemsView, AllView.iter, contents, Headers.abs,
    Headers.extraOf, Dict.set, Dict.contains, Dict.get?, Headers.appendExtra, Multimap.pairs]

/-- C86 is false of a view that is used after `clear`: it shows values that were there before, next to new ones, and its length counts them even when it shows nothing. -/
theorem C86_violation_stale (k v w x : List Char) :
    (let r := viewAfter [.add k v, .add k w] [.clear, .add k x]
     AllView.iter r.2 r.1 = [(lower k, x), (lower k, w)] ∧ (contents [.add k v, .add k w, .clear, .add k x]).pairs = [(lower k, x)]) ∧
    (let r := viewAfter [.add k v, .add k w] [.clear]
     AllView.iter r.2 r.1 = [] ∧ AllView.len r.2 r.1 = 1) := by
  simp [viewAfter, viewAfter.go, headersAfter, headersCall, Headers.add, Headers.clear, Headers.empty, Headers.allitemsView, AllView.iter, AllView.len,
    AllView.afterClear, contents, Headers.abs, Headers.extraOf, Dict.set, Dict.contains, Dict.get?, Headers.appendExtra, Multimap.pairs, Headers.allItemsIter,
    Dict.values]

/-- **C86, membership** (partial). While no name has had several values, testing whether a pair is in `allitems()` tells whether it is among the headers. -/
theorem C86_contains_partial (history : List HOp) (hv : (headersAfter Headers.empty history).allitemsView = .plain) (p : List Char × List Char) :
    ∃ b, AllView.contains (headersAfter Headers.empty history) p .plain = .ok b ∧ (b = true ↔ p ∈ (contents history).pairs) := by
  have hi : (headersAfter Headers.empty history).Inv := headersAfter_inv Headers.inv_empty _
  unfold contents
  rw [Headers.pairs_abs]
  generalize headersAfter Headers.empty history = h at *
  refine ⟨_, rfl, ?_⟩
  have he : h.extra = none := by
    unfold Headers.allitemsView at hv
    cases he : h.extra with
    | none => rfl
    | some e => rw [he] at hv; cases hv
  have : h.allitems = h.store := by unfold Headers.allitems; rw [he]
  rw [this, beq_iff_eq]
  exact ⟨fun hg => Dict.get?_some_mem hg, fun hm => Dict.get?_of_mem hi.nodup hm⟩

/-- C86 is false of membership when some name has several values: the test raises, for every pair. -/
theorem C86_violation_contains (history : List HOp) (hr : Repeats (contents history)) (p : List Char × List Char) :
    ∃ msg, AllView.contains (headersAfter Headers.empty history) p (headersAfter Headers.empty history).allitemsView = .error (.other .attributeError msg) := by
  have := repeats_extra hr
  unfold Headers.allitemsView
  cases he : (headersAfter Headers.empty history).extra with
  | none => rw [he] at this; cases this
  | some e => exact ⟨_, rfl⟩

theorem beq_iff {h h' : Headers} (hi : h.Inv) (hi' : h'.Inv) : h.beq h' = true ↔ SameFirst h.abs h'.abs := by
  unfold Headers.beq Headers.items SameFirst
  rw [eqDict_iff hi.nodup hi'.nodup]
  simp only [Headers.valuesOf_head? hi, Headers.valuesOf_head? hi', Headers.getItem]
  constructor
  · exact fun h k => h _
  · intro hk k
    by_cases hl : lower k = k
    · have := hk k
      rwa [hl] at this
    · have key : ∀ {x : Headers}, x.Inv → x.store.get? k = none := by
        intro x hx
        rw [Dict.get?_eq_none_iff]
        intro hm
        exact hl ((Headers.lower_eq_foldCase k).trans (hx.low k hm))
      rw [key hi, key hi']

/-- **C86, comparing.** `a == b` exactly when the same names have the same first values, in whatever order the names were set: an equivalence. -/
theorem C86_equal_exact (a b : List HOp) :
    (headersAfter Headers.empty a).beq (headersAfter Headers.empty b) = true ↔ SameFirst (contents a) (contents b) :=
  beq_iff (headersAfter_inv Headers.inv_empty a) (headersAfter_inv Headers.inv_empty b)

/-- **C86, comparing** (partial). Headers in which no name has several values compare equal exactly when they are the same. Missing: names with several values
(`C86_violation_equal`). -/
theorem C86_equal_partial (a b : List HOp) (ha : ¬ Repeats (contents a)) (hb : ¬ Repeats (contents b)) :
    (headersAfter Headers.empty a).beq (headersAfter Headers.empty b) = true ↔ SameHeaders (contents a) (contents b) := by
  rw [C86_equal_exact]
  have single : ∀ {m : Multimap}, (m.map (·.1)).Nodup → ¬ Repeats m → ∀ k, m.valuesOf k = (m.valuesOf k).head?.toList := by
    intro m hn hr k
    unfold Multimap.valuesOf
    have h1 : (m.filter fun e => e.1 = foldCase k).length ≤ 1 := by
      have hs : ((m.filter fun e => e.1 = foldCase k).map (·.1)).Nodup := hn.sublist (List.filter_sublist.map _)
      cases hf : m.filter fun e => e.1 = foldCase k with
      | nil => simp
      | cons x r =>
        cases r with
        | nil => simp
        | cons y r =>
          have e1 : x ∈ m.filter fun e => e.1 = foldCase k := by rw [hf]; exact List.mem_cons_self
          have e2 : y ∈ m.filter fun e => e.1 = foldCase k := by rw [hf]; simp
          rw [List.mem_filter] at e1 e2
          have : x.1 = y.1 := by rw [of_decide_eq_true e1.2, of_decide_eq_true e2.2]
          rw [hf] at hs
          simp [this] at hs
    cases hf : m.filter fun e => e.1 = foldCase k with
    | nil => rfl
    | cons x r =>
      cases r with
      | cons y r => rw [hf] at h1; simp at h1
      | nil =>
        have hx : x ∈ m := (List.mem_filter.mp (show x ∈ m.filter fun e => e.1 = foldCase k by rw [hf]; exact List.mem_cons_self)).1
        have : ¬ 2 ≤ x.2.length := fun h => hr ⟨x, hx, h⟩
        match hv : x.2 with
        | [] => simp [hv]
        | [v] => simp [hv]
        | v :: w :: r => rw [hv] at this; simp at this
  constructor
  · intro h k
    exact (single (C01_reachable_wellformed a).1 ha k).trans ((congrArg Option.toList (h k)).trans (single (C01_reachable_wellformed b).1 hb k).symm)
  · exact fun h k => by rw [h k]

/-- C86 is false of names with several values: adding another value to a name that is there never makes a difference. -/
theorem C86_violation_equal (history : List HOp) (k v : List Char) (hk : (contents history).present k) :
    (headersAfter Headers.empty (history ++ [.add k v])).beq (headersAfter Headers.empty history) = true ∧
    ¬ SameHeaders (contents (history ++ [.add k v])) (contents history) := by
  have hi : (headersAfter Headers.empty history).Inv := headersAfter_inv Headers.inv_empty _
  have e : headersAfter Headers.empty (history ++ [.add k v]) = (headersAfter Headers.empty history).add k v := by
    rw [headersAfter_append]; rfl
  unfold contents at hk ⊢
  rw [e]
  generalize headersAfter Headers.empty history = h at *
  have hm := (Headers.present_abs h k).mp hk
  have hc' : h.store.contains (lower k) = true := (Dict.get?_isSome_iff _ _).mpr hm
  constructor
  · unfold Headers.beq
    have : (h.add k v).items = h.items := by
      unfold Headers.add Headers.items
      dsimp only
      rw [if_pos hc']
    rw [this]
    exact (eqDict_iff hi.nodup hi.nodup).mpr (fun _ => rfl)
  · intro hs
    have := hs k
    rw [Headers.abs_add hi, Headers.valuesOf_abs hi] at this
    have key : (h.abs.append k v).valuesOf k = h.abs.valuesOf k ++ [v] := by
      have hi' := Headers.inv_add hi k v
      rw [← Headers.abs_add hi, Headers.valuesOf_abs hi', Headers.valuesOf_abs hi]
      unfold Headers.getall
      have hst : (h.add k v).store = h.store := by
        unfold Headers.add; dsimp only; rw [if_pos hc']
      dsimp only
      rw [hst]
      cases hg : h.store.get? (lower k) with
      | none => exact absurd hm ((Dict.get?_eq_none_iff _ _).mp hg)
      | some x =>
        dsimp only
        have hx : (h.add k v).extra = some (Headers.appendExtra (match h.extra with
            | none => []
            | some e => e) (lower k) v) := by
          unfold Headers.add; dsimp only; rw [if_pos hc']; rfl
        rw [hx]
        dsimp only
        rw [Headers.appendExtra_get?, if_pos rfl]
        cases h.extra with
        | none => rfl
        | some e => cases he : e.get? (lower k) <;> simp [he]
    rw [key, Headers.valuesOf_abs hi] at this
    simp at this

/-- C86 is false of other mappings: headers made from a mapping with a name that is not in lower case are not equal to it. -/
theorem C86_violation_mapping (k v : List Char) (hk : foldCase k ≠ k) : (Headers.ofMapping [(k, v)]).eqMapping [(k, v)] = false := by
  rw [← Headers.lower_eq_foldCase] at hk
  unfold Headers.eqMapping Headers.eqDict Headers.ofMapping Headers.items
  simp [Dict.ofList, Dict.set, Dict.get?]
  exact fun e => hk e.symm

/-- C86 is false of headers made from headers, by `Headers(h)`: only the first value of each name is kept. -/
theorem C86_violation_from_headers (history : List HOp) (k : List Char) (hk : 2 ≤ ((contents history).valuesOf k).length) :
    ¬ SameHeaders (Headers.ofMapping (headersAfter Headers.empty history).items).abs (contents history) := by
  intro h
  have hi := Headers.inv_ofMapping (headersAfter Headers.empty history).items
  have := h k
  rw [Headers.valuesOf_abs hi] at this
  rw [← this] at hk
  unfold Headers.getall Headers.ofMapping at hk
  dsimp only at hk
  cases hg : Dict.get? (Dict.ofList (List.map (fun p : Str × Str => (lower p.1, p.2)) (headersAfter Headers.empty history).items)) (lower k) with
  | none => rw [hg] at hk; simp at hk
  | some x => rw [hg] at hk; simp at hk

/-- a view of headers with two cookies, used after changes -/
example : Repeats (contents [.add (pys! "Set-Cookie") (pys! "a"), .add (pys! "set-cookie") (pys! "b")]) ∧
    (let r := viewAfter [.add (pys! "Set-Cookie") (pys! "a"), .add (pys! "set-cookie") (pys! "b")] [.setItem (pys! "X") (pys! "1"), .add (pys! "SET-COOKIE") (pys! "c")]
     AllView.iter r.2 r.1 = [(pys! "set-cookie", pys! "a"), (pys! "set-cookie", pys! "b"), (pys! "set-cookie", pys! "c"), (pys! "x", pys! "1")]) :=
  ⟨⟨(pys! "set-cookie", [pys! "a", pys! "b"]), by decide, by decide⟩, by decide⟩

/-- headers without repeated names, set in different orders -/
example : ¬ Repeats (contents [.setItem (pys! "A") (pys! "1"), .setItem (pys! "b") (pys! "2")]) ∧
    (headersAfter Headers.empty [.setItem (pys! "A") (pys! "1"), .setItem (pys! "b") (pys! "2")]).beq
      (headersAfter Headers.empty [.setItem (pys! "B") (pys! "2"), .setItem (pys! "a") (pys! "1")]) = true ∧
    (headersAfter Headers.empty [.setItem (pys! "A") (pys! "1")]).allitemsView = .plain := by
  refine ⟨?_, by decide, by decide⟩
  rintro ⟨e, he, hl⟩
  have : contents [.setItem (pys! "A") (pys! "1"), .setItem (pys! "b") (pys! "2")] = [(pys! "a", [pys! "1"]), (pys! "b", [pys! "2"])] := by decide
  rw [this] at he
  simp only [List.mem_cons, List.not_mem_nil, or_false] at he
  rcases he with rfl | rfl <;> simp at hl

example : (contents [.setItem (pys! "A") (pys! "1")]).present (pys! "a") ∧ foldCase (pys! "A") ≠ pys! "A" ∧
    2 ≤ ((contents [.add (pys! "A") (pys! "1"), .add (pys! "a") (pys! "2")]).valuesOf (pys! "A")).length := by decide

end Props
