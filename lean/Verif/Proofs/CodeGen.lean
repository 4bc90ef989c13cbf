import Verif.Spec.CodeGen
import Verif.Proofs.Negotiate
import Verif.Proofs.MediaType
/-
Lemmas about generated code.
-/
namespace Conn
open Py Spec

theorem isUpperAZ_iff (c : Char) : isUpperAZ c = true ↔ Capital c := by simp [isUpperAZ, Capital]
theorem isLowerAZ_iff (c : Char) : isLowerAZ c = true ↔ Small c := by simp [isLowerAZ, Small]

theorem not_small_of_capital {c : Char} (h : Capital c) : ¬ Small c := by
  rintro ⟨h1, _⟩
  have h2 := h.2
  simp only [Char.le_def, UInt32.le_iff_toNat_le] at h1 h2
  have e1 : 'a'.val.toNat = 97 := rfl
  have e2 : 'Z'.val.toNat = 90 := rfl
  omega

theorem small_ne {c : Char} (h : Small c) : c ≠ '_' := by
  rintro rfl
  revert h
  decide

/-- the second substitution: an underscore in each place between a small and a capital letter -/
theorem subLowerToUpper_cons (c u : Char) (r : Str) :
    subLowerToUpper (c :: u :: r) = c :: ((if Small c ∧ Capital u then ['_'] else []) ++ subLowerToUpper (u :: r)) := by
  rw [subLowerToUpper]
  by_cases h : Small c ∧ Capital u
  · rw [if_pos (by rw [Bool.and_eq_true, isLowerAZ_iff, isUpperAZ_iff]; exact h), if_pos h]
    cases r with
    | nil => rfl
    | cons x r =>
      rw [subLowerToUpper, if_neg]
      · rfl
      · rw [Bool.and_eq_true, isLowerAZ_iff]
        exact fun hh => not_small_of_capital h.2 hh.1
  · rw [if_neg (by rw [Bool.and_eq_true, isLowerAZ_iff, isUpperAZ_iff]; exact h), if_neg h]
    rfl

theorem subUpperToLower_head (b : Bool) (c : Char) (s : Str) : ∃ t, subUpperToLower b (c :: s) = c :: t := by
  unfold subUpperToLower
  split
  · rename_i heq
    cases heq
    split
    · exact ⟨_, rfl⟩
    · split <;> exact ⟨_, rfl⟩
  · exact ⟨_, rfl⟩

theorem subs_underscored : ∀ (s : Str) (b : Bool), subLowerToUpper (subUpperToLower b s) = underscored s
  | [], b => by cases b <;> rfl
  | [c], b => by cases b <;> rfl
  | [c, u], b => by
    have h : subUpperToLower b [c, u] = [c, u] := by cases b <;> rfl
    rw [h, subLowerToUpper_cons]
    simp only [underscored, subLowerToUpper]
    by_cases h1 : Small c ∧ Capital u
    · rw [if_pos h1, if_pos ⟨h1.2, .inl h1.1⟩]
    · rw [if_neg h1, if_neg]
      rintro ⟨h2, h3 | ⟨_, z, hz, _⟩⟩
      · exact h1 ⟨h3, h2⟩
      · cases hz
  | c :: u :: l :: r, b => by
    rw [subUpperToLower, underscored]
    by_cases h1 : (b && isLowerAZ c) = true
    · rw [if_pos h1]
      have hc : Small c := (isLowerAZ_iff c).1 (by rw [Bool.and_eq_true] at h1; exact h1.2)
      obtain ⟨t, ht⟩ := subUpperToLower_head true u (l :: r)
      rw [ht, subLowerToUpper_cons, ← ht, subs_underscored (u :: l :: r) true]
      congr 2
      by_cases hu : Capital u
      · rw [if_pos ⟨hc, hu⟩, if_pos ⟨hu, .inl hc⟩]
      · rw [if_neg fun h => hu h.2, if_neg fun h => hu h.1]
    · rw [if_neg h1]
      by_cases h2 : (c != '_' && isUpperAZ u && isLowerAZ l) = true
      · rw [if_pos h2]
        rw [Bool.and_eq_true, Bool.and_eq_true, bne_iff_ne, isUpperAZ_iff, isLowerAZ_iff] at h2
        obtain ⟨⟨hc, hu⟩, hl⟩ := h2
        obtain ⟨t, ht⟩ := subUpperToLower_head true l r
        rw [subLowerToUpper_cons, if_neg (by rintro ⟨_, h⟩; revert h; decide), subLowerToUpper_cons,
          if_neg (by rintro ⟨h, _⟩; revert h; decide), ht, subLowerToUpper_cons,
          if_neg (fun h => not_small_of_capital hu h.1), ← ht, subs_underscored (l :: r) true,
          if_pos ⟨hu, .inr ⟨hc, l, rfl, hl⟩⟩]
        rw [underscored, if_neg]
        · rfl
        · rintro ⟨h, _⟩
          exact not_small_of_capital h hl
      · rw [if_neg h2]
        rw [Bool.and_eq_true, Bool.and_eq_true, bne_iff_ne, isUpperAZ_iff, isLowerAZ_iff] at h2
        obtain ⟨t, ht⟩ := subUpperToLower_head false u (l :: r)
        rw [ht, subLowerToUpper_cons, ← ht, subs_underscored (u :: l :: r) false]
        congr 2
        by_cases h3 : Small c ∧ Capital u
        · rw [if_pos h3, if_pos ⟨h3.2, .inl h3.1⟩]
        · rw [if_neg h3, if_neg]
          rintro ⟨hu, hs | ⟨hc, z, hz, hs⟩⟩
          · exact h3 ⟨hs, hu⟩
          · cases hz
            exact h2 ⟨⟨hc, hu⟩, hs⟩

/-- the letters of the name -/
theorem underscored_letters : ∀ s : Str, (underscored s).filter (· ≠ '_') = s.filter (· ≠ '_')
  | [] => rfl
  | [_] => rfl
  | x :: y :: r => by
    have h : (if WordStarts x y r.head? then ['_'] else []).filter (· ≠ '_') = [] := by
      split <;> rfl
    rw [underscored, List.filter_cons, List.filter_append, underscored_letters (y :: r), h, List.nil_append,
      List.filter_cons (x := x) (xs := y :: r)]

theorem lowerChar_underscore {c : Char} : lowerChar c = '_' ↔ c = '_' := by
  rcases lowerChar_cases c with e | ⟨h1, h2, h3⟩
  · rw [e]
  · constructor
    · intro e
      rw [e] at h3
      have e4 : '_'.toNat = 95 := rfl
      omega
    · rintro rfl
      rfl

theorem filter_lower (s : Str) : (lower s).filter (· ≠ '_') = lower (s.filter (· ≠ '_')) := by
  unfold lower
  rw [List.filter_map]
  congr 1
  apply List.filter_congr
  intro c _
  simp [lowerChar_underscore]

theorem foldl_set_none {V : Type} (l : List (Str × V)) (n : Str) (d : Dict Str V) (h : n ∉ l.map (·.1)) :
    (l.foldl (fun d p => d.set p.1 p.2) d).get? n = d.get? n := by
  rw [get?_ofList_aux]
  have : (l.filter fun p => p.1 = n) = [] := by
    rw [List.filter_eq_nil_iff]
    intro p hp
    simp only [decide_eq_true_eq]
    rintro rfl
    exact h (List.mem_map.2 ⟨p, hp, rfl⟩)
  rw [this]
  rfl

theorem foldl_set_some {V : Type} (l : List (Str × V)) (n : Str) (v : V) (d : Dict Str V) (hn : (l.map (·.1)).Nodup)
    (h : (n, v) ∈ l) : (l.foldl (fun d p => d.set p.1 p.2) d).get? n = some v := by
  induction l generalizing d with
  | nil => cases h
  | cons p l ih =>
    rw [List.map_cons, List.nodup_cons] at hn
    rw [List.foldl_cons]
    rcases List.mem_cons.1 h with rfl | h
    · rw [foldl_set_none _ _ _ hn.1, Dict.get?_set, if_pos rfl]
    · exact ih _ hn.2 h

/-- the stubs, as attributes -/
theorem client_eq (escape : Str → Str) (svc : DescService) (async : Bool) : svc.client escape async =
    ((svc.stubs escape).map fun p => (p.1, Attr.stub p.2)).foldl (fun d p => d.set p.1 p.2) (clientClass async) := by
  unfold DescService.client
  rw [List.foldl_map]

theorem client_own {escape : Str → Str} {svc : DescService} (ha : NamesApart escape svc) (async : Bool) (n : Str) (h : n ∈ clientNames) :
    (svc.client escape async).get? n = (clientClass async).get? n := by
  rw [client_eq]
  apply foldl_set_none
  intro hn
  simp only [DescService.stubs, List.map_map, List.mem_map, Function.comp] at hn
  obtain ⟨m, hm, rfl⟩ := hn
  exact ha.free m hm h

theorem client_stub {escape : Str → Str} {svc : DescService} (ha : NamesApart escape svc) (async : Bool) {m : DescMethod} (h : m ∈ svc.methods) :
    (svc.client escape async).get? (m.localName escape) = some (.stub ⟨m.kind, svc.methodInfo m, m.supportsGet⟩) := by
  rw [client_eq]
  apply foldl_set_some
  · simp only [DescService.stubs, List.map_map]
    exact ha.distinct
  · simp only [DescService.stubs, List.map_map, List.mem_map, Function.comp]
    exact ⟨m, h, rfl⟩

theorem clientInstance_keys : ∀ n ∈ clientInstance.keys, n ∈ clientNames := by decide +kernel

theorem clientAttr_stub {escape : Str → Str} {svc : DescService} (ha : NamesApart escape svc) (async : Bool) {m : DescMethod} (h : m ∈ svc.methods) :
    clientAttr (svc.client escape async) (m.localName escape) = some (.stub ⟨m.kind, svc.methodInfo m, m.supportsGet⟩) := by
  unfold clientAttr
  have : clientInstance.get? (m.localName escape) = none :=
    (Dict.get?_eq_none_iff _ _).2 fun hk => ha.free m h (clientInstance_keys _ hk)
  rw [this]
  exact client_stub ha async h

theorem clientAttr_execute {escape : Str → Str} {svc : DescService} (ha : NamesApart escape svc) (async : Bool) (k : Kind) :
    clientAttr (svc.client escape async) (executeName k) = some (.execute k) := by
  have h1 : clientInstance.get? (executeName k) = none := by cases k <;> decide +kernel
  unfold clientAttr
  rw [h1, client_own ha async _ (by cases k <;> decide +kernel)]
  cases async <;> cases k <;> decide +kernel

theorem clientAttr_send {escape : Str → Str} {svc : DescService} (ha : NamesApart escape svc) (async : Bool) (k : Kind) :
    clientAttr (svc.client escape async) (sendName k) = some (.send k) := by
  have h1 : clientInstance.get? (sendName k) = none := by cases k <;> decide +kernel
  unfold clientAttr
  rw [h1, client_own ha async _ (by cases k <;> decide +kernel)]
  cases async <;> cases k <;> decide +kernel

theorem runs_ofKind {Req Res : Type} (impl : ServiceImpl Req Res) (name : Str) (info : MethodInfo) (k : Kind) :
    ∃ h, Endpoint.ofKind info k (impl name k) = ⟨info, h⟩ ∧ RunsAttribute impl name k h := by
  cases k
  · exact ⟨_, rfl, .unary⟩
  · exact ⟨_, rfl, .clientStream⟩
  · exact ⟨_, rfl, .serverStream⟩
  · exact ⟨_, rfl, .bidi⟩

theorem methodUrl_inj {svc : DescService} {m m' : DescMethod} (h : svc.methodUrl m = svc.methodUrl m') : m.name = m'.name := by
  unfold DescService.methodUrl at h
  exact List.append_cancel_left h

/-- the attributes of the class: the last method with the name, or what the library has -/
theorem client_get (escape : Str → Str) (svc : DescService) (async : Bool) (n : Str) :
    (svc.client escape async).get? n = match (svc.methods.filter fun m => m.localName escape = n).getLast? with
      | some m => some (.stub ⟨m.kind, svc.methodInfo m, m.supportsGet⟩)
      | none => (clientClass async).get? n := by
  rw [client_eq, get?_ofList_aux]
  unfold DescService.stubs
  rw [List.map_map, List.filter_map, List.getLast?_map]
  have : ((fun p : Str × Attr => decide (p.1 = n)) ∘ ((fun p : Str × Stub => (p.1, Attr.stub p.2)) ∘ fun m : DescMethod =>
      (m.localName escape, (⟨m.kind, svc.methodInfo m, m.supportsGet⟩ : Stub)))) = fun m => decide (m.localName escape = n) := rfl
  rw [this]
  cases (svc.methods.filter fun m => m.localName escape = n).getLast? <;> rfl

/-- a method with that name hides what the library has -/
theorem client_hidden (escape : Str → Str) (svc : DescService) (async : Bool) {m : DescMethod} (hm : m ∈ svc.methods) :
    ∃ m' ∈ svc.methods, m'.localName escape = m.localName escape ∧
      (svc.client escape async).get? (m.localName escape) = some (.stub ⟨m'.kind, svc.methodInfo m', m'.supportsGet⟩) := by
  rw [client_get]
  cases hl : (svc.methods.filter fun x => x.localName escape = m.localName escape).getLast? with
  | none =>
    rw [List.getLast?_eq_none_iff, List.filter_eq_nil_iff] at hl
    exact absurd (decide_eq_true rfl) (hl m hm)
  | some m' =>
    have := List.mem_of_getLast? hl
    rw [List.mem_filter] at this
    exact ⟨m', this.1, of_decide_eq_true this.2, rfl⟩

theorem getLast?_filter_some {α : Type} (P : α → Bool) (x : α) : ∀ l : List α, (l.filter P).getLast? = some x ↔
    ∃ a b, l = a ++ x :: b ∧ P x = true ∧ ∀ y ∈ b, P y = false := by
  intro l
  constructor
  · induction l with
    | nil => intro h; cases h
    | cons y l ih =>
      intro h
      by_cases hl : (l.filter P) = []
      · by_cases hy : P y = true
        · rw [List.filter_cons, if_pos hy, hl] at h
          cases h
          refine ⟨[], l, rfl, hy, ?_⟩
          intro z hz
          have := List.filter_eq_nil_iff.1 hl z hz
          simpa using this
        · rw [List.filter_cons, if_neg hy, hl] at h
          cases h
      · have : (l.filter P).getLast? = some x := by
          rw [List.filter_cons] at h
          split at h
          · rw [List.getLast?_cons] at h
            cases hq : (l.filter P).getLast? with
            | none => exact absurd (List.getLast?_eq_none_iff.1 hq) hl
            | some z => rw [hq] at h; exact h
          · exact h
        obtain ⟨a, b, rfl, h1, h2⟩ := ih this
        exact ⟨y :: a, b, rfl, h1, h2⟩
  · rintro ⟨a, b, rfl, h1, h2⟩
    rw [List.filter_append, List.filter_cons, if_pos h1, show b.filter P = [] from List.filter_eq_nil_iff.2 (by intro y hy; rw [h2 y hy]; decide)]
    simp

theorem client_get_stub (escape : Str → Str) (svc : DescService) (async : Bool) (n : Str) (s : Stub) :
    (svc.client escape async).get? n = some (.stub s) ↔ ∃ m, LastOfName escape svc n m ∧ s = ⟨m.kind, svc.methodInfo m, m.supportsGet⟩ := by
  have hcls : (clientClass async).get? n ≠ some (.stub s) := by
    intro h
    have h2 : ∀ a ∈ Dict.values (clientClass async), (match a with | .stub _ => false | _ => true) = true := by
      cases async <;> decide +kernel
    cases h2 _ (List.mem_map.2 ⟨_, Dict.get?_some_mem h, rfl⟩)
  have hiff : ∀ m, (svc.methods.filter fun m => m.localName escape = n).getLast? = some m ↔ LastOfName escape svc n m := by
    intro m
    rw [getLast?_filter_some]
    constructor
    · rintro ⟨a, b, h1, h2, h3⟩
      exact ⟨a, b, h1, of_decide_eq_true h2, fun y hy => of_decide_eq_false (h3 y hy)⟩
    · rintro ⟨a, b, h1, h2, h3⟩
      exact ⟨a, b, h1, decide_eq_true h2, fun y hy => decide_eq_false (h3 y hy)⟩
  rw [client_get]
  constructor
  · intro h
    cases hl : (svc.methods.filter fun m => m.localName escape = n).getLast? with
    | none => rw [hl] at h; exact absurd h hcls
    | some m => rw [hl] at h; cases h; exact ⟨m, (hiff m).1 hl, rfl⟩
  · rintro ⟨m, h1, rfl⟩
    rw [(hiff m).2 h1]

/-- what the library has is hidden exactly by the methods with the name -/
theorem clientAttr_library (escape : Str → Str) (svc : DescService) (async : Bool) (n : Str) (a : Attr) (hn : clientInstance.get? n = none)
    (hc : (clientClass async).get? n = some a) (ha : ∀ s, a ≠ .stub s) :
    clientAttr (svc.client escape async) n = some a ↔ ∀ m ∈ svc.methods, m.localName escape ≠ n := by
  unfold clientAttr
  rw [hn]
  dsimp only
  constructor
  · rintro h m hm rfl
    obtain ⟨m', _, _, h'⟩ := client_hidden escape svc async hm
    rw [h'] at h
    cases h
    exact ha _ rfl
  · intro h
    rw [client_get, List.filter_eq_nil_iff.2 (by intro m hm; simpa using h m hm)]
    exact hc

theorem kept_eq : clientInstance.keys = kept := by decide +kernel

theorem clientAttr_of_stub (escape : Str → Str) (svc : DescService) (async : Bool) (n : Str) (s : Stub) :
    clientAttr (svc.client escape async) n = some (.stub s) ↔
      n ∉ kept ∧ ∃ m, LastOfName escape svc n m ∧ s = ⟨m.kind, svc.methodInfo m, m.supportsGet⟩ := by
  rw [← client_get_stub escape svc async, ← kept_eq]
  unfold clientAttr
  by_cases hk : n ∈ clientInstance.keys
  · cases hg : clientInstance.get? n with
    | none => exact absurd hk ((Dict.get?_eq_none_iff _ _).1 hg)
    | some a =>
      dsimp only
      have : ∀ a ∈ Dict.values clientInstance, a = .data := by decide +kernel
      have := this _ (List.mem_map.2 ⟨_, Dict.get?_some_mem hg, rfl⟩)
      subst this
      exact ⟨(fun h => by cases h), fun h => absurd hk h.1⟩
  · rw [(Dict.get?_eq_none_iff _ _).2 hk]
    exact ⟨fun h => ⟨hk, h⟩, fun h => h.2⟩

theorem clientAttr_execute_iff (escape : Str → Str) (svc : DescService) (async : Bool) (k : Kind) :
    clientAttr (svc.client escape async) (executeName k) = some (.execute k) ↔ ∀ m ∈ svc.methods, m.localName escape ≠ executeName k := by
  apply clientAttr_library
  · cases k <;> decide +kernel
  · cases async <;> cases k <;> decide +kernel
  · intro s h; cases h

theorem clientAttr_send_iff (escape : Str → Str) (svc : DescService) (async : Bool) (k : Kind) :
    clientAttr (svc.client escape async) (sendName k) = some (.send k) ↔ ∀ m ∈ svc.methods, m.localName escape ≠ sendName k := by
  apply clientAttr_library
  · cases k <;> decide +kernel
  · cases async <;> cases k <;> decide +kernel
  · intro s h; cases h

/-- an attribute with the name of one of the functions that is not a generated method is that function -/
theorem clientAttr_execute_kind (escape : Str → Str) (svc : DescService) (async : Bool) (k k' : Kind)
    (h : clientAttr (svc.client escape async) (executeName k) = some (.execute k')) : k' = k := by
  by_cases hm : ∀ m ∈ svc.methods, m.localName escape ≠ executeName k
  · have := (clientAttr_execute_iff escape svc async k).2 hm
    rw [this] at h
    cases h; rfl
  · have hx : ∃ m ∈ svc.methods, m.localName escape = executeName k := by
      apply Classical.byContradiction
      intro hc
      exact hm fun m h1 h2 => hc ⟨m, h1, h2⟩
    obtain ⟨m, h1, h2⟩ := hx
    obtain ⟨m', _, _, h'⟩ := client_hidden escape svc async h1
    rw [h2] at h'
    unfold clientAttr at h
    rw [show clientInstance.get? (executeName k) = none by cases k <;> decide +kernel] at h
    dsimp only at h
    rw [h'] at h
    cases h

theorem all_free (escape : Str → Str) (svc : DescService) (async : Bool) (p : Proto) (k : Kind) :
    (((sendsBy p k).all fun j => clientAttr (svc.client escape async) (sendName j) = some (.send j)) = true ∧
      ∀ m ∈ svc.methods, m.localName escape ≠ executeName k) ↔ ∀ m ∈ svc.methods, m.localName escape ∉ ownFunctions p k := by
  have hs : ((sendsBy p k).all fun j => clientAttr (svc.client escape async) (sendName j) = some (.send j)) = true ↔
      ∀ j ∈ sendsBy p k, ∀ m ∈ svc.methods, m.localName escape ≠ sendName j := by
    rw [List.all_eq_true]
    exact ⟨fun h j hj => (clientAttr_send_iff ..).1 (of_decide_eq_true (h j hj)),
      fun h j hj => decide_eq_true ((clientAttr_send_iff ..).2 (h j hj))⟩
  rw [hs]
  have ho : ownFunctions p k = executeName k :: (sendsBy p k).map sendName := by
    cases k <;> cases p <;> rfl
  rw [ho]
  constructor
  · rintro ⟨h1, h2⟩ m hm hx
    rcases List.mem_cons.1 hx with hx | hx
    · exact h2 m hm hx
    · obtain ⟨j, hj, hx⟩ := List.mem_map.1 hx
      exact h1 j hj m hm hx.symm
  · intro h
    exact ⟨fun j hj m hm hx => h m hm (List.mem_cons_of_mem _ (List.mem_map.2 ⟨j, hj, hx.symm⟩)),
      fun m hm hx => h m hm (hx ▸ List.mem_cons_self)⟩

end Conn
