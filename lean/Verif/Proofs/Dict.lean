import Verif.Py.Dict
/- Lemmas about `Py.Dict`. -/
set_option linter.unusedSectionVars false
namespace Py.Dict
variable {α β : Type} [DecidableEq α]

@[simp] theorem keys_nil : keys ([] : Dict α β) = [] := rfl
@[simp] theorem keys_cons (p : α × β) (d : Dict α β) : keys (p :: d) = p.1 :: keys d := rfl

theorem get?_isSome_iff (d : Dict α β) (k : α) : (d.get? k).isSome ↔ k ∈ d.keys := by
  induction d with
  | nil => simp [get?, keys]
  | cons p r ih =>
    obtain ⟨k', v⟩ := p
    by_cases h : k' = k
    · simp [get?, h]
    · simp only [get?, h, if_false, keys_cons, List.mem_cons, ih]
      constructor
      · exact Or.inr
      · rintro (rfl | h')
        · exact absurd rfl h
        · exact h'

theorem contains_iff (d : Dict α β) (k : α) : d.contains k = true ↔ k ∈ d.keys := get?_isSome_iff d k

theorem contains_false_iff (d : Dict α β) (k : α) : d.contains k = false ↔ k ∉ d.keys := by
  rw [← contains_iff]; simp

theorem get?_eq_none_iff (d : Dict α β) (k : α) : d.get? k = none ↔ k ∉ d.keys := by
  rw [← get?_isSome_iff]; simp [Option.eq_none_iff_forall_ne_some, Option.isSome_iff_exists]

theorem get?_some_mem {d : Dict α β} {k : α} {v : β} (h : d.get? k = some v) : (k, v) ∈ d := by
  induction d with
  | nil => simp [get?] at h
  | cons p r ih =>
    obtain ⟨k', v'⟩ := p
    simp only [get?] at h
    split at h
    · rename_i hk; cases hk; cases h; simp
    · exact List.mem_cons_of_mem _ (ih h)

theorem get?_of_mem {d : Dict α β} (hn : d.keys.Nodup) {k : α} {v : β} (h : (k, v) ∈ d) :
    d.get? k = some v := by
  induction d with
  | nil => simp at h
  | cons p r ih =>
    obtain ⟨k', v'⟩ := p
    simp only [keys_cons, List.nodup_cons] at hn
    simp only [List.mem_cons, Prod.mk.injEq] at h
    simp only [get?]
    rcases h with ⟨rfl, rfl⟩ | h
    · simp
    · have : k' ≠ k := by
        rintro rfl; exact hn.1 (List.mem_map.mpr ⟨_, h, rfl⟩)
      simp [this, ih hn.2 h]

theorem get?_set (d : Dict α β) (k k' : α) (v : β) :
    (d.set k v).get? k' = if k = k' then some v else d.get? k' := by
  induction d with
  | nil => simp [set, get?]
  | cons p r ih =>
    obtain ⟨k₀, v₀⟩ := p
    by_cases h : k₀ = k
    · subst h; by_cases h' : k₀ = k' <;> simp [set, get?, h']
    · by_cases h' : k₀ = k'
      · subst h'; simp [set, get?, h, Ne.symm h]
      · simp [set, get?, h, h', ih]

theorem keys_set_of_mem {d : Dict α β} {k : α} (h : k ∈ d.keys) (v : β) : (d.set k v).keys = d.keys := by
  induction d with
  | nil => simp at h
  | cons p r ih =>
    obtain ⟨k₀, v₀⟩ := p
    by_cases h0 : k₀ = k
    · simp [set, h0]
    · simp only [keys_cons, List.mem_cons] at h
      rcases h with rfl | h
      · exact absurd rfl h0
      · simp [set, h0, ih h]

theorem set_of_not_mem {d : Dict α β} {k : α} (h : k ∉ d.keys) (v : β) : d.set k v = d ++ [(k, v)] := by
  induction d with
  | nil => simp [set]
  | cons p r ih =>
    obtain ⟨k₀, v₀⟩ := p
    simp only [keys_cons, List.mem_cons, not_or] at h
    simp [set, Ne.symm h.1, ih h.2]

theorem set_of_mem {d : Dict α β} (hn : d.keys.Nodup) {k : α} (h : k ∈ d.keys) (v : β) :
    d.set k v = d.map fun e => if e.1 = k then (e.1, v) else e := by
  induction d with
  | nil => simp at h
  | cons p r ih =>
    obtain ⟨k₀, v₀⟩ := p
    simp only [keys_cons, List.nodup_cons] at hn
    by_cases h0 : k₀ = k
    · subst h0
      simp only [set, if_true, List.map_cons, List.cons.injEq, true_and]
      symm
      have : ∀ a ∈ r, (if a.1 = k₀ then (a.1, v) else a) = id a := by
        intro a ha
        have : a.1 ≠ k₀ := by rintro rfl; exact hn.1 (List.mem_map.mpr ⟨a, ha, rfl⟩)
        simp [this]
      rw [List.map_congr_left this, List.map_id]
    · simp only [keys_cons, List.mem_cons] at h
      rcases h with rfl | h
      · exact absurd rfl h0
      · simp [set, h0, ih hn.2 h]

theorem keys_append (d e : Dict α β) : (d ++ e : Dict α β).keys = d.keys ++ e.keys := by
  simp [keys]

theorem keys_set (d : Dict α β) (k : α) (v : β) :
    (d.set k v).keys = if k ∈ d.keys then d.keys else d.keys ++ [k] := by
  split
  · rename_i h; exact keys_set_of_mem h v
  · rename_i h; rw [set_of_not_mem h, keys_append]; rfl

theorem nodup_set {d : Dict α β} (hn : d.keys.Nodup) (k : α) (v : β) : (d.set k v).keys.Nodup := by
  rw [keys_set]; split
  · exact hn
  · rename_i h
    rw [List.nodup_append]
    refine ⟨hn, by simp, ?_⟩
    intro a ha b hb; simp at hb; subst hb; rintro rfl; exact h ha

theorem erase_eq_filter {d : Dict α β} (hn : d.keys.Nodup) (k : α) :
    d.erase k = d.filter fun e => e.1 ≠ k := by
  induction d with
  | nil => rfl
  | cons p r ih =>
    obtain ⟨k₀, v₀⟩ := p
    simp only [keys_cons, List.nodup_cons] at hn
    by_cases h0 : k₀ = k
    · subst h0
      simp only [erase, if_true]
      rw [List.filter_cons_of_neg (by simp)]
      symm
      rw [List.filter_eq_self]
      intro a ha
      have : a.1 ≠ k₀ := by rintro rfl; exact hn.1 (List.mem_map.mpr ⟨a, ha, rfl⟩)
      simpa using this
    · simp [erase, h0, ih hn.2]

theorem keys_erase {d : Dict α β} (hn : d.keys.Nodup) (k : α) :
    (d.erase k).keys = d.keys.filter (· ≠ k) := by
  rw [erase_eq_filter hn, keys, keys, List.filter_map]; rfl

theorem nodup_erase {d : Dict α β} (hn : d.keys.Nodup) (k : α) : (d.erase k).keys.Nodup := by
  rw [keys_erase hn]; exact hn.filter _

theorem get?_erase {d : Dict α β} (hn : d.keys.Nodup) (k k' : α) :
    (d.erase k).get? k' = if k = k' then none else d.get? k' := by
  induction d with
  | nil => simp [erase, get?]
  | cons p r ih =>
    obtain ⟨k₀, v₀⟩ := p
    simp only [keys_cons, List.nodup_cons] at hn
    by_cases h0 : k₀ = k
    · subst h0
      simp only [erase, if_true, get?]
      split
      · rename_i h; subst h; rw [get?_eq_none_iff]; exact hn.1
      · rfl
    · by_cases h' : k₀ = k'
      · subst h'; simp [erase, get?, h0, Ne.symm h0]
      · simp [erase, get?, h0, h', ih hn.2]

theorem mem_keys_of_mem_erase {d : Dict α β} {k k' : α} (h : k' ∈ (d.erase k).keys) : k' ∈ d.keys := by
  induction d with
  | nil => simp [erase] at h
  | cons p r ih =>
    obtain ⟨k₀, v₀⟩ := p
    by_cases h0 : k₀ = k
    · simp [erase, h0] at h; simp [h]
    · simp [erase, h0] at h; rcases h with rfl | h
      · simp
      · simp [ih h]

end Py.Dict
