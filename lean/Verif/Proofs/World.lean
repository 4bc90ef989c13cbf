import Verif.Proofs.Transport
/-
The assumptions about the environment (Spec/Transport) can be met: for every request and every response there is an environment that
passes them on.
-/
namespace Conn
open Py Spec Props

theorem fieldValues_lower (l : List (Str × Str)) (n : Str) : fieldValues l (lower n) = fieldValues l n := by
  unfold fieldValues
  rw [Headers.lower_idem]

/-- the names of the fields that a server passes on, each once -/
def forwardedNames (l : List (Str × Str)) : List Str :=
  ((l.map fun p => lower p.1).filter fun n => decide (lower n ∉ transportNames ∧ '_' ∉ n)).eraseDups

theorem mem_forwardedNames {l : List (Str × Str)} {n : Str} (hf : Forwarded n) (hv : fieldValues l n ≠ []) :
    lower n ∈ forwardedNames l := by
  unfold forwardedNames
  rw [List.mem_eraseDups, List.mem_filter]
  refine ⟨?_, ?_⟩
  · apply Decidable.byContradiction
    intro h
    refine hv (fieldValues_none ?_)
    intro p hp e
    exact h (List.mem_map.2 ⟨p, hp, e⟩)
  · rw [decide_eq_true_iff, Headers.lower_idem]
    refine ⟨hf.1, fun hc => hf.2 ?_⟩
    obtain ⟨c, h1, h2⟩ := List.mem_map.1 hc
    have : c = '_' := by
      unfold lowerChar at h2
      split at h2
      · rename_i hc
        obtain ⟨a1, a2⟩ := hc
        have hn : (Char.ofNat (c.toNat + 32)).toNat = 95 := by rw [h2]; decide
        have e1 : c.toNat ≤ 90 := a2
        have e2 : 65 ≤ c.toNat := a1
        rw [ofNat_toNat' (by omega)] at hn
        omega
      · exact h2
    rw [← this]; exact h1

theorem forwardedNames_spec {l : List (Str × Str)} {n : Str} (h : n ∈ forwardedNames l) : lower n = n ∧ Forwarded n ∧ fieldValues l n ≠ [] := by
  unfold forwardedNames at h
  rw [List.mem_eraseDups, List.mem_filter] at h
  obtain ⟨h1, h2⟩ := h
  obtain ⟨p, hp, rfl⟩ := List.mem_map.1 h1
  refine ⟨Headers.lower_idem _, of_decide_eq_true h2, ?_⟩
  intro e
  unfold fieldValues at e
  rw [List.map_eq_nil_iff, List.filter_eq_nil_iff] at e
  exact e p hp (by simp [Headers.lower_idem])

theorem get?_vars {g v : Str → Str} : ∀ {l : List Str} {n : Str}, (∀ x ∈ l, g x = g n → x = n) → n ∈ l →
    Dict.get? (l.map fun n => (g n, v n)) (g n) = some (v n)
  | [], _, _, h => by cases h
  | x :: l, n, hi, h => by
    rw [List.map_cons]
    unfold Dict.get?
    by_cases e : g x = g n
    · rw [if_pos e, hi x List.mem_cons_self e]
    · rw [if_neg e]
      refine get?_vars (fun y hy => hi y (List.mem_cons_of_mem _ hy)) ?_
      rcases List.mem_cons.1 h with rfl | h
      · exact absurd rfl e
      · exact h

/-- what an application server makes of a request -/
def environOf (method path query : Str) (fields : List (Str × Str)) (body : List Bytes) : Environ :=
  ⟨(pys! "REQUEST_METHOD", method) :: (pys! "PATH_INFO", path) :: (pys! "QUERY_STRING", query) ::
    (forwardedNames fields).map fun n => (cgiVar n, join [','] (fieldValues fields n)),
   body.filter (· ≠ []), false⟩

theorem cgiVar_lower (n : Str) (h : '_' ∉ n) : cgiVar (lower n) = cgiVar n := by
  unfold cgiVar
  rw [Headers.lower_idem]
  split
  · rfl
  · congr 1
    unfold lower
    rw [List.map_map]
    apply List.map_congr_left
    intro c _
    show (if lowerChar c = '-' then '_' else upperChar (lowerChar c)) = if c = '-' then '_' else upperChar c
    by_cases hc : c = '-'
    · subst hc; rfl
    · have h1 : lowerChar c ≠ '-' ∧ upperChar (lowerChar c) = upperChar c := by
        unfold lowerChar
        split
        · rename_i hu
          have e1 : c.toNat ≤ 90 := hu.2
          have e2 : 65 ≤ c.toNat := hu.1
          have e3 : (Char.ofNat (c.toNat + 32)).toNat = c.toNat + 32 := ofNat_toNat' (by omega)
          refine ⟨?_, ?_⟩
          · intro e
            rw [e] at e3
            have : ('-' : Char).toNat = 45 := rfl
            omega
          · have hn : upperChar c = c := by
              unfold upperChar
              rw [if_neg]
              rintro ⟨h, _⟩
              have : 97 ≤ c.toNat := h
              omega
            rw [hn]
            unfold upperChar
            rw [if_pos]
            · rw [e3, Nat.add_sub_cancel]
              exact Char.ofNat_toNat c
            · refine ⟨?_, ?_⟩
              · show 97 ≤ (Char.ofNat (c.toNat + 32)).toNat
                omega
              · show (Char.ofNat (c.toNat + 32)).toNat ≤ 122
                omega
        · exact ⟨hc, rfl⟩
      rw [if_neg hc, if_neg h1.1, h1.2]

theorem cgiVar_inj {a b : Str} (ha : lower a = a) (hb : lower b = b) (h1 : '_' ∉ a) (h2 : '_' ∉ b) (h : cgiVar a = cgiVar b) : a = b := by
  have := headerOfVar_cgiVar h1
  rw [h, headerOfVar_cgiVar h2, ha, hb] at this
  exact (Option.some.inj this).symm

theorem cgiVar_ne (n : Str) : cgiVar n ≠ pys! "REQUEST_METHOD" ∧ cgiVar n ≠ pys! "PATH_INFO" ∧ cgiVar n ≠ pys! "QUERY_STRING" ∧
    cgiVar n ≠ pys! "CONTENT_LENGTH" := by
  unfold cgiVar
  split
  · decide
  · refine ⟨?_, ?_, ?_, ?_⟩ <;> intro h <;> cases h

theorem environOf_get {method path query : Str} {fields : List (Str × Str)} {body : List Bytes} {n : Str} (hf : Forwarded n)
    (hv : fieldValues fields n ≠ []) :
    Dict.get? (environOf method path query fields body).vars (cgiVar n) = some (join [','] (fieldValues fields n)) := by
  have hm := mem_forwardedNames hf hv
  have hs := forwardedNames_spec hm
  have := get?_vars (g := cgiVar) (v := fun n => join [','] (fieldValues fields n)) (l := forwardedNames fields) (n := lower n)
    (fun x hx e => cgiVar_inj (forwardedNames_spec hx).1 hs.1 (forwardedNames_spec hx).2.1.2 hs.2.1.2 e) hm
  rw [fieldValues_lower, cgiVar_lower n hf.2] at this
  obtain ⟨n1, n2, n3, _⟩ := cgiVar_ne n
  unfold environOf
  dsimp only
  unfold Dict.get?
  rw [if_neg (Ne.symm n1)]
  unfold Dict.get?
  rw [if_neg (Ne.symm n2)]
  unfold Dict.get?
  rw [if_neg (Ne.symm n3)]
  exact this

theorem filterMap_vars {fields : List (Str × Str)} : ∀ {l : List Str}, (∀ n ∈ l, lower n = n ∧ '_' ∉ n) →
    (l.map fun n => (cgiVar n, join [','] (fieldValues fields n))).filterMap (fun p => headerOfVar p.1) = l
  | [], _ => rfl
  | n :: l, h => by
    rw [List.map_cons, List.filterMap_cons]
    have := headerOfVar_cgiVar (h n List.mem_cons_self).2
    dsimp only
    rw [this, (h n List.mem_cons_self).1]
    dsimp only
    rw [filterMap_vars fun x hx => h x (List.mem_cons_of_mem _ hx)]

theorem environOf_headers (method path query : Str) (fields : List (Str × Str)) (body : List Bytes) :
    (environOf method path query fields body).vars.filterMap (fun p => headerOfVar p.1) = forwardedNames fields := by
  unfold environOf
  dsimp only
  rw [List.filterMap_cons, List.filterMap_cons, List.filterMap_cons]
  exact filterMap_vars fun n hn => ⟨(forwardedNames_spec hn).1, (forwardedNames_spec hn).2.1.2⟩

theorem nodup_eraseDups {α : Type} [BEq α] [LawfulBEq α] : ∀ (k : Nat) (l : List α), l.length ≤ k → l.eraseDups.Nodup
  | _, [], _ => by simp
  | 0, _ :: _, h => by simp at h
  | k + 1, a :: l, h => by
    rw [List.eraseDups_cons, List.nodup_cons]
    refine ⟨?_, nodup_eraseDups k _ ?_⟩
    · rw [List.mem_eraseDups, List.mem_filter]
      simp
    · have := List.length_filter_le (fun b => !b == a) l
      simp at h
      omega

theorem environOf_distinct (method path query : Str) (fields : List (Str × Str)) (body : List Bytes) :
    DistinctHeaders (environOf method path query fields body).vars := by
  unfold DistinctHeaders
  rw [environOf_headers]
  exact nodup_eraseDups _ _ (Nat.le_refl _)

theorem flatten_nonempty : ∀ (l : List Bytes), (l.filter (· ≠ [])).flatten = l.flatten
  | [] => rfl
  | a :: l => by
    rw [List.filter_cons]
    split
    · rw [List.flatten_cons, List.flatten_cons, flatten_nonempty l]
    · rename_i h
      have : a = [] := by simpa using h
      rw [this, flatten_nonempty l]
      rfl

theorem plainPath_no_query {p : Str} (h : PlainPath p) : '?' ∉ p := by
  intro hc
  have := h.2 _ hc
  revert this
  unfold PathChar
  decide

theorem query_split {p p' q q' : Str} (h : '?' ∉ p) (h' : '?' ∉ p') (e : p ++ ['?'] ++ q = p' ++ ['?'] ++ q') : p = p' ∧ q = q' := by
  induction p generalizing p' with
  | nil =>
    cases p' with
    | nil => simpa using e
    | cons b p' =>
      simp at e
      exact absurd List.mem_cons_self (e.1 ▸ h')
  | cons a p ih =>
    cases p' with
    | nil =>
      simp at e
      exact absurd List.mem_cons_self (e.1 ▸ h)
    | cons b p' =>
      simp only [List.cons_append, List.cons.injEq] at e
      obtain ⟨h1, h2⟩ := ih (fun h3 => h (List.mem_cons_of_mem _ h3)) (fun h3 => h' (List.mem_cons_of_mem _ h3)) e.2
      exact ⟨by rw [e.1, h1], h2⟩

/-- the path and the query of a request -/
def HasTarget (address : Str) (rq : HttpRequest) (path query : Str) : Prop :=
  PlainPath path ∧ ((rq.url = address ++ path ∧ query = []) ∨ rq.url = address ++ path ++ ['?'] ++ query)

theorem hasTarget_of {address : Str} {rq : HttpRequest} {path : Str} (hp : PlainPath path) (h : Addressed address rq path) :
    ∃ q, HasTarget address rq path q := by
  rcases h with h | ⟨q, h⟩
  · exact ⟨[], hp, .inl ⟨h, rfl⟩⟩
  · exact ⟨q, hp, .inr h⟩

theorem target_path {address : Str} {rq : HttpRequest} {path query : Str} (h : HasTarget address rq path query) :
    (∀ p, PlainPath p → rq.url = address ++ p → p = path) ∧
    ∀ p q, PlainPath p → rq.url = address ++ p ++ ['?'] ++ q → p = path ∧ q = query := by
  have hq := plainPath_no_query h.1
  refine ⟨?_, ?_⟩
  · intro p hp e
    rcases h.2 with ⟨e', _⟩ | e'
    · rw [e'] at e
      exact (List.append_cancel_left e).symm
    · rw [e', List.append_assoc, List.append_assoc] at e
      have := List.append_cancel_left e
      exact absurd (by rw [← this]; simp) (plainPath_no_query hp)
  · intro p q hp e
    rcases h.2 with ⟨e', _⟩ | e'
    · rw [e', List.append_assoc, List.append_assoc] at e
      have := List.append_cancel_left e
      exact absurd (by rw [this]; simp) hq
    · rw [e', List.append_assoc, List.append_assoc, List.append_assoc, List.append_assoc] at e
      have := List.append_cancel_left e
      obtain ⟨h1, h2⟩ := query_split hq (plainPath_no_query hp) (by simpa using this)
      exact ⟨h1.symm, h2.symm⟩

/-- every request can be passed on by a WSGI server -/
theorem wsgiSees_environOf {address : Str} {rq : HttpRequest} {path query : Str} (h : HasTarget address rq path query) :
    WsgiSees address rq (environOf rq.method path query rq.headers rq.body) where
  method := rfl
  path p hp e := by rw [(target_path h).1 p hp e]; rfl
  query p q hp e := by
    obtain ⟨h1, h2⟩ := (target_path h).2 p q hp e
    rw [h1, h2]
    exact ⟨rfl, rfl⟩
  distinct := environOf_distinct _ _ _ _ _
  field n hf hv := environOf_get hf hv
  unset n hn hv := by
    refine values_none ?_
    rw [environOf_headers]
    intro hm
    refine (forwardedNames_spec hm).2.2 ?_
    rw [fieldValues_lower]
    exact hv
  pieces s hs := by
    have := (List.mem_filter.1 hs).2
    simpa using this
  body := flatten_nonempty _
  length := .inl (by
    intro s hs
    exfalso
    have : ∀ (l : List Str), Dict.get? (l.map fun n => (cgiVar n, join [','] (fieldValues rq.headers n))) (pys! "CONTENT_LENGTH") = none := by
      intro l
      induction l with
      | nil => rfl
      | cons n l ih =>
        rw [List.map_cons]
        unfold Dict.get?
        rw [if_neg (cgiVar_ne n).2.2.2]
        exact ih
    have h2 : Dict.get? (environOf rq.method path query rq.headers rq.body).vars (pys! "CONTENT_LENGTH") = none := this _
    rw [h2] at hs
    cases hs)

/-- every request can be passed on by an ASGI server, in any mount -/
theorem asgiSees_of {address : Str} {rq : HttpRequest} {path query : Str} (h : HasTarget address rq path query) (root : Str) (env : Env)
    (hb : AsgiBody env.receive rq.body.flatten) :
    AsgiSees address rq ⟨root ++ path, root, rq.method, none, rq.headers.map fun p => (utf8Encode p.1, utf8Encode p.2), none,
      utf8Encode query, false⟩ env where
  method := rfl
  path p hp e := by rw [(target_path h).1 p hp e]
  query p q hp e := by
    obtain ⟨h1, h2⟩ := (target_path h).2 p q hp e
    rw [h1, h2]
    exact ⟨rfl, rfl⟩
  fields := ⟨rq.headers, rfl, fun _ _ _ => rfl, fun _ _ h => h⟩
  body := hb

theorem fieldValues_map_lower : ∀ (l : List (Str × Str)) (n : Str), fieldValues (l.map fun p => (lower p.1, p.2)) n = fieldValues l n
  | [], _ => rfl
  | (k, v) :: l, n => by
    rw [List.map_cons, fieldValues_cons, fieldValues_cons, fieldValues_map_lower l n, Headers.lower_idem]

/-- every response with at most one content encoding, which the HTTP client can undo, can be received -/
theorem received_of {undo : Undo} {r : Response} {content : Bytes}
    (h : (fieldValues r.fields (pys! "content-encoding") = [] ∧ content = r.body) ∨
      (fieldValues r.fields (pys! "content-encoding") = [pys! "identity"] ∧ content = r.body) ∨
      ∃ enc, fieldValues r.fields (pys! "content-encoding") = [enc] ∧ enc ≠ pys! "identity" ∧ undo enc r.body = some content) :
    Received undo r ⟨r.status, r.fields.map fun p => (lower p.1, p.2), content⟩ where
  status := rfl
  lower p hp := by
    obtain ⟨q, _, rfl⟩ := List.mem_map.1 hp
    exact Headers.lower_idem _
  field n _ _ := fieldValues_map_lower _ _
  encoding := .inr (fieldValues_map_lower _ _)
  plain e := by
    rcases h with ⟨_, h⟩ | ⟨h, _⟩ | ⟨enc, h, _⟩
    · exact h
    · rw [e] at h; cases h
    · rw [e] at h; cases h
  encoded enc e := by
    rcases h with ⟨h, _⟩ | ⟨h, h2⟩ | ⟨enc', h, h2, h3⟩
    · rw [e] at h; cases h
    · rw [e] at h; cases h; exact .inl ⟨rfl, h2⟩
    · rw [e] at h; cases h; exact .inr ⟨h2, h3⟩

end Conn
