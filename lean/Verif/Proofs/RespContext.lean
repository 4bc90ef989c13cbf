import Verif.Spec.RespContext
/-
Invariant of the context variable under well-nested histories.
-/
namespace Props
open Py Conn Spec

theorem ctxRun_append (w : CtxWorld) (a b : List CtxOp) : w.run (a ++ b) = (w.run a).run b := by
  induction a generalizing w with
  | nil => rfl
  | cons o a ih => exact ih _

/-- the state after a history (latest first) -/
theorem ctxRun_cons (o : CtxOp) (past : List CtxOp) :
    CtxWorld.new.run (o :: past).reverse = (CtxWorld.new.run past.reverse).step o := by
  rw [List.reverse_cons, ctxRun_append]; rfl

structure CtxInv (past : List CtxOp) (w : CtxWorld) : Prop where
  var : ∀ c, w.var c = (scope past c).head?
  stack : ∀ c, ∃ inh, scope past c = own past c ++ inh ∧
    ∀ l1 i l2, own past c = l1 ++ i :: l2 →
      ∃ t, w.token i = some t ∧ t.ctx = c ∧ t.old = (l2 ++ inh).head? ∧ t.id < w.made ∧ t.id ∉ w.used
  ids : ∀ i j t u, w.token i = some t → w.token j = some u → t.id = u.id → i = j
  idsLt : ∀ i t, w.token i = some t → t.id < w.made
  used : ∀ k ∈ w.used, k < w.made
  once : ∀ c d i, i ∈ own past c → i ∈ own past d → c = d
  nodup : ∀ c, (own past c).Nodup

theorem own_uninvolved {past : List CtxOp} {c : Nat} (h : ∀ o ∈ past, ¬ Involves c o) : own past c = [] := by
  induction past with
  | nil => rfl
  | cons o past ih =>
    have hi := ih (fun o ho => h o (by simp [ho]))
    have ho := h o (by simp)
    cases o <;> simp only [Involves] at ho <;> simp only [own] <;> first | exact hi | (rw [if_neg (fun e => ho e.symm)]; exact hi)

theorem head_tail {α : Type} {l : List α} {a : α} (h : l.head? = some a) : l = a :: l.tail := by
  cases l with
  | nil => cases h
  | cons b l => cases h; rfl

theorem ctxInv (past : List CtxOp) (hw : WellNested past) : CtxInv past (CtxWorld.new.run past.reverse) := by
  induction past with
  | nil =>
    refine ⟨fun _ => rfl, fun _ => ⟨[], rfl, ?_⟩, ?_, ?_, ?_, ?_, ?_⟩
    · intro l1 i l2 h; simp [own] at h
    · intro i j t u h; cases h
    · intro i t h; cases h
    · intro k h; cases h
    · intro c d i h; cases h
    · intro c; simp [own]
  | cons o past ih =>
    rw [ctxRun_cons]
    cases o with
    | record c r =>
      have I := ih hw
      have hv : ((CtxWorld.new.run past.reverse).record c r).var = (CtxWorld.new.run past.reverse).var ∧
          ((CtxWorld.new.run past.reverse).record c r).token = (CtxWorld.new.run past.reverse).token ∧
          ((CtxWorld.new.run past.reverse).record c r).made = (CtxWorld.new.run past.reverse).made ∧
          ((CtxWorld.new.run past.reverse).record c r).used = (CtxWorld.new.run past.reverse).used := by
        unfold CtxWorld.record
        cases (CtxWorld.new.run past.reverse).var c <;> exact ⟨rfl, rfl, rfl, rfl⟩
      obtain ⟨h1, h2, h3, h4⟩ := hv
      refine ⟨?_, ?_, ?_, ?_, ?_, I.once, I.nodup⟩
      · intro d; show ((CtxWorld.new.run past.reverse).record c r).var d = _; rw [h1]; exact I.var d
      · intro d; show ∃ inh, scope past d = own past d ++ inh ∧ ∀ l1 i l2, own past d = l1 ++ i :: l2 →
          ∃ t, ((CtxWorld.new.run past.reverse).record c r).token i = some t ∧ t.ctx = d ∧ t.old = (l2 ++ inh).head? ∧
            t.id < ((CtxWorld.new.run past.reverse).record c r).made ∧ t.id ∉ ((CtxWorld.new.run past.reverse).record c r).used
        rw [h2, h3, h4]; exact I.stack d
      · show ∀ i j t u, ((CtxWorld.new.run past.reverse).record c r).token i = some t → ((CtxWorld.new.run past.reverse).record c r).token j = some u → _
        rw [h2]; exact I.ids
      · show ∀ i t, ((CtxWorld.new.run past.reverse).record c r).token i = some t → t.id < ((CtxWorld.new.run past.reverse).record c r).made
        rw [h2, h3]; exact I.idsLt
      · show ∀ k ∈ ((CtxWorld.new.run past.reverse).record c r).used, k < ((CtxWorld.new.run past.reverse).record c r).made
        rw [h3, h4]; exact I.used
    | copy c d =>
      obtain ⟨hdc, hd, hp⟩ := hw
      have I := ih hp
      have hown := own_uninvolved hd
      refine ⟨?_, ?_, I.ids, I.idsLt, I.used, I.once, I.nodup⟩
      · intro e
        show setAt _ d _ e = _
        unfold setAt
        simp only [scope]
        by_cases h : e = d
        · rw [if_pos h, if_pos h]; exact I.var c
        · rw [if_neg h, if_neg h]; exact I.var e
      · intro e
        simp only [scope, own]
        by_cases h : e = d
        · subst h
          rw [if_pos rfl, hown]
          refine ⟨scope past c, rfl, ?_⟩
          intro l1 i l2 h; simp at h
        · rw [if_neg h]; exact I.stack e
    | enter c i =>
      obtain ⟨hno, hp⟩ := hw
      have I := ih hp
      generalize CtxWorld.new.run past.reverse = w at I
      refine ⟨?_, ?_, ?_, ?_, ?_, ?_, ?_⟩
      · intro e
        show setAt _ c _ e = _
        unfold setAt
        simp only [scope]
        by_cases h : e = c
        · rw [if_pos h, if_pos h]; rfl
        · rw [if_neg h, if_neg h]; exact I.var e
      · intro e
        obtain ⟨inh, h1, h2⟩ := I.stack e
        have keepT : ∀ j, j ≠ i → (w.enter c i).token j = w.token j := by
          intro j hj
          show setAt _ i _ j = _
          unfold setAt
          rw [if_neg hj]
        simp only [scope, own]
        by_cases h : e = c
        · subst h
          rw [if_pos rfl, if_pos rfl]
          refine ⟨inh, by rw [h1]; rfl, ?_⟩
          intro l1 j l2 hl
          cases l1 with
          | nil =>
            simp only [List.nil_append, List.cons.injEq] at hl
            obtain ⟨rfl, rfl⟩ := hl
            refine ⟨⟨w.made, e, w.var e⟩, ?_, rfl, ?_, Nat.lt_succ_self _, ?_⟩
            · show setAt _ i _ i = _
              unfold setAt
              rw [if_pos rfl]
            · rw [I.var e, h1]
            · intro hu; exact absurd (I.used _ hu) (Nat.lt_irrefl _)
          | cons x l1 =>
            simp only [List.cons_append, List.cons.injEq] at hl
            obtain ⟨t, ht, a, b, d, f⟩ := h2 l1 j l2 hl.2
            have hj : j ≠ i := by
              rintro rfl
              exact hno e (by rw [hl.2]; simp)
            exact ⟨t, by show (w.enter e i).token j = _; rw [keepT j hj]; exact ht, a, b, Nat.lt_succ_of_lt d, f⟩
        · rw [if_neg h, if_neg h]
          refine ⟨inh, h1, ?_⟩
          intro l1 j l2 hl
          obtain ⟨t, ht, a, b, d, f⟩ := h2 l1 j l2 hl
          have hj : j ≠ i := by
            rintro rfl
            exact hno e (by rw [hl]; simp)
          exact ⟨t, by show (w.enter c i).token j = _; rw [keepT j hj]; exact ht, a, b, Nat.lt_succ_of_lt d, f⟩
      · intro j k t u hj hk he
        change setAt w.token i _ j = _ at hj
        change setAt w.token i _ k = _ at hk
        unfold setAt at hj hk
        by_cases h1 : j = i <;> by_cases h2 : k = i
        · rw [h1, h2]
        · rw [if_pos h1] at hj
          rw [if_neg h2] at hk
          cases hj
          have hlt := I.idsLt k u hk
          dsimp only at he
          omega
        · rw [if_neg h1] at hj
          rw [if_pos h2] at hk
          cases hk
          have hlt := I.idsLt j t hj
          dsimp only at he
          omega
        · rw [if_neg h1] at hj
          rw [if_neg h2] at hk
          exact I.ids j k t u hj hk he
      · intro j t hj
        change setAt w.token i _ j = _ at hj
        unfold setAt at hj
        show t.id < w.made + 1
        split at hj
        · cases hj; exact Nat.lt_succ_self _
        · exact Nat.lt_succ_of_lt (I.idsLt j t hj)
      · intro k hk; exact Nat.lt_succ_of_lt (I.used k hk)
      · intro a b j ha hb
        simp only [own] at ha hb
        split at ha <;> split at hb
        · rename_i x y; rw [x, y]
        · simp only [List.mem_cons] at ha
          rcases ha with rfl | ha
          · exact absurd hb (hno b)
          · exact I.once a b j ha hb
        · simp only [List.mem_cons] at hb
          rcases hb with rfl | hb
          · exact absurd ha (hno a)
          · exact I.once a b j ha hb
        · exact I.once a b j ha hb
      · intro e
        simp only [own]
        split
        · exact List.nodup_cons.2 ⟨hno e, I.nodup e⟩
        · exact I.nodup e
    | exit c i =>
      obtain ⟨hhead, hp⟩ := hw
      have I := ih hp
      generalize CtxWorld.new.run past.reverse = w at I
      have htail := head_tail hhead
      obtain ⟨inh, h1, h2⟩ := I.stack c
      obtain ⟨t, ht, hctx, hold, hlt, hnu⟩ := h2 [] i (own past c).tail htail
      have hst : w.step (.exit c i) =
          ⟨setAt w.var c t.old, w.content, setAt w.token i none, w.made, t.id :: w.used⟩ := by
        show w.exit c i = _
        unfold CtxWorld.exit CtxWorld.reset
        rw [ht]
        dsimp only
        rw [if_neg (fun h => h.elim hnu (fun h => h hctx))]
        rfl
      rw [hst]
      have hmem : i ∈ own past c := by rw [htail]; simp
      refine ⟨?_, ?_, ?_, ?_, ?_, ?_, ?_⟩
      · intro e
        show setAt _ c _ e = _
        unfold setAt
        simp only [scope]
        by_cases h : e = c
        · subst h
          rw [if_pos rfl, if_pos rfl, hold, h1]
          conv => rhs; rw [htail]
          rfl
        · rw [if_neg h, if_neg h]; exact I.var e
      · intro e
        have keepT : ∀ j l1 l2, own past e = l1 ++ j :: l2 → j ≠ i → ∀ inh',
            (∃ u, w.token j = some u ∧ u.ctx = e ∧ u.old = (l2 ++ inh').head? ∧ u.id < w.made ∧ u.id ∉ w.used) →
            ∃ u, setAt w.token i none j = some u ∧ u.ctx = e ∧ u.old = (l2 ++ inh').head? ∧ u.id < w.made ∧
              u.id ∉ t.id :: w.used := by
          intro j l1 l2 _ hj inh' ⟨u, hu, a, b, d, f⟩
          refine ⟨u, ?_, a, b, d, ?_⟩
          · unfold setAt; rw [if_neg hj]; exact hu
          · intro hm
            simp only [List.mem_cons] at hm
            rcases hm with hm | hm
            · exact hj (I.ids j i u t hu ht hm)
            · exact f hm
        simp only [scope, own]
        by_cases h : e = c
        · subst h
          rw [if_pos rfl, if_pos rfl]
          refine ⟨inh, ?_, ?_⟩
          · rw [h1, htail]; rfl
          · intro l1 j l2 hl
            have hl' : own past e = (i :: l1) ++ j :: l2 := by rw [htail, hl]; rfl
            have hj : j ≠ i := by
              rintro rfl
              have := I.nodup e
              rw [hl'] at this
              simp at this
            exact keepT j (i :: l1) l2 hl' hj inh (h2 (i :: l1) j l2 hl')
        · rw [if_neg h, if_neg h]
          obtain ⟨inh', g1, g2⟩ := I.stack e
          refine ⟨inh', g1, ?_⟩
          intro l1 j l2 hl
          have hj : j ≠ i := by
            rintro rfl
            exact h (I.once e c j (by rw [hl]; simp) hmem)
          exact keepT j l1 l2 hl hj inh' (g2 l1 j l2 hl)
      · intro j k u v hj hk
        change setAt w.token i _ j = _ at hj
        change setAt w.token i _ k = _ at hk
        unfold setAt at hj hk
        split at hj
        · cases hj
        split at hk
        · cases hk
        exact I.ids j k u v hj hk
      · intro j u hj
        change setAt w.token i _ j = _ at hj
        unfold setAt at hj
        split at hj
        · cases hj
        exact I.idsLt j u hj
      · intro k hk
        simp only [List.mem_cons] at hk
        rcases hk with rfl | hk
        · exact hlt
        · exact I.used k hk
      · intro a b j ha hb
        have hsub : ∀ e, j ∈ own (.exit c i :: past) e → j ∈ own past e := by
          intro e he
          simp only [own] at he
          split at he
          · exact List.mem_of_mem_tail he
          · exact he
        exact I.once a b j (hsub a ha) (hsub b hb)
      · intro e
        simp only [own]
        split
        · have := I.nodup e
          exact this.sublist (List.tail_sublist _)
        · exact I.nodup e

theorem ctxContent (past : List CtxOp) (hw : WellNested past) (i : Nat) :
    (CtxWorld.new.run past.reverse).content i = (recordedIn i past).foldr keep RespMeta.new := by
  induction past with
  | nil => rfl
  | cons o past ih =>
    rw [ctxRun_cons]
    cases o with
    | enter c j => exact ih hw.2
    | copy c d => exact ih hw.2.2
    | exit c j =>
      refine Eq.trans ?_ (ih hw.2)
      show ((CtxWorld.new.run past.reverse).exit c j).content i = _
      unfold CtxWorld.exit CtxWorld.reset
      cases (CtxWorld.new.run past.reverse).token j with
      | none => rfl
      | some t =>
        dsimp only
        split <;> rfl
    | record c r =>
      have I := ctxInv past hw
      have ih := ih hw
      have hv := I.var c
      simp only [recordedIn]
      show ((CtxWorld.new.run past.reverse).record c r).content i = _
      unfold CtxWorld.record
      cases hs : (scope past c).head? with
      | none =>
        rw [hs] at hv
        rw [hv, if_neg (by simp)]
        exact ih
      | some j =>
        rw [hs] at hv
        rw [hv]
        dsimp only
        show setAt _ j _ i = _
        unfold setAt
        by_cases h : i = j
        · subst h
          rw [if_pos rfl, if_pos rfl, List.foldr_cons, ← ih]
          cases r <;> rfl
        · rw [if_neg h, if_neg (by simpa using fun e => h e.symm)]
          exact ih

theorem scope_block (i c : Nat) (mid past : List CtxOp) (hw : WellNested (mid ++ .enter c i :: past))
    (hno : ∀ d, CtxOp.exit d i ∉ mid) : ∃ l, scope (mid ++ .enter c i :: past) c = l ++ i :: scope past c ∧
      own (mid ++ .enter c i :: past) c = l ++ i :: own past c := by
  induction mid with
  | nil => exact ⟨[], by simp [scope], by simp [own]⟩
  | cons o mid ih =>
    have hno' : ∀ d, CtxOp.exit d i ∉ mid := fun d h => hno d (by simp [h])
    cases o with
    | enter d j =>
      obtain ⟨l, hs, hl⟩ := ih hw.2 hno'
      simp only [List.cons_append, own, scope]
      split
      · exact ⟨j :: l, by rw [hs]; rfl, by rw [hl]; rfl⟩
      · exact ⟨l, hs, hl⟩
    | exit d j =>
      obtain ⟨l, hs, hl⟩ := ih hw.2 hno'
      simp only [List.cons_append, own, scope]
      split
      · rename_i h
        subst h
        have hh := hw.1
        cases l with
        | nil =>
          change (own (mid ++ .enter c i :: past) c).head? = some j at hh
          rw [hl] at hh
          cases hh
          exact absurd (by simp) (hno c)
        | cons x l => exact ⟨l, by rw [hs]; rfl, by rw [hl]; rfl⟩
      · exact ⟨l, hs, hl⟩
    | copy d e =>
      obtain ⟨l, hs, hl⟩ := ih hw.2.2 hno'
      refine ⟨l, ?_, hl⟩
      simp only [List.cons_append, scope]
      rw [if_neg]
      · exact hs
      · rintro rfl
        exact hw.2.1 (.enter c i) (by simp) rfl
    | record d r =>
      obtain ⟨l, hs, hl⟩ := ih hw hno'
      exact ⟨l, hs, hl⟩

end Props
