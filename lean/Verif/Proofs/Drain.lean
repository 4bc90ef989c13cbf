import Verif.Spec.Drain
import Verif.Proofs.ServerSync
/-
Lemmas about what is left of a request body.
-/
namespace Conn
open Py Spec

theorem unreadAux_nil (fuel : Nat) (segs : List Bytes) (h : Pieces segs) (hf : segs.flatten.length < fuel) : unreadAux fuel segs = [] := by
  induction fuel generalizing segs with
  | zero => omega
  | succ fuel ih =>
    unfold unreadAux
    dsimp only
    by_cases e : (readInput 4096 segs).1 = []
    · rw [if_pos (by simpa using e), readInput_nil (by omega) h e]
      rfl
    · rw [if_neg (by simpa using e)]
      have hl := List.length_pos_iff.mpr e
      have hlen := congrArg List.length (readInput_append 4096 segs)
      rw [List.length_append] at hlen
      exact ih _ (readInput_pieces h) (by omega)

theorem unread_nil {segs : List Bytes} (h : Pieces segs) : unread segs = [] := unreadAux_nil _ _ h (Nat.lt_succ_self _)

theorem http1_iff {env : Environ} (h : ByHttp1 env) : env.http1 = true := by
  obtain ⟨v, hv⟩ := h
  unfold Environ.http1
  rw [hv]
  show List.isPrefixOf _ _ = true
  rw [List.isPrefixOf_iff_prefix]
  exact List.prefix_append _ _

theorem drain_nil {env : Environ} (h : ByHttp1 env) {segs : List Bytes} (hp : Pieces segs) : env.drain segs = [] := by
  unfold Environ.drain
  rw [if_pos (http1_iff h), unread_nil hp]

theorem caught_nil {env : Environ} (h : ByHttp1 env) {segs : List Bytes} (hp : Pieces segs) {e : Exc} (he : e.isException = true) :
    env.caught e segs = [] := by
  unfold Environ.caught
  rw [if_pos he, drain_nil h hp]

theorem pieces_flatten_nil {segs : List Bytes} (h : Pieces segs) (he : segs.flatten = []) : segs = [] := by
  cases segs with
  | nil => rfl
  | cons s r =>
    rw [List.flatten_cons, List.append_eq_nil_iff] at he
    exact absurd he.1 (h s (.head _))

theorem drop_append_long {α : Type} {a b : List α} {n : Nat} (h : a.length ≤ n) : (a ++ b).drop n = b.drop (n - a.length) := by
  rw [List.drop_append, List.drop_of_length_le h, List.nil_append]

theorem unreadRest_eq (segs : List Bytes) (h : Pieces segs) (todo : Nat) :
    (unreadRest todo segs).flatten = segs.flatten.drop todo ∧ Pieces (unreadRest todo segs) := by
  induction todo using Nat.strongRecOn generalizing segs with
  | ind todo ih =>
    unfold unreadRest
    by_cases e : todo = 0
    · rw [dif_pos e, e]
      exact ⟨rfl, h⟩
    · rw [dif_neg e]
      by_cases e' : (readInput todo segs).1 = []
      · rw [dif_pos e']
        refine ⟨?_, readInput_pieces h⟩
        rw [readInput_nil (by omega) h e']
        simp [readInput]
      · rw [dif_neg e']
        have hl : 0 < (readInput todo segs).1.length := List.length_pos_iff.mpr e'
        obtain ⟨h1, h2⟩ := ih (todo - (readInput todo segs).1.length) (by omega) (readInput todo segs).2 (readInput_pieces h)
        refine ⟨?_, h2⟩
        rw [h1]
        have ha := readInput_append todo segs
        rw [← drop_append_long (readInput_length todo segs), ha]

theorem unreadWithLength_eq (segs : List Bytes) (h : Pieces segs) (n : Nat) :
    (unreadWithLength segs n).flatten = segs.flatten.drop n ∧ Pieces (unreadWithLength segs n) := by
  unfold unreadWithLength
  dsimp only
  have ha := readInput_append n segs
  by_cases e : (readInput n segs).1.length = n
  · rw [if_pos e]
    refine ⟨?_, readInput_pieces h⟩
    conv => rhs; rw [← ha]
    rw [drop_append_long (Nat.le_of_eq e), e, Nat.sub_self, List.drop_zero]
  · rw [if_neg e]
    obtain ⟨h1, h2⟩ := unreadRest_eq (readInput n segs).2 (readInput_pieces h) (n - (readInput n segs).1.length)
    refine ⟨?_, h2⟩
    rw [h1]
    conv => rhs; rw [← ha]
    rw [drop_append_long (readInput_length n segs)]

/-! ### the request stream -/

section
variable {Req Res : Type}

theorem readBodyAux_fuel (f1 f2 : Nat) (segs : List Bytes) (h1 : segs.flatten.length < f1) (h2 : segs.flatten.length < f2) :
    readBodyAux f1 segs = readBodyAux f2 segs := by
  induction f1 generalizing f2 segs with
  | zero => omega
  | succ f1 ih =>
    cases f2 with
    | zero => omega
    | succ f2 =>
      unfold readBodyAux
      dsimp only
      by_cases e : (readInput 4096 segs).1 = []
      · rw [if_pos (by simpa using e), if_pos (by simpa using e)]
      · rw [if_neg (by simpa using e), if_neg (by simpa using e)]
        have hl := List.length_pos_iff.mpr e
        have hlen := congrArg List.length (readInput_append 4096 segs)
        rw [List.length_append] at hlen
        rw [ih f2 _ (by omega) (by omega)]

theorem readBody_unfold (segs : List Bytes) :
    readBody segs = if (readInput 4096 segs).1.isEmpty then [] else (readInput 4096 segs).1 :: readBody (readInput 4096 segs).2 := by
  unfold readBody
  conv => lhs; unfold readBodyAux
  dsimp only
  by_cases e : (readInput 4096 segs).1 = []
  · rw [if_pos (by simpa using e), if_pos (by simpa using e)]
  · rw [if_neg (by simpa using e), if_neg (by simpa using e)]
    have hl := List.length_pos_iff.mpr e
    have hlen := congrArg List.length (readInput_append 4096 segs)
    rw [List.length_append] at hlen
    rw [readBodyAux_fuel _ ((readInput 4096 segs).2.flatten.length + 1) _ (by omega) (by omega)]

/-- the exception of a reader -/
def stopErr : Stop → Option Exc
  | .raised e => some e
  | .done => none

/-- The generator has the messages of `h` before it. `clean`: its body can be decoded. -/
structure Pulls (cfg : ReaderCfg Req Unit) (clean : Prop) (p : Puller Req) (h : HState Req) : Prop where
  pieces : Pieces p.segs
  ok : clean → h.err = none
  rest : (∃ e, p.err = some e ∧ p.over = false ∧ h.reqs = p.ready ∧ h.err = some e) ∨
    (p.err = none ∧ p.over = true ∧ p.ready = [] ∧ h.reqs = [] ∧ h.err = none ∧ (clean → p.segs = [])) ∨
    (p.err = none ∧ p.over = false ∧ h.reqs = p.ready ++ (feedAll cfg p.reader (readBody p.segs)).1 ∧
      h.err = stopErr (feedAll cfg p.reader (readBody p.segs)).2.1)

/-- what a handler is told that asks for the next message -/
def HState.told (h : HState Req) : Except Exc (Option Req) :=
  match h.reqs with
  | m :: _ => .ok (some m)
  | [] => match h.err with
    | some e => .error e
    | none => .ok none

/-- what is before it then -/
def HState.asked (h : HState Req) : HState Req :=
  match h.reqs with
  | _ :: ms => { h with reqs := ms }
  | [] => { h with err := none }

theorem askAux_pulls (cfg : ReaderCfg Req Unit) (clean : Prop) (fuel : Nat) (p : Puller Req) (h : HState Req) (hp : Pulls cfg clean p h)
    (hf : p.segs.flatten.length < fuel) :
    (p.askAux cfg fuel).2 = h.told ∧ Pulls cfg clean (p.askAux cfg fuel).1 h.asked ∧
      (h.told = .ok none → (p.askAux cfg fuel).1.over = true) := by
  induction fuel generalizing p with
  | zero => omega
  | succ fuel ih =>
    unfold Puller.askAux
    obtain ⟨hpi, hcl, hrest⟩ := hp
    cases hr : p.ready with
    | cons m ms =>
      dsimp only
      have htold : h.reqs = m :: (match h.reqs with | _ :: r => r | [] => []) ∧ (∀ r, h.reqs = m :: r →
          Pulls cfg clean { p with ready := ms } { h with reqs := r }) := by
        rcases hrest with ⟨e, h1, h2, h3, h4⟩ | ⟨h1, h2, h3, h4, h5⟩ | ⟨h1, h2, h3, h4⟩
        · rw [h3, hr]
          refine ⟨rfl, fun r hr' => ⟨hpi, hcl, .inl ⟨e, h1, h2, ?_, h4⟩⟩⟩
          cases hr'
          rfl
        · rw [h3] at hr; cases hr
        · rw [h3, hr]
          refine ⟨rfl, fun r hr' => ⟨hpi, hcl, .inr (.inr ⟨h1, h2, ?_, h4⟩)⟩⟩
          rw [List.cons_append] at hr'
          exact (List.cons.inj hr').2.symm
      obtain ⟨h1, h2⟩ := htold
      generalize (match h.reqs with | _ :: r => r | [] => []) = r at h1
      unfold HState.told HState.asked
      rw [h1]
      exact ⟨rfl, h2 r h1, fun h => by cases h⟩
    | nil =>
      dsimp only
      rcases hrest with ⟨e, h1, h2, h3, h4⟩ | ⟨h1, h2, h3, h4, h5, h6⟩ | ⟨h1, h2, h3, h4⟩
      · rw [h1]
        unfold HState.told HState.asked
        rw [h3, hr, h4]
        refine ⟨rfl, ⟨hpi, fun _ => rfl, .inr (.inl ⟨rfl, rfl, rfl, rfl, rfl, fun hc => ?_⟩)⟩, fun h => by cases h⟩
        rw [hcl hc] at h4
        cases h4
      · rw [h1]
        dsimp only
        rw [if_pos h2]
        unfold HState.told HState.asked
        rw [h4, h5]
        exact ⟨rfl, ⟨hpi, fun _ => rfl, .inr (.inl ⟨h1, h2, h3, rfl, rfl, h6⟩)⟩, fun _ => h2⟩
      · rw [h1]
        dsimp only
        rw [h2, if_neg (by decide)]
        rw [readBody_unfold] at h3 h4
        by_cases e : (readInput 4096 p.segs).1 = []
        · rw [if_pos (by simpa using e)] at h3 h4
          rw [if_pos (by simpa using e)]
          have hnil : p.segs = [] := readInput_nil (by omega) hpi e
          rw [hr] at h3
          change h.reqs = [] at h3
          change h.err = none at h4
          unfold HState.told HState.asked
          rw [h3, h4]
          refine ⟨rfl, ⟨readInput_pieces hpi, fun _ => rfl, .inr (.inl ⟨rfl, rfl, rfl, rfl, rfl, fun _ => ?_⟩)⟩, fun _ => rfl⟩
          show (readInput 4096 p.segs).2 = []
          rw [hnil]
          rfl
        · rw [if_neg (by simpa using e)] at h3 h4
          rw [if_neg (by simpa using e)]
          have hl := List.length_pos_iff.mpr e
          have hlen := congrArg List.length (readInput_append 4096 p.segs)
          rw [List.length_append] at hlen
          rw [hr, List.nil_append] at h3
          unfold feedAll at h3 h4
          cases hfe : feed cfg p.reader (readInput 4096 p.segs).1 with
          | mk ms rest =>
            obtain ⟨stop, s⟩ := rest
            rw [hfe] at h3 h4
            cases stop with
            | raised e' =>
              exact ih _ ⟨readInput_pieces hpi, hcl, .inl ⟨e', rfl, rfl, h3, h4⟩⟩ (by dsimp only; omega)
            | done =>
              exact ih _ ⟨readInput_pieces hpi, hcl, .inr (.inr ⟨rfl, rfl, h3, h4⟩)⟩ (by dsimp only; omega)

theorem ask_pulls {cfg : ReaderCfg Req Unit} {clean : Prop} {p : Puller Req} {h : HState Req} (hp : Pulls cfg clean p h) :
    (p.ask cfg).2 = h.told ∧ Pulls cfg clean (p.ask cfg).1 h.asked ∧ (h.told = .ok none → (p.ask cfg).1.over = true) :=
  askAux_pulls cfg clean _ p h hp (Nat.lt_succ_self _)

theorem pulls_congr {cfg : ReaderCfg Req Unit} {clean : Prop} {p : Puller Req} {h h' : HState Req} (hp : Pulls cfg clean p h) (h1 : h'.reqs = h.reqs)
    (h2 : h'.err = h.err) : Pulls cfg clean p h' := by
  obtain ⟨a, b, c⟩ := hp
  refine ⟨a, ?_, ?_⟩
  · rw [h2]; exact b
  · rw [h1, h2]; exact c

theorem over_clean {cfg : ReaderCfg Req Unit} {clean : Prop} {p : Puller Req} {h : HState Req} (hp : Pulls cfg clean p h) (ho : p.over = true)
    (hc : clean) : p.segs = [] := by
  rcases hp.rest with ⟨e, _, h2, _⟩ | ⟨_, _, _, _, _, h6⟩ | ⟨_, h2, _⟩
  · rw [h2] at ho; cases ho
  · exact h6 hc
  · rw [h2] at ho; cases ho

/-- One step, on both sides. -/
theorem step_pulls {cfg : ReaderCfg Req Unit} {clean : Prop} {p : Puller Req} {h : HState Req} (hp : Pulls cfg clean p h) (s : Step) :
    ∃ p', p.step cfg h.info s = (p', (h.step s).1.info, (h.step s).2) ∧ Pulls cfg clean p' (h.step s).1 ∧
      (p.over = true → p' = p) ∧ (∀ b, s = .recv b → h.told = .ok none → p'.over = true) := by
  cases s with
  | update f => exact ⟨p, rfl, pulls_congr hp rfl rfl, fun _ => rfl, fun b hb => by cases hb⟩
  | recv b =>
    obtain ⟨h1, h2, h3⟩ := ask_pulls hp
    refine ⟨(p.ask cfg).1, ?_, ?_, ?_, fun _ _ ht => h3 ht⟩
    · unfold Puller.step
      cases hq : p.ask cfg with
      | mk q r =>
        rw [hq] at h1
        change r = _ at h1
        subst h1
        unfold HState.told HState.step
        cases hr : h.reqs with
        | cons m ms => rfl
        | nil => cases he : h.err with
          | none => rfl
          | some e => rfl
    · refine pulls_congr h2 ?_ ?_
      · unfold HState.asked HState.step
        cases hr : h.reqs with
        | cons m ms => rfl
        | nil => cases he : h.err with
          | none => exact hr
          | some e => rfl
      · unfold HState.asked HState.step
        cases hr : h.reqs with
        | cons m ms => rfl
        | nil => cases he : h.err with
          | none => exact he
          | some e => rfl
    · intro ho
      rcases hp.rest with ⟨e, _, h5, _⟩ | ⟨h4, h5, h6, _⟩ | ⟨_, h5, _⟩
      · rw [h5] at ho; cases ho
      · unfold Puller.ask Puller.askAux
        rw [h6, h4]
        dsimp only
        rw [if_pos h5]
      · rw [h5] at ho; cases ho

/-- The rest of a run reads the rest of the stream, or fails. -/
def WillRead (clean : Prop) (p : Puller Req) (h : HState Req) (outcome : Option Exc) (acts : List (Act Res)) : Prop :=
  outcome ≠ none ∨ (p.over = true ∧ p.segs = []) ∨
    (h.reqs.length < asks acts ∧ (clean ∨ (h.err ≠ none ∧ ∀ a ∈ acts, a ≠ Act.step (.recv true))))

theorem willRead_step {cfg : ReaderCfg Req Unit} {clean : Prop} {p p' : Puller Req} {h : HState Req} (hp : Pulls cfg clean p h) {s : Step}
    {outcome : Option Exc} {acts : List (Act Res)} (hw : WillRead clean p h outcome (.step s :: acts)) (hnone : (h.step s).2 = none)
    (hp' : Pulls cfg clean p' (h.step s).1) (ho : p.over = true → p' = p) (htold : ∀ b, s = .recv b → h.told = .ok none → p'.over = true) :
    WillRead clean p' (h.step s).1 outcome acts := by
  rcases hw with h1 | ⟨h1, h2⟩ | ⟨h1, h2⟩
  · exact .inl h1
  · rw [ho h1]; exact .inr (.inl ⟨h1, h2⟩)
  · cases s with
    | update f => exact .inr (.inr ⟨h1, h2.imp_right fun h3 => ⟨h3.1, fun a ha => h3.2 a (.tail _ ha)⟩⟩)
    | recv b =>
      change h.reqs.length < asks acts + 1 at h1
      cases hr : h.reqs with
      | cons m ms =>
        have hs : h.step (.recv b) = ({ h with reqs := ms, got := h.got ++ [m] }, none) := by unfold HState.step; rw [hr]
        rw [hs]
        rw [hr, List.length_cons] at h1
        exact .inr (.inr ⟨by show ms.length < _; omega, h2.imp_right fun h3 => ⟨h3.1, fun a ha => h3.2 a (.tail _ ha)⟩⟩)
      | nil =>
        cases he : h.err with
        | none =>
          rcases h2 with h2 | h2
          · have hov := htold b rfl (by unfold HState.told; rw [hr, he])
            exact .inr (.inl ⟨hov, over_clean hp' hov h2⟩)
          · exact absurd he h2.1
        | some e =>
          rcases h2 with h2 | h2
          · rw [hp.ok h2] at he; cases he
          · cases b with
            | true => exact absurd rfl (h2.2 _ (.head _))
            | false =>
              unfold HState.step at hnone
              rw [hr, he] at hnone
              cases hnone

theorem wsgiCaught_exception {c : StreamCfg Req Res} {h : HState Req} {ev : List WEvent} {e : Exc} (hx : (c.wsgiCaught h ev e).escaped = none) :
    e.isException = true := by
  unfold StreamCfg.wsgiCaught at hx
  cases he : e.isException with
  | true => rfl
  | false => rw [he, if_neg (by decide)] at hx; cases hx

theorem wsgiErrorOnly_exception {c : StreamCfg Req Res} {h : HState Req} {ev : List WEvent} {e : Exc} (hx : (c.wsgiErrorOnly h ev e).escaped = none) :
    e.isException = true := by
  unfold StreamCfg.wsgiErrorOnly at hx
  cases he : e.isException with
  | true => rfl
  | false => rw [he, if_neg (by decide)] at hx; cases hx

theorem asks_emit (m : Res) (acts : List (Act Res)) : asks (.emit m :: acts) = asks acts := rfl

theorem leftBody_nil {env : Environ} (h1 : ByHttp1 env) (c : StreamCfg Req Res) (cfg : ReaderCfg Req Unit) (clean : Prop) (outcome : Option Exc)
    (acts : List (Act Res)) (p : Puller Req) (h : HState Req) (ev : List WEvent) (hp : Pulls cfg clean p h) (hw : WillRead clean p h outcome acts)
    (hx : (c.wsgiBody outcome acts h ev).escaped = none) : c.leftBody env cfg outcome acts p h.info = [] := by
  induction acts generalizing p h ev with
  | nil =>
    unfold StreamCfg.leftBody
    cases ho : outcome with
    | none =>
      rcases hw with hw | ⟨_, hw⟩ | ⟨hw, _⟩
      · exact absurd ho hw
      · exact hw
      · exact absurd hw (Nat.not_lt_zero _)
    | some e =>
      subst ho
      exact caught_nil h1 hp.pieces (wsgiCaught_exception hx)
  | cons a as ih =>
    cases a with
    | step s =>
      obtain ⟨p', hs, hp', ho, ht⟩ := step_pulls hp s
      unfold StreamCfg.leftBody
      unfold StreamCfg.wsgiBody at hx
      rw [hs]
      cases hq : h.step s with
      | mk h' r =>
        rw [hq] at hx hp'
        cases r with
        | some e =>
          dsimp only at hx ⊢
          exact caught_nil h1 hp'.pieces (wsgiCaught_exception hx)
        | none =>
          dsimp only at hx ⊢
          have hw' := willRead_step hp hw (by rw [hq]) (by rw [hq]; exact hp') ho ht
          rw [hq] at hw'
          exact ih p' h' ev hp' hw' hx
    | emit m =>
      unfold StreamCfg.leftBody
      unfold StreamCfg.wsgiBody at hx
      cases hq : c.writer.write m with
      | error e =>
        rw [hq] at hx
        dsimp only at hx ⊢
        exact caught_nil h1 hp.pieces (wsgiCaught_exception hx)
      | ok b =>
        rw [hq] at hx
        dsimp only at hx ⊢
        refine ih p h _ hp ?_ hx
        exact hw.imp_right (Or.imp_right fun h3 => ⟨h3.1, h3.2.imp_right fun h4 => ⟨h4.1, fun a ha => h4.2 a (.tail _ ha)⟩⟩)

theorem leftBody_calls (c : StreamCfg Req Res) (k : List (Called Req)) (env : Environ) (cfg : ReaderCfg Req Unit) (outcome : Option Exc)
    (acts : List (Act Res)) (p : Puller Req) (info : Meta) :
    ({ c with calls := k } : StreamCfg Req Res).leftBody env cfg outcome acts p info = c.leftBody env cfg outcome acts p info := by
  induction acts generalizing p info with
  | nil => rfl
  | cons a as ih =>
    cases a with
    | step s =>
      unfold StreamCfg.leftBody
      cases hq : p.step cfg info s with
      | mk p' r =>
        obtain ⟨i, x⟩ := r
        cases x with
        | none => exact ih p' i
        | some e => rfl
    | emit m =>
      unfold StreamCfg.leftBody
      dsimp only
      cases hq : c.writer.write m with
      | ok b => exact ih p info
      | error e => rfl

theorem leftFirst_calls (c : StreamCfg Req Res) (k : List (Called Req)) (env : Environ) (cfg : ReaderCfg Req Unit) (outcome : Option Exc)
    (acts : List (Act Res)) (p : Puller Req) (info : Meta) :
    ({ c with calls := k } : StreamCfg Req Res).leftFirst env cfg outcome acts p info = c.leftFirst env cfg outcome acts p info := by
  induction acts generalizing p info with
  | nil => rfl
  | cons a as ih =>
    cases a with
    | step s =>
      unfold StreamCfg.leftFirst
      cases hq : p.step cfg info s with
      | mk p' r =>
        obtain ⟨i, x⟩ := r
        cases x with
        | none => exact ih p' i
        | some e => rfl
    | emit m => exact leftBody_calls c k env cfg outcome _ p info

theorem leftFirst_nil {env : Environ} (h1 : ByHttp1 env) (c : StreamCfg Req Res) (cfg : ReaderCfg Req Unit) (clean : Prop) (outcome : Option Exc)
    (acts : List (Act Res)) (p : Puller Req) (h : HState Req) (hp : Pulls cfg clean p h) (hw : WillRead clean p h outcome acts)
    (hx : (c.wsgiFirst outcome acts h).escaped = none) : c.leftFirst env cfg outcome acts p h.info = [] := by
  induction acts generalizing p h with
  | nil =>
    unfold StreamCfg.leftFirst
    cases ho : outcome with
    | none =>
      subst ho
      dsimp only
      cases hq : c.writer.end' c.proto c.sc h.info.trailers none with
      | ok out =>
        rcases hw with hw | ⟨_, hw⟩ | ⟨hw, _⟩
        · exact absurd rfl hw
        · exact hw
        · exact absurd hw (Nat.not_lt_zero _)
      | error e =>
        unfold StreamCfg.wsgiFirst at hx
        dsimp only at hx
        rw [hq] at hx
        exact caught_nil h1 hp.pieces (wsgiErrorOnly_exception hx)
    | some e =>
      subst ho
      exact caught_nil h1 hp.pieces (wsgiErrorOnly_exception hx)
  | cons a as ih =>
    cases a with
    | step s =>
      obtain ⟨p', hs, hp', ho, ht⟩ := step_pulls hp s
      unfold StreamCfg.leftFirst
      unfold StreamCfg.wsgiFirst at hx
      rw [hs]
      cases hq : h.step s with
      | mk h' r =>
        rw [hq] at hx hp'
        cases r with
        | some e =>
          dsimp only at hx ⊢
          exact caught_nil h1 hp'.pieces (wsgiErrorOnly_exception hx)
        | none =>
          dsimp only at hx ⊢
          have hw' := willRead_step hp hw (by rw [hq]) (by rw [hq]; exact hp') ho ht
          rw [hq] at hw'
          exact ih p' h' hp' hw' hx
    | emit m =>
      unfold StreamCfg.leftFirst
      unfold StreamCfg.wsgiFirst at hx
      exact leftBody_nil h1 c cfg clean outcome _ p h _ hp hw hx

/-- the beginning -/
theorem pulls_init (app : App Req Res) {env : Environ} (hp : Pieces env.input) (codec : ServerCodec Req Res) (comp : Compression) :
    Pulls (app.reader codec comp) ((app.wsgiRequests env codec comp).err = none) ⟨env.input, ReaderState.init (), [], none, false⟩
      (.init (app.wsgiRequests env codec comp)) := by
  refine ⟨hp, id, .inr (.inr ⟨rfl, rfl, rfl, ?_⟩)⟩
  unfold App.wsgiRequests HState.init
  dsimp only
  cases (feedAll (app.reader codec comp) (ReaderState.init ()) (readBody env.input)).2.1 <;> rfl

/-- `_consume_single_request`, on both sides -/
theorem single_pulls {cfg : ReaderCfg Req Unit} {p : Puller Req} {h : HState Req} (hp : Pulls cfg (h.err = none) p h) :
    (p.single cfg).2 = consumeSingleRequest ⟨h.reqs, h.err⟩ ∧ Pieces (p.single cfg).1.segs ∧
      ∀ m, (p.single cfg).2 = .ok m → (p.single cfg).1.over = true ∧ (p.single cfg).1.segs = [] ∧ Pulls cfg True (p.single cfg).1 (.init ⟨[], none⟩) := by
  obtain ⟨h1, h2, h3⟩ := ask_pulls hp
  unfold Puller.single
  cases hq : p.ask cfg with
  | mk p1 r1 =>
    rw [hq] at h1 h2 h3
    change r1 = _ at h1
    subst h1
    obtain ⟨h4, h5, h6⟩ := ask_pulls h2
    unfold HState.told HState.asked at h4 h5 h6
    unfold HState.told
    cases hr : h.reqs with
    | nil =>
      cases he : h.err with
      | none => exact ⟨rfl, h2.pieces, fun m hm => by cases hm⟩
      | some e => exact ⟨rfl, h2.pieces, fun m hm => by cases hm⟩
    | cons m ms =>
      dsimp only
      rw [hr] at h4 h5 h6
      dsimp only at h4 h5 h6
      cases hq2 : p1.ask cfg with
      | mk p2 r2 =>
        rw [hq2] at h4 h5 h6
        change r2 = _ at h4
        subst h4
        cases ms with
        | cons m2 ms => exact ⟨rfl, h5.pieces, fun m hm => by cases hm⟩
        | nil =>
          cases he : h.err with
          | some e =>
            dsimp only
            refine ⟨?_, h5.pieces, fun m hm => by cases hm⟩
            unfold consumeSingleRequest
            rfl
          | none =>
            dsimp only
            refine ⟨?_, h5.pieces, fun m' _ => ?_⟩
            · unfold consumeSingleRequest
              rfl
            · rw [he] at h6
              have hov := h6 rfl
              have hs := over_clean h5 hov he
              refine ⟨hov, hs, h5.pieces, fun _ => rfl, .inr (.inl ?_)⟩
              rcases h5.rest with ⟨e, _, h7, _⟩ | ⟨h7, _, h8, _⟩ | ⟨_, h7, _⟩
              · change p2.over = true at hov
                rw [h7] at hov; cases hov
              · exact ⟨h7, hov, h8, rfl, rfl, fun _ => hs⟩
              · change p2.over = true at hov
                rw [h7] at hov; cases hov

theorem willRead_init {s : ReqStream Req} {run : Script Res} (hr : ReadsOut s run) (p : Puller Req) :
    WillRead (s.err = none) p (.init s) run.outcome run.acts := by
  rcases hr with h | ⟨h1, h2⟩
  · exact .inl h
  · refine .inr (.inr ⟨h1, ?_⟩)
    by_cases he : s.err = none
    · exact .inl he
    · exact .inr ⟨he, h2 he⟩

theorem wsgiStreamLeft_nil (app : App Req Res) (sc : StatusCodec) {env : Environ} (h1 : ByHttp1 env) (hp : Pieces env.input) (key : Str) (p : Proto)
    (headers : Headers) (ctx : RequestContext) (handler : Handler Req Res) (hh : HandlerReads handler)
    (hx : (app.wsgiStream sc env key p headers ctx handler).escaped = none) : app.wsgiStreamLeft sc env p headers ctx handler = [] := by
  unfold App.wsgiStreamLeft
  unfold App.wsgiStream at hx
  dsimp only at hx ⊢
  cases hc : app.codecs.get? (p.codecNameFromContentType (headers.getD (pys! "content-type") []) true) with
  | none => exact drain_nil h1 hp
  | some codec =>
    rw [hc] at hx
    dsimp only at hx ⊢
    cases hk : (p.negotiateStreamCompression headers app.comps).1 with
    | none => exact drain_nil h1 hp
    | some comp =>
      rw [hk] at hx
      dsimp only at hx ⊢
      have hin := pulls_init app hp codec comp
      generalize app.wsgiRequests env codec comp = s at hx hin
      unfold Handler.left
      cases handler with
      | unary f =>
        obtain ⟨h2, h3, h4⟩ := single_pulls (h := .init s) hin
        unfold Handler.start at hx
        dsimp only at hx ⊢
        change _ = consumeSingleRequest s at h2
        rw [← h2] at hx
        cases hq : Puller.single (app.reader codec comp) ⟨env.input, ReaderState.init (), [], none, false⟩ with
        | mk p1 r =>
          rw [hq] at hx h3 h4
          cases r with
          | error e => exact caught_nil h1 h3 (wsgiErrorOnly_exception hx)
          | ok m =>
            obtain ⟨h5, h6, h7⟩ := h4 m rfl
            exact (leftFirst_calls _ [⟨key, ctx, some m⟩] _ _ _ _ _ _).symm.trans
              (leftFirst_nil h1 _ _ True _ _ p1 (.init ⟨[], none⟩) h7 (.inr (.inl ⟨h5, h6⟩)) hx)
      | serverStream f =>
        obtain ⟨h2, h3, h4⟩ := single_pulls (h := .init s) hin
        unfold Handler.start at hx
        dsimp only at hx ⊢
        change _ = consumeSingleRequest s at h2
        rw [← h2] at hx
        cases hq : Puller.single (app.reader codec comp) ⟨env.input, ReaderState.init (), [], none, false⟩ with
        | mk p1 r =>
          rw [hq] at hx h3 h4
          cases r with
          | error e => exact caught_nil h1 h3 (wsgiErrorOnly_exception hx)
          | ok m =>
            obtain ⟨h5, h6, h7⟩ := h4 m rfl
            exact (leftFirst_calls _ [⟨key, ctx, some m⟩] _ _ _ _ _ _).symm.trans
              (leftFirst_nil h1 _ _ True _ _ p1 (.init ⟨[], none⟩) h7 (.inr (.inl ⟨h5, h6⟩)) hx)
      | clientStream f =>
        exact (leftFirst_calls _ [⟨key, ctx, none⟩] _ _ _ _ _ _).symm.trans
          (leftFirst_nil h1 _ _ _ _ _ _ (.init s) hin (willRead_init (hh s ctx) _) hx)
      | bidi f =>
        exact (leftFirst_calls _ [⟨key, ctx, none⟩] _ _ _ _ _ _).symm.trans
          (leftFirst_nil h1 _ _ _ _ _ _ (.init s) hin (willRead_init (hh s ctx) _) hx)

theorem wsgiFail_exception {calls : List (Called Req)} {e : Exc} {ctx : Option Meta} (hx : (wsgiFail calls e ctx).escaped = none) :
    e.isException = true := by
  unfold wsgiFail at hx
  cases he : e.isException with
  | true => rfl
  | false => rw [he, if_neg (by decide)] at hx; cases hx

theorem wsgiRawLeft_pieces {env : Environ} (hp : Pieces env.input) : Pieces (wsgiRawLeft env) := by
  unfold wsgiRawLeft
  dsimp only
  split
  · exact hp
  · split
    · exact (unreadWithLength_eq _ hp _).2
    · rw [unread_nil hp]; exact fun _ h => by cases h

theorem wsgiRawLeft_nil {env : Environ} (hp : Pieces env.input) (hl : EndsInTime env) {b : Bytes} (hb : wsgiRawBody env = .ok b) :
    wsgiRawLeft env = [] := by
  unfold wsgiRawBody at hb
  unfold wsgiRawLeft
  dsimp only at hb ⊢
  have hbound : ∀ n : Int, 0 < n → (env.input.flatten.length : Int) ≤ n → unreadWithLength env.input n.toNat = [] := by
    intro n hn h
    obtain ⟨h1, h2⟩ := unreadWithLength_eq env.input hp n.toNat
    refine pieces_flatten_nil h2 ?_
    rw [h1, List.drop_eq_nil_iff]
    omega
  cases hg : env.vars.get? (pys! "CONTENT_LENGTH") with
  | none => exact unread_nil hp
  | some v =>
    rw [hg] at hb
    dsimp only at hb ⊢
    by_cases hv : v.isEmpty
    · rw [if_pos hv]; exact unread_nil hp
    · rw [if_neg hv] at hb ⊢
      cases hn : parseInt v with
      | none => rw [hn] at hb; cases hb
      | some n =>
        dsimp only
        by_cases h0 : n > 0
        · rw [if_pos h0]; exact hbound n h0 (hl v n hg hn h0)
        · rw [if_neg h0]; exact unread_nil hp

theorem wsgiUnaryLeft_nil (app : App Req Res) {env : Environ} (h1 : ByHttp1 env) (hp : Pieces env.input) (hl : EndsInTime env) (key : Str)
    (httpMethod : Str) (hget : httpMethod = pys! "GET" → env.input = []) (headers : Headers) (ctx : RequestContext)
    (f : Req → RequestContext → Call Res) (hx : (app.wsgiUnary env key httpMethod headers ctx f).escaped = none) :
    app.wsgiUnaryLeft env httpMethod headers ctx f = [] := by
  have hpl : Pieces (if httpMethod = pys! "GET" then env.input else app.wsgiPostLeft env headers) := by
    by_cases hg : httpMethod = pys! "GET"
    · rw [if_pos hg]; exact hp
    · rw [if_neg hg]
      unfold App.wsgiPostLeft
      split
      · exact hp
      · exact wsgiRawLeft_pieces hp
  have hok : ∀ r, (if httpMethod = pys! "GET" then app.wsgiGet env else app.wsgiPost env headers) = .ok r →
      (if httpMethod = pys! "GET" then env.input else app.wsgiPostLeft env headers) = [] := by
    intro r hr
    by_cases hg : httpMethod = pys! "GET"
    · rw [if_pos hg]; exact hget hg
    · rw [if_neg hg] at hr ⊢
      unfold App.wsgiPost at hr
      unfold App.wsgiPostLeft
      cases hc : app.codecs.get? (connectCodecName (headers.getD (pys! "content-type") []) false) with
      | none => rw [hc] at hr; cases hr
      | some codec =>
        rw [hc] at hr
        dsimp only at hr ⊢
        cases hb : wsgiRawBody env with
        | ok b => exact wsgiRawLeft_nil hp hl hb
        | error e =>
          unfold App.wsgiPostBody at hr
          rw [hb] at hr
          cases hr
  unfold App.wsgiUnaryLeft
  unfold App.wsgiUnary at hx
  dsimp only at hx ⊢
  cases hr : (if httpMethod = pys! "GET" then app.wsgiGet env else app.wsgiPost env headers) with
  | error e =>
    rw [hr] at hx
    exact caught_nil h1 hpl (wsgiFail_exception hx)
  | ok r =>
    rw [hok r hr]
    rw [hr] at hx
    obtain ⟨req, codec⟩ := r
    dsimp only at hx ⊢
    have hnil : Pieces ([] : List Bytes) := fun _ h => by cases h
    cases hq : (HState.init ⟨[], none⟩ : HState Req).call (f req ctx).steps (f req ctx).result with
    | mk h res =>
      rw [hq] at hx
      cases res with
      | error e => exact caught_nil h1 hnil (wsgiFail_exception hx)
      | ok response =>
        dsimp only at hx ⊢
        cases he : codec.res.encode response with
        | error e =>
          rw [he] at hx
          exact caught_nil h1 hnil (wsgiFail_exception hx)
        | ok d => rfl

end

end Conn
