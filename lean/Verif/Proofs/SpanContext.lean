import Verif.Spec.SpanContext
import Verif.Proofs.RespContext
/-
Lemmas for C85.
-/
namespace Proofs.SpanContext
open Conn Py Spec

/-- tokens are distinct, and those used up are old -/
structure Tidy (w : CtxWorld) : Prop where
  used : ∀ n ∈ w.used, n < w.made
  made : ∀ i t, w.token i = some t → t.id < w.made
  apart : ∀ i j t t', w.token i = some t → w.token j = some t' → t.id = t'.id → i = j

/-- the token of span `i` resets context `c` to `old`, and has not been used -/
def Held (w : CtxWorld) (c i : Nat) (old : Option Nat) : Prop :=
  ∃ t, w.token i = some t ∧ t.ctx = c ∧ t.old = old ∧ t.id ∉ w.used

theorem tidy_new : Tidy CtxWorld.new := ⟨(fun _ h => by cases h), (fun _ _ h => by cases h), (fun _ _ _ _ h => by cases h)⟩

theorem setAt_same {α : Type} (f : Nat → α) (i : Nat) (a : α) : setAt f i a i = a := if_pos rfl

theorem setAt_ne {α : Type} (f : Nat → α) {i j : Nat} (a : α) (h : j ≠ i) : setAt f i a j = f j := if_neg h

theorem exit_eq (w : CtxWorld) (c i : Nat) :
    (w.exit c i = { w with token := setAt w.token i none } ∧ ∀ t, w.token i = some t → t.id ∈ w.used ∨ t.ctx ≠ c) ∨
    ∃ t, w.token i = some t ∧ t.ctx = c ∧ t.id ∉ w.used ∧
      w.exit c i = { w with var := setAt w.var c t.old, used := t.id :: w.used, token := setAt w.token i none } := by
  unfold CtxWorld.exit
  cases ht : w.token i with
  | none => exact .inl ⟨rfl, fun t h => by cases h⟩
  | some t =>
    dsimp only
    unfold CtxWorld.reset
    by_cases h : t.id ∈ w.used ∨ t.ctx ≠ c
    · rw [if_pos h]
      refine .inl ⟨rfl, fun t' h' => ?_⟩
      cases h'
      exact h
    · rw [if_neg h]
      refine .inr ⟨t, rfl, ?_, fun hu => h (.inl hu), rfl⟩
      by_cases hc : t.ctx = c
      · exact hc
      · exact absurd (.inr hc) h

theorem tidy_step {w : CtxWorld} (h : Tidy w) (o : CtxOp) : Tidy (w.step o) := by
  cases o with
  | enter c i =>
    refine ⟨fun n hn => Nat.lt_succ_of_lt (h.used n hn), fun j t hj => ?_, fun j k t t' hj hk e => ?_⟩
    · show t.id < w.made + 1
      change setAt w.token i _ j = some t at hj
      by_cases e : j = i
      · rw [e, setAt_same] at hj
        cases hj
        exact Nat.lt_succ_self _
      · rw [setAt_ne _ _ e] at hj
        exact Nat.lt_succ_of_lt (h.made j t hj)
    · change setAt w.token i _ j = some t at hj
      change setAt w.token i _ k = some t' at hk
      by_cases ej : j = i
      · rw [ej, setAt_same] at hj
        cases hj
        by_cases ek : k = i
        · rw [ej, ek]
        · rw [setAt_ne _ _ ek] at hk
          have := h.made k t' hk
          dsimp only at e
          omega
      · rw [setAt_ne _ _ ej] at hj
        by_cases ek : k = i
        · rw [ek, setAt_same] at hk
          cases hk
          have := h.made j t hj
          dsimp only at e
          omega
        · rw [setAt_ne _ _ ek] at hk
          exact h.apart j k t t' hj hk e
  | exit c i =>
    have key : ∀ j t, setAt w.token i none j = some t → w.token j = some t := by
      intro j t hj
      by_cases e : j = i
      · rw [e, setAt_same] at hj; cases hj
      · rwa [setAt_ne _ _ e] at hj
    show Tidy (w.exit c i)
    rcases exit_eq w c i with ⟨e, _⟩ | ⟨t, ht, _, _, e⟩ <;> rw [e]
    · exact ⟨h.used, fun j t hj => h.made j t (key j t hj), fun j k t t' hj hk => h.apart j k t t' (key j t hj) (key k t' hk)⟩
    · refine ⟨fun n hn => ?_, fun j t hj => h.made j t (key j t hj), fun j k t t' hj hk => h.apart j k t t' (key j t hj) (key k t' hk)⟩
      rcases List.mem_cons.mp hn with rfl | hn
      · exact h.made i t ht
      · exact h.used n hn
  | copy c d => exact ⟨h.used, h.made, h.apart⟩
  | record c r =>
    show Tidy (w.record c r)
    unfold CtxWorld.record
    cases w.var c with
    | none => exact h
    | some i => exact ⟨h.used, h.made, h.apart⟩

theorem tidy_run {w : CtxWorld} (h : Tidy w) (os : List CtxOp) : Tidy (w.run os) := by
  induction os generalizing w with
  | nil => exact h
  | cons o os ih => exact ih (tidy_step h o)

theorem held_step {w : CtxWorld} (h : Tidy w) {c i : Nat} {old : Option Nat} (hh : Held w c i old) {o : CtxOp} (ho : NotSpan i o) :
    Held (w.step o) c i old := by
  obtain ⟨t, h1, h2, h3, h4⟩ := hh
  cases o with
  | enter d j =>
    refine ⟨t, ?_, h2, h3, h4⟩
    show setAt w.token j _ i = some t
    rw [setAt_ne _ _ (fun e => ho e.symm)]
    exact h1
  | exit d j =>
    have hij : i ≠ j := fun e => ho e.symm
    show Held (w.exit d j) c i old
    rcases exit_eq w d j with ⟨e, _⟩ | ⟨t', ht', _, _, e⟩ <;> rw [e]
    · exact ⟨t, (setAt_ne w.token none hij).trans h1, h2, h3, h4⟩
    · refine ⟨t, (setAt_ne w.token none hij).trans h1, h2, h3, fun hu => ?_⟩
      rcases List.mem_cons.mp hu with hu | hu
      · exact hij (h.apart i j t t' h1 ht' hu)
      · exact h4 hu
  | copy d e => exact ⟨t, h1, h2, h3, h4⟩
  | record d r =>
    show Held (w.record d r) c i old
    unfold CtxWorld.record
    cases w.var d with
    | none => exact ⟨t, h1, h2, h3, h4⟩
    | some k => exact ⟨t, h1, h2, h3, h4⟩

theorem held_run {w : CtxWorld} (h : Tidy w) {c i : Nat} {old : Option Nat} (hh : Held w c i old) {os : List CtxOp} (ho : ∀ o ∈ os, NotSpan i o) :
    Held (w.run os) c i old := by
  induction os generalizing w with
  | nil => exact hh
  | cons o os ih =>
    exact ih (tidy_step h o) (held_step h hh (ho o List.mem_cons_self)) (fun o' h' => ho o' (List.mem_cons_of_mem _ h'))

theorem held_enter {w : CtxWorld} (h : Tidy w) (c i : Nat) : Held (w.enter c i) c i (w.var c) :=
  ⟨⟨w.made, c, w.var c⟩, setAt_same _ _ _, rfl, rfl, fun hu => Nat.lt_irrefl _ (h.used _ hu)⟩

theorem held_exit {w : CtxWorld} {c i : Nat} {old : Option Nat} (hh : Held w c i old) : (w.exit c i).var c = old := by
  obtain ⟨t, h1, h2, h3, h4⟩ := hh
  rcases exit_eq w c i with ⟨_, e⟩ | ⟨t', ht', _, _, e⟩
  · rcases e t h1 with e | e
    · exact absurd e h4
    · exact absurd h2 e
  · rw [h1] at ht'
    cases ht'
    rw [e]
    show setAt w.var c t.old c = old
    rw [setAt_same, h3]

theorem performAll_append (c : Nat) (w : CtxWorld) (a b : List SpanEff) : performAll c w (a ++ b) = performAll c (performAll c w a) b := by
  unfold performAll
  rw [List.flatMap_append, Props.ctxRun_append]

theorem performAll_tidy {w : CtxWorld} (h : Tidy w) (c : Nat) (es : List SpanEff) : Tidy (performAll c w es) := tidy_run h _

theorem ops_not {i c : Nat} {es : List SpanEff} (h : ∀ e ∈ es, NotSpanEff i e) : ∀ o ∈ es.flatMap (SpanEff.ops c), NotSpan i o := by
  intro o ho
  obtain ⟨e, he, hm⟩ := List.mem_flatMap.mp ho
  have := h e he
  cases e with
  | starts j => cases List.mem_singleton.mp hm; exact this
  | ends j => cases List.mem_singleton.mp hm; exact this
  | reports => cases hm
  | does o' => cases List.mem_singleton.mp hm; exact this

theorem performAll_held {w : CtxWorld} (h : Tidy w) {c i d : Nat} {old : Option Nat} (hh : Held w c i old) {es : List SpanEff} (ho : ∀ e ∈ es, NotSpanEff i e) :
    Held (performAll d w es) c i old := held_run h hh (ops_not ho)

theorem starts_held {w : CtxWorld} (h : Tidy w) (c i : Nat) : Held (performAll c w [.starts i]) c i (w.var c) := held_enter h c i

theorem ends_held {w : CtxWorld} {c i : Nat} {old : Option Nat} (hh : Held w c i old) : (performAll c w [.ends i]).var c = old := held_exit hh

/-- effects that end span `i` last -/
def EndsLast (i : Nat) (es : List SpanEff) : Prop := ∃ es', es = es' ++ [.ends i] ∧ ∀ e ∈ es', NotSpanEff i e

theorem endsLast_held {w : CtxWorld} (h : Tidy w) {c i : Nat} {old : Option Nat} (hh : Held w c i old) {es : List SpanEff} (ho : EndsLast i es) :
    (performAll c w es).var c = old := by
  obtain ⟨es', rfl, h'⟩ := ho
  rw [performAll_append]
  exact ends_held (performAll_held h hh h')

theorem endsLast_append {i : Nat} {a b : List SpanEff} (ha : ∀ e ∈ a, NotSpanEff i e) (hb : EndsLast i b) : EndsLast i (a ++ b) := by
  obtain ⟨b', rfl, h⟩ := hb
  refine ⟨a ++ b', (List.append_assoc _ _ _).symm, fun e he => ?_⟩
  rcases List.mem_append.mp he with he | he
  · exact ha e he
  · exact h e he

section
variable (o : OtelInterceptor Nat) (i : Nat)

theorem onEnd_last (shared : Dict Str AttrValue) (ctx : RequestContext) (e : Option Exc) :
    EndsLast i (o.onEnd (SpanEff.of i) shared ctx e).1 ∧ (o.onEnd (SpanEff.of i) shared ctx e).2 = none := by
  unfold OtelInterceptor.onEnd
  cases o.errorAttrs e with
  | none => exact ⟨⟨[.reports], rfl, by simp [NotSpanEff]⟩, rfl⟩
  | some a => exact ⟨⟨[.reports, .reports], rfl, by simp [NotSpanEff]⟩, rfl⟩

theorem onStart_first (current : Option Nat) (ctx : RequestContext) :
    (∃ e, o.onStart (SpanEff.of i) current ctx = ([], .error e)) ∨ ∃ shared, o.onStart (SpanEff.of i) current ctx = ([.starts i], .ok shared) := by
  unfold OtelInterceptor.onStart
  cases sharedAttrs ctx with
  | error e => exact .inl ⟨e, rfl⟩
  | ok shared =>
    dsimp only
    cases addressAttrs (pys! "client.address") (pys! "client.port") ctx.clientAddress shared with
    | error e => exact .inl ⟨e, rfl⟩
    | ok a => exact .inr ⟨shared, rfl⟩

/-- a generator that has started span `i` and ends it last -/
def GenEnds {R : Type} : Gen SpanEff R → Prop
  | .fin es _ => EndsLast i es
  | .yield es _ r c => (∀ e ∈ es, NotSpanEff i e) ∧ EndsLast i c.now ∧ GenEnds r

theorem aroundSync_ends {R : Type} (m : MetaCallbacks SpanEff (Dict Str AttrValue)) (hm : ∀ t ctx e, EndsLast i (m.onEnd t ctx e).1) (ctx : RequestContext)
    (t : Dict Str AttrValue) (g : Gen SpanEff R) (hg : GenDoes (NotSpanEff i) g) : GenEnds i (aroundSync m ctx t g) := by
  induction g with
  | fin es x => exact endsLast_append hg (hm _ _ _)
  | yield es x r c ih => exact ⟨hg.1, endsLast_append hg.2.1 (hm _ _ _), ih hg.2.2⟩

theorem aroundAsync_ends {R : Type} (m : MetaCallbacks SpanEff (Dict Str AttrValue)) (hm : ∀ t ctx e, EndsLast i (m.onEnd t ctx e).1) (ctx : RequestContext)
    (t : Dict Str AttrValue) (g : Gen SpanEff R) (hg : GenDoes (NotSpanEff i) g) : GenEnds i (aroundAsync m ctx t g) := by
  induction g with
  | fin es x => exact endsLast_append hg (hm _ _ _)
  | yield es x r c ih => exact ⟨hg.1, hm _ _ _, ih hg.2.2⟩

/-- what a traced stream does when it is started: nothing at all, or it starts its span and ends it last -/
theorem streamOf_make {R A : Type} (async : Bool) (f : A → RequestContext → Gen SpanEff R) (a : A) (ctx : RequestContext)
    (hf : ∀ x, GenDoes (NotSpanEff i) (f a x)) :
    ∃ make, o.streamOf async i f a ctx = .fresh make ∧
      ∀ current, (∃ x, make current = .fin [] x) ∨ ∃ g, make current = Gen.pre [.starts i] g ∧ GenEnds i g := by
  refine ⟨_, rfl, fun current => ?_⟩
  have hm : ∀ t ctx e, EndsLast i ((o.callbacks (SpanEff.of i) current).onEnd t ctx e).1 := fun t ctx e => (onEnd_last o i t ctx e).1
  cases async with
  | false =>
    show (∃ x, invokeGenSync (o.callbacks (SpanEff.of i) current) (fun a ctx => f a (o.touch current ctx)) a ctx = .fin [] x) ∨
      ∃ g, invokeGenSync (o.callbacks (SpanEff.of i) current) (fun a ctx => f a (o.touch current ctx)) a ctx = _ ∧ _
    unfold invokeGenSync
    rcases onStart_first o i current ctx with ⟨e, h⟩ | ⟨sh, h⟩
    · rw [show (o.callbacks (SpanEff.of i) current).onStart ctx = _ from h]; exact .inl ⟨_, rfl⟩
    · rw [show (o.callbacks (SpanEff.of i) current).onStart ctx = _ from h]; exact .inr ⟨_, rfl, aroundSync_ends i _ hm _ _ _ (hf _)⟩
  | true =>
    show (∃ x, invokeGenAsync (o.callbacks (SpanEff.of i) current) (fun a ctx => f a (o.touch current ctx)) a ctx = .fin [] x) ∨
      ∃ g, invokeGenAsync (o.callbacks (SpanEff.of i) current) (fun a ctx => f a (o.touch current ctx)) a ctx = _ ∧ _
    unfold invokeGenAsync
    rcases onStart_first o i current ctx with ⟨e, h⟩ | ⟨sh, h⟩
    · rw [show (o.callbacks (SpanEff.of i) current).onStart ctx = _ from h]; exact .inl ⟨_, rfl⟩
    · rw [show (o.callbacks (SpanEff.of i) current).onStart ctx = _ from h]; exact .inr ⟨_, rfl, aroundAsync_ends i _ hm _ _ _ (hf _)⟩

end

section
variable {R : Type}

/-- what a generator does next, when it has started span `i` -/
theorem after_ends {i : Nat} {g : Gen SpanEff R} (hg : GenEnds i g) :
    (∃ es, SpanStream.after g = (es, .over) ∧ EndsLast i es) ∨
    ∃ es r c, SpanStream.after g = (es, .paused r c) ∧ (∀ e ∈ es, NotSpanEff i e) ∧ EndsLast i c.now ∧ GenEnds i r := by
  cases g with
  | fin es x => exact .inl ⟨es, rfl, hg⟩
  | yield es x r c => exact .inr ⟨es, r, c, rfl, hg.1, hg.2.1, hg.2.2⟩

theorem after_pre (es : List SpanEff) (g : Gen SpanEff R) : SpanStream.after (g.pre es) = (es ++ (SpanStream.after g).1, (SpanStream.after g).2) := by
  cases g <;> rfl

theorem after_does {P : SpanEff → Prop} {g : Gen SpanEff R} (hg : GenDoes P g) : (∀ e ∈ (SpanStream.after g).1, P e) ∧ StreamDoes P (SpanStream.after g).2 := by
  cases g with
  | fin es x => exact ⟨hg, trivial⟩
  | yield es x r c => exact ⟨hg.1, hg.2.1, hg.2.2⟩

theorem next_does {P : SpanEff → Prop} {s : SpanStream R} (hs : StreamDoes P s) (current : Option Nat) :
    (∀ e ∈ (s.next current).1, P e) ∧ StreamDoes P (s.next current).2 := by
  cases s with
  | fresh make => exact after_does (hs current)
  | paused r c => exact after_does hs.2
  | over => exact ⟨(fun e h => by cases h), trivial⟩

theorem close_does {P : SpanEff → Prop} {s : SpanStream R} (hs : StreamDoes P s) : ∀ e ∈ s.close, P e := by
  cases s with
  | fresh make => exact fun e h => by cases h
  | paused r c => exact hs.1
  | over => exact fun e h => by cases h

theorem tracedRun_append (t : TracedWorld R) (a b : List TracedOp) : t.run (a ++ b) = (t.run a).run b := by
  induction a generalizing t with
  | nil => rfl
  | cons o a ih => exact ih _

/-- the spans after a history are what its operations on spans make of them -/
theorem run_spans (t : TracedWorld R) (os : List TracedOp) : (t.run os).spans = t.spans.run (spanHistory t os) := by
  induction os generalizing t with
  | nil => rfl
  | cons o os ih =>
    show ((t.step o).run os).spans = _
    rw [ih]
    cases o with
    | next c s => exact (Props.ctxRun_append _ _ _).symm
    | close c s => exact (Props.ctxRun_append _ _ _).symm
    | other o => rfl

/-- The state of stream `s`, read in context `c`, while it is open, and after. -/
structure Followed (c s : Nat) (old : Option Nat) (t : TracedWorld R) : Prop where
  tidy : Tidy t.spans
  others : ∀ k, k ≠ s → StreamDoes (NotSpanEff s) (t.streams k)
  state : (∃ r cl, t.streams s = .paused r cl ∧ EndsLast s cl.now ∧ GenEnds s r ∧ Held t.spans c s old) ∨ t.streams s = .over

/-- operations on other streams and spans, or on stream `s` in context `c` -/
def Allowed (c s : Nat) : TracedOp → Prop
  | .next d k => k = s → d = c
  | .close d k => k = s → d = c
  | .other o => NotSpan s o

theorem others_set {s k : Nat} {f : Nat → SpanStream R} {x : SpanStream R} (h : ∀ k, k ≠ s → StreamDoes (NotSpanEff s) (f k))
    (hx : k ≠ s → StreamDoes (NotSpanEff s) x) : ∀ j, j ≠ s → StreamDoes (NotSpanEff s) (setAt f k x j) := by
  intro j hj
  by_cases e : j = k
  · rw [e, setAt_same]; exact hx (fun h' => hj (e.trans h'))
  · rw [setAt_ne _ _ e]; exact h j hj

theorem followed_step {c s : Nat} {old : Option Nat} {t : TracedWorld R} (h : Followed c s old t) {o : TracedOp} (ho : Allowed c s o) :
    Followed c s old (t.step o) ∧ (t.streams s ≠ .over → (t.step o).streams s = .over → (t.step o).spans.var c = old) := by
  cases o with
  | other o =>
    refine ⟨⟨tidy_step h.tidy o, h.others, ?_⟩, fun h1 h2 => absurd h2 h1⟩
    rcases h.state with ⟨r, cl, e, h1, h2, h3⟩ | e
    · exact .inl ⟨r, cl, e, h1, h2, held_step h.tidy h3 ho⟩
    · exact .inr e
  | next d k =>
    by_cases hk : k = s
    · have hd := ho hk
      subst hk hd
      rcases h.state with ⟨r, cl, e, h1, h2, h3⟩ | e
      · have hn : (t.streams k).next (t.spans.var d) = SpanStream.after r := by rw [e]; rfl
        rcases after_ends h2 with ⟨es, e', h'⟩ | ⟨es, r', c', e', h4, h5, h6⟩
        · have hst : t.step (.next d k) = ⟨performAll d t.spans es, setAt t.streams k .over⟩ := by
            show (⟨performAll d t.spans ((t.streams k).next (t.spans.var d)).1, setAt t.streams k ((t.streams k).next (t.spans.var d)).2⟩ : TracedWorld R) = _
            rw [hn, e']
          rw [hst]
          exact ⟨⟨performAll_tidy h.tidy _ _, others_set h.others (fun n => absurd rfl n), .inr (setAt_same _ _ _)⟩,
            fun _ _ => endsLast_held h.tidy h3 h'⟩
        · have hst : t.step (.next d k) = ⟨performAll d t.spans es, setAt t.streams k (.paused r' c')⟩ := by
            show (⟨performAll d t.spans ((t.streams k).next (t.spans.var d)).1, setAt t.streams k ((t.streams k).next (t.spans.var d)).2⟩ : TracedWorld R) = _
            rw [hn, e']
          rw [hst]
          refine ⟨⟨performAll_tidy h.tidy _ _, others_set h.others (fun n => absurd rfl n),
            .inl ⟨r', c', setAt_same _ _ _, h5, h6, performAll_held h.tidy h3 h4⟩⟩, fun _ h' => ?_⟩
          change setAt t.streams k _ k = _ at h'
          rw [setAt_same] at h'
          cases h'
      · have hst : t.step (.next d k) = ⟨t.spans, setAt t.streams k .over⟩ := by
          show (⟨performAll d t.spans ((t.streams k).next (t.spans.var d)).1, setAt t.streams k ((t.streams k).next (t.spans.var d)).2⟩ : TracedWorld R) = _
          rw [e]; rfl
        rw [hst]
        exact ⟨⟨h.tidy, others_set h.others (fun n => absurd rfl n), .inr (setAt_same _ _ _)⟩, fun n => absurd e n⟩
    · have hd := next_does (h.others k hk) (t.spans.var d)
      have hs : (t.step (.next d k)).streams s = t.streams s := setAt_ne _ _ (fun e => hk e.symm)
      refine ⟨⟨performAll_tidy h.tidy _ _, others_set h.others (fun _ => hd.2), ?_⟩, fun h1 h2 => absurd (hs.symm.trans h2) h1⟩
      rw [hs]
      rcases h.state with ⟨r, cl, e, h1, h2, h3⟩ | e
      · exact .inl ⟨r, cl, e, h1, h2, performAll_held h.tidy h3 hd.1⟩
      · exact .inr e
  | close d k =>
    by_cases hk : k = s
    · have hd := ho hk
      subst hk hd
      refine ⟨⟨performAll_tidy h.tidy _ _, others_set h.others (fun n => absurd rfl n), .inr (setAt_same _ _ _)⟩, fun h1 _ => ?_⟩
      rcases h.state with ⟨r, cl, e, h2, h3, h4⟩ | e
      · show (performAll d t.spans (t.streams k).close).var d = old
        rw [e]
        exact endsLast_held h.tidy h4 h2
      · exact absurd e h1
    · have hd := close_does (h.others k hk)
      have hs : (t.step (.close d k)).streams s = t.streams s := setAt_ne _ _ (fun e => hk e.symm)
      refine ⟨⟨performAll_tidy h.tidy _ _, others_set h.others (fun _ => trivial), ?_⟩, fun h1 h2 => absurd (hs.symm.trans h2) h1⟩
      rw [hs]
      rcases h.state with ⟨r, cl, e, h1, h2, h3⟩ | e
      · exact .inl ⟨r, cl, e, h1, h2, performAll_held h.tidy h3 hd⟩
      · exact .inr e

theorem followed_run {c s : Nat} {old : Option Nat} {t : TracedWorld R} (h : Followed c s old t) {os : List TracedOp} (ho : ∀ o ∈ os, Allowed c s o) :
    Followed c s old (t.run os) := by
  induction os generalizing t with
  | nil => exact h
  | cons o os ih => exact ih (followed_step h (ho o List.mem_cons_self)).1 (fun o' h' => ho o' (List.mem_cons_of_mem _ h'))

/-- the first use of a stream -/
theorem followed_first {A : Type} (o : OtelInterceptor Nat) (async : Bool) (f : A → RequestContext → Gen SpanEff R) (a : A) (ctx : RequestContext) {c s : Nat}
    {t : TracedWorld R} (ht : Tidy t.spans) (hs : t.streams s = o.streamOf async s f a ctx) (hf : ∀ x, GenDoes (NotSpanEff s) (f a x))
    (ho : ∀ k, k ≠ s → StreamDoes (NotSpanEff s) (t.streams k)) :
    Followed c s (t.spans.var c) (t.step (.next c s)) ∧
    ((t.step (.next c s)).streams s = .over → (t.step (.next c s)).spans.var c = t.spans.var c) := by
  obtain ⟨make, e, hm⟩ := streamOf_make o s async f a ctx hf
  have hn : (t.streams s).next (t.spans.var c) = SpanStream.after (make (t.spans.var c)) := by rw [hs, e]; rfl
  have hst : t.step (.next c s) =
      ⟨performAll c t.spans (SpanStream.after (make (t.spans.var c))).1, setAt t.streams s (SpanStream.after (make (t.spans.var c))).2⟩ := by
    show (⟨performAll c t.spans ((t.streams s).next (t.spans.var c)).1, setAt t.streams s ((t.streams s).next (t.spans.var c)).2⟩ : TracedWorld R) = _
    rw [hn]
  rw [hst]
  rcases hm (t.spans.var c) with ⟨x, h⟩ | ⟨g, h, hg⟩
  · rw [h]
    exact ⟨⟨ht, others_set ho (fun n => absurd rfl n), .inr (setAt_same _ _ _)⟩, fun _ => rfl⟩
  · rw [h, after_pre]
    rcases after_ends hg with ⟨es, e', h'⟩ | ⟨es, r, cl, e', h4, h5, h6⟩
    · rw [e']
      dsimp only
      refine ⟨⟨performAll_tidy ht _ _, others_set ho (fun n => absurd rfl n), .inr (setAt_same _ _ _)⟩, fun _ => ?_⟩
      rw [performAll_append]
      exact endsLast_held (performAll_tidy ht _ _) (starts_held ht c s) h'
    · rw [e']
      dsimp only
      refine ⟨⟨performAll_tidy ht _ _, others_set ho (fun n => absurd rfl n), .inl ⟨r, cl, setAt_same _ _ _, h5, h6, ?_⟩⟩, fun h' => ?_⟩
      · rw [performAll_append]
        exact performAll_held (performAll_tidy ht _ _) (starts_held ht c s) h4
      · rw [setAt_same] at h'
        cases h'

end
end Proofs.SpanContext
