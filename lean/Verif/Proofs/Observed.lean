import Verif.Props.Otel
import Verif.Props.UnaryResponse
import Verif.Props.Stream
import Verif.Spec.Observed
/-
Lemmas for C93.
-/
namespace Props
open Conn Py Spec Proofs.Otel

section
variable {C A Res : Type}

theorem telemetryIn_append (xs ys : List (Happening C)) : telemetryIn (xs ++ ys) = telemetryIn xs ++ telemetryIn ys := List.filterMap_append
theorem stepsIn_append (xs ys : List (Happening C)) : stepsIn (xs ++ ys) = stepsIn xs ++ stepsIn ys := List.filterMap_append
theorem telemetryIn_steps (ss : List Step) : telemetryIn (C := C) (ss.map .inr) = [] := by
  induction ss with
  | nil => rfl
  | cons s ss ih => exact ih
theorem stepsIn_steps (ss : List Step) : stepsIn (C := C) (ss.map .inr) = ss := by
  induction ss with
  | nil => rfl
  | cons s ss ih => exact congrArg (s :: ·) ih

/-- what is traced around a run, and that nothing else is -/
theorem traced_reports {o : OtelInterceptor C} {parent : Option C} {ctx : RequestContext} {error : Option Exc} {before after : List (Happening C)}
    (h : Traced o .inl parent ctx error before after) (es : List (Happening C)) (hes : telemetryIn es = []) :
    Reports (telemetryIn (before ++ es ++ after)) (error.map statusOf) ∧ stepsIn (before ++ es ++ after) = stepsIn es := by
  obtain ⟨⟨attrs, rfl, _⟩, ⟨attrs', _, hd, hs⟩⟩ := h
  rw [telemetryIn_append, telemetryIn_append, stepsIn_append, stepsIn_append, hes, List.append_nil]
  rcases hs with ⟨rfl, rfl⟩ | ⟨e, sp, rfl, hsp, rfl⟩
  · exact ⟨.success hd.1, List.append_nil _⟩
  · exact ⟨.failure hsp.1 hd.1, List.append_nil _⟩

theorem watch_eq {o : OtelInterceptor C} (ho : o.client = false) (flavor : Bool) (current : Option C) (f : A → RequestContext → Call Res) (a : A)
    {ctx : RequestContext} (hs : Traceable ctx.serverAddress) (hc : Traceable ctx.clientAddress) :
    o.watched flavor current f a ctx = f a ctx ∧
    Reports (telemetryIn (o.watch flavor current f a ctx).effects) ((reported (errOf (f a ctx).result)).map statusOf) := by
  obtain ⟨before, after, ht, h1, h2, _⟩ := C57_call_partial (S := A) o (Sum.inl : Telemetered C → Happening C) current (ranOf f) a ctx hs hc
  have hseen : seenContext o current ctx = ctx := by
    unfold seenContext
    rw [ho, if_neg (by decide)]
  rw [hseen] at ht h1 h2
  have hw : o.watch flavor current f a ctx = ⟨before ++ (f a ctx).steps.map .inr ++ after, (f a ctx).result⟩ := by
    unfold OtelInterceptor.watch
    cases flavor
    · exact h1
    · exact h2
  obtain ⟨hr, hst⟩ := traced_reports ht ((f a ctx).steps.map .inr) (telemetryIn_steps _)
  unfold OtelInterceptor.watched
  rw [hw]
  exact ⟨by dsimp only; rw [hst, stepsIn_steps], hr⟩

theorem traceable_server {scheme : List Char} {host client a : Option (List Char)} (h : TraceableRequest scheme host client) (ha : ServerAddress scheme host a) :
    Traceable a := by
  obtain ⟨h | ⟨x, h, hx⟩, _⟩ := h
  · exact .inl (ha.1 h)
  · rcases hx with hx | ⟨hx, hs⟩
    · rw [(ha.2 x h).1 hx]
      exact hostPort_traceable hx
    · rcases hs with rfl | rfl
      · rw [((ha.2 x h).2 hx).1 rfl]
        exact .inr (.inr ⟨_, x, 80, rfl, addressPort_digits (a := x) (p := pys! "80") (by decide) (by decide)⟩)
      · rw [((ha.2 x h).2 hx).2 rfl]
        exact .inr (.inr ⟨_, x, 443, rfl, addressPort_digits (a := x) (p := pys! "443") (by decide) (by decide)⟩)

theorem code_errorOf (e : Exc) : statusOf e = codeName (errorOf e).code := by
  cases e <;> rfl

theorem answers_told {Req : Type} {codec : ServerCodec Req Res} {comp : Compression} {run : Call Res} {r : Response} (h : Answers codec comp run r)
    (hh : ∀ e, run.result = .error e → ∀ s hs, e ≠ .http s hs) (he : ∀ x, run.result = .ok x → ∃ d, codec.res.encode x = .ok d) :
    ToldStatus r ((errOf run.result).map statusOf) := by
  have key : ∀ e, Fails codec run e → run.result = .error e := by
    rintro e (hf | ⟨x, h1, h2⟩)
    · exact hf
    · obtain ⟨d, hd⟩ := he x h1
      rw [hd] at h2
      cases h2
  cases h with
  | success hr _ =>
    rw [hr]
    exact .success rfl
  | failure hf _ hr _ =>
    rw [key _ hf]
    show ToldStatus r (some (statusOf _))
    rw [code_errorOf]
    exact .failure hr
  | http hf => exact absurd rfl (hh _ (key _ hf) _ _)


/-! ### generators -/

theorem onEnd_quiet (o : OtelInterceptor C) (current : Option C) (shared : Dict Str AttrValue) (ctx : RequestContext) (e : Option Exc) :
    stepsIn ((o.callbacks (Sum.inl : Telemetered C → Happening C) current).onEnd shared ctx e).1 = [] ∧
    ((o.callbacks (Sum.inl : Telemetered C → Happening C) current).onEnd shared ctx e).2 = none := by
  show stepsIn (o.onEnd Sum.inl shared ctx e).1 = [] ∧ (o.onEnd Sum.inl shared ctx e).2 = none
  cases e <;> exact ⟨rfl, rfl⟩

theorem actsOf_genOf (close outcome : Option Exc) (acts : List (Act Res)) (es : List (Happening C)) :
    actsOf (genOf es close outcome acts) = ((stepsIn es).map .step ++ acts, outcome) := by
  induction acts generalizing es with
  | nil =>
    unfold genOf actsOf
    rw [List.append_nil]
  | cons a acts ih =>
    cases a with
    | step s =>
      unfold genOf
      rw [ih, stepsIn_append, List.map_append, List.append_assoc]
      rfl
    | emit m =>
      unfold genOf actsOf
      rw [ih]
      rfl

theorem actsOf_pre (es : List (Happening C)) (g : Gen (Happening C) Res) (h : stepsIn es = []) : actsOf (g.pre es) = actsOf g := by
  cases g with
  | fin es' o => unfold Gen.pre actsOf; rw [stepsIn_append, h]; rfl
  | yield es' m r c => unfold Gen.pre actsOf; rw [stepsIn_append, h]; rfl

theorem actsOf_sync (o : OtelInterceptor C) (current : Option C) (shared : Dict Str AttrValue) (ctx : RequestContext) (g : Gen (Happening C) Res) :
    actsOf (aroundSync (o.callbacks .inl current) ctx shared g) = actsOf g := by
  induction g with
  | fin es x =>
    unfold aroundSync
    dsimp only
    unfold actsOf
    rw [stepsIn_append, (onEnd_quiet ..).1, (onEnd_quiet ..).2, List.append_nil]
    rfl
  | yield es m r c ih =>
    unfold aroundSync
    dsimp only
    unfold actsOf
    rw [ih]

theorem actsOf_async (o : OtelInterceptor C) (current : Option C) (shared : Dict Str AttrValue) (ctx : RequestContext) (g : Gen (Happening C) Res) :
    actsOf (aroundAsync (o.callbacks .inl current) ctx shared g) = actsOf g ∧ closeErrOf (aroundAsync (o.callbacks .inl current) ctx shared g) = none := by
  induction g with
  | fin es x =>
    unfold aroundAsync
    dsimp only
    refine ⟨?_, rfl⟩
    unfold actsOf
    rw [stepsIn_append, (onEnd_quiet ..).1, (onEnd_quiet ..).2, List.append_nil]
    rfl
  | yield es m r c ih =>
    unfold aroundAsync
    dsimp only
    refine ⟨?_, (onEnd_quiet ..).2⟩
    unfold actsOf
    rw [ih.1]

theorem closeErrOf_pre (es : List (Happening C)) (g : Gen (Happening C) Res) : closeErrOf (g.pre es) = closeErrOf g := by
  cases g <;> rfl

/-- the handler with tracing does what it does without; the async one leaves the closing of the handler to the event loop -/
theorem watchedGen_eq {o : OtelInterceptor C} (ho : o.client = false) (flavor : Bool) (current : Option C) (f : A → RequestContext → Script Res) (a : A)
    {ctx : RequestContext} (hs : Traceable ctx.serverAddress) (hc : Traceable ctx.clientAddress) :
    (o.watchedGen flavor current f a ctx).acts = (f a ctx).acts ∧ (o.watchedGen flavor current f a ctx).outcome = (f a ctx).outcome ∧
    (flavor = true → (o.watchedGen flavor current f a ctx).closeErr = none) := by
  obtain ⟨before, shared, h1, h2⟩ := onStart_ok o (Sum.inl : Telemetered C → Happening C) current hs hc
  have hb : stepsIn before = [] := by
    obtain ⟨⟨attrs, hb, _⟩, _⟩ := (h2 ctx none).2
    rw [hb]
    rfl
  have hseen : seenContext o current ctx = ctx := by
    unfold seenContext
    rw [ho, if_neg (by decide)]
  unfold OtelInterceptor.watchedGen OtelInterceptor.watchGen
  cases flavor with
  | false =>
    have hg : o.aroundSync (S := A) Sum.inl current .serverStream (fun a ctx => genOf [] (f a ctx).closeErr (f a ctx).outcome (f a ctx).acts) a ctx =
        (aroundSync (o.callbacks .inl current) ctx shared (genOf [] (f a ctx).closeErr (f a ctx).outcome (f a ctx).acts)).pre before := by
      show invokeGenSync _ _ a ctx = _
      unfold invokeGenSync
      rw [show (o.callbacks (Sum.inl : Telemetered C → Happening C) current).onStart ctx = (before, .ok shared) from h1]
      dsimp only [OtelInterceptor.inner]
      rw [touch_eq o current hs, hseen]
    rw [if_neg (by decide), hg]
    dsimp only
    rw [actsOf_pre _ _ hb, actsOf_sync, actsOf_genOf]
    exact ⟨rfl, rfl, fun h => by cases h⟩
  | true =>
    have hg : o.aroundAsync (S := A) Sum.inl current .serverStream (fun a ctx => genOf [] (f a ctx).closeErr (f a ctx).outcome (f a ctx).acts) a ctx =
        (aroundAsync (o.callbacks .inl current) ctx shared (genOf [] (f a ctx).closeErr (f a ctx).outcome (f a ctx).acts)).pre before := by
      show invokeGenAsync _ _ a ctx = _
      unfold invokeGenAsync
      rw [show (o.callbacks (Sum.inl : Telemetered C → Happening C) current).onStart ctx = (before, .ok shared) from h1]
      dsimp only [OtelInterceptor.inner]
      rw [touch_eq o current hs, hseen]
    rw [if_pos rfl, hg]
    dsimp only
    rw [actsOf_pre _ _ hb, (actsOf_async ..).1, actsOf_genOf, closeErrOf_pre, (actsOf_async ..).2]
    exact ⟨rfl, rfl, fun _ => rfl⟩

/-- a handler that takes one message, run to its end: what is seen when it is asked for all its messages -/
theorem genOf_use {write : Res → Except Exc Bytes} {close close' : Option Exc} {Req : Type} {h h' : HState Req} {acts : List (Act Res)} {outcome e : Option Exc}
    {i : Meta} {ms : List Res} (hr : Runs write close h acts outcome i ms h' e) (h1 : h.reqs = []) (h2 : h.err = none)
    (hw : ∀ m, .emit m ∈ acts → ∃ b, write m = .ok b) (es : List (Happening C)) :
    e = outcome ∧ ((genOf es close' outcome acts).use (ms.length + 1)).messages = ms ∧
      ((genOf es close' outcome acts).use (ms.length + 1)).exc = outcome ∧
      ((genOf es close' outcome acts).use (ms.length + 1)).later = [] ∧
      telemetryIn ((genOf es close' outcome acts).use (ms.length + 1)).effects = telemetryIn es := by
  induction hr generalizing es with
  | done h o => exact ⟨rfl, rfl, rfl, rfl, rfl⟩
  | @step h0 hn _ _ _ _ _ _ _ hs hr ih =>
    obtain ⟨k1, k2⟩ : hn.reqs = [] ∧ hn.err = none := by
      cases hs with
      | update => exact ⟨h1, h2⟩
      | message => cases h1
      | ended => exact ⟨rfl, rfl⟩
      | handled => cases h2
    obtain ⟨e1, e2, e3, e4, e5⟩ := ih k1 k2 (fun m hm => hw m (List.mem_cons_of_mem _ hm)) (es ++ [.inr _])
    refine ⟨e1, e2, e3, e4, e5.trans ?_⟩
    rw [telemetryIn_append]
    exact List.append_nil _
  | raised hs =>
    cases hs with
    | failed => cases h2
  | emit hw' hr ih =>
    obtain ⟨e1, e2, e3, e4, e5⟩ := ih h1 h2 (fun m hm => hw m (List.mem_cons_of_mem _ hm)) []
    refine ⟨e1, congrArg (_ :: ·) e2, e3, e4, ?_⟩
    show telemetryIn (es ++ _) = _
    rw [telemetryIn_append, e5]
    exact List.append_nil _
  | unwritable hx =>
    obtain ⟨b, hb⟩ := hw _ (List.mem_cons_self ..)
    rw [hx] at hb
    cases hb

/-- what tracing reports of such a run -/
theorem watchGen_reports {o : OtelInterceptor C} (ho : o.client = false) (flavor : Bool) (current : Option C) (f : A → RequestContext → Script Res) (a : A)
    {ctx : RequestContext} (hs : Traceable ctx.serverAddress) (hc : Traceable ctx.clientAddress) {n : Nat} {ms : List Res}
    (hms : ((genOf (C := C) [] (f a ctx).closeErr (f a ctx).outcome (f a ctx).acts).use (n + 1)).messages = ms)
    (htel : telemetryIn ((genOf (C := C) [] (f a ctx).closeErr (f a ctx).outcome (f a ctx).acts).use (n + 1)).effects = [])
    (hlate : ((genOf (C := C) [] (f a ctx).closeErr (f a ctx).outcome (f a ctx).acts).use (n + 1)).later = []) :
    let v := (o.watchGen flavor current f a ctx).use (n + 1)
    let u := (genOf (C := C) [] (f a ctx).closeErr (f a ctx).outcome (f a ctx).acts).use (n + 1)
    (ms.length < n + 1 → Reports (telemetryIn (v.effects ++ v.later)) ((reported u.exc).map statusOf)) ∧
    (ms.length = n + 1 → Reports (telemetryIn (v.effects ++ v.later)) (if flavor then none else (reported u.exc).map statusOf)) := by
  intro v u
  have hseen : seenContext o current ctx = ctx := by
    unfold seenContext
    rw [ho, if_neg (by decide)]
  cases flavor with
  | false =>
    obtain ⟨before, after, ht, h1, _⟩ := C57_stream_sync_partial (S := A) o (Sum.inl : Telemetered C → Happening C) current
      (fun a ctx => genOf [] (f a ctx).closeErr (f a ctx).outcome (f a ctx).acts) a ctx hs hc n
    rw [hseen] at ht h1
    have hv : v = ⟨before ++ u.effects ++ after, u.messages, u.exc, u.later⟩ := h1
    have hr := (traced_reports ht u.effects htel).1
    have hl : u.later = [] := hlate
    constructor
    · intro _
      rw [hv]
      dsimp only
      rw [hl, List.append_nil]
      exact hr
    · intro _
      rw [hv]
      dsimp only
      rw [hl, List.append_nil]
      exact hr
  | true =>
    obtain ⟨k1, k2, k3⟩ := C57_stream_async_partial (S := A) o (Sum.inl : Telemetered C → Happening C) current
      (fun a ctx => genOf [] (f a ctx).closeErr (f a ctx).outcome (f a ctx).acts) a ctx hs hc n _ (.inl rfl)
    rw [hseen] at k2 k3
    rw [hms] at k2 k3
    constructor
    · intro hl
      obtain ⟨_, e2, before, after, ht, e3⟩ := k2 hl
      have e2 : v.later = u.later := e2
      have e3 : v.effects = before ++ u.effects ++ after := e3
      rw [e2, e3, show u.later = [] from hlate, List.append_nil]
      exact (traced_reports ht u.effects htel).1
    · intro hl
      obtain ⟨_, before, mid, after, ht, e3, e4⟩ := k3 hl
      have e3 : v.effects = before ++ mid ++ after := e3
      have e4 : mid ++ v.later = u.effects ++ u.later := e4
      have hz : telemetryIn mid = [] ∧ telemetryIn v.later = [] := by
        have := congrArg telemetryIn e4
        rw [telemetryIn_append, telemetryIn_append, show u.later = [] from hlate, show telemetryIn u.effects = [] from htel] at this
        exact List.append_eq_nil_iff.1 this
      rw [telemetryIn_append, hz.2, e3, List.append_nil]
      exact (traced_reports ht mid hz.1).1

/-- a handler that is asked for one message more than the `ms` it has produced, and produces it -/
theorem genOf_use_more {write : Res → Except Exc Bytes} {close close' : Option Exc} {Req : Type} {h h' : HState Req} {pre post : List (Act Res)} {m : Res}
    {outcome x e : Option Exc} {i : Meta} {ms : List Res} (hr : Runs write close h pre x i ms h' e) (he : e = none) (es : List (Happening C)) :
    ((genOf es close' outcome (pre ++ .emit m :: post)).use (ms.length + 1)).messages = ms ++ [m] ∧
      ((genOf es close' outcome (pre ++ .emit m :: post)).use (ms.length + 1)).exc = close' ∧
      ((genOf es close' outcome (pre ++ .emit m :: post)).use (ms.length + 1)).later = [] ∧
      telemetryIn ((genOf es close' outcome (pre ++ .emit m :: post)).use (ms.length + 1)).effects = telemetryIn es := by
  induction hr generalizing es with
  | done h o => exact ⟨rfl, rfl, rfl, (telemetryIn_append es []).trans (List.append_nil _)⟩
  | step hs hr ih =>
    obtain ⟨e2, e3, e4, e5⟩ := ih he (es ++ [.inr _])
    refine ⟨e2, e3, e4, e5.trans ?_⟩
    rw [telemetryIn_append]
    exact List.append_nil _
  | raised hs => cases he
  | emit hw' hr ih =>
    obtain ⟨e2, e3, e4, e5⟩ := ih he []
    refine ⟨congrArg (_ :: ·) e2, e3, e4, ?_⟩
    show telemetryIn (es ++ _) = _
    exact (telemetryIn_append es _).trans ((congrArg (telemetryIn es ++ ·) e5).trans (List.append_nil _))
  | unwritable hx => cases he

theorem runs_unwritable {write : Res → Except Exc Bytes} {Req : Type} {h h' : HState Req} {pre post : List (Act Res)} {m : Res} {outcome x e : Option Exc} {y : Exc}
    {i : Meta} {ms : List Res} (hr : Runs write none h pre x i ms h' e) (he : e = none) (hw : write m = .error y) :
    ∃ i', Runs write none h (pre ++ .emit m :: post) outcome i' ms h' (some y) := by
  induction hr with
  | done h o => exact ⟨_, .unwritable (close := none) hw⟩
  | step hs hr ih => obtain ⟨i', h'⟩ := ih he; exact ⟨_, .step hs h'⟩
  | raised hs => cases he
  | emit hw' hr ih => obtain ⟨i', h'⟩ := ih he; exact ⟨_, .emit hw' h'⟩
  | unwritable hx => cases he

end
end Props
