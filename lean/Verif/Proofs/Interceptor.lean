import Verif.Spec.Interceptor
/-
Lemmas about interceptors.
-/
namespace Conn
open Py Spec

/-! ### order -/

section
variable {F : Kind → Type} {M : Type}

theorem applyInterceptors_cons (k : Kind) (i : Resolved F) (is : List (Resolved F)) (f : F k) :
    applyInterceptors k (i :: is) f = match i.method k with
      | some w => w (applyInterceptors k is f)
      | none => applyInterceptors k is f := by
  unfold applyInterceptors
  rw [List.reverse_cons, List.foldl_append]
  rfl

theorem apply_around (invoker : M → (k : Kind) → F k → F k) (k : Kind) (is : List (Interceptor F M)) (h : Separate is) (f : F k) :
    Around invoker k is f (applyInterceptors k (is.map (Interceptor.resolve invoker)) f) := by
  induction is with
  | nil => exact .done f
  | cons i is ih =>
    have ih := ih fun x hx => h x (List.mem_cons_of_mem _ hx)
    rw [List.map_cons, applyInterceptors_cons]
    cases hc : i.callbacks with
    | some m =>
      have hk : i.method k = none := by
        rcases h i List.mem_cons_self with h | h
        · rw [hc] at h; cases h
        · exact h k
      have : (Interceptor.resolve invoker i).method k = some (invoker m k) := by unfold Interceptor.resolve; rw [hc]
      rw [this]
      exact .metadata hc hk ih
    | none =>
      have : (Interceptor.resolve invoker i).method k = i.method k := by unfold Interceptor.resolve; rw [hc]
      rw [this]
      cases hk : i.method k with
      | some w => exact .kind hc hk ih
      | none => exact .skip hc hk ih

end

section
variable {Req Res M : Type}

theorem apply_wrapped (invoker : M → (k : Kind) → HandlerFn Req Res k → HandlerFn Req Res k)
    (is : List (Interceptor (HandlerFn Req Res) M)) (h : Separate is) (ep : Endpoint Req Res) :
    Wrapped invoker is ep (ep.apply (is.map (Interceptor.resolve invoker))) := by
  obtain ⟨m, f⟩ := ep
  cases f with
  | unary f => exact .unary (apply_around invoker .unary is h f)
  | clientStream f => exact .clientStream (apply_around invoker .clientStream is h f)
  | serverStream f => exact .serverStream (apply_around invoker .serverStream is h f)
  | bidi f => exact .bidi (apply_around invoker .bidi is h f)

theorem get?_map (g : Endpoint Req Res → Endpoint Req Res) (t : Dict Str (Endpoint Req Res)) (path : Str) :
    Dict.get? (t.map fun p => (p.1, g p.2)) path = (Dict.get? t path).map g := by
  induction t with
  | nil => rfl
  | cons p t ih =>
    obtain ⟨q, ep⟩ := p
    simp only [List.map_cons, Dict.get?]
    split
    · rfl
    · exact ih

theorem wrapped_refl (invoker : M → (k : Kind) → HandlerFn Req Res k → HandlerFn Req Res k) (ep : Endpoint Req Res) :
    Wrapped invoker [] ep ep := by
  obtain ⟨m, f⟩ := ep
  cases f with
  | unary f => exact .unary (apply_around invoker .unary [] (fun _ h => by cases h) f)
  | clientStream f => exact .clientStream (apply_around invoker .clientStream [] (fun _ h => by cases h) f)
  | serverStream f => exact .serverStream (apply_around invoker .serverStream [] (fun _ h => by cases h) f)
  | bidi f => exact .bidi (apply_around invoker .bidi [] (fun _ h => by cases h) f)

theorem map_allWrapped (invoker : M → (k : Kind) → HandlerFn Req Res k → HandlerFn Req Res k)
    (is : List (Interceptor (HandlerFn Req Res) M)) (h : Separate is) (t : Dict Str (Endpoint Req Res)) :
    AllWrapped invoker is t (t.map fun p => (p.1, p.2.apply (is.map (Interceptor.resolve invoker)))) := by
  intro path
  rw [get?_map (fun ep => ep.apply (is.map (Interceptor.resolve invoker)))]
  cases hg : Dict.get? t path with
  | none => exact .inl ⟨rfl, rfl⟩
  | some ep => exact .inr ⟨ep, _, rfl, rfl, apply_wrapped invoker is h ep⟩

theorem refl_allWrapped (invoker : M → (k : Kind) → HandlerFn Req Res k → HandlerFn Req Res k) (t : Dict Str (Endpoint Req Res)) :
    AllWrapped invoker [] t t := by
  intro path
  cases hg : Dict.get? t path with
  | none => exact .inl ⟨rfl, rfl⟩
  | some ep => exact .inr ⟨ep, ep, rfl, rfl, wrapped_refl invoker ep⟩

theorem asgiApply_coll (invoker : M → (k : Kind) → HandlerFn Req Res k → HandlerFn Req Res k)
    (is : List (Interceptor (HandlerFn Req Res) M)) (t : Dict Str (Endpoint Req Res)) :
    asgiApply invoker (.coll is) t = t.map fun p => (p.1, p.2.apply (is.map (Interceptor.resolve invoker))) := by
  induction t with
  | nil => rfl
  | cons p t ih =>
    unfold asgiApply
    rw [List.map_cons]
    congr 1

end

theorem around_kind {F : Kind → Type} {M : Type} {invoker : M → (k : Kind) → F k → F k} {k : Kind} {i : Interceptor F M} {f g : F k}
    {w : F k → F k} (h : Around invoker k [i] f g) (hc : i.callbacks = none) (hw : i.method k = some w) : g = w f := by
  cases h with
  | kind hc' hw' h' => rw [hw] at hw'; cases hw'; cases h'; rfl
  | metadata hc' hw' h' => rw [hc] at hc'; cases hc'
  | both hc' hw' h' => rw [hc] at hc'; cases hc'
  | both' hc' hw' h' => rw [hc] at hc'; cases hc'
  | skip hc' hw' h' => rw [hw] at hw'; cases hw'

theorem wrapped_unary {Req Res M : Type} {invoker : M → (k : Kind) → HandlerFn Req Res k → HandlerFn Req Res k}
    {is : List (Interceptor (HandlerFn Req Res) M)} {m : MethodInfo} {f : HandlerFn Req Res .unary} {ep' : Endpoint Req Res}
    (h : Wrapped invoker is ⟨m, .unary f⟩ ep') : ∃ g : HandlerFn Req Res .unary, ep' = ⟨m, .unary g⟩ ∧ Around invoker .unary is f g := by
  generalize he : (⟨m, .unary f⟩ : Endpoint Req Res) = ep at h
  cases h with
  | unary h => cases he; exact ⟨_, rfl, h⟩
  | clientStream h => cases he
  | serverStream h => cases he
  | bidi h => cases he

/-! ### metadata interceptors -/

section
variable {Tok X R A S : Type}

/-- the interceptors one around the other -/
def stack {F : Type} (wrap : MetaCallbacks (Event Tok X) Tok → F → F) : Nat → List (Behaviour Tok) → F → F
  | _, [], f => f
  | n, b :: bs, f => wrap (observed n b) (stack wrap (n + 1) bs f)

theorem around_stack {F : Kind → Type} {invoker : MetaCallbacks (Event Tok X) Tok → (k : Kind) → F k → F k} {k : Kind}
    {bs : List (Behaviour Tok)} {n : Nat} {f g : F k} (h : Around invoker k (metadataList F n bs) f g) :
    g = stack (fun m => invoker m k) n bs f := by
  induction bs generalizing n f g with
  | nil =>
    cases h
    rfl
  | cons b bs ih =>
    unfold metadataList at h
    cases h with
    | kind hc hw h => cases hc
    | metadata hc hw h => cases hc; rw [ih h]; rfl
    | both hc hw h => cases hw
    | both' hc hw h => cases hw
    | skip hc hw h => cases hc

theorem caught_eq {e : Option Exc} (h : ∀ x, e = some x → x.isException = true) : caughtError e = e := by
  cases e with
  | none => rfl
  | some x =>
    unfold caughtError
    dsimp only
    rw [if_pos (h x rfl)]

theorem afterFinally_or (x e : Option Exc) : afterFinally x e = x.or e := by
  cases x <;> rfl

/-- the exceptions that come out are exceptions -/
theorem nested_exception {ctx : RequestContext} {n : Nat} {bs : List (Behaviour Tok)} {p q : List (Event Tok X) × Option Exc}
    (hb : RaiseExceptions bs) (hp : ∀ x, p.2 = some x → x.isException = true) (h : Nested ctx n bs p q) :
    ∀ x, q.2 = some x → x.isException = true := by
  induction h with
  | rpc => exact hp
  | refused h => intro x hx; cases hx; exact (hb _ List.mem_cons_self).1 _ _ h
  | @around n b bs p t es exc h hi ih =>
    intro x hx
    dsimp only at hx
    cases hs : b.stop t ctx exc with
    | none => rw [hs] at hx; exact ih (fun b hb' => hb b (List.mem_cons_of_mem _ hb')) hp x hx
    | some y => rw [hs] at hx; cases hx; exact (hb b List.mem_cons_self).2 _ _ _ _ hs

theorem call_nested (bs : List (Behaviour Tok)) (hb : RaiseExceptions bs) (n : Nat) (f : A → RequestContext → Ran (Event Tok X) R)
    (req : A) (ctx : RequestContext) (hf : ∀ e, (f req ctx).result = .error e → e.isException = true) :
    let g := stack (fun m f => invokeCall m f) n bs f
    Nested ctx n bs ((f req ctx).effects, errOf (f req ctx).result) ((g req ctx).effects, errOf (g req ctx).result) ∧
    (∀ r, (g req ctx).result = .ok r → (f req ctx).result = .ok r) := by
  induction bs generalizing n with
  | nil => exact ⟨.rpc, fun r h => h⟩
  | cons b bs ih =>
    have hb' : RaiseExceptions bs := fun b h => hb b (List.mem_cons_of_mem _ h)
    obtain ⟨ih1, ih2⟩ := ih hb' (n + 1)
    dsimp only at ih1 ih2 ⊢
    generalize hg : stack (fun m f => invokeCall m f) (n + 1) bs f = g at ih1 ih2
    show Nested ctx n (b :: bs) _ ((invokeCall (observed n b) (stack _ (n + 1) bs f) req ctx).effects, _) ∧ _
    rw [hg]
    have hst : stack (fun m f => invokeCall m f) n (b :: bs) f = invokeCall (observed n b) g := by rw [← hg]; rfl
    rw [hst]
    cases hs : b.start ctx with
    | error e =>
      have : invokeCall (observed n b) g req ctx = ⟨[.started n (.error e)], .error e⟩ := by
        unfold invokeCall observed
        dsimp only
        rw [hs]
      rw [this]
      exact ⟨.refused hs, fun r h => by cases h⟩
    | ok t =>
      have hc := caught_eq (nested_exception hb' (p := ((f req ctx).effects, errOf (f req ctx).result)) (by
        intro x hx
        dsimp only at hx
        cases hr : (f req ctx).result with
        | ok r => rw [hr] at hx; cases hx
        | error e => rw [hr] at hx; cases hx; exact hf _ hr) ih1)
      have : invokeCall (observed n b) g req ctx = ⟨.started n (.ok t) :: ((g req ctx).effects ++ [.ended n t (errOf (g req ctx).result)]),
          match b.stop t ctx (errOf (g req ctx).result) with
          | some x => .error x
          | none => (g req ctx).result⟩ := by
        unfold invokeCall observed
        dsimp only at hc ⊢
        rw [hs]
        dsimp only
        rw [hc]
        rfl
      rw [this]
      dsimp only
      have hn := Nested.around (p := ((f req ctx).effects, errOf (f req ctx).result)) hs ih1
      cases hx : b.stop t ctx (errOf (g req ctx).result) with
      | some x =>
        rw [hx] at hn
        exact ⟨hn, fun r h => by cases h⟩
      | none =>
        rw [hx] at hn
        exact ⟨hn, ih2⟩

/-! ### generators -/

theorem use_pre (n : Nat) (es : List (Event Tok X)) (g : Gen (Event Tok X) R) :
    (g.pre es).use (n + 1) = { g.use (n + 1) with effects := es ++ (g.use (n + 1)).effects } := by
  cases g with
  | fin es' o => rfl
  | yield es' m r c =>
    cases n with
    | zero => simp [Gen.pre, Gen.use]
    | succ n => simp [Gen.pre, Gen.use]

theorem use_aroundSync (m : MetaCallbacks (Event Tok X) Tok) (ctx : RequestContext) (t : Tok) (g : Gen (Event Tok X) R) (n : Nat) :
    (aroundSync m ctx t g).use (n + 1) = ⟨(g.use (n + 1)).effects ++ (m.onEnd t ctx (caughtError (g.use (n + 1)).exc)).1,
      (g.use (n + 1)).messages, afterFinally (m.onEnd t ctx (caughtError (g.use (n + 1)).exc)).2 (g.use (n + 1)).exc,
      (g.use (n + 1)).later⟩ := by
  induction g generalizing n with
  | fin es o => rfl
  | yield es x r c ih =>
    unfold aroundSync
    cases n with
    | zero => simp [Gen.use]
    | succ n =>
      simp only [Gen.use]
      rw [ih]
      simp

theorem use_aroundAsync (m : MetaCallbacks (Event Tok X) Tok) (ctx : RequestContext) (t : Tok) (g : Gen (Event Tok X) R) (n : Nat)
    (h : (g.use (n + 1)).messages.length < n + 1) :
    (aroundAsync m ctx t g).use (n + 1) = ⟨(g.use (n + 1)).effects ++ (m.onEnd t ctx (caughtError (g.use (n + 1)).exc)).1,
      (g.use (n + 1)).messages, afterFinally (m.onEnd t ctx (caughtError (g.use (n + 1)).exc)).2 (g.use (n + 1)).exc,
      (g.use (n + 1)).later⟩ := by
  induction g generalizing n with
  | fin es o => rfl
  | yield es x r c ih =>
    unfold aroundAsync
    cases n with
    | zero => simp [Gen.use] at h
    | succ n =>
      simp only [Gen.use] at h ⊢
      rw [ih n (by simpa using h)]
      simp

/-- a generator that is closed early, or not -/
theorem use_aroundAsync' (m : MetaCallbacks (Event Tok X) Tok) (ctx : RequestContext) (t : Tok) (g : Gen (Event Tok X) R) (n : Nat) :
    (aroundAsync m ctx t g).use (n + 1) = ⟨((aroundAsync m ctx t g).use (n + 1)).effects, (g.use (n + 1)).messages,
      ((aroundAsync m ctx t g).use (n + 1)).exc, ((aroundAsync m ctx t g).use (n + 1)).later⟩ ∧
    ∃ P Q e, (g.use (n + 1)).effects ++ (g.use (n + 1)).later = P ++ Q ∧
      ((aroundAsync m ctx t g).use (n + 1)).effects ++ ((aroundAsync m ctx t g).use (n + 1)).later =
        P ++ (m.onEnd t ctx e).1 ++ Q := by
  induction g generalizing n with
  | fin es o => exact ⟨rfl, es, [], caughtError o, rfl, rfl⟩
  | yield es x r c ih =>
    unfold aroundAsync
    cases n with
    | zero =>
      refine ⟨rfl, es, c.now ++ c.later, none, ?_, ?_⟩ <;> simp [Gen.use]
    | succ n =>
      obtain ⟨ih1, P, Q, e, h1, h2⟩ := ih n
      simp only [Gen.use]
      refine ⟨by rw [ih1], es ++ P, Q, e, ?_, ?_⟩
      · rw [List.append_assoc, h1, List.append_assoc]
      · rw [List.append_assoc, h2]; simp

/-- what the two ways of wrapping a generator have in common, on the consumers for which they agree -/
theorem gen_nested (wrap : MetaCallbacks (Event Tok X) Tok → (A → RequestContext → Gen (Event Tok X) R) →
      A → RequestContext → Gen (Event Tok X) R) (k : Nat) (ok : Used (Event Tok X) R → Prop)
    (hwrap : ∀ n b f req ctx, (∀ e, b.start ctx = .error e → wrap (observed n b) f req ctx = .fin [.started n (.error e)] (some e)) ∧
      ∀ t, b.start ctx = .ok t → ok ((f req ctx).use (k + 1)) → (wrap (observed n b) f req ctx).use (k + 1) =
        ⟨.started n (.ok t) :: (((f req ctx).use (k + 1)).effects ++ [.ended n t (caughtError ((f req ctx).use (k + 1)).exc)]),
         ((f req ctx).use (k + 1)).messages,
         afterFinally (b.stop t ctx (caughtError ((f req ctx).use (k + 1)).exc)) ((f req ctx).use (k + 1)).exc,
         ((f req ctx).use (k + 1)).later⟩)
    (hok : ∀ u v : Used (Event Tok X) R, u.messages = v.messages ∨ v.messages = [] → ok u → ok v)
    (bs : List (Behaviour Tok)) (hb : RaiseExceptions bs) (n : Nat) (f : A → RequestContext → Gen (Event Tok X) R)
    (req : A) (ctx : RequestContext) (hf : ∀ e, ((f req ctx).use (k + 1)).exc = some e → e.isException = true)
    (hko : ok ((f req ctx).use (k + 1))) :
    let u := (f req ctx).use (k + 1)
    let v := (stack wrap n bs f req ctx).use (k + 1)
    Nested ctx n bs (u.effects, u.exc) (v.effects, v.exc) ∧ (v.messages = u.messages ∨ v.messages = []) ∧
    ((∀ b ∈ bs, ∃ t, b.start ctx = .ok t) → v.messages = u.messages ∧ v.later = u.later) := by
  induction bs generalizing n with
  | nil => exact ⟨.rpc, .inl rfl, fun _ => ⟨rfl, rfl⟩⟩
  | cons b bs ih =>
    have hb' : RaiseExceptions bs := fun b h => hb b (List.mem_cons_of_mem _ h)
    obtain ⟨ih1, ih2, ih3⟩ := ih hb' (n + 1)
    dsimp only at ih1 ih2 ih3 ⊢
    obtain ⟨hw1, hw2⟩ := hwrap n b (stack wrap (n + 1) bs f) req ctx
    cases hs : b.start ctx with
    | error e =>
      have := hw1 e hs
      show Nested ctx n (b :: bs) _ (((wrap (observed n b) (stack wrap (n + 1) bs f) req ctx).use (k + 1)).effects,
        ((wrap (observed n b) (stack wrap (n + 1) bs f) req ctx).use (k + 1)).exc) ∧
        (((wrap (observed n b) (stack wrap (n + 1) bs f) req ctx).use (k + 1)).messages = _ ∨
          ((wrap (observed n b) (stack wrap (n + 1) bs f) req ctx).use (k + 1)).messages = _) ∧ _
      rw [this]
      refine ⟨.refused hs, .inr rfl, fun h => ?_⟩
      obtain ⟨t, ht⟩ := h b List.mem_cons_self
      rw [hs] at ht
      cases ht
    | ok t =>
      have := hw2 t hs (hok _ _ (ih2.elim (.inl ∘ Eq.symm) .inr) hko)
      show Nested ctx n (b :: bs) _ (((wrap (observed n b) (stack wrap (n + 1) bs f) req ctx).use (k + 1)).effects,
        ((wrap (observed n b) (stack wrap (n + 1) bs f) req ctx).use (k + 1)).exc) ∧
        (((wrap (observed n b) (stack wrap (n + 1) bs f) req ctx).use (k + 1)).messages = _ ∨
          ((wrap (observed n b) (stack wrap (n + 1) bs f) req ctx).use (k + 1)).messages = _) ∧
        (_ → ((wrap (observed n b) (stack wrap (n + 1) bs f) req ctx).use (k + 1)).messages = _ ∧
          ((wrap (observed n b) (stack wrap (n + 1) bs f) req ctx).use (k + 1)).later = _)
      rw [this]
      dsimp only
      have hc := caught_eq (nested_exception hb' (p := (((f req ctx).use (k + 1)).effects, ((f req ctx).use (k + 1)).exc)) hf ih1)
      dsimp only at hc
      rw [hc, afterFinally_or]
      exact ⟨.around hs ih1, ih2, fun h => ih3 fun b hb => h b (List.mem_cons_of_mem _ hb)⟩

theorem genSync_use (n k : Nat) (b : Behaviour Tok) (f : A → RequestContext → Gen (Event Tok X) R) (req : A) (ctx : RequestContext) :
    (∀ e, b.start ctx = .error e → invokeGenSync (observed n b) f req ctx = .fin [.started n (.error e)] (some e)) ∧
      ∀ t, b.start ctx = .ok t → True → (invokeGenSync (observed n b) f req ctx).use (k + 1) =
        ⟨.started n (.ok t) :: (((f req ctx).use (k + 1)).effects ++ [.ended n t (caughtError ((f req ctx).use (k + 1)).exc)]),
         ((f req ctx).use (k + 1)).messages,
         afterFinally (b.stop t ctx (caughtError ((f req ctx).use (k + 1)).exc)) ((f req ctx).use (k + 1)).exc,
         ((f req ctx).use (k + 1)).later⟩ := by
  constructor
  · intro e he
    unfold invokeGenSync observed
    dsimp only
    rw [he]
  · intro t ht _
    have : invokeGenSync (observed n b) f req ctx = (aroundSync (observed n b) ctx t (f req ctx)).pre [.started n (.ok t)] := by
      unfold invokeGenSync
      have hst : (observed n b : MetaCallbacks (Event Tok X) Tok).onStart ctx = ([.started n (.ok t)], .ok t) := by
        unfold observed; dsimp only; rw [ht]
      rw [hst]
    rw [this, use_pre, use_aroundSync]
    rfl

theorem genAsync_use (n : Nat) (b : Behaviour Tok) (f : A → RequestContext → Gen (Event Tok X) R) (req : A) (ctx : RequestContext) :
    (∀ e, b.start ctx = .error e → invokeGenAsync (observed n b) f req ctx = .fin [.started n (.error e)] (some e)) ∧
    ∀ t, b.start ctx = .ok t → invokeGenAsync (observed n b) f req ctx =
      (aroundAsync (observed n b) ctx t (f req ctx)).pre [.started n (.ok t)] := by
  constructor
  · intro e he
    unfold invokeGenAsync observed
    dsimp only
    rw [he]
  · intro t ht
    unfold invokeGenAsync
    have hst : (observed n b : MetaCallbacks (Event Tok X) Tok).onStart ctx = ([.started n (.ok t)], .ok t) := by
      unfold observed; dsimp only; rw [ht]
    rw [hst]

/-! ### tokens -/

theorem startedTokens_append (i : Nat) (a b : List (Event Tok X)) :
    startedTokens i (a ++ b) = startedTokens i a ++ startedTokens i b := List.filterMap_append

theorem endedTokens_append (i : Nat) (a b : List (Event Tok X)) :
    endedTokens i (a ++ b) = endedTokens i a ++ endedTokens i b := List.filterMap_append

theorem onlyRpc_tokens {es : List (Event Tok X)} (h : OnlyRpc es) (i : Nat) : startedTokens i es = [] ∧ endedTokens i es = [] := by
  induction es with
  | nil => exact ⟨rfl, rfl⟩
  | cons e es ih =>
    obtain ⟨x, rfl⟩ := h e List.mem_cons_self
    exact ih fun e he => h e (List.mem_cons_of_mem _ he)

/-- the tokens of the interceptors `bs`, numbered from `n`, are paired -/
def Paired (ctx : RequestContext) (n : Nat) (bs : List (Behaviour Tok)) (es : List (Event Tok X)) : Prop :=
  (∀ i, startedTokens i es = endedTokens i es ∧ (startedTokens i es).length ≤ 1 ∧ (i < n → startedTokens i es = [])) ∧
  ((∀ b ∈ bs, ∃ t, b.start ctx = .ok t) → ∀ i b, bs[i]? = some b → ∃ t, b.start ctx = .ok t ∧ startedTokens (n + i) es = [t])

theorem paired_nil {ctx : RequestContext} {n : Nat} {es : List (Event Tok X)} (h : OnlyRpc es) : Paired ctx n [] es :=
  ⟨fun i => by rw [(onlyRpc_tokens h i).1, (onlyRpc_tokens h i).2]; exact ⟨rfl, Nat.zero_le _, fun _ => rfl⟩,
    fun _ i b h => by simp at h⟩

theorem paired_refused {ctx : RequestContext} {n : Nat} {b : Behaviour Tok} {bs : List (Behaviour Tok)} {e : Exc}
    (h : b.start ctx = .error e) : Paired (X := X) ctx n (b :: bs) [.started n (.error e)] :=
  ⟨fun i => ⟨rfl, Nat.zero_le _, fun _ => rfl⟩, fun hall => by
    obtain ⟨t, ht⟩ := hall b List.mem_cons_self
    rw [h] at ht; cases ht⟩

theorem paired_around {ctx : RequestContext} {n : Nat} {b : Behaviour Tok} {bs : List (Behaviour Tok)} {P Q es : List (Event Tok X)}
    {t : Tok} {e : Option Exc} (h : b.start ctx = .ok t) (hes : es = P ++ Q) (hi : Paired ctx (n + 1) bs es) :
    Paired ctx n (b :: bs) (.started n (.ok t) :: (P ++ [.ended n t e] ++ Q)) := by
  subst hes
  obtain ⟨h1, h2⟩ := hi
  have hst : ∀ i, startedTokens i (.started n (.ok t) :: (P ++ [.ended n t e] ++ Q)) =
      (if n = i then [t] else []) ++ startedTokens i (P ++ Q) := by
    intro i
    have : startedTokens i (.started n (.ok t) :: (P ++ [.ended n t e] ++ Q)) =
      startedTokens i [.started n (.ok t)] ++ startedTokens i (P ++ [.ended n t e] ++ Q) :=
      startedTokens_append i [.started n (.ok t)] _
    rw [this, startedTokens_append, startedTokens_append, startedTokens_append]
    have h0 : startedTokens i [(.ended n t e : Event Tok X)] = [] := rfl
    rw [h0, List.append_nil]
    congr 1
    by_cases hn : n = i <;> simp [startedTokens, hn]
  have hen : ∀ i, endedTokens i (.started n (.ok t) :: (P ++ [.ended n t e] ++ Q)) =
      endedTokens i P ++ ((if n = i then [t] else []) ++ endedTokens i Q) := by
    intro i
    have : endedTokens i (.started n (.ok t) :: (P ++ [.ended n t e] ++ Q)) = endedTokens i (P ++ [.ended n t e] ++ Q) := rfl
    rw [this, endedTokens_append, endedTokens_append, List.append_assoc]
    congr 2
    by_cases hn : n = i <;> simp [endedTokens, hn]
  refine ⟨fun i => ?_, fun hall i b' hb' => ?_⟩
  · obtain ⟨e1, e2, e3⟩ := h1 i
    rw [hst, hen]
    by_cases hn : n = i
    · subst hn
      have hz := e3 (Nat.lt_succ_self n)
      rw [hz, endedTokens_append] at e1
      obtain ⟨z1, z2⟩ := List.append_eq_nil_iff.1 e1.symm
      rw [hz, z1, z2, if_pos rfl]
      exact ⟨rfl, Nat.le_refl _, fun h => absurd h (Nat.lt_irrefl _)⟩
    · rw [if_neg hn]
      rw [endedTokens_append] at e1
      exact ⟨e1, e2, fun h => e3 (Nat.lt_succ_of_lt h)⟩
  · cases i with
    | zero =>
      simp at hb'
      subst hb'
      refine ⟨t, h, ?_⟩
      rw [Nat.add_zero, hst, if_pos rfl, (h1 n).2.2 (Nat.lt_succ_self n)]
      rfl
    | succ i =>
      obtain ⟨t', ht', hs'⟩ := h2 (fun b hb => hall b (List.mem_cons_of_mem _ hb)) i b' (by simpa using hb')
      refine ⟨t', ht', ?_⟩
      rw [hst, if_neg (by omega), show n + (i + 1) = n + 1 + i by omega, hs']
      rfl

theorem nested_paired {ctx : RequestContext} {n : Nat} {bs : List (Behaviour Tok)} {p q : List (Event Tok X) × Option Exc}
    (h : Nested ctx n bs p q) (hp : OnlyRpc p.1) : Paired ctx n bs q.1 := by
  induction h with
  | rpc => exact paired_nil hp
  | refused h => exact paired_refused h
  | @around n b bs p t es exc h _ ih =>
    have := paired_around (Q := []) (e := exc) h (by rw [List.append_nil]) (ih hp)
    rwa [List.append_nil] at this

theorem rpcGen_use {g : Gen (Event Tok X) R} (h : RpcGen g) (n : Nat) : OnlyRpc ((g.use n).effects ++ (g.use n).later) := by
  induction g generalizing n with
  | fin es o =>
    cases n with
    | zero => intro e he; cases he
    | succ n => simpa [Gen.use, RpcGen] using h
  | yield es m r c ih =>
    obtain ⟨h1, h2, h3, h4⟩ := h
    match n with
    | 0 => intro e he; cases he
    | 1 =>
      intro e he
      simp only [Gen.use, List.mem_append] at he
      rcases he with (he | he) | he
      · exact h1 e he
      · exact h3 e he
      · exact h4 e he
    | n + 2 =>
      intro e he
      simp only [Gen.use, List.append_assoc, List.mem_append] at he
      rcases he with he | he
      · exact h1 e he
      · exact ih h2 (n + 1) e (List.mem_append.2 he)

theorem async_paired (k : Nat) (bs : List (Behaviour Tok)) (n : Nat) (f : A → RequestContext → Gen (Event Tok X) R)
    (req : A) (ctx : RequestContext) (hf : RpcGen (f req ctx)) :
    let u := (f req ctx).use (k + 1)
    let v := (stack (fun m f => invokeGenAsync m f) n bs f req ctx).use (k + 1)
    Paired ctx n bs (v.effects ++ v.later) ∧ ((∀ b ∈ bs, ∃ t, b.start ctx = .ok t) → v.messages = u.messages) := by
  induction bs generalizing n with
  | nil => exact ⟨paired_nil (rpcGen_use hf _), fun _ => rfl⟩
  | cons b bs ih =>
    obtain ⟨ih1, ih2⟩ := ih (n + 1)
    dsimp only at ih1 ih2 ⊢
    obtain ⟨hw1, hw2⟩ := genAsync_use n b (stack (fun m f => invokeGenAsync m f) (n + 1) bs f) req ctx
    have hst : stack (fun m f => invokeGenAsync m f) n (b :: bs) f =
        invokeGenAsync (observed n b) (stack (fun m f => invokeGenAsync m f) (n + 1) bs f) := rfl
    rw [hst]
    cases hs : b.start ctx with
    | error e =>
      rw [hw1 e hs]
      exact ⟨paired_refused hs, fun hall => by
        obtain ⟨t, ht⟩ := hall b List.mem_cons_self
        rw [hs] at ht; cases ht⟩
    | ok t =>
      rw [hw2 t hs, use_pre]
      obtain ⟨h1, P, Q, e, h2, h3⟩ := use_aroundAsync' (observed n b) ctx t
        (stack (fun m f => invokeGenAsync m f) (n + 1) bs f req ctx) k
      dsimp only
      refine ⟨?_, fun hall => ?_⟩
      · rw [List.append_assoc, h3]
        exact paired_around hs h2 ih1
      · rw [h1]
        exact ih2 fun b hb => hall b (List.mem_cons_of_mem _ hb)

theorem nested_transparent {ctx : RequestContext} {n : Nat} {bs : List (Behaviour Tok)} {p q : List (Event Tok X) × Option Exc}
    (h : Nested ctx n bs p q) (hn : NeverRaise bs ctx) : q.2 = p.2 := by
  induction h with
  | rpc => rfl
  | refused h =>
    obtain ⟨⟨t, ht⟩, _⟩ := hn _ List.mem_cons_self
    rw [h] at ht; cases ht
  | around h _ ih =>
    rw [(hn _ List.mem_cons_self).2]
    exact ih fun b hb => hn b (List.mem_cons_of_mem _ hb)

end

end Conn
