import Verif.Proofs.Interceptor
import Verif.Props.Routing
/-
C40 (every endpoint gets every interceptor), C41 (order), C42 (metadata interceptors are paired and transparent) and C43 (… also when
a stream is abandoned).
-/
namespace Props
open Conn Py Spec

/-! ### C41 -/

section
variable {F : Kind → Type} {M : Type}

/-- C41, clients: an RPC of any kind runs with the interceptors around it, in order. Missing: objects that are metadata interceptors
and interceptors of some kind at once (see `C41_violation_both`). Servers: `C40_wsgi_partial`, `C40_asgi_partial`. -/
theorem C41_client_partial (invoker : M → (k : Kind) → F k → F k) (is : List (Interceptor F M)) (h : Separate is)
    (base : (k : Kind) → F k) (k : Kind) : Around invoker k is (base k) (clientExecutor invoker is base k) :=
  apply_around invoker k is h (base k)

end

/-- functions of RPCs reduced to the names of what runs, outermost first -/
abbrev Names (_ : Kind) : Type := List (List Char)
def named (n : List Char) (k : Kind) (f : Names k) : Names k := List.cons n f

def kindOnly : Interceptor Names (List Char) := ⟨fun k => if k = .unary then some (named (pys! "unary") k) else none, none⟩
def metaOnly : Interceptor Names (List Char) := ⟨fun _ => none, some (pys! "meta")⟩
def bothKinds : Interceptor Names (List Char) := ⟨fun k => some (named (pys! "both") k), some (pys! "callbacks")⟩

/-- an interceptor of unary RPCs between two metadata interceptors -/
example : Separate [metaOnly, kindOnly, metaOnly] ∧
    clientExecutor named [metaOnly, kindOnly, metaOnly] (fun _ => [pys! "rpc"]) .unary =
      [pys! "meta", pys! "unary", pys! "meta", pys! "rpc"] ∧
    clientExecutor named [metaOnly, kindOnly, metaOnly] (fun _ => [pys! "rpc"]) .bidi = [pys! "meta", pys! "meta", pys! "rpc"] := by
  refine ⟨fun i hi => ?_, rfl, rfl⟩
  simp only [List.mem_cons, List.not_mem_nil, or_false] at hi
  rcases hi with rfl | rfl | rfl
  · exact .inr fun _ => rfl
  · exact .inl rfl
  · exact .inr fun _ => rfl

/-- C41 is false of objects that are both: their methods for kinds of RPC are never called. -/
theorem C41_violation_both :
    clientExecutor named [bothKinds] (fun _ => [pys! "rpc"]) .unary = [pys! "callbacks", pys! "rpc"] ∧
    ¬ Around named .unary [bothKinds] [pys! "rpc"] (clientExecutor named [bothKinds] (fun _ => [pys! "rpc"]) .unary) := by
  refine ⟨rfl, fun h => ?_⟩
  have e : clientExecutor named [bothKinds] (fun _ => [pys! "rpc"]) .unary = [pys! "callbacks", pys! "rpc"] := rfl
  rw [e] at h
  generalize hg : ([pys! "callbacks", pys! "rpc"] : Names .unary) = g at h
  cases h with
  | kind hc hw h => cases hc
  | metadata hc hw h => cases hw
  | both hc hw h =>
    cases hc; cases hw; cases h
    exact absurd hg (by decide)
  | both' hc hw h =>
    cases hc; cases hw; cases h
    exact absurd hg (by decide)
  | skip hc hw h => cases hc

/-! ### C40 -/

section
variable {Req Res M : Type}

/-- C40 (and C41), WSGI: whatever iterable the interceptors are passed as, every endpoint gets all of them, in order. Missing as in
`C41_client_partial`. -/
theorem C40_wsgi_partial (invoker : M → (k : Kind) → HandlerFn Req Res k → HandlerFn Req Res k)
    (interceptors : Iterable (Interceptor (HandlerFn Req Res) M)) (h : Separate (items interceptors))
    (endpoints : Dict (List Char) (Endpoint Req Res)) :
    AllWrapped invoker (items interceptors) endpoints (wsgiEndpoints invoker interceptors endpoints) := by
  unfold wsgiEndpoints
  cases interceptors with
  | coll xs =>
    cases xs with
    | nil => exact refl_allWrapped invoker endpoints
    | cons x xs => exact map_allWrapped invoker (x :: xs) h endpoints
  | once xs => exact map_allWrapped invoker xs h endpoints

/-- C40 (and C41), ASGI: every endpoint gets all the interceptors of a collection, in order. Missing: iterators that can be
iterated only once (see `C40_violation_iterator`), and as in `C41_client_partial`. -/
theorem C40_asgi_partial (invoker : M → (k : Kind) → HandlerFn Req Res k → HandlerFn Req Res k)
    (is : List (Interceptor (HandlerFn Req Res) M)) (h : Separate is) (endpoints : Dict (List Char) (Endpoint Req Res)) :
    AllWrapped invoker is endpoints (asgiEndpoints invoker (.coll is) endpoints) := by
  unfold asgiEndpoints
  cases is with
  | nil => exact refl_allWrapped invoker endpoints
  | cons x xs =>
    show AllWrapped invoker (x :: xs) endpoints (asgiApply invoker (.coll (x :: xs)) endpoints)
    rw [asgiApply_coll]
    exact map_allWrapped invoker (x :: xs) h endpoints

/-- … and with an iterator, only the first endpoint of the table gets the interceptors. -/
theorem C40_asgi_iterator (invoker : M → (k : Kind) → HandlerFn Req Res k → HandlerFn Req Res k)
    (is : List (Interceptor (HandlerFn Req Res) M)) (h : Separate is) (path : List Char) (ep : Endpoint Req Res)
    (rest : Dict (List Char) (Endpoint Req Res)) :
    ∃ ep', Wrapped invoker is ep ep' ∧ asgiEndpoints invoker (.once is) ((path, ep) :: rest) = (path, ep') :: rest := by
  refine ⟨_, apply_wrapped invoker is h ep, ?_⟩
  show asgiApply invoker (.once is) ((path, ep) :: rest) = _
  unfold asgiApply
  show _ :: asgiApply invoker (.once []) rest = _
  congr 1
  induction rest with
  | nil => rfl
  | cons p rest ih =>
    unfold asgiApply
    have e : p.2.apply ((Iterable.once ([] : List (Interceptor (HandlerFn Req Res) M))).iterate.1.map (Interceptor.resolve invoker)) = p.2 := by
      obtain ⟨q, m, f⟩ := p
      cases f <;> rfl
    rw [e]
    show p :: asgiApply invoker (.once []) rest = _
    rw [ih]

end

/-- an interceptor that refuses every unary call -/
def refuseAll : Interceptor (HandlerFn Bytes Bytes) (List Char) :=
  ⟨fun k => match k with
    | .unary => some fun _ _ _ => ⟨[], .error (.mk .permissionDenied [])⟩
    | _ => none, none⟩
def twoEndpoints : Dict (List Char) (Endpoint Bytes Bytes) :=
  [(pys! "/a.S/One", ⟨echoInfo, .unary echoCall⟩), (pys! "/a.S/Two", ⟨echoInfo, .unary echoCall⟩)]
def noCallbacks : List Char → (k : Kind) → HandlerFn Bytes Bytes k → HandlerFn Bytes Bytes k := fun _ _ f => f
def someContext : RequestContext := ⟨echoInfo, pys! "POST", Headers.empty, none, none, none⟩

/-- what a unary endpoint answers to a message -/
def answerOf (t : Dict (List Char) (Endpoint Bytes Bytes)) (path : List Char) (b : Bytes) : Option (Except Exc Bytes) :=
  match Dict.get? t path with
  | some ⟨_, .unary f⟩ => some (f b someContext).result
  | _ => none

/-- C40 is false of iterators on ASGI: passing an iterator leaves the second endpoint without its interceptor — here, without its access
control. -/
theorem C40_violation_iterator :
    ¬ AllWrapped noCallbacks [refuseAll] twoEndpoints (asgiEndpoints noCallbacks (.once [refuseAll]) twoEndpoints) ∧
    answerOf (asgiEndpoints noCallbacks (.once [refuseAll]) twoEndpoints) (pys! "/a.S/One") [1] = some (.error (.mk .permissionDenied [])) ∧
    answerOf (asgiEndpoints noCallbacks (.once [refuseAll]) twoEndpoints) (pys! "/a.S/Two") [1] = some (.ok [1]) := by
  refine ⟨fun h => ?_, rfl, rfl⟩
  rcases h (pys! "/a.S/Two") with ⟨h, _⟩ | ⟨ep, ep', h1, h2, h3⟩
  · cases h
  · have e1 : ep = ⟨echoInfo, .unary echoCall⟩ := by cases h1; rfl
    have e2 : ep' = ⟨echoInfo, .unary echoCall⟩ := by cases h2; rfl
    subst e1
    obtain ⟨g, hg, ha⟩ := wrapped_unary h3
    rw [e2] at hg
    injection hg with _ hg
    injection hg with hg
    rw [← hg] at ha
    have := congrFun (congrFun (around_kind ha rfl rfl) [1]) someContext
    cases this

/-- the interceptors refuse on every endpoint of the WSGI application, from an iterator too -/
example : Separate [refuseAll] ∧
    answerOf (wsgiEndpoints noCallbacks (.once [refuseAll]) twoEndpoints) (pys! "/a.S/Two") [1] = some (.error (.mk .permissionDenied [])) ∧
    answerOf (asgiEndpoints noCallbacks (.coll [refuseAll]) twoEndpoints) (pys! "/a.S/Two") [1] = some (.error (.mk .permissionDenied [])) := by
  refine ⟨fun i hi => ?_, rfl, rfl⟩
  rw [List.mem_singleton] at hi
  subst hi
  exact .inl rfl

/-! ### C42 -/

section
variable {Tok X R A S : Type}

/-- the two `MetadataInterceptorInvoker` classes -/
def IsInvoker (inv : MetaCallbacks (Event Tok X) Tok → (k : Kind) → TraceFn (Event Tok X) R A S k → TraceFn (Event Tok X) R A S k) :
    Prop := inv = invokerSync ∨ inv = invokerAsync

/-- C42, unary RPCs, sync and async: `f` is the RPC (whatever it does, including any other interceptors inside), `g` the function with
the metadata interceptors around it (`C40`, `C41`). Missing: exceptions that are not instances of `Exception` (see
`C42_violation_cancelled`). -/
theorem C42_unary_partial
    {inv : MetaCallbacks (Event Tok X) Tok → (k : Kind) → TraceFn (Event Tok X) R A S k → TraceFn (Event Tok X) R A S k}
    (hinv : IsInvoker inv) (bs : List (Behaviour Tok)) (hb : RaiseExceptions bs) (f g : A → RequestContext → Ran (Event Tok X) R)
    (hg : Around inv .unary (metadataList (TraceFn (Event Tok X) R A S) 0 bs) f g) (req : A) (ctx : RequestContext)
    (hf : ∀ e, (f req ctx).result = .error e → e.isException = true) :
    Nested ctx 0 bs ((f req ctx).effects, errOf (f req ctx).result) ((g req ctx).effects, errOf (g req ctx).result) ∧
    (∀ r, (g req ctx).result = .ok r → (f req ctx).result = .ok r) := by
  rw [around_stack hg]
  have : (fun m => inv m .unary) = fun (m : MetaCallbacks (Event Tok X) Tok) f => invokeCall m f := by
    rcases hinv with rfl | rfl <;> rfl
  rw [this]
  exact call_nested bs hb 0 f req ctx hf

/-- … client-streaming RPCs -/
theorem C42_client_stream_partial
    {inv : MetaCallbacks (Event Tok X) Tok → (k : Kind) → TraceFn (Event Tok X) R A S k → TraceFn (Event Tok X) R A S k}
    (hinv : IsInvoker inv) (bs : List (Behaviour Tok)) (hb : RaiseExceptions bs) (f g : S → RequestContext → Ran (Event Tok X) R)
    (hg : Around inv .clientStream (metadataList (TraceFn (Event Tok X) R A S) 0 bs) f g) (req : S) (ctx : RequestContext)
    (hf : ∀ e, (f req ctx).result = .error e → e.isException = true) :
    Nested ctx 0 bs ((f req ctx).effects, errOf (f req ctx).result) ((g req ctx).effects, errOf (g req ctx).result) ∧
    (∀ r, (g req ctx).result = .ok r → (f req ctx).result = .ok r) := by
  rw [around_stack hg]
  have : (fun m => inv m .clientStream) = fun (m : MetaCallbacks (Event Tok X) Tok) f => invokeCall m f := by
    rcases hinv with rfl | rfl <;> rfl
  rw [this]
  exact call_nested bs hb 0 f req ctx hf

/-- C42, what nesting means: every interceptor that started ended exactly once, with its token. -/
theorem C42_paired {ctx : RequestContext} {bs : List (Behaviour Tok)} {p q : List (Event Tok X) × Option Exc}
    (h : Nested ctx 0 bs p q) (hp : OnlyRpc p.1) (i : Nat) :
    startedTokens i q.1 = endedTokens i q.1 ∧ (startedTokens i q.1).length ≤ 1 ∧
    ((∀ b ∈ bs, ∃ t, b.start ctx = .ok t) → ∀ b, bs[i]? = some b → ∃ t, b.start ctx = .ok t ∧ startedTokens i q.1 = [t]) := by
  have h := nested_paired h hp
  refine ⟨(h.1 i).1, (h.1 i).2.1, fun hall b hb => ?_⟩
  have := h.2 hall i b hb
  rwa [Nat.zero_add] at this

/-- C42, interceptors that do not raise change nothing: the error of the RPC, and so its outcome, is passed through. -/
theorem C42_transparent {ctx : RequestContext} {bs : List (Behaviour Tok)} {p q : List (Event Tok X) × Option Exc}
    (h : Nested ctx 0 bs p q) (hn : NeverRaise bs ctx) : q.2 = p.2 := nested_transparent h hn

/-! ### C43 -/

/-- the consumers: all that ask for at least one message (a generator that is asked for nothing does not start, and nothing happens) -/
theorem C43_untouched (g : Gen (Event Tok X) R) : g.use 0 = ⟨[], [], none, []⟩ := by cases g <;> rfl

/-- C42 and C43, sync, server-streaming RPCs: for a consumer that asks for messages until it has `n + 1` of them and then closes the stream,
the interceptors are nested around what the RPC does for such a consumer; it gets the messages of the RPC. Missing: exceptions that
are not instances of `Exception`. -/
theorem C43_sync_server_stream_partial (bs : List (Behaviour Tok)) (hb : RaiseExceptions bs)
    (f g : A → RequestContext → Gen (Event Tok X) R)
    (hg : Around invokerSync .serverStream (metadataList (TraceFn (Event Tok X) R A S) 0 bs) f g) (req : A) (ctx : RequestContext)
    (n : Nat) (hf : ∀ e, ((f req ctx).use (n + 1)).exc = some e → e.isException = true) :
    let u := (f req ctx).use (n + 1)
    let v := (g req ctx).use (n + 1)
    Nested ctx 0 bs (u.effects, u.exc) (v.effects, v.exc) ∧ (v.messages = u.messages ∨ v.messages = []) ∧
    ((∀ b ∈ bs, ∃ t, b.start ctx = .ok t) → v.messages = u.messages ∧ v.later = u.later) := by
  rw [around_stack hg]
  exact gen_nested (fun m f => invokeGenSync m f) n (fun _ => True) (fun k b f req ctx => genSync_use k n b f req ctx)
    (fun _ _ _ _ => trivial) bs hb 0 f req ctx hf trivial

/-- … bidirectional RPCs -/
theorem C43_sync_bidi_partial (bs : List (Behaviour Tok)) (hb : RaiseExceptions bs)
    (f g : S → RequestContext → Gen (Event Tok X) R)
    (hg : Around invokerSync .bidi (metadataList (TraceFn (Event Tok X) R A S) 0 bs) f g) (req : S) (ctx : RequestContext)
    (n : Nat) (hf : ∀ e, ((f req ctx).use (n + 1)).exc = some e → e.isException = true) :
    let u := (f req ctx).use (n + 1)
    let v := (g req ctx).use (n + 1)
    Nested ctx 0 bs (u.effects, u.exc) (v.effects, v.exc) ∧ (v.messages = u.messages ∨ v.messages = []) ∧
    ((∀ b ∈ bs, ∃ t, b.start ctx = .ok t) → v.messages = u.messages ∧ v.later = u.later) := by
  rw [around_stack hg]
  exact gen_nested (fun m f => invokeGenSync m f) n (fun _ => True) (fun k b f req ctx => genSync_use k n b f req ctx)
    (fun _ _ _ _ => trivial) bs hb 0 f req ctx hf trivial

/-- the asynchronous wrapping, on a consumer that reaches the end -/
theorem genAsync_complete (k n : Nat) (b : Behaviour Tok) (f : A → RequestContext → Gen (Event Tok X) R) (req : A) (ctx : RequestContext) :
    (∀ e, b.start ctx = .error e → invokeGenAsync (observed k b) f req ctx = .fin [.started k (.error e)] (some e)) ∧
      ∀ t, b.start ctx = .ok t → ((f req ctx).use (n + 1)).messages.length < n + 1 →
        (invokeGenAsync (observed k b) f req ctx).use (n + 1) =
        ⟨.started k (.ok t) :: (((f req ctx).use (n + 1)).effects ++ [.ended k t (caughtError ((f req ctx).use (n + 1)).exc)]),
         ((f req ctx).use (n + 1)).messages,
         afterFinally (b.stop t ctx (caughtError ((f req ctx).use (n + 1)).exc)) ((f req ctx).use (n + 1)).exc,
         ((f req ctx).use (n + 1)).later⟩ := by
  obtain ⟨h1, h2⟩ := genAsync_use k b f req ctx
  refine ⟨h1, fun t ht hn => ?_⟩
  rw [h2 t ht, use_pre, use_aroundAsync _ _ _ _ _ hn]
  rfl

/-- C42, async, streams: for a consumer that reaches the end of the stream (it asks for more messages than there are) the interceptors are
nested around the RPC. Missing: exceptions that are not instances of `Exception`. -/
theorem C42_async_stream_partial (k : Kind) (hk : k = .serverStream ∨ k = .bidi) (bs : List (Behaviour Tok)) (hb : RaiseExceptions bs)
    (f g : A → RequestContext → Gen (Event Tok X) R)
    (hg : match k with
      | .serverStream => Around invokerAsync .serverStream (metadataList (TraceFn (Event Tok X) R A S) 0 bs) f g
      | .bidi => Around invokerAsync .bidi (metadataList (TraceFn (Event Tok X) R S A) 0 bs) f g
      | _ => True)
    (req : A) (ctx : RequestContext)
    (n : Nat) (hend : ((f req ctx).use (n + 1)).messages.length < n + 1)
    (hf : ∀ e, ((f req ctx).use (n + 1)).exc = some e → e.isException = true) :
    let u := (f req ctx).use (n + 1)
    let v := (g req ctx).use (n + 1)
    Nested ctx 0 bs (u.effects, u.exc) (v.effects, v.exc) ∧ (v.messages = u.messages ∨ v.messages = []) ∧
    ((∀ b ∈ bs, ∃ t, b.start ctx = .ok t) → v.messages = u.messages ∧ v.later = u.later) := by
  have hgg : g = stack (fun m f => invokeGenAsync m f) 0 bs f := by
    rcases hk with rfl | rfl
    · exact around_stack hg
    · exact around_stack hg
  rw [hgg]
  exact gen_nested (fun m f => invokeGenAsync m f) n (fun u => u.messages.length < n + 1)
    (fun k b f req ctx => genAsync_complete k n b f req ctx) (fun u v h hu => by
      rcases h with h | h
      · rw [← h]; exact hu
      · rw [h]; exact Nat.succ_pos n) bs hb 0 f req ctx hf hend

/-- C43, async: for every consumer, each interceptor that starts ends exactly once, with its token — at the latest when the event loop
closes the generators left behind — and the messages are those of the RPC. Missing: the order (see `C43_violation_order`). -/
theorem C43_async_partial (k : Kind) (hk : k = .serverStream ∨ k = .bidi) (bs : List (Behaviour Tok))
    (f g : A → RequestContext → Gen (Event Tok X) R)
    (hg : match k with
      | .serverStream => Around invokerAsync .serverStream (metadataList (TraceFn (Event Tok X) R A S) 0 bs) f g
      | .bidi => Around invokerAsync .bidi (metadataList (TraceFn (Event Tok X) R S A) 0 bs) f g
      | _ => True)
    (req : A) (ctx : RequestContext) (n : Nat) (hf : RpcGen (f req ctx)) :
    let v := (g req ctx).use (n + 1)
    (∀ i, startedTokens i (v.effects ++ v.later) = endedTokens i (v.effects ++ v.later) ∧
      (startedTokens i (v.effects ++ v.later)).length ≤ 1) ∧
    ((∀ b ∈ bs, ∃ t, b.start ctx = .ok t) → v.messages = ((f req ctx).use (n + 1)).messages ∧
      ∀ i b, bs[i]? = some b → ∃ t, b.start ctx = .ok t ∧ startedTokens i (v.effects ++ v.later) = [t]) := by
  have hgg : g = stack (fun m f => invokeGenAsync m f) 0 bs f := by
    rcases hk with rfl | rfl
    · exact around_stack hg
    · exact around_stack hg
  rw [hgg]
  obtain ⟨⟨h1, h2⟩, h3⟩ := async_paired n bs 0 f req ctx hf
  refine ⟨fun i => ⟨(h1 i).1, (h1 i).2.1⟩, fun hall => ⟨h3 hall, fun i b hb => ?_⟩⟩
  have := h2 hall i b hb
  rwa [Nat.zero_add] at this

end

/-! ### the hypotheses are met; violations -/

/-- returns the token `t` and does not raise -/
def quiet (t : Nat) : Behaviour Nat := ⟨fun _ => .ok t, fun _ _ _ => none⟩
/-- refuses -/
def refuser : Behaviour Nat := ⟨fun _ => .error (.mk .permissionDenied []), fun _ _ _ => none⟩
/-- raises at the end -/
def raiser (t : Nat) : Behaviour Nat := ⟨fun _ => .ok t, fun _ _ _ => some (.mk .internal [])⟩

/-- an RPC that does something and then fails -/
def failing (e : Exc) : Nat → RequestContext → Ran (Event Nat Nat) Nat := fun r _ => ⟨[.rpc r], .error e⟩
/-- an RPC that yields 1 and 2 -/
def counting : Nat → RequestContext → Gen (Event Nat Nat) Nat := fun r _ =>
  .yield [.rpc r] 1 (.yield [.rpc (r + 1)] 2 (.fin [.rpc (r + 2)] none) ⟨[.rpc 50], none, []⟩) ⟨[.rpc 60], none, []⟩

def intercepted (inv : MetaCallbacks (Event Nat Nat) Nat → (k : Kind) → TraceFn (Event Nat Nat) Nat Nat Nat k →
      TraceFn (Event Nat Nat) Nat Nat Nat k) (bs : List (Behaviour Nat)) (k : Kind) (f : TraceFn (Event Nat Nat) Nat Nat Nat k) :
    TraceFn (Event Nat Nat) Nat Nat Nat k :=
  applyInterceptors k ((metadataList (TraceFn (Event Nat Nat) Nat Nat Nat) 0 bs).map (Interceptor.resolve inv)) f

theorem metadataList_separate (F : Kind → Type) (bs : List (Behaviour Nat)) (n : Nat) :
    Separate (metadataList (X := Nat) F n bs) := by
  induction bs generalizing n with
  | nil => intro i hi; cases hi
  | cons b bs ih =>
    intro i hi
    rcases List.mem_cons.1 hi with rfl | hi
    · exact .inr fun _ => rfl
    · exact ih _ i hi

theorem intercepted_around (inv : MetaCallbacks (Event Nat Nat) Nat → (k : Kind) → TraceFn (Event Nat Nat) Nat Nat Nat k →
      TraceFn (Event Nat Nat) Nat Nat Nat k) (bs : List (Behaviour Nat)) (k : Kind) (f : TraceFn (Event Nat Nat) Nat Nat Nat k) :
    Around inv k (metadataList (TraceFn (Event Nat Nat) Nat Nat Nat) 0 bs) f (intercepted inv bs k f) :=
  apply_around inv k _ (metadataList_separate _ bs 0) f

/-- two interceptors, the inner one raising at the end, around a failing RPC -/
example : RaiseExceptions [quiet 7, raiser 8] ∧
    (intercepted invokerSync [quiet 7, raiser 8] .unary (failing (.mk .aborted [])) 5 someContext).effects =
      [.started 0 (.ok 7), .started 1 (.ok 8), .rpc 5, .ended 1 8 (some (.mk .aborted [])), .ended 0 7 (some (.mk .internal []))] ∧
    (intercepted invokerSync [quiet 7, refuser] .unary (failing (.mk .aborted [])) 5 someContext).effects =
      [.started 0 (.ok 7), .started 1 (.error (.mk .permissionDenied [])), .ended 0 7 (some (.mk .permissionDenied []))] := by
  refine ⟨fun b hb => ?_, rfl, rfl⟩
  simp only [List.mem_cons, List.not_mem_nil, or_false] at hb
  rcases hb with rfl | rfl
  · exact ⟨fun _ _ h => (by cases h), fun _ _ _ _ h => (by cases h)⟩
  · exact ⟨fun _ _ h => (by cases h), fun _ _ _ _ h => (by cases h; rfl)⟩

/-- C42 is false of exceptions that are not instances of `Exception`: a cancelled RPC is reported to the interceptors as a success. -/
theorem C42_violation_cancelled :
    (intercepted invokerAsync [quiet 7] .unary (failing .cancelled) 5 someContext).effects = [.started 0 (.ok 7), .rpc 5, .ended 0 7 none] ∧
    ¬ ∃ x, Nested someContext 0 [quiet 7] ([.rpc 5], some .cancelled)
      ((intercepted invokerAsync [quiet 7] .unary (failing .cancelled) 5 someContext).effects, x) := by
  have e : (intercepted invokerAsync [quiet 7] .unary (failing .cancelled) 5 someContext).effects =
    [.started 0 (.ok 7), .rpc 5, .ended 0 7 none] := rfl
  refine ⟨e, ?_⟩
  rintro ⟨x, h⟩
  rw [e] at h
  generalize hq : (([.started 0 (.ok 7), .rpc 5, .ended 0 7 none] : List (Event Nat Nat)), x) = q at h
  cases h with
  | refused h => cases h
  | around h hi =>
    cases hi
    injection hq with hq _
    injection hq with _ hq
    injection hq with _ hq
    injection hq with hq _
    injection hq with _ _ hq
    cases hq

/-- a stream closed after its first message: sync, the inner generator ends first; async, it is left to the event loop -/
example :
    (intercepted invokerSync [quiet 7, quiet 8] .serverStream counting 5 someContext).use 1 =
      ⟨[.started 0 (.ok 7), .started 1 (.ok 8), .rpc 5, .rpc 60, .ended 1 8 none, .ended 0 7 none], [1], none, []⟩ ∧
    (intercepted invokerAsync [quiet 7, quiet 8] .serverStream counting 5 someContext).use 3 =
      ⟨[.started 0 (.ok 7), .started 1 (.ok 8), .rpc 5, .rpc 6, .rpc 7, .ended 1 8 none, .ended 0 7 none], [1, 2], none, []⟩ ∧
    (intercepted invokerAsync [quiet 7, quiet 8] .serverStream counting 5 someContext).use 1 =
      ⟨[.started 0 (.ok 7), .started 1 (.ok 8), .rpc 5, .ended 0 7 none], [1], none, [.ended 1 8 none, .rpc 60]⟩ ∧
    RpcGen (counting 5 someContext) := by
  refine ⟨rfl, rfl, rfl, ?_⟩
  simp [counting, RpcGen, OnlyRpc]

/-- C43 with proper nesting is false of async streams that are abandoned: the outer interceptor is told that the RPC ended before the inner
one is, and before the RPC itself ends. -/
theorem C43_violation_order :
    let v := (intercepted invokerAsync [quiet 7, quiet 8] .serverStream counting 5 someContext).use 1
    v.effects ++ v.later = [.started 0 (.ok 7), .started 1 (.ok 8), .rpc 5, .ended 0 7 none, .ended 1 8 none, .rpc 60] ∧
    ¬ ∃ p x, OnlyRpc p.1 ∧ Nested someContext 0 [quiet 7, quiet 8] p (v.effects ++ v.later, x) := by
  refine ⟨rfl, ?_⟩
  rintro ⟨p, x, hp, h⟩
  have e : ((intercepted invokerAsync [quiet 7, quiet 8] .serverStream counting 5 someContext).use 1).effects ++
      ((intercepted invokerAsync [quiet 7, quiet 8] .serverStream counting 5 someContext).use 1).later =
    [.started 0 (.ok 7), .started 1 (.ok 8), .rpc 5, .ended 0 7 none, .ended 1 8 none, .rpc 60] := rfl
  rw [e] at h
  generalize hq : (([.started 0 (.ok 7), .started 1 (.ok 8), .rpc 5, .ended 0 7 none, .ended 1 8 none, .rpc 60] :
    List (Event Nat Nat)), x) = q at h
  cases h with
  | refused h => cases h
  | around h hi =>
    injection hq with hq _
    injection hq with _ hq
    have hq := congrArg List.getLast? hq
    rw [List.getLast?_append] at hq
    cases hq

end Props
