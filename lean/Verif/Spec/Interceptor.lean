import Verif.Model.Interceptor
/-
Specification for interceptors (C40–C43).
-/
namespace Spec
open Conn Py

/-! ### order and kinds (C40, C41) -/

section
variable {F : Kind → Type} {M : Type}

/-- `Around invoker k is f g`: the function `g` runs the first of the interceptors `is` around the second … around the last around `f`,
an RPC of kind `k`.  Used are the interceptors that have a method for the kind `k`, and all metadata interceptors (`invoker m k` runs the
callbacks `m` around a call); an object that is both runs as both, in either order. -/
inductive Around (invoker : M → (k : Kind) → F k → F k) (k : Kind) : List (Interceptor F M) → F k → F k → Prop where
  | done (f : F k) : Around invoker k [] f f
  | kind {i is f g w} (hc : i.callbacks = none) (hw : i.method k = some w) (h : Around invoker k is f g) :
      Around invoker k (i :: is) f (w g)
  | metadata {i is f g m} (hc : i.callbacks = some m) (hw : i.method k = none) (h : Around invoker k is f g) :
      Around invoker k (i :: is) f (invoker m k g)
  | both {i is f g m w} (hc : i.callbacks = some m) (hw : i.method k = some w) (h : Around invoker k is f g) :
      Around invoker k (i :: is) f (invoker m k (w g))
  | both' {i is f g m w} (hc : i.callbacks = some m) (hw : i.method k = some w) (h : Around invoker k is f g) :
      Around invoker k (i :: is) f (w (invoker m k g))
  | skip {i is f g} (hc : i.callbacks = none) (hw : i.method k = none) (h : Around invoker k is f g) :
      Around invoker k (i :: is) f g

/-- No interceptor has both metadata callbacks and methods for kinds of RPC. -/
def Separate (is : List (Interceptor F M)) : Prop := ∀ i ∈ is, i.callbacks = none ∨ ∀ k, i.method k = none

end

/-- The items of an iterable: what its first iteration gives. -/
def items {α : Type} : Iterable α → List α
  | .coll xs => xs
  | .once xs => xs

section
variable {Req Res M : Type}

/-- The endpoint `ep'` is `ep` with the interceptors `is` around its function. -/
inductive Wrapped (invoker : M → (k : Kind) → HandlerFn Req Res k → HandlerFn Req Res k)
    (is : List (Interceptor (HandlerFn Req Res) M)) : Endpoint Req Res → Endpoint Req Res → Prop where
  | unary {m f g} (h : Around invoker .unary is f g) : Wrapped invoker is ⟨m, .unary f⟩ ⟨m, .unary g⟩
  | clientStream {m f g} (h : Around invoker .clientStream is f g) : Wrapped invoker is ⟨m, .clientStream f⟩ ⟨m, .clientStream g⟩
  | serverStream {m f g} (h : Around invoker .serverStream is f g) : Wrapped invoker is ⟨m, .serverStream f⟩ ⟨m, .serverStream g⟩
  | bidi {m f g} (h : Around invoker .bidi is f g) : Wrapped invoker is ⟨m, .bidi f⟩ ⟨m, .bidi g⟩

/-- The table `t'` has the paths of `t`, and each of its endpoints has all the interceptors. -/
def AllWrapped (invoker : M → (k : Kind) → HandlerFn Req Res k → HandlerFn Req Res k)
    (is : List (Interceptor (HandlerFn Req Res) M)) (t t' : Dict (List Char) (Endpoint Req Res)) : Prop :=
  ∀ path, (Dict.get? t path = none ∧ Dict.get? t' path = none) ∨
    ∃ ep ep', Dict.get? t path = some ep ∧ Dict.get? t' path = some ep' ∧ Wrapped invoker is ep ep'

end

/-! ### metadata interceptors (C42, C43) -/

/-- What happens in a call, as an observer sees it: interceptor number `i` started (with its token, or refusing the call with an
exception), interceptor number `i` ended (with the token and the error it was told), or something inside the RPC. -/
inductive Event (Tok X : Type) where
  | started (i : Nat) (r : Except Exc Tok)
  | ended (i : Nat) (token : Tok) (error : Option Exc)
  | rpc (x : X)

/-- The behaviour of a metadata interceptor: what `on_start` returns or raises, and what `on_end` raises. -/
structure Behaviour (Tok : Type) where
  start : RequestContext → Except Exc Tok
  stop : Tok → RequestContext → Option Exc → Option Exc

section
variable {Tok X R A S : Type}

/-- The metadata interceptor number `i` with its calls observed. -/
def observed (i : Nat) (b : Behaviour Tok) : MetaCallbacks (Event Tok X) Tok :=
  ⟨fun ctx => ([.started i (b.start ctx)], b.start ctx), fun t ctx e => ([.ended i t e], b.stop t ctx e)⟩

/-- The metadata interceptors `bs`, numbered from `n`. -/
def metadataList (F : Kind → Type) (n : Nat) : List (Behaviour Tok) → List (Interceptor F (MetaCallbacks (Event Tok X) Tok))
  | [] => []
  | b :: bs => ⟨fun _ => none, some (observed n b)⟩ :: metadataList F (n + 1) bs

/-- `Nested ctx n bs inner outer`: what is observed (events, and exception at the end) of the metadata interceptors `bs`, numbered from
`n`, around an RPC that is observed as `inner`: an interceptor starts, all the rest happens, and then it ends, once, with its
token and the exception of the rest; unless the start itself raises, and then nothing else happens. -/
inductive Nested (ctx : RequestContext) : Nat → List (Behaviour Tok) → List (Event Tok X) × Option Exc →
    List (Event Tok X) × Option Exc → Prop where
  | rpc {n p} : Nested ctx n [] p p
  | refused {n b bs p e} (h : b.start ctx = .error e) : Nested ctx n (b :: bs) p ([.started n (.error e)], some e)
  | around {n b bs p t es exc} (h : b.start ctx = .ok t) (hi : Nested ctx (n + 1) bs p (es, exc)) :
      Nested ctx n (b :: bs) p (.started n (.ok t) :: (es ++ [.ended n t exc]), (b.stop t ctx exc).or exc)

/-- The tokens interceptor `i` returned when it started. -/
def startedTokens (i : Nat) (es : List (Event Tok X)) : List Tok := es.filterMap fun
  | .started j (.ok t) => if j = i then some t else none
  | _ => none

/-- The tokens interceptor `i` was told when it ended. -/
def endedTokens (i : Nat) (es : List (Event Tok X)) : List Tok := es.filterMap fun
  | .ended j t _ => if j = i then some t else none
  | _ => none

/-- Everything that happens in this is inside the RPC. -/
def OnlyRpc (es : List (Event Tok X)) : Prop := ∀ e ∈ es, ∃ x, e = .rpc x

/-- … in a generator, however it is used. -/
def RpcGen : Gen (Event Tok X) R → Prop
  | .fin es _ => OnlyRpc es
  | .yield es _ r c => OnlyRpc es ∧ RpcGen r ∧ OnlyRpc c.now ∧ OnlyRpc c.later

/-- The interceptors raise only instances of `Exception`. -/
def RaiseExceptions (bs : List (Behaviour Tok)) : Prop := ∀ b ∈ bs, (∀ ctx e, b.start ctx = .error e → e.isException = true) ∧
  ∀ t ctx x e, b.stop t ctx x = some e → e.isException = true

/-- The interceptors never raise. -/
def NeverRaise (bs : List (Behaviour Tok)) (ctx : RequestContext) : Prop :=
  ∀ b ∈ bs, (∃ t, b.start ctx = .ok t) ∧ ∀ t x, b.stop t ctx x = none

end

end Spec
