import Verif.Model.Server
/-
Model of the interceptors: `src/connectrpc/_interceptor_sync.py`, `_interceptor_async.py`, and how servers and clients apply
them (`_server_sync.py:173-185`, `621-652`, `_server_async.py:525-534`, `634-665`, `_client_sync.py:133-173`,
`_client_async.py:140-174`).
-/
namespace Conn
open Py

/-- The kinds of RPC — the `Endpoint…` classes of `_server_shared.py`, the `execute_…` functions of the clients. -/
inductive Kind where
  | unary | clientStream | serverStream | bidi
deriving DecidableEq, Repr, Inhabited

/-- An interceptor object, by the methods it has (the interceptor types are protocols checked at run time by `isinstance`,
`_interceptor_sync.py:15-152`, `_interceptor_async.py:15-152`).  `method k` is `intercept_unary` etc. — more exactly the function
that sends `call_next` to `functools.partial(self.intercept_unary, call_next)`; `callbacks` is the pair of `on_start` and `on_end`,
if the object has both. `F k` stands for the functions an RPC of kind `k` is called with. -/
structure Interceptor (F : Kind → Type) (M : Type) where
  method : (k : Kind) → Option (F k → F k)
  callbacks : Option M

/-- An element of the list `resolve_interceptors` returns: the object itself, or a `MetadataInterceptorInvoker` around it, which has
the methods of all kinds. -/
structure Resolved (F : Kind → Type) where
  method : (k : Kind) → Option (F k → F k)

section
variable {F : Kind → Type} {M : Type}

/-- `resolve_interceptors` on one element — `_interceptor_sync.py:235-240`, `_interceptor_async.py:237-242`,
`_server_sync.py:176-181`; `invoker m` are the methods of `MetadataInterceptorInvoker(m)`. -/
def Interceptor.resolve (invoker : M → (k : Kind) → F k → F k) (i : Interceptor F M) : Resolved F :=
  match i.callbacks with
  | some m => ⟨fun k => some (invoker m k)⟩
  | none => ⟨i.method⟩

/-- `for interceptor in reversed(interceptors): if isinstance(…): func = functools.partial(interceptor.intercept_…, func)` —
`_server_sync.py:626-651`, `_server_async.py:639-664`, `_client_sync.py:134-173`, `_client_async.py:141-174`. -/
def applyInterceptors (k : Kind) (is : List (Resolved F)) (f : F k) : F k :=
  is.reverse.foldl (fun f i => match i.method k with
    | some g => g f
    | none => f) f

/-- `_client_sync.py:133-173`, `_client_async.py:140-174` — what `execute_unary` etc. call; `base k` is `_send_request_unary` etc. -/
def clientExecutor (invoker : M → (k : Kind) → F k → F k) (interceptors : List (Interceptor F M)) (base : (k : Kind) → F k)
    (k : Kind) : F k :=
  applyInterceptors k (interceptors.map (Interceptor.resolve invoker)) (base k)

end

/-- A Python iterable, by what iterating over it gives: a collection gives the same items every time, an iterator (generator, `map`
object, …) gives its items once. -/
inductive Iterable (α : Type) where
  | coll (xs : List α)
  | once (xs : List α)
deriving DecidableEq, Repr

/-- the items of one whole iteration, and the object afterwards -/
def Iterable.iterate {α : Type} : Iterable α → List α × Iterable α
  | .coll xs => (xs, .coll xs)
  | .once xs => (xs, .once [])

/-- `bool(iterable)`: empty collections are false, iterators are true. -/
def Iterable.truthy {α : Type} : Iterable α → Bool
  | .coll xs => !xs.isEmpty
  | .once _ => true

/-- The functions of server endpoints, by kind. -/
def HandlerFn (Req Res : Type) : Kind → Type
  | .unary => Req → RequestContext → Call Res
  | .clientStream => ReqStream Req → RequestContext → Call Res
  | .serverStream => Req → RequestContext → Script Res
  | .bidi => ReqStream Req → RequestContext → Script Res

section
variable {Req Res M : Type}

/-- `_apply_interceptors` — `_server_sync.py:621-652`, `_server_async.py:634-665`. -/
def Endpoint.apply (is : List (Resolved (HandlerFn Req Res))) (ep : Endpoint Req Res) : Endpoint Req Res :=
  match ep.handler with
  | .unary f => { ep with handler := .unary (applyInterceptors (F := HandlerFn Req Res) .unary is f) }
  | .clientStream f => { ep with handler := .clientStream (applyInterceptors (F := HandlerFn Req Res) .clientStream is f) }
  | .serverStream f => { ep with handler := .serverStream (applyInterceptors (F := HandlerFn Req Res) .serverStream is f) }
  | .bidi f => { ep with handler := .bidi (applyInterceptors (F := HandlerFn Req Res) .bidi is f) }

/-- `ConnectWSGIApplication.__init__` — `_server_sync.py:173-185`: the interceptors are put in a list first. -/
def wsgiEndpoints (invoker : M → (k : Kind) → HandlerFn Req Res k → HandlerFn Req Res k)
    (interceptors : Iterable (Interceptor (HandlerFn Req Res) M)) (endpoints : Dict Str (Endpoint Req Res)) :
    Dict Str (Endpoint Req Res) :=
  if interceptors.truthy then
    let is := interceptors.iterate.1.map (Interceptor.resolve invoker)
    endpoints.map fun p => (p.1, p.2.apply is)
  else endpoints

/-- the dictionary comprehension of `_resolve_endpoints` — `_server_async.py:528-533`: the interceptors are iterated for every
endpoint. -/
def asgiApply (invoker : M → (k : Kind) → HandlerFn Req Res k → HandlerFn Req Res k) :
    Iterable (Interceptor (HandlerFn Req Res) M) → Dict Str (Endpoint Req Res) → Dict Str (Endpoint Req Res)
  | _, [] => []
  | its, (path, ep) :: r =>
    (path, ep.apply (its.iterate.1.map (Interceptor.resolve invoker))) :: asgiApply invoker its.iterate.2 r

/-- `_resolve_endpoints` — `_server_async.py:525-534`. -/
def asgiEndpoints (invoker : M → (k : Kind) → HandlerFn Req Res k → HandlerFn Req Res k)
    (interceptors : Iterable (Interceptor (HandlerFn Req Res) M)) (endpoints : Dict Str (Endpoint Req Res)) :
    Dict Str (Endpoint Req Res) :=
  if interceptors.truthy then asgiApply invoker interceptors endpoints else endpoints

end

/-! ### metadata interceptors -/

/-- The callbacks of a metadata interceptor, by what they do: `E` is the type of the effects that are of interest. -/
structure MetaCallbacks (E Tok : Type) where
  onStart : RequestContext → List E × Except Exc Tok
  onEnd : Tok → RequestContext → Option Exc → List E × Option Exc

/-- `except Exception as e: error = e` — the value of `error` in the `finally` clause. -/
def caughtError (e : Option Exc) : Option Exc :=
  match e with
  | some e => if e.isException then some e else none
  | none => none

/-- what a `finally` clause that ended with `x` leaves of an exception -/
def afterFinally (x e : Option Exc) : Option Exc :=
  match x with
  | some x => some x
  | none => e

/-- A call that returns one response: its effects and how it ends. -/
structure Ran (E R : Type) where
  effects : List E
  result : Except Exc R

/-- the exception of a result -/
def errOf {R : Type} : Except Exc R → Option Exc
  | .ok _ => none
  | .error e => some e

section
variable {E Tok R A : Type}

/-- `MetadataInterceptorInvoker.intercept_unary`, `intercept_client_stream` — `_interceptor_sync.py:162-192`,
`_interceptor_async.py:162-192`; `A` is the request or the request stream. -/
def invokeCall (m : MetaCallbacks E Tok) (next : A → RequestContext → Ran E R) (request : A) (ctx : RequestContext) : Ran E R :=
  match m.onStart ctx with
  | (es, .error e) => ⟨es, .error e⟩
  | (es, .ok token) =>
    let r := next request ctx
    let f := m.onEnd token ctx (caughtError (errOf r.result))
    ⟨es ++ r.effects ++ f.1, match f.2 with
      | some x => .error x
      | none => r.result⟩

/-- Closing a generator that waits at a `yield`: what happens until `close()` / `aclose()` returns, the exception it raises, and what
happens later (when the event loop closes an asynchronous generator that was left behind). -/
structure Closing (E : Type) where
  now : List E
  exc : Option Exc
  later : List E

/-- A generator by what it does: run to its end with an outcome, or to a `yield`, from where it can be resumed or closed. -/
inductive Gen (E R : Type) where
  | fin (es : List E) (outcome : Option Exc)
  | yield (es : List E) (m : R) (resume : Gen E R) (close : Closing E)

/-- more effects at the beginning -/
def Gen.pre (es : List E) : Gen E R → Gen E R
  | .fin es' o => .fin (es ++ es') o
  | .yield es' m r c => .yield (es ++ es') m r c

/-- `try: yield from call_next(request, ctx) …` — `_interceptor_sync.py:202-208`, `218-224`: closing closes the inner generator first. -/
def aroundSync (m : MetaCallbacks E Tok) (ctx : RequestContext) (token : Tok) : Gen E R → Gen E R
  | .fin es o =>
    let f := m.onEnd token ctx (caughtError o)
    .fin (es ++ f.1) (afterFinally f.2 o)
  | .yield es x r c =>
    let f := m.onEnd token ctx (caughtError c.exc)
    .yield es x (aroundSync m ctx token r) ⟨c.now ++ f.1, afterFinally f.2 c.exc, c.later⟩

/-- `try: async for response in call_next(request, ctx): yield response …` — `_interceptor_async.py:202-209`, `219-226`: closing raises
`GeneratorExit` at the `yield`, which runs the `finally` clause; the inner generator is left to the event loop. -/
def aroundAsync (m : MetaCallbacks E Tok) (ctx : RequestContext) (token : Tok) : Gen E R → Gen E R
  | .fin es o =>
    let f := m.onEnd token ctx (caughtError o)
    .fin (es ++ f.1) (afterFinally f.2 o)
  | .yield es x r c =>
    let f := m.onEnd token ctx none
    .yield es x (aroundAsync m ctx token r) ⟨f.1, f.2, c.now ++ c.later⟩

/-- `MetadataInterceptorInvokerSync.intercept_server_stream_sync`, `intercept_bidi_stream_sync` — `_interceptor_sync.py:194-224`. -/
def invokeGenSync (m : MetaCallbacks E Tok) (next : A → RequestContext → Gen E R) (request : A) (ctx : RequestContext) : Gen E R :=
  match m.onStart ctx with
  | (es, .error e) => .fin es (some e)
  | (es, .ok token) => (aroundSync m ctx token (next request ctx)).pre es

/-- `MetadataInterceptorInvoker.intercept_server_stream`, `intercept_bidi_stream` — `_interceptor_async.py:194-226`. -/
def invokeGenAsync (m : MetaCallbacks E Tok) (next : A → RequestContext → Gen E R) (request : A) (ctx : RequestContext) : Gen E R :=
  match m.onStart ctx with
  | (es, .error e) => .fin es (some e)
  | (es, .ok token) => (aroundAsync m ctx token (next request ctx)).pre es

/-- What a consumer of a generator gets. -/
structure Used (E R : Type) where
  effects : List E
  messages : List R
  exc : Option Exc
  later : List E

/-- A consumer that asks for messages until it has `n` of them and then closes the generator. A generator that was never asked for
anything has not started: closing it does nothing. -/
def Gen.use : Nat → Gen E R → Used E R
  | 0, _ => ⟨[], [], none, []⟩
  | _ + 1, .fin es o => ⟨es, [], o, []⟩
  | 1, .yield es m _ c => ⟨es ++ c.now, [m], c.exc, c.later⟩
  | n + 2, .yield es m r _ =>
    let u := Gen.use (n + 1) r
    ⟨es ++ u.effects, m :: u.messages, u.exc, u.later⟩

/-- Functions of RPCs as the metadata interceptors see them: `A` is the request, `S` the request stream. -/
def TraceFn (E R A S : Type) : Kind → Type
  | .unary => A → RequestContext → Ran E R
  | .clientStream => S → RequestContext → Ran E R
  | .serverStream => A → RequestContext → Gen E R
  | .bidi => S → RequestContext → Gen E R

/-- `MetadataInterceptorInvokerSync` — `_interceptor_sync.py:156-224`. -/
def invokerSync {S : Type} (m : MetaCallbacks E Tok) : (k : Kind) → TraceFn E R A S k → TraceFn E R A S k
  | .unary => fun f => invokeCall m f
  | .clientStream => fun f => invokeCall m f
  | .serverStream => fun f => invokeGenSync m f
  | .bidi => fun f => invokeGenSync m f

/-- `MetadataInterceptorInvoker` — `_interceptor_async.py:156-226`. -/
def invokerAsync {S : Type} (m : MetaCallbacks E Tok) : (k : Kind) → TraceFn E R A S k → TraceFn E R A S k
  | .unary => fun f => invokeCall m f
  | .clientStream => fun f => invokeCall m f
  | .serverStream => fun f => invokeGenAsync m f
  | .bidi => fun f => invokeGenAsync m f

end

end Conn
