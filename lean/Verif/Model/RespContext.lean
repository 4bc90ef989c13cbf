import Verif.Model.RespMeta
/-
Model of the context variable of `src/connectrpc/_response_metadata.py`: `ResponseMetadata` as a context manager, and the
recording functions as they find the active object.

Contexts (`contextvars.Context`: one per thread, one per asyncio task, the latter a copy of the creator's) and
`ResponseMetadata` objects are numbered.
-/
namespace Conn
open Py

/-- `contextvars.Token`: a number of its own, the context it was made in, the value before. -/
structure CtxToken where
  id : Nat
  ctx : Nat
  old : Option Nat
deriving DecidableEq, Repr, Inhabited

/-- what the library records of a response: `handle_response_headers(fields)`, `handle_response_trailers(fields)` with
HTTP trailers, `handle_response_trailers(metadata)` with the member of a Connect end message. -/
inductive Recording
  | headers (fields : HTTPHeaders)
  | trailers (fields : HTTPHeaders)
  | metadata (json : Json)

/-- what happens: a `with` block is entered or left, a context is copied, a response is recorded. -/
inductive CtxOp
  | enter (ctx obj : Nat)
  | exit (ctx obj : Nat)
  | copy (ctx new : Nat)
  | record (ctx : Nat) (r : Recording)

/-- The state: `_current_response` in each context, the objects' `_headers`/`_trailers` and `_token`, the tokens used up. -/
structure CtxWorld where
  var : Nat → Option Nat
  content : Nat → RespMeta
  token : Nat → Option CtxToken
  made : Nat
  used : List Nat

/-- `f` changed at one place -/
def setAt {α : Type} (f : Nat → α) (i : Nat) (a : α) : Nat → α := fun j => if j = i then a else f j

namespace CtxWorld

/-- `_response_metadata.py:16`, 76-78 — `_current_response` is not set in any context, no object has anything. -/
def new : CtxWorld := ⟨fun _ => none, fun _ => .new, fun _ => none, 0, []⟩

/-- `_response_metadata.py:80-82` `__enter__`. -/
def enter (w : CtxWorld) (c i : Nat) : CtxWorld :=
  { w with var := setAt w.var c (some i), token := setAt w.token i (some ⟨w.made, c, w.var c⟩), made := w.made + 1 }

/-- `ContextVar.reset(token)`: refused (an exception) if the token was used before or made in another context. -/
def reset (w : CtxWorld) (c : Nat) (t : CtxToken) : Option CtxWorld :=
  if t.id ∈ w.used ∨ t.ctx ≠ c then none
  else some { w with var := setAt w.var c t.old, used := t.id :: w.used }

/-- `_response_metadata.py:84-96` `__exit__`. -/
def exit (w : CtxWorld) (c i : Nat) : CtxWorld :=
  let w' := match w.token i with
    | none => w
    | some t => (w.reset c t).getD w
  { w' with token := setAt w'.token i none }

/-- `contextvars.copy_context()`, as done for a new asyncio task. -/
def copy (w : CtxWorld) (c d : Nat) : CtxWorld := { w with var := setAt w.var d (w.var c) }

/-- `_response_metadata.py:20-22`, 43-45 — the recording functions get the active object of the context they run in. -/
def record (w : CtxWorld) (c : Nat) (r : Recording) : CtxWorld :=
  match w.var c with
  | none => w
  | some i =>
    let s : Sink := match r with
      | .headers f => handleResponseHeaders (some (w.content i)) f
      | .trailers f => handleResponseTrailers (some (w.content i)) f
      | .metadata j => (handleMetadataJson (some (w.content i)) j).1
    { w with content := setAt w.content i (s.getD (w.content i)) }

def step (w : CtxWorld) : CtxOp → CtxWorld
  | .enter c i => w.enter c i
  | .exit c i => w.exit c i
  | .copy c d => w.copy c d
  | .record c r => w.record c r

/-- the operations one after the other -/
def run : CtxWorld → List CtxOp → CtxWorld
  | w, [] => w
  | w, o :: os => run (w.step o) os

end CtxWorld
end Conn
