import Verif.Model.Base
/-
Model of `src/connectrpc/_asyncio_timeout.py`, the timeout context used on Python 3.10, together with the part of the
asyncio event loop it relies on: `call_soon`, `call_at`, `Handle.cancel` and the loop running a scheduled callback.

Times are rational numbers.  There is one `Timeout` object; callbacks of other objects do not touch it.
-/
namespace Conn

/-- `_asyncio_timeout.py:17-22` `_State`. -/
inductive TState where
  | created | entered | expiring | expired | exited
deriving DecidableEq, Repr

/-- `asyncio.Handle` / `TimerHandle` for `self._on_timeout`: `due = none` for `call_soon`, `some w` for
`call_at(w, …)`. -/
structure TimerHandle where
  id : Nat
  due : Option Rat
  cancelled : Bool
deriving DecidableEq, Repr

/-- what a block raises, or what leaves it: only the classes the code distinguishes. -/
inductive ExcClass where
  | cancelled
  | timeout
  | other (name : Nat)
deriving DecidableEq, Repr

/-- an exception with its chain of `__context__`s (the first is the exception itself). -/
structure ExcChain where
  cls : ExcClass
  context : List ExcClass
deriving DecidableEq, Repr

/-- the object (`_asyncio_timeout.py:34-46`) and the event loop around it. -/
structure TWorld where
  now : Rat
  handles : List TimerHandle
  nextId : Nat
  state : TState
  handler : Option Nat
  hasTask : Bool
  deadline : Option Rat
deriving Repr

/-- what an operation lets one observe. -/
inductive TOut where
  /-- returns -/
  | ok
  /-- `RuntimeError` -/
  | runtimeError
  /-- `AssertionError` -/
  | assertion
  /-- `task.cancel()` was called -/
  | cancel
  /-- the block is left with a new `TimeoutError` -/
  | timeoutError
  /-- the block is left as its body was: `none` normally, or with this exception -/
  | leave (e : Option ExcChain)
deriving DecidableEq, Repr

/-- the operations of a history. -/
inductive TOp where
  /-- `__aenter__`; `inTask`: `current_task()` is not `None` -/
  | enter (inTask : Bool)
  | reschedule (w : Option Rat)
  /-- time passes -/
  | pass (d : Rat)
  /-- the event loop gets to the callback number `id`, if it may run it -/
  | run (id : Nat)
  /-- `__aexit__` with the exception the body ended with -/
  | exit (e : Option ExcChain)
deriving DecidableEq, Repr

namespace TWorld

/-- `_asyncio_timeout.py:34-46` `Timeout(when)`. -/
def new (now : Rat) (w : Option Rat) : TWorld :=
  ⟨now, [], 0, .created, none, false, w⟩

/-- `_asyncio_timeout.py:149-166` `timeout(delay)`; `rd` rounds to a double. -/
def timeout (rd : Rat → Rat) (now : Rat) (delay : Option Rat) : TWorld :=
  new now (delay.map fun d => rd (now + d))

/-- `Handle.cancel()` on handle `id`. -/
def cancelHandle (id : Nat) (hs : List TimerHandle) : List TimerHandle :=
  hs.map fun h => if h.id = id then { h with cancelled := true } else h

/-- `if self._timeout_handler is not None: self._timeout_handler.cancel()` — `_asyncio_timeout.py:63-64`,
`108-110`. -/
def dropHandler (t : TWorld) : TWorld :=
  match t.handler with
  | some id => { t with handles := cancelHandle id t.handles }
  | none => t

/-- `loop.call_soon(self._on_timeout)` / `loop.call_at(when, self._on_timeout)`. -/
def schedule (t : TWorld) (due : Option Rat) : TWorld :=
  { t with handles := t.handles ++ [⟨t.nextId, due, false⟩], nextId := t.nextId + 1, handler := some t.nextId }

/-- `_asyncio_timeout.py:52-73` `reschedule`. -/
def reschedule (t : TWorld) (w : Option Rat) : TWorld × TOut :=
  if t.state ≠ .entered then (t, .runtimeError)
  else
    let t := dropHandler { t with deadline := w }
    match w with
    | none => ({ t with handler := none }, .ok)
    | some w =>
      if w ≤ t.now then (t.schedule none, .ok)
      else (t.schedule (some w), .ok)

/-- `_asyncio_timeout.py:87-98` `__aenter__`. -/
def enter (t : TWorld) (inTask : Bool) : TWorld × TOut :=
  if t.state ≠ .created then (t, .runtimeError)
  else if !inTask then (t, .runtimeError)
  else { t with state := .entered, hasTask := true }.reschedule t.deadline

/-- `_asyncio_timeout.py:138-146` `_insert_timeout_error`, on the chain of contexts of `exc_val`. -/
def insertTimeout : List ExcClass → List ExcClass
  | [] => []
  | .cancelled :: r => .timeout :: .cancelled :: r
  | c :: r => c :: insertTimeout r

/-- `_asyncio_timeout.py:100-128` `__aexit__`.  (`ExceptionGroup` does not exist on Python 3.10, where this class is
used; lines 122-124 are not modelled.) -/
def exit (t : TWorld) (e : Option ExcChain) : TWorld × TOut :=
  if t.state ≠ .entered ∧ t.state ≠ .expiring then (t, .assertion)
  else
    let t := { t.dropHandler with handler := none }
    if t.state = .expiring then
      let t := { t with state := .expired }
      match e with
      | none => (t, .leave none)
      | some x =>
        if x.cls = .cancelled then (t, .timeoutError)
        else (t, .leave (some { x with context := insertTimeout x.context }))
    else ({ t with state := .exited }, .leave e)

/-- `_asyncio_timeout.py:130-136` `_on_timeout`. -/
def onTimeout (t : TWorld) : TWorld × TOut :=
  if t.state ≠ .entered then (t, .assertion)
  else if !t.hasTask then (t, .assertion)
  else ({ t with state := .expiring, handler := none }, .cancel)

/-- asyncio's `_run_once`: a callback of `call_soon` is ready at once, one of `call_at` when its time is at most the
clock's resolution away. -/
def ready (res now : Rat) (h : TimerHandle) : Bool :=
  match h.due with
  | none => true
  | some w => decide (w ≤ now + res)

/-- the loop runs callback `id` if it is scheduled and ready: a cancelled one is dropped without being called. -/
def runHandle (res : Rat) (t : TWorld) (id : Nat) : TWorld × TOut :=
  match t.handles.find? (fun h => decide (h.id = id)) with
  | none => (t, .ok)
  | some h =>
    if !ready res t.now h then (t, .ok)
    else
      let t := { t with handles := t.handles.filter fun h => decide (h.id ≠ id) }
      if h.cancelled then (t, .ok) else t.onTimeout

/-- one operation; `res` is the resolution of the loop's clock. -/
def step (res : Rat) (t : TWorld) : TOp → TWorld × TOut
  | .enter b => t.enter b
  | .reschedule w => t.reschedule w
  | .pass d => ({ t with now := if 0 ≤ d then t.now + d else t.now }, .ok)
  | .run id => t.runHandle res id
  | .exit e => t.exit e

/-- the operations with what each showed. -/
def run (res : Rat) : TWorld → List TOp → TWorld × List (TOp × TOut)
  | t, [] => (t, [])
  | t, o :: r =>
    let p := t.step res o
    let q := run res p.1 r
    (q.1, (o, p.2) :: q.2)

end TWorld
end Conn
