import Verif.Model.Cleanup
/-
Model of the cancellation of the task that serves a streamed response on ASGI. `asyncio` delivers a cancellation by raising `CancelledError` at the `await` the task is
suspended at; which one that is, is chosen here. `_server_async.py:429-493`.
-/
namespace Conn
open Py

/-- Where the task is suspended when it is cancelled: in the handler, which has done `n` actions of its run (`async for`, `_server_async.py:430`); in the `n`-th
`await send(...)` (`435-444`, `466-491`); in `await monitor_task` (`449-450`); in `await aclose()`, where the handler's cleanup code has done `n` steps (`456`). -/
inductive CancelPoint where
  | handler (n : Nat)
  | send (n : Nat)
  | watcher
  | closing (n : Nat)
deriving DecidableEq, Repr

section
variable {Req Res : Type}

/-- The handler is suspended after `n` actions and does not catch `CancelledError` (a handler that does is another run). -/
def Producer.cancelAfter (g : Producer Res) (n : Nat) : Producer Res := { g with acts := g.acts.take n, outcome := some .cancelled }

/-- Its cleanup code is suspended after `n` steps and does not catch it. -/
def Producer.cancelClosing (g : Producer Res) (n : Nat) : Producer Res :=
  { g with closing := fun k => ((g.closing k).1.take n, some .cancelled) }

/-- The `n`-th `send` raises it. -/
def AsgiCfg.cancelSend (c : AsgiCfg Res) (n : Nat) : AsgiCfg Res :=
  { c with env := { c.env with sendErr := fun k => if k = n then some .cancelled else c.env.sendErr k } }

/-- `with contextlib.suppress(CancelledError)` — `_server_async.py:449`. -/
def suppressCancelled : Option Exc → Option Exc
  | some .cancelled => none
  | e => e

/-- The response whose task is cancelled — `_server_async.py:429-493`. `await monitor_task` raises `CancelledError` whether the watching task was cancelled (`448`) or this
one. -/
def AsgiCfg.respondCancelled (c : AsgiCfg Res) (calls : List (Called Req)) (g : Producer Res) (watch : Option (Option Exc)) (h : HState Req) :
    CancelPoint → AsgiOut Req × List (GenEvent Sent)
  | .handler n => c.respond calls (g.cancelAfter n) watch h
  | .send n => (c.cancelSend n).respond calls g watch h
  | .watcher => c.respond calls g (watch.map fun _ => suppressCancelled (some .cancelled)) h
  | .closing n => c.respond calls (g.cancelClosing n) watch h

end

end Conn
