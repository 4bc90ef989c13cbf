import Verif.Model.Client
/-
Model of tasks that call the async client and are cancelled: unary calls by the Connect protocol (`src/connectrpc/_client_async.py:278-345`) on the event loop of
`asyncio`.

What is asyncio's is modelled after CPython 3.12: `Task.cancel`, `Task.uncancel`, `asyncio.timeout`, and `wait_for`, which is `async with timeout(t): return await fut`. What is
simplified: `wait_for` with a timeout that has already passed does not begin the request, here its timer is just the first thing that happens; the HTTP client lets
`CancelledError` out when it is cancelled.
-/
namespace Conn
open Py

/-- An `asyncio.timeout` block the task is in: what `task.cancelling()` was when it was entered, and whether its time has passed (so that it called `task.cancel()`). -/
structure OpenBlock where
  entered : Nat
  expiring : Bool
deriving DecidableEq, Repr

/-- What happened while the task was suspended: how often others called `task.cancel()`; which of the open blocks, innermost first, have expired; whether the
timeout of the call has passed; and what the HTTP client answers. -/
structure Wake where
  others : Nat
  expired : List Bool
  deadline : Bool
  http : HttpRequest → Except Exc FullResponse

/-- The task: `task.cancelling()`, the open blocks, innermost first, and how often it has been suspended. -/
structure TaskNow where
  cancelling : Nat
  blocks : List OpenBlock
  step : Nat
deriving DecidableEq, Repr

/-- Timers go off, each once: the blocks, and how many called `task.cancel()` — `Timeout._on_timeout`. -/
def expire : List OpenBlock → List Bool → List OpenBlock × Nat
  | [], _ => ([], 0)
  | bs, [] => (bs, 0)
  | b :: bs, x :: xs =>
    let r := expire bs xs
    if x && !b.expiring then ({ b with expiring := true } :: r.1, r.2 + 1) else (b :: r.1, r.2)

/-- `Timeout.__aexit__`: `task.cancelling()` afterwards, and what leaves the block. -/
def OpenBlock.leave {α : Type} (b : OpenBlock) (cancelling : Nat) (r : Except Exc α) : Nat × Except Exc α :=
  if b.expiring then
    (cancelling - 1, match r with
      | .error .cancelled => if cancelling - 1 ≤ b.entered then .error (.other .timeoutError []) else .error .cancelled
      | r => r)
  else (cancelling, r)

section
variable {Req Res : Type}

/-- The caller's code: it ends; it awaits something of its own; it awaits a unary call of the client; or it has an `async with asyncio.timeout(…)` block. -/
inductive Program (Req Res : Type) where
  | done (r : Except Exc Res)
  | own (k : Except Exc Unit → Program Req Res)
  | call (ctx : RequestContext) (req : Req) (k : Except Exc Res → Program Req Res)
  | within (body : Program Req Res) (k : Except Exc Res → Program Req Res)

/-- The task is resumed: all that has happened counts, and `CancelledError` is thrown if anybody called `task.cancel()`. -/
def TaskNow.wake (s : TaskNow) (w : Wake) (timer : Bool) : TaskNow × Bool :=
  let q := expire s.blocks w.expired
  let n := w.others + q.2 + timer.toNat
  (⟨s.cancelling + n, q.1, s.step + 1⟩, decide (0 < n))

/-- `_send_request_unary` awaited — `_client_async.py:286-345`: encode (no call is made otherwise), `await wait_for(…)` in `305-316`, then the rest. -/
def Client.taskCall (c : Client Req Res) (sched : Nat → Wake) (ctx : RequestContext) (req : Req) (s : TaskNow) : TaskNow × Except Exc Res :=
  match c.codec.encode req with
  | .error _ => (s, (c.connectUnary (fun _ => .error .cancelled) none ctx req).2)
  | .ok _ =>
    let w := sched s.step
    let timer := w.deadline && ctx.timeoutMs.isSome
    let q := s.wake w timer
    let leave (r : Except Exc FullResponse) := OpenBlock.leave ⟨s.cancelling, timer⟩ q.1.cancelling r
    let http (r : HttpRequest) : Except Exc FullResponse := if q.2 then .error .cancelled else w.http r
    ({ q.1 with cancelling := (leave (.error .cancelled)).1 }, (c.connectUnary (fun r => (leave (http r)).2) none ctx req).2)

/-- The task runs. -/
def Program.run (c : Client Req Res) (sched : Nat → Wake) : Program Req Res → TaskNow → TaskNow × Except Exc Res
  | .done r, s => (s, r)
  | .own k, s =>
    let q := s.wake (sched s.step) false
    (k (if q.2 then .error .cancelled else .ok ())).run c sched q.1
  | .call ctx req k, s =>
    let q := c.taskCall sched ctx req s
    (k q.2).run c sched q.1
  | .within body k, s =>
    let q := body.run c sched { s with blocks := ⟨s.cancelling, false⟩ :: s.blocks }
    match q.1.blocks with
    | [] => q          -- not reachable
    | b :: bs =>
      let l := b.leave q.1.cancelling q.2
      (k l.2).run c sched { q.1 with cancelling := l.1, blocks := bs }

/-- `asyncio.run(…)` of a coroutine: a new task; it counts as cancelled if `CancelledError` comes out. -/
def Program.task (c : Client Req Res) (sched : Nat → Wake) (p : Program Req Res) : TaskNow × Except Exc Res := p.run c sched ⟨0, [], 0⟩

end
end Conn
