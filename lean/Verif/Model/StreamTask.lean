import Verif.Model.AsyncTimeout
/-
Model of the deadline of a streaming call of the async client: the task that iterates the stream, the event loop, and the timeout block inside the generator
(`src/connectrpc/_client_async.py` `_send_request_bidi_stream`).

What is simplified: the timeout block is that of `_asyncio_timeout.py`, used on Python 3.10 (later versions use `asyncio.timeout`, which cancels the task in the
same way). The stream is iterated by one task. A `CancelledError` that is thrown at an `await` of the HTTP client comes out of it. Leaving the response's context
manager does not suspend. Messages and exceptions of the HTTP client are mere tokens here: `Model/Iteration.lean` has them.
-/
namespace Conn

/-- Where the task is: the caller's code runs; the caller's code is suspended at an `await` of its own; the task is suspended at an `await` of the generator. -/
inductive Place where
  | running | waiting | inside
deriving DecidableEq

/-- What the `await` of the generator comes to, when it is not cancelled: the next message; the end of the response; an exception that is neither
`CancelledError` nor `TimeoutError`. -/
inductive Awaited where
  | message
  | last
  | fails (n : Nat)
deriving DecidableEq

/-- What can happen. -/
inductive TaskEv where
  /-- time passes -/
  | pass (d : Rat)
  /-- the event loop runs the callback number `id`, if it is scheduled and its time has come -/
  | run (id : Nat)
  /-- somebody else calls `task.cancel()` -/
  | cancel
  /-- the caller's code calls `anext(stream)` -/
  | ask
  /-- the caller's code awaits something of its own -/
  | wait
  /-- the caller's code calls `stream.aclose()` -/
  | close
  /-- the event loop resumes the task -/
  | resume (r : Awaited)
deriving DecidableEq

/-- What the caller's code is told. -/
inductive CallerTold where
  | nothing
  /-- `anext` gives a message -/
  | message
  /-- `anext` raises `StopAsyncIteration` -/
  | ended
  /-- `anext` raises `ConnectError(DEADLINE_EXCEEDED)` -/
  | deadline
  /-- `anext` raises `ConnectError(CANCELED)` -/
  | canceled
  /-- `anext` raises what the exception number `n` is mapped to -/
  | failed (n : Nat)
  /-- the caller's own `await` raises `CancelledError` -/
  | interrupted
deriving DecidableEq

/-- `closed`: the generator is exhausted or closed. `t`: the timeout block of the generator; before it is first resumed only its clock counts. `pending`:
`task.cancel()` was called, and the task has not been resumed since. -/
structure StreamTask where
  place : Place
  closed : Bool
  t : TWorld
  pending : Bool

/-- The `except` clauses — `_client_async.py:414-421`, on what leaves the `async with` statement. -/
def tellOf : TOut → CallerTold
  | .timeoutError => .deadline
  | .leave (some x) =>
    match x.cls with
    | .timeout => .deadline
    | .cancelled => .canceled
    | .other n => .failed n
  | _ => .ended

namespace StreamTask

/-- The method of the client has returned the generator. -/
def start (now : Rat) : StreamTask := ⟨.running, false, TWorld.new now none, false⟩

/-- The `async with` statement is left — `_client_async.py:376`. -/
def leave (s : StreamTask) (e : Option ExcChain) : StreamTask × CallerTold :=
  let q := s.t.exit e
  (⟨.running, true, q.1, false⟩, tellOf q.2)

/-- `anext(stream)` — `_client_async.py:359-383`: the generator runs to its next `await`: that of the response the first time, then `sleep(0)` after the message
(`_client_async.py:401`). The timeout is made, and entered, when the generator is first resumed (`_client_async.py:365-368`, `377`). -/
def ask (rd : Rat → Rat) (delay : Option Rat) (s : StreamTask) : StreamTask × CallerTold :=
  if s.closed then (s, .ended)
  else if s.t.state = .created then ({ s with place := .inside, t := ((TWorld.timeout rd s.t.now delay).enter true).1 }, .nothing)
  else ({ s with place := .inside }, .nothing)

/-- `stream.aclose()`: `GeneratorExit` (exception number 0) at the `yield`. -/
def close (s : StreamTask) : StreamTask :=
  if s.closed then s
  else if s.t.state = .created then { s with closed := true }
  else (s.leave (some ⟨.other 0, []⟩)).1

/-- The task is resumed: `CancelledError` is thrown at its `await` when it has been cancelled. -/
def resume (s : StreamTask) (r : Awaited) : StreamTask × CallerTold :=
  match s.place with
  | .running => (s, .nothing)
  | .waiting => if s.pending then ({ s with place := .running, pending := false }, .interrupted) else ({ s with place := .running }, .nothing)
  | .inside =>
    if s.pending then s.leave (some ⟨.cancelled, []⟩)
    else
      match r with
      | .message => ({ s with place := .running }, .message)
      | .last => s.leave none
      | .fails n => s.leave (some ⟨.other n, []⟩)

/-- One event; `none` when it cannot happen: the event loop runs callbacks and resumes tasks only while the caller's code is suspended, and the caller's code
acts only while it runs. -/
def step (res : Rat) (rd : Rat → Rat) (delay : Option Rat) (s : StreamTask) : TaskEv → Option (StreamTask × CallerTold)
  | .pass d => some ({ s with t := (s.t.step res (.pass d)).1 }, .nothing)
  | .run id =>
    if s.place = .running then none
    else
      let q := s.t.step res (.run id)
      some ({ s with t := q.1, pending := s.pending || decide (q.2 = .cancel) }, .nothing)
  | .cancel => if s.place = .running then none else some ({ s with pending := true }, .nothing)
  | .ask => if s.place = .running then some (s.ask rd delay) else none
  | .wait => if s.place = .running then some ({ s with place := .waiting }, .nothing) else none
  | .close => if s.place = .running then some (s.close, .nothing) else none
  | .resume r => if s.place = .running then none else some (s.resume r)

end StreamTask
end Conn
