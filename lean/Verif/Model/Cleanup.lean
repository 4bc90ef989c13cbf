import Verif.Model.ServerAsync
import Verif.Model.ServerSync
/-
Model of what the servers do with the generator of a handler that streams its response, in more detail than `AsgiCfg.loop` and `StreamCfg.wsgiBody`: the order of
what is done to it and of what is sent, the cleanup code that runs when it is closed, and the task that watches for disconnects.
-/
namespace Conn
open Py

/-- A run of a handler's generator. `closing n`: what its cleanup code does, and raises, when it is closed at its `n`-th `yield`. `closable`: it has a method
`aclose` (asynchronous generators have, other iterators need not). -/
structure Producer (Res : Type) where
  acts : List (Act Res)
  outcome : Option Exc
  closing : Nat → List Step × Option Exc
  closable : Bool

/-- What happens, in order: the generator is asked for a message, has ended or raised, is closed; the task that watches for disconnects is started, stopped; something
is sent; the end marker is made. -/
inductive GenEvent (S : Type) where
  | asked
  | over
  | closed
  | watch
  | unwatch
  | sent (s : S)
  | ending
deriving DecidableEq, Repr

/-- After the `async for` statement: as `LoopOut`, with what happened, and the `yield` the generator is suspended at. -/
structure Driven (Req : Type) where
  out : LoopOut Req
  trace : List (GenEvent Sent)
  suspended : Option Nat

section
variable {Req Res : Type}

/-- `async for message in response_stream` — `_server_async.py:430-444`. -/
def AsgiCfg.drive (c : AsgiCfg Res) (outcome : Option Exc) :
    List (Act Res) → HState Req → List (Sent × Option Exc) → Bool → Nat → List (GenEvent Sent) → Driven Req
  | [], h, log, sent, _, tr => ⟨⟨h, log, sent, outcome⟩, tr ++ [.over], none⟩
  | .step s :: as, h, log, sent, n, tr =>
    match h.step s with
    | (h, some e) => ⟨⟨h, log, sent, some e⟩, tr ++ [.over], none⟩
    | (h, none) => c.drive outcome as h log sent n tr
  | .emit m :: as, h, log, sent, n, tr =>
    if c.disconnected n then ⟨⟨h, log, sent, some clientDisconnected⟩, tr, some n⟩
    else
      let tr := if sent then tr else tr ++ [.sent (c.startEvent h.info)]
      match c.ensureStart sent h.info log with
      | (log, some e) => ⟨⟨h, log, sent, some e⟩, tr, some n⟩
      | (log, none) =>
        match c.writer.write m with
        | .error e => ⟨⟨h, log, true, some e⟩, tr, some n⟩
        | .ok b =>
          match c.env.send log (.body b true) with
          | (log, some e) => ⟨⟨h, log, true, some e⟩, tr ++ [.sent (.body b true)], some n⟩
          | (log, none) => c.drive outcome as h log true (n + 1) (tr ++ [.sent (.body b true), .asked])

/-- `await aclose()` — `_server_async.py:453-456`: nothing happens to a generator that is over. -/
def Producer.close (g : Producer Res) (d : Driven Req) : Driven Req :=
  if !g.closable then d
  else
    match d.suspended with
    | none => { d with trace := d.trace ++ [.closed] }
    | some n =>
      match d.out.h.call (g.closing n).1 (match (g.closing n).2 with
        | some x => .error x
        | none => .ok ()) with
      | (h, .error x) => { d with out := { d.out with h, exc := some x }, trace := d.trace ++ [.closed] }
      | (h, .ok _) => { d with out := { d.out with h }, trace := d.trace ++ [.closed] }

/-- the `finally` clause — `_server_async.py:445-456`. `watch` is there if a task watches for disconnects: what awaiting it raises (what `receive` raised in it;
`CancelledError` is suppressed). -/
def Producer.release (g : Producer Res) (watch : Option (Option Exc)) (d : Driven Req) : Driven Req :=
  match watch with
  | none => g.close d
  | some none => g.close { d with trace := d.trace ++ [.unwatch] }
  | some (some e) => { d with out := { d.out with exc := some e }, trace := d.trace ++ [.unwatch] }

/-- `_server_async.py:429-493` — from the generator to the end of the response. -/
def AsgiCfg.respond (c : AsgiCfg Res) (calls : List (Called Req)) (g : Producer Res) (watch : Option (Option Exc)) (h : HState Req) :
    AsgiOut Req × List (GenEvent Sent) :=
  let start := match watch with
    | some _ => [.watch, .asked]
    | none => [.asked]
  let d := g.release watch (c.drive g.outcome g.acts h [] false 0 start)
  let out := c.finish calls d.out
  (out, d.trace ++ .ending :: (out.sends.drop d.out.log.length).map fun s => .sent s.1)

/-- `except Exception` — `_server_sync.py:595-605`: the end marker is made unless the exception is of another kind. -/
def endingAfter (e : Exc) : List (GenEvent Unit) := if e.isException then [.ending] else []

/-- `_response_stream` — `_server_sync.py:580-605`, as `StreamCfg.wsgiBody`, with what happens to the generator. -/
def StreamCfg.wsgiBodyTrace (c : StreamCfg Req Res) (outcome : Option Exc) :
    List (Act Res) → HState Req → List WEvent → List (GenEvent Unit) → WsgiOut Req × List (GenEvent Unit)
  | [], h, events, tr => match outcome with
    | none => (c.wsgiFinish h events none, tr ++ [.over, .ending])
    | some e => (c.wsgiCaught h events e, tr ++ .over :: endingAfter e)
  | .step s :: as, h, events, tr => match h.step s with
    | (h, some e) => (c.wsgiCaught h events e, tr ++ .over :: endingAfter e)
    | (h, none) => c.wsgiBodyTrace outcome as h events tr
  | .emit m :: as, h, events, tr => match c.writer.write m with
    | .error e => (c.wsgiCaught h events e, tr ++ endingAfter e)
    | .ok b => c.wsgiBodyTrace outcome as h (events ++ [.chunk b]) (tr ++ [.sent (), .asked])

end

end Conn
