import Verif.Model.Observed
/-
The OpenTelemetry interceptor around handlers of every kind: `connectrpc-otel/connectrpc_otel/_interceptor.py` applied to an endpoint.
-/
namespace Conn
open Py

section
variable {C Req Res : Type}

/-- The steps of a function that reads a stream with `n` messages left, followed by `err`, as far as they get: the first read that raises an exception the function does not catch is the last
step, and the exception leaves the function — `_server_sync.py:446-459`, `_server_async.py:391-409` (`request_stream` is the generator the function reads). Steps that only change metadata do
not raise. -/
def stepsOn (n : Nat) (err : Option Exc) : List Step → List Step × Option Exc
  | [] => ([], none)
  | .update f :: ss => (.update f :: (stepsOn n err ss).1, (stepsOn n err ss).2)
  | .recv c :: ss =>
    match n, err with
    | n + 1, err => (.recv c :: (stepsOn n err ss).1, (stepsOn n err ss).2)
    | 0, none => (.recv c :: (stepsOn 0 none ss).1, (stepsOn 0 none ss).2)
    | 0, some e => if c then (.recv c :: (stepsOn 0 none ss).1, (stepsOn 0 none ss).2) else ([.recv c], some e)

/-- The run of a function that returns one response, on the stream `s`. -/
def Call.on (c : Call Res) (s : ReqStream Req) : Call Res :=
  match stepsOn s.messages.length s.err c.steps with
  | (steps, none) => ⟨steps, c.result⟩
  | (steps, some e) => ⟨steps, .error e⟩

/-- … of a generator: its actions as far as they get, and how it ends. -/
def actsOn (n : Nat) (err outcome : Option Exc) : List (Act Res) → List (Act Res) × Option Exc
  | [] => ([], outcome)
  | .emit m :: as => (.emit m :: (actsOn n err outcome as).1, (actsOn n err outcome as).2)
  | .step (.update f) :: as => (.step (.update f) :: (actsOn n err outcome as).1, (actsOn n err outcome as).2)
  | .step (.recv c) :: as =>
    match n, err with
    | n + 1, err => (.step (.recv c) :: (actsOn n err outcome as).1, (actsOn n err outcome as).2)
    | 0, none => (.step (.recv c) :: (actsOn 0 none outcome as).1, (actsOn 0 none outcome as).2)
    | 0, some e => if c then (.step (.recv c) :: (actsOn 0 none outcome as).1, (actsOn 0 none outcome as).2) else ([.step (.recv c)], some e)

/-- The run of a generator on the stream `s`. -/
def Script.on (c : Script Res) (s : ReqStream Req) : Script Res :=
  let r := actsOn s.messages.length s.err c.outcome c.acts
  ⟨r.1, r.2, c.closeErr⟩

/-- An endpoint's function with the interceptor around it, by kind — `_server_sync.py:621-652`, `_server_async.py:634-665`. -/
def OtelInterceptor.handler (o : OtelInterceptor C) (flavor : Bool) (current : Option C) : Handler Req Res → Handler Req Res
  | .unary f => .unary (o.watched flavor current f)
  | .clientStream f => .clientStream (o.watched flavor current fun s ctx => (f s ctx).on s)
  | .serverStream f => .serverStream (o.watchedGen flavor current f)
  | .bidi f => .bidi (o.watchedGen flavor current fun s ctx => (f s ctx).on s)

end

end Conn
