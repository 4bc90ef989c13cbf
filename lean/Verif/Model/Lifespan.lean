import Verif.Model.Base
/-
Model of the lifespan handling of the ASGI application and of how requests get their endpoints: `_server_async.py:120-175`, `525-534`.
-/
namespace Conn
open Py

/-- An asynchronous generator that provides services: what `anext` gives in turn, and what closing it at each `yield` raises. -/
inductive SvcGen (Svc : Type) where
  | raises (e : Exc)
  | yields (s : Svc) (rest : SvcGen Svc) (close : Option Exc)

/-- The state of such a generator object: not started, suspended at a `yield`, finished. -/
inductive SvcGenState (Svc : Type) where
  | fresh (g : SvcGen Svc)
  | suspended (g : SvcGen Svc) (close : Option Exc)
  | finished

/-- `StopAsyncIteration()` -/
def stopAsyncIteration : Exc := .other (.custom 0) []

/-- `await anext(gen)`: the service or the exception, and the generator afterwards. -/
def SvcGenState.next {Svc : Type} : SvcGenState Svc → Except Exc Svc × SvcGenState Svc
  | .fresh (.raises e) | .suspended (.raises e) _ => (.error e, .finished)
  | .fresh (.yields s rest c) | .suspended (.yields s rest c) _ => (.ok s, .suspended rest c)
  | .finished => (.error stopAsyncIteration, .finished)

/-- `await gen.aclose()`: what it raises (a generator that is not at a `yield` just finishes). -/
def SvcGenState.aclose {Svc : Type} : SvcGenState Svc → Option Exc
  | .suspended _ c => c
  | _ => none

/-- The `service` argument of the application: `inspect.isasyncgen` or not. -/
inductive Service (Svc : Type) where
  | plain (s : Svc)
  | gen (g : SvcGenState Svc)

/-- `msg["type"]` of a lifespan message -/
inductive LifespanMsg where
  | startup | shutdown | other
deriving DecidableEq, Repr

/-- What the application sends. -/
inductive LifespanSent where
  | startupComplete | startupFailed (message : Str) | shutdownComplete | shutdownFailed (message : Str)
deriving DecidableEq, Repr

/-- Where the lifespan call is: at `await receive()`, at `await anext(service_iter)`, at `await service_iter.aclose()`, or over. -/
inductive Phase where
  | idle | starting | closing | over
deriving DecidableEq, Repr

/-- What can happen next: the server delivers a lifespan message, an `await` of the application ends, a request comes in. -/
inductive LifespanIn where
  | message (m : LifespanMsg) | resume | request
deriving DecidableEq, Repr

/-- What is observed: the service was obtained (or obtaining it raised), the generator was closed (perhaps raising), a message was sent, a
request was given its endpoints, a request was refused with `RuntimeError`, an exception left the application. -/
inductive LifespanEv (Svc T : Type) where
  | obtained (r : Except Exc Svc)
  | closed (r : Option Exc)
  | told (m : LifespanSent)
  | served (endpoints : T)
  | refused
  | raised (e : Exc)

/-- The attributes `_service` and `_resolved_endpoints` of the application, the local variable `service_iter is not None` and the
phase of its lifespan call. -/
structure LifespanState (Svc T : Type) where
  service : Service Svc
  resolved : Option T
  iter : Bool
  phase : Phase

section
variable {Svc T : Type}

/-- a new application (`_server_async.py:110-114`) whose server has just begun the lifespan call, if it supports that -/
def LifespanState.init (service : Service Svc) : LifespanState Svc T := ⟨service, none, false, .idle⟩

/-- `self._resolved_endpoints = self._resolve_endpoints(service)`, `await send({"type": "lifespan.startup.complete"})` —
`_server_async.py:150-151`.  `resolve` is `_resolve_endpoints`, including the interceptors (see `Model/Interceptor`); what it raises
leaves the application. -/
def LifespanState.complete (resolve : Svc → Except Exc T) (st : LifespanState Svc T) (s : Svc) :
    LifespanState Svc T × List (LifespanEv Svc T) :=
  match resolve s with
  | .error e => ({ st with phase := .over }, [.raised e])
  | .ok t => ({ st with resolved := some t, phase := .idle }, [.told .startupComplete])

/-- `_server_async.py:127-165`, `167-175`: what the application does next.  `empty` is the truth value of a table of endpoints, negated.
Messages are received only at `await receive()`; a request reads the endpoints without suspension; sending succeeds. -/
def LifespanState.step (resolve : Svc → Except Exc T) (empty : T → Bool) (st : LifespanState Svc T) :
    LifespanIn → LifespanState Svc T × List (LifespanEv Svc T)
  | .message m =>
    match st.phase with
    | .idle =>
      match m with
      | .startup =>
        match st.service with
        | .gen _ => ({ st with iter := true, phase := .starting }, [])
        | .plain s => st.complete resolve s
      | .shutdown =>
        if st.iter then ({ st with phase := .closing }, [])
        else ({ st with phase := .over }, [.told .shutdownComplete])
      | .other => (st, [])
    | _ => (st, [])
  | .resume =>
    match st.phase, st.service with
    | .starting, .gen g =>
      match g.next with
      | (.ok s, g') =>
        let r := LifespanState.complete resolve { st with service := .gen g' } s
        (r.1, .obtained (.ok s) :: r.2)
      | (.error e, g') =>
        ({ st with service := .gen g', phase := .over }, [.obtained (.error e),
          if e.isException then .told (.startupFailed e.str) else .raised e])
    | .closing, .gen g =>
      ({ st with service := .gen .finished, phase := .over }, [.closed g.aclose, match g.aclose with
        | none => .told .shutdownComplete
        | some e => if e.isException then .told (.shutdownFailed e.str) else .raised e])
    | _, _ => (st, [])
  | .request =>
    let missing := match st.resolved with
      | none => true
      | some t => empty t
    if missing then
      match st.service with
      | .gen _ => (st, [.refused])
      | .plain s =>
        match resolve s with
        | .error e => (st, [.raised e])
        | .ok t => ({ st with resolved := some t }, [.served t])
    else match st.resolved with
      | some t => (st, [.served t])
      | none => (st, [])

/-- What is observed of a history. -/
def LifespanState.run (resolve : Svc → Except Exc T) (empty : T → Bool) : LifespanState Svc T → List LifespanIn →
    List (LifespanEv Svc T)
  | _, [] => []
  | st, i :: is =>
    let r := st.step resolve empty i
    r.2 ++ r.1.run resolve empty is

end

end Conn
