import Verif.Model.Protocol
/-
Model of deadlines: `RequestContext.timeout_ms` (`src/connectrpc/request.py`) and the choice of the timeout of a call
(`src/connectrpc/_client_sync.py`, `_client_async.py`).
Times are rational numbers of seconds.  The code computes with doubles: every operation is followed by `rd`, an
arbitrary rounding function here (`id` is exact arithmetic).
-/
namespace Conn

/-- `timeout_ms or self._timeout_ms` — `_client_sync.py:206`, `227`, `248`, `269`, `_client_async.py` (same four
calls); `0` is false. -/
def pickTimeout (call dflt : Option Int) : Option Int :=
  match call with
  | some t => if t = 0 then dflt else some t
  | none => dflt

/-- `request.py:48-51` — `_end_time`, computed when the context is made at time `start`. -/
def endTime (rd : Rat → Rat) (timeoutMs : Option Int) (start : Rat) : Option Rat :=
  timeoutMs.map fun (t : Int) => rd (start + rd ((t : Rat) / 1000))

/-- `request.py:90-95` `timeout_ms`, read at time `now`. -/
def remainingMs (rd : Rat → Rat) (end_ : Option Rat) (now : Rat) : Option Rat :=
  end_.map fun (e : Rat) => rd (rd (e - now) * 1000)

/-- `(t := ctx.timeout_ms) is not None and t <= 0` — `_client_sync.py:403`, `_client_shared.py:59`. -/
def expired (rd : Rat → Rat) (end_ : Option Rat) (now : Rat) : Bool :=
  match remainingMs rd end_ now with
  | some t => decide (t ≤ 0)
  | none => false

end Conn
