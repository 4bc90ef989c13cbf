import Verif.Model.Attempts
import Verif.Spec.Client
/-
Specification for C88: calls through interceptors that may call on several times.
-/
namespace Spec
open Conn Py

section
variable {Req Res : Type}

/-- `p`, and then what `k` makes of its outcome. -/
def Plan.andThen : Plan Req Res → (Except Exc Res → Plan Req Res) → Plan Req Res
  | .result r, k => k r
  | .next req k', k => .next req fun r => Plan.andThen (k' r) k
  | .edit f p, k => .edit f (Plan.andThen p k)
  | .wait d p, k => .wait d (Plan.andThen p k)
  | .look k', k => .look fun t => Plan.andThen (k' t) k

/-- `p` with `inner` in the place of its `call_next`. -/
def Plan.around (inner : Req → Plan Req Res) : Plan Req Res → Plan Req Res
  | .result r => .result r
  | .next req k => Plan.andThen (inner req) fun r => Plan.around inner (k r)
  | .edit f p => .edit f (Plan.around inner p)
  | .wait d p => .wait d (Plan.around inner p)
  | .look k => .look fun t => Plan.around inner (k t)

/-- Interceptors as one: the first is the outermost; without any, the call is just made. -/
def asOne : List (Req → Plan Req Res) → Req → Plan Req Res
  | [] => fun req => .next req .result
  | p :: ps => fun req => Plan.around (asOne ps) (p req)

/-- One call of the innermost `call_next`: the message, the headers of the context and the time then; what it returned or raised, and when. -/
structure Attempt (Req Res : Type) where
  req : Req
  headers : Headers
  start : Rat
  result : Except Exc Res
  stop : Rat

/-- The attempts that are made when an interceptor is followed, beginning with these headers at this time, and its outcome. `left t` is the time that is left at `t`. -/
inductive Tries (left : Rat → Option Rat) : Plan Req Res → Headers → Rat → List (Attempt Req Res) → Except Exc Res → Prop where
  | result (r : Except Exc Res) (h : Headers) (t : Rat) : Tries left (.result r) h t [] r
  | next {req : Req} {k : Except Exc Res → Plan Req Res} {h : Headers} {t t' : Rat} {r r' : Except Exc Res} {as : List (Attempt Req Res)}
      (ht : t ≤ t') (hf : Tries left (k r) h t' as r') : Tries left (.next req k) h t (⟨req, h, t, r, t'⟩ :: as) r'
  | edit {f : Headers → Headers} {k : Plan Req Res} {h : Headers} {t : Rat} {r : Except Exc Res} {as : List (Attempt Req Res)}
      (hf : Tries left k (f h) t as r) : Tries left (.edit f k) h t as r
  | wait {d : Rat} {k : Plan Req Res} {h : Headers} {t : Rat} {r : Except Exc Res} {as : List (Attempt Req Res)}
      (hf : Tries left k h (if 0 ≤ d then t + d else t) as r) : Tries left (.wait d k) h t as r
  | look {k : Option Rat → Plan Req Res} {h : Headers} {t : Rat} {r : Except Exc Res} {as : List (Attempt Req Res)}
      (hf : Tries left (k (left t)) h t as r) : Tries left (.look k) h t as r

/-- The requests that `call` hands to the HTTP client are these, one or none: its outcome depends on the answers to them alone, and an error raised for one of them is raised by the call. -/
def SendsJust (rs : List HttpRequest) (call : HttpClient → Sink × Except Exc Res) : Prop :=
  SendsOnly (· ∈ rs) call ∧ rs.length ≤ 1 ∧
    ∀ r ∈ rs, ∀ (h : HttpClient) (e : ConnectErr), h.full r = .error (.connect e) → h.stream r = .error (.connect e) → (call h).2 = .error (.connect e)

/-- Each attempt is a call of its own: made after the requests `before`, with the active object `sink`, it sends one request at most and gives what `plain` gives; `sent` are the
requests of all attempts, `sink'` is the object at the end. -/
inductive EachAlone (plain : Headers → Req → HttpClient → Sink → Circumstances → Sink × Except Exc Res) (net : Network) :
    List HttpRequest → Sink → List (Attempt Req Res) → List (List HttpRequest) → Sink → Prop where
  | nil (before : List HttpRequest) (sink : Sink) : EachAlone plain net before sink [] [] sink
  | cons {before : List HttpRequest} {sink sink' sink'' : Sink} {a : Attempt Req Res} {as : List (Attempt Req Res)} {rs : List HttpRequest}
      {rss : List (List HttpRequest)} (hcall : plain a.headers a.req (net.http before) sink (net.cs before) = (sink', a.result))
      (hsent : ∀ sink cs, SendsJust rs fun h => plain a.headers a.req h sink cs) (hrest : EachAlone plain net (before ++ rs) sink' as rss sink'') :
      EachAlone plain net before sink (a :: as) (rs :: rss) sink''

/-- The interceptor leaves the headers alone and only passes on the message it got. -/
inductive PassesOn (req : Req) : Plan Req Res → Prop where
  | result (r : Except Exc Res) : PassesOn req (.result r)
  | next {k : Except Exc Res → Plan Req Res} (h : ∀ r, PassesOn req (k r)) : PassesOn req (.next req k)
  | wait {d : Rat} {k : Plan Req Res} (h : PassesOn req k) : PassesOn req (.wait d k)
  | look {k : Option Rat → Plan Req Res} (h : ∀ t, PassesOn req (k t)) : PassesOn req (.look k)

end
end Spec
