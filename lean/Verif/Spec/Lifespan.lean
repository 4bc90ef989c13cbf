import Verif.Model.Lifespan
/-
Specification for the lifespan of an ASGI application whose service is an asynchronous generator (C39).
-/
namespace Spec
open Conn Py

variable {Svc T : Type}

/-- The application has told the server that the lifespan is over: startup failed, or shutdown is complete or failed. -/
def SaidOver (h : List (LifespanEv Svc T)) : Prop :=
  (∃ m, .told (.startupFailed m) ∈ h) ∨ .told .shutdownComplete ∈ h ∨ ∃ m, .told (.shutdownFailed m) ∈ h

/-- The service that was last obtained and announced by `startup.complete`. -/
def Current (h : List (LifespanEv Svc T)) (s : Svc) : Prop :=
  ∃ a b, h = a ++ [.obtained (.ok s), .told .startupComplete] ++ b ∧ .told .startupComplete ∉ b

/-- Something was asked of the generator. -/
def Asked (h : List (LifespanEv Svc T)) : Prop := ∃ r, .obtained r ∈ h

/-- `Allowed resolve h ev`: after the history `h`, the event `ev` may happen. `resolve` makes the endpoints of a service. -/
inductive Allowed (resolve : Svc → Except Exc T) (h : List (LifespanEv Svc T)) : LifespanEv Svc T → Prop where
  /-- the service is obtained while the lifespan is not over and the generator not closed -/
  | obtained {r} (ho : ¬ SaidOver h) (hc : ∀ c, .closed c ∉ h) : Allowed resolve h (.obtained r)
  /-- the generator is closed once, after it was used -/
  | closed {r} (ho : ¬ SaidOver h) (hc : ∀ c, .closed c ∉ h) (ha : Asked h) : Allowed resolve h (.closed r)
  /-- startup is complete when the service has just been obtained and its endpoints made -/
  | startupComplete {h' s t} (ho : ¬ SaidOver h) (hh : h = h' ++ [.obtained (.ok s)]) (hs : resolve s = .ok t) :
      Allowed resolve h (.told .startupComplete)
  /-- startup failed when obtaining the service has just failed; the message is that of the exception -/
  | startupFailed {h' e} (ho : ¬ SaidOver h) (hh : h = h' ++ [.obtained (.error e)]) : Allowed resolve h (.told (.startupFailed e.str))
  /-- shutdown is complete when the generator has just been closed, or was never used -/
  | shutdownComplete {h'} (ho : ¬ SaidOver h) (hh : h = h' ++ [.closed none]) : Allowed resolve h (.told .shutdownComplete)
  | shutdownUnused (ho : ¬ SaidOver h) (ha : ¬ Asked h) : Allowed resolve h (.told .shutdownComplete)
  /-- shutdown failed when closing the generator has just failed -/
  | shutdownFailed {h' e} (ho : ¬ SaidOver h) (hh : h = h' ++ [.closed (some e)]) : Allowed resolve h (.told (.shutdownFailed e.str))
  /-- a request gets the endpoints of the current service -/
  | served {s t} (hc : Current h s) (ht : resolve s = .ok t) : Allowed resolve h (.served t)
  /-- a request is refused before startup is complete -/
  | refused (hn : .told .startupComplete ∉ h) : Allowed resolve h .refused
  /-- an exception leaves the lifespan call: one that is not an `Exception`, or one of making the endpoints -/
  | raised {h' e} (ho : ¬ SaidOver h) (hh : (∃ s, h = h' ++ [.obtained (.ok s)] ∧ resolve s = .error e) ∨
      (h = h' ++ [.obtained (.error e)] ∧ e.isException = false) ∨ (h = h' ++ [.closed (some e)] ∧ e.isException = false)) :
      Allowed resolve h (.raised e)

/-- Every event of the history is allowed after those before it. -/
def Lawful (resolve : Svc → Except Exc T) (evs : List (LifespanEv Svc T)) : Prop :=
  ∀ pre ev post, evs = pre ++ ev :: post → Allowed resolve pre ev

end Spec
