import Verif.Model.Drain
import Verif.Spec.Server
/-
Specification for what is left of a request body (C97).
-/
namespace Spec
open Conn Py

variable {Req Res : Type}

/-- The request came by HTTP/1.0 or HTTP/1.1, on a connection that is used for other requests too. -/
def ByHttp1 (env : Environ) : Prop := ∃ version, env.vars.get? (pys! "SERVER_PROTOCOL") = some (pys! "HTTP/1" ++ version)

/-- A body ends where Content-Length says, at the latest. -/
def EndsInTime (env : Environ) : Prop := ∀ v n, env.vars.get? (pys! "CONTENT_LENGTH") = some v → parseInt v = some n → 0 < n →
  (env.input.flatten.length : Int) ≤ n

/-- How often a handler asks its request stream for a message. -/
def asks : List (Act Res) → Nat
  | [] => 0
  | .step (.recv _) :: as => asks as + 1
  | _ :: as => asks as

/-- A run of a handler on the request stream `s` that ends with an exception, or asks for messages until it is told that there are no more, without
hiding an exception the stream raises. -/
def ReadsOut (s : ReqStream Req) (run : Script Res) : Prop :=
  run.outcome ≠ none ∨ (s.messages.length < asks run.acts ∧ (s.err ≠ none → ∀ a ∈ run.acts, a ≠ .step (.recv true)))

/-- A handler that takes a stream reads it out. -/
def HandlerReads : Handler Req Res → Prop
  | .unary _ | .serverStream _ => True
  | .clientStream f => ∀ s ctx, ReadsOut s (f s ctx).toScript
  | .bidi f => ∀ s ctx, ReadsOut s (f s ctx)

/-- A handler that takes a stream and never asks for a message, and succeeds. -/
def Ignores (h : Handler Req Res) : Prop :=
  match h with
  | .clientStream f => ∀ s ctx, asks (f s ctx).toScript.acts = 0 ∧ (f s ctx).toScript.outcome = none
  | .bidi f => ∀ s ctx, asks (f s ctx).acts = 0 ∧ (f s ctx).outcome = none
  | _ => False

/-- What a stream says that is asked `n` times: its messages, then its exception, then again and again that it has ended. -/
def says (s : ReqStream Req) (n : Nat) : List (Except Exc (Option Req)) :=
  (s.messages.map (fun m => Except.ok (some m)) ++ (match s.err with
    | some e => [Except.error e]
    | none => []) ++ List.replicate n (Except.ok none)).take n

end Spec
