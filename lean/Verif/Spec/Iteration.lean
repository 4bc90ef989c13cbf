import Verif.Model.Iteration
import Verif.Spec.Envelope
/-
Specification for C77: a streaming call that is resumed message by message, and may be abandoned.
-/
namespace Spec
open Conn Py

section
variable {Req Res : Type}

/-- What a call does to the HTTP client, in order: nothing; or it sends its request, once, and is refused; or it gets the response, reads chunks of it, and
releases it, once, at the end. `held`: a response has been got and not released. -/
inductive Tidy (r : HttpRequest) : Bool → List Effect → Prop where
  | nothing : Tidy r false []
  | refused : Tidy r false [.sent r]
  | held (cs : List Bytes) : Tidy r true ([.sent r, .opened] ++ cs.map .chunk)
  | released (cs : List Bytes) : Tidy r false ([.sent r, .opened] ++ cs.map .chunk ++ [.released])

/-- The generator after these uses, one after the other. -/
def after (k : StreamCall Req Res) (i : Iteration) (us : List Use) : Iteration := us.foldl (fun i u => k.use u i) i

/-- Something else than a message: the stream is closed by the caller, has ended or has failed. -/
def Concludes (k : StreamCall Req Res) (i : Iteration) : Use → Prop
  | .close => True
  | .next b => ∀ m, (k.next b i).2 ≠ .message m

/-- `for m in stream`, from what the first `next` gives: the messages, and at the end the generator and the exception, if any. -/
inductive Yields (k : StreamCall Req Res) : Iteration × Got Res → List Res → Iteration → Option Exc → Prop where
  | stop (i : Iteration) : Yields k (i, .stop) [] i none
  | raised (i : Iteration) (e : Exc) : Yields k (i, .raised e) [] i (some e)
  | message {i i' : Iteration} {m : Res} {ms : List Res} {e : Option Exc} (h : Yields k (k.next false i) ms i' e) :
      Yields k (i, .message m) (m :: ms) i' e

/-- The messages of the first `next`s. -/
inductive Takes (k : StreamCall Req Res) : Iteration → List Res → Iteration → Prop where
  | none (i : Iteration) : Takes k i [] i
  | one {i i' i'' : Iteration} {m : Res} {ms : List Res} (h : k.next false i = (i', .message m)) (h' : Takes k i' ms i'') : Takes k i (m :: ms) i''

/-- `read` is the shortest beginning of `chunks` that holds `n` bytes. -/
structure Shortest (chunks read : List Bytes) (n : Nat) : Prop where
  start : read <+: chunks
  enough : n ≤ read.flatten.length
  needed : ∀ less, less <+: read → less ≠ read → less.flatten.length < n

end
end Spec
