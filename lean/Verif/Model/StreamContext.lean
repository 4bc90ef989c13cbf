import Verif.Model.Iteration
import Verif.Model.RespContext
/-
A streaming call that is read in several contexts (threads, tasks) and `ResponseMetadata` blocks: the generator of `Model/Iteration.lean` runs in the context of
whoever resumes it, so `_current_response.get(None)` is looked up there, each time something is recorded. One stream is followed; other calls appear as recordings.
-/
namespace Conn
open Py

/-- the reader with another active object -/
def ReaderState.withSink (s : ReaderState ClientSub) (sink : Sink) : ReaderState ClientSub := { s with sub := s.sub.withSink sink }

def GenPhase.withSink : GenPhase → Sink → GenPhase
  | .fresh, _ => .fresh
  | .over, _ => .over
  | .paused resp comp s rest, sink => .paused resp comp (s.withSink sink) rest

/-- The generator resumed where `sink` is the active object: `_current_response.get(None)` — `_response_metadata.py:20`, `43`. -/
def Iteration.withSink (i : Iteration) (sink : Sink) : Iteration := ⟨i.phase.withSink sink, sink, i.log⟩

/-- `_current_response.get(None)` in context `c`. -/
def CtxWorld.active (w : CtxWorld) (c : Nat) : Sink := (w.var c).map w.content

/-- The active object of context `c` now holds this. -/
def CtxWorld.put (w : CtxWorld) (c : Nat) (sink : Sink) : CtxWorld :=
  match w.var c, sink with
  | some i, some m => { w with content := setAt w.content i m }
  | _, _ => w

/-- What the caller gets from a use of the stream. -/
inductive Reply (Res : Type) where
  | got (g : Got Res)
  | closed (e : Option Exc)

section
variable {Req Res : Type}

/-- One use of the stream: `next(stream)` or `stream.close()`. -/
def StreamCall.reply (k : StreamCall Req Res) : Use → Iteration → Iteration × Reply Res
  | .next b, i => ((k.next b i).1, .got (k.next b i).2)
  | .close, i => ((k.close i).1, .closed (k.close i).2)

/-- What happens: something with contexts and blocks (and other calls), or a use of the stream in context `c`. -/
inductive ReadOp where
  | other (o : CtxOp)
  | use (c : Nat) (u : Use)

/-- One operation: the contexts and the generator afterwards, and what the caller gets. -/
def StreamCall.readStep (k : StreamCall Req Res) (st : CtxWorld × Iteration) : ReadOp → (CtxWorld × Iteration) × Option (Reply Res)
  | .other o => ((st.1.step o, st.2), none)
  | .use c u =>
    let r := k.reply u (st.2.withSink (st.1.active c))
    ((st.1.put c r.1.sink, r.1), some r.2)

/-- The operations one after the other, from a state in which nothing has happened; the replies in order. -/
def StreamCall.reading (k : StreamCall Req Res) : CtxWorld × Iteration → List ReadOp → (CtxWorld × Iteration) × List (Reply Res)
  | st, [] => (st, [])
  | st, o :: os =>
    let r := k.readStep st o
    let r' := k.reading r.1 os
    (r'.1, r.2.toList ++ r'.2)

end
end Conn
