import Verif.Model.Duplex
import Verif.Spec.StreamTransport
/-
Specification for C71: bidirectional streams while both sides are active.
-/
namespace Spec
open Conn Py

section
variable {Req Res : Type}

/-- What the handler does with what it is told: when the request stream has answered `told`, one after the other, it has yielded `out` and is in
the state `s`. -/
inductive Follows (h : LiveHandler Req Res) : List (Except Exc (Option Req)) → List Res → h.State → Prop where
  | start : Follows h [] [] h.init
  | told {told : List (Except Exc (Option Req))} {out : List Res} {s : h.State} {k : Except Exc (Option Req) → h.State}
      (hf : Follows h told out s) (hn : h.next s = .read k) (x : Except Exc (Option Req)) : Follows h (told ++ [x]) out (k x)
  | yields {told : List (Except Exc (Option Req))} {out : List Res} {s s' : h.State} {m : Res}
      (hf : Follows h told out s) (hn : h.next s = .emit m s') : Follows h told (out ++ [m]) s'

/-- The handler, told `told`, yields `out` and then its stream ends with the outcome `e` and the metadata `info`: it ends itself, or its next
message cannot be written. -/
inductive Finishes (h : LiveHandler Req Res) (w : EnvelopeWriter Res) (told : List (Except Exc (Option Req))) (out : List Res) (info : Meta) :
    Option Exc → Prop where
  | itself {s : h.State} {e : Option Exc} (hf : Follows h told out s) (hn : h.next s = .done e) (hi : h.info s = info) :
      Finishes h w told out info e
  | unwritable {s s' : h.State} {m : Res} {e : Exc} (hf : Follows h told out s) (hn : h.next s = .emit m s') (hw : w.write m = .error e)
      (hi : h.info s' = info) : Finishes h w told out info (some e)

/-- The metadata when the response began: at the first message, or, without messages, at the end. -/
inductive Begins (h : LiveHandler Req Res) (told : List (Except Exc (Option Req))) (out : List Res) (info i : Meta) : Prop where
  | first {told0 : List (Except Exc (Option Req))} {s s' : h.State} {m : Res} (ht : told0 <+: told) (hm : [m] <+: out)
      (hf : Follows h told0 [] s) (hn : h.next s = .emit m s') (hi : h.info s' = i) : Begins h told out info i
  | none (ho : out = []) (hi : info = i) : Begins h told out info i

/-- What the request stream may have told the handler, when the caller has given `given`: the first messages, in order; or all of them and then,
if the caller has ended the stream, that it has ended. -/
inductive Answered (given : List Req) (closed : Bool) : List (Except Exc (Option Req)) → Prop where
  | some (k : Nat) : Answered given closed ((given.take k).map fun m => .ok (.some m))
  | all (hc : closed = true) (j : Nat) : Answered given closed ((given.map fun m => .ok (.some m)) ++ List.replicate j (.ok .none))

/-- What the HTTP implementations do to fields: names in lower case, and the values of all fields that are not their own. -/
structure Conveys (seen : List (List Char × List Char) → HTTPHeaders) : Prop where
  lower : ∀ fields, ∀ p ∈ seen fields, Py.lower p.1 = p.1
  field : ∀ fields n, Py.lower n ∉ transportNames → fieldValues (seen fields) n = fieldValues fields n

/-- A client and an application that agree on codec and compressions, and a caller's messages that can be sent: they can be encoded, fit into an
envelope and are within the application's limit. -/
structure Fitting (l : Line Req Res) (sendable : Req → Prop) : Prop where
  codec : SameCodec l.c l.app l.codec
  comps : StreamCompressions l.c l.app
  reqComp : Dict.get? l.app.comps l.c.send.name = some l.reqComp
  resComp : l.resComp = responseComp l.c l.app
  conveys : Conveys l.seen
  sink : ∀ r, l.sink = some r → Props.Built r.getTrailers
  messages : ∀ m, sendable m → ∃ data, l.c.codec.encode m = .ok data ∧ (l.c.send.compress data).length < 2 ^ 32 ∧ WithinLimit l.app data

/-- The handlers considered: their messages are within the caller's limit, and wherever their stream may end, its end is regular (see
`RegularStream`). -/
structure Reasonable (l : Line Req Res) (h : LiveHandler Req Res) : Prop where
  message : ∀ told out s m s', Follows h told out s → h.next s = .emit m s' → ∀ n, l.c.readMax = some n →
    ∀ d, l.codec.res.encode m = .ok d → (d.length : Int) ≤ n
  ends : ∀ told out info e i, Finishes h (writerOf l.codec l.resComp) told out info e → Begins h told out info i →
    RegularStream l.c l.codec l.sc l.resComp i.headers out info.trailers e

/-- The histories considered: the caller gives only messages that can be sent. -/
def GivesOnly (sendable : Req → Prop) (moves : List (Move Req)) : Prop := ∀ m, Move.give m ∈ moves → sendable m

end

end Spec
