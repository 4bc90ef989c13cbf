import Verif.Model.StreamContext
import Verif.Spec.RespContext
import Verif.Spec.Iteration
import Verif.Props.Envelope
/-
Specification for C83: streams and metadata blocks.
-/
namespace Spec
open Conn Py Props

section
variable {Req Res : Type}

/-- the uses of the stream among the operations -/
def usesOf : List ReadOp → List Use
  | [] => []
  | .other _ :: os => usesOf os
  | .use _ u :: os => u :: usesOf os

/-- The replies to these uses when no block is open. -/
def repliesTo (k : StreamCall Req Res) : Iteration → List Use → List (Reply Res)
  | _, [] => []
  | i, u :: us => (k.reply u i).2 :: repliesTo k (k.reply u i).1 us

/-- The stream is taken to be a sequence of recordings, some for each use: what happens to contexts and blocks then. -/
def recording : List ReadOp → List (List Recording) → List CtxOp
  | [], _ => []
  | .other o :: os, rss => o :: recording os rss
  | .use _ _ :: os, [] => recording os []
  | .use c _ :: os, rs :: rss => rs.map (.record c) ++ recording os rss

/-- `md` is the metadata of this envelope, the end message of a Connect stream. -/
def EndMetadata (p : Policy Res) (f : Frame) (md : Json) : Prop :=
  f.flags &&& 2 ≠ 0 ∧ ∃ d o, p.inflate f = .ok d ∧ loadsBytes d = some (.obj o) ∧ Dict.get? o (pys! "metadata") = some md

/-- an object whose members are lists of values (or single values) -/
def Listed (md : Json) : Prop :=
  ∃ m, md = .obj m ∧ ∀ p ∈ m, (∃ s, p.2 = .str s) ∨ (∃ l, p.2 = .arr l) ∨ ∃ o, p.2 = .obj o

/-- The metadata in the end messages of this response, if any, are such objects (or nothing at all: null, an empty object). -/
def ReadableEnds (c : Client Req Res) (resp : StreamResponse) : Prop :=
  c.proto = .connect → ∀ comp, c.proto.responseCompression resp.headers c.comps true = .ok comp →
    ∀ fs rest, Splits resp.chunks.flatten fs rest → ∀ f ∈ fs, ∀ md, EndMetadata (policyOf (c.reader comp)) f md → md.truthy = true → Listed md

/-- Of trailers only: HTTP trailers (or the headers of a response without a body) for gRPC, the trailers in the body for gRPC-Web, the metadata of an end message
for Connect. -/
def TrailersOf (k : StreamCall Req Res) (resp : StreamResponse) (r : Recording) : Prop :=
  match k.c.proto with
  | .connect => ∃ comp fs rest, k.c.proto.responseCompression resp.headers k.c.comps true = .ok comp ∧ Splits resp.chunks.flatten fs rest ∧
      ∃ f ∈ fs, ∃ md, EndMetadata (policyOf (k.c.reader comp)) f md ∧ r = .metadata md
  | .grpc => r = .trailers resp.trailers ∨ r = .trailers resp.headers
  | .grpcWeb => ∃ fields, r = .trailers fields

/-- What the uses of a stream record, given what they reply. Nothing if there is no response, or the stream is closed before it is asked. Otherwise the headers at the
first use, and apart from them only trailers; nothing once the stream has ended. Unless the protocol is Connect (whose trailers come as messages do), a use that
returns a message records no trailers. -/
structure RecordedByUse (k : StreamCall Req Res) (us : List Use) (replies : List (Reply Res)) (rss : List (List Recording)) : Prop where
  length : rss.length = us.length
  no_response : ∀ e, k.http k.request = .error e → ∀ rs ∈ rss, rs = []
  not_asked : ∀ us', us = .close :: us' → ∀ rs ∈ rss, rs = []
  asked : ∀ resp b us', k.http k.request = .ok resp → us = .next b :: us' →
    ∃ rs rss', rss = (.headers resp.headers :: rs) :: rss' ∧ ∀ q ∈ rs ++ rss'.flatten, TrailersOf k resp q
  ended : ∀ (j j' : Nat) r rs, replies[j]? = some r → (∀ m, r ≠ .got (.message m)) → j < j' → rss[j']? = some rs → rs = []
  message : ∀ (j : Nat) m rs, replies[j]? = some (.got (.message m)) → k.c.proto ≠ .connect → rss[j]? = some rs → ∀ q ∈ rs, ∃ f, q = .headers f

end
end Spec
