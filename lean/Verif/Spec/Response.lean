import Verif.Spec.Request
/-
Specification for C73: what a server may send in answer to a request of a client of any implementation.
-/
namespace Spec
open Conn Py

section
variable {Req Res : Type}

/-- The client (of which only matters what it can read) can read what the server writes in this codec: it knows the codec by its name, and
undoes the compressions that both know. Compressions are looked up by their names, which can be written in a header. -/
structure CanRead (c : Client Req Res) (app : App Req Res) (codec : ServerCodec Req Res) : Prop where
  name : codec.name = c.codec.name
  plain : PlainName c.codec.name
  messages : ∀ m b, codec.res.encode m = .ok b → c.resCodec.decode b = .ok m
  byName : ∀ n k, Dict.get? app.comps n = some k → k.name = n ∧ PlainName n
  identity : Dict.get? app.comps (pys! "identity") = some .identity ∧ Dict.get? c.comps (pys! "identity") = some .identity
  undo : ∀ n k k', Dict.get? app.comps n = some k → Dict.get? c.comps n = some k' → k ≠ .identity →
    k' ≠ .identity ∧ ∀ b, k'.decompress (k.compress b) = .ok b

/-- A list of compressions the client accepts, in the format of HTTP: names it knows; there may be entries with weights, and wildcards. -/
def AcceptList (c : Client Req Res) (text : List Char) : Prop :=
  ∃ es : List AcceptEntry, es ≠ [] ∧ text = acceptText es ∧
    ∀ e ∈ es, e.Ok ∧ ((Dict.get? c.comps e.name).isSome = true ∨ ';' ∈ e.name ∨ '*' ∈ e.name ∨ e.name = [])

/-- The request of a unary call by Connect says which compressions the client accepts. (If it does not, HTTP implementations may do so on
their own.) -/
def AcceptsUnary (c : Client Req Res) (rq : HttpRequest) : Prop :=
  ∃ text, fieldValues rq.headers (pys! "accept-encoding") = [text] ∧ AcceptList c text

/-- A streamed request may say which compressions the client accepts. -/
def AcceptsStream (c : Client Req Res) (rq : HttpRequest) : Prop :=
  fieldValues rq.headers (acceptHeader c.proto) = [] ∨
  ∃ text, fieldValues rq.headers (acceptHeader c.proto) = [text] ∧ AcceptList c text

/-- The runs of unary handlers considered: those of the end-to-end properties; the headers do not set the content type. -/
structure RegularAnswer (c : Client Req Res) (codec : ServerCodec Req Res) (run : Call Res) : Prop where
  regular : Regular c codec run
  type : fieldValues (metadataFields (metadataOf run.steps)) (pys! "content-type") = []

/-- The runs of streaming handlers considered: those of the end-to-end properties; the headers do not set the content type and the
compression; by the gRPC protocols, the trailers do not set a message when the error has none. -/
structure RegularResponse (c : Client Req Res) (codec : ServerCodec Req Res) (sc : StatusCodec) (comp : Compression) (hs : Headers)
    (ms : List Res) (trailers : Headers) (e : Option Exc) : Prop where
  regular : RegularStream c codec sc comp hs ms trailers e
  headers : Props.Built hs
  own : ∀ n ∈ [pys! "content-type", encodingHeader c.proto], fieldValues hs.allitems n = []
  message : c.proto ≠ .connect → ∀ x, e = some x → (errorOf x).message = [] → trailers.getall (pys! "grpc-message") = []

/-- A streamed response of a server, with its body in any chunks. -/
def inChunks (r : StreamedResponse) (chunks : List (List UInt8)) : StreamResponse :=
  { status := r.status, headers := r.fields, chunks, trailers := r.trailers, bodyErr := none, exitErr := none }

/-- The response to a unary call, as the HTTP client hands it over, is in the published format, and says how the run of the handler ended. -/
def ConformingAnswer (c : Client Req Res) (codec : ServerCodec Req Res) (run : Call Res) (resp : FullResponse) : Prop :=
  (∀ x data, run.result = .ok x → codec.res.encode x = .ok data → ConformingUnary c x resp) ∧
  ∀ e, Fails codec run e → ConformingError c (errorOf e) resp

end

end Spec
