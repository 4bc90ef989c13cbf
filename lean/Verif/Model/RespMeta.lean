import Verif.Model.Protocol
/-
Model of `src/connectrpc/_response_metadata.py`.
-/
namespace Conn
open Py

/-- `_response_metadata.py:57-78` — the state of a `ResponseMetadata` object (without its context-variable token). -/
structure RespMeta where
  headers : Option Headers
  trailers : Option Headers
deriving DecidableEq, Repr, Inhabited

namespace RespMeta

/-- `ResponseMetadata()` -/
def new : RespMeta := ⟨none, none⟩

/-- `_response_metadata.py:98-103` `headers`. -/
def getHeaders (r : RespMeta) : Headers :=
  match r.headers with
  | none => Headers.empty
  | some h => h

/-- `_response_metadata.py:105-110` `trailers`. -/
def getTrailers (r : RespMeta) : Headers :=
  match r.trailers with
  | none => Headers.empty
  | some h => h

end RespMeta

/-- `_current_response.get(None)`: the active object, if any. -/
abbrev Sink := Option RespMeta

/-- `_response_metadata.py:26-33` — the loop sorting fields into headers and trailers. -/
def sortFields : Headers × Headers → HTTPHeaders → Headers × Headers
  | acc, [] => acc
  | (hs, ts), (k, v) :: r =>
    if startsWith (pys! "trailer-") k then sortFields (hs, ts.add (k.drop (pys! "trailer-").length) v) r
    else sortFields (hs.add k v, ts) r

/-- `_response_metadata.py:19-37` `handle_response_headers`. -/
def handleResponseHeaders (sink : Sink) (fields : HTTPHeaders) : Sink :=
  sink.map fun r =>
    let p := sortFields (Headers.empty, Headers.empty) fields
    { headers := if p.1.truthy then some p.1 else r.headers
      trailers := if p.2.truthy then some p.2 else r.trailers }

/-- `_response_metadata.py:53-54` and the case of an object that already had trailers (mutated in place). -/
def storeTrailers (r : RespMeta) (t : Headers) : RespMeta :=
  if t.truthy then { r with trailers := some t } else r

/-- `_response_metadata.py:40-54` `handle_response_trailers` for HTTP trailers: every value is a string. -/
def handleResponseTrailers (sink : Sink) (fields : HTTPHeaders) : Sink :=
  sink.map fun r => storeTrailers r (fields.foldl (fun t p => t.add p.1 p.2) r.getTrailers)

/-- the text stored for an element of a metadata value; the code stores a non-string as it is, the model its JSON
text. -/
def jsonText : Json → Str
  | .str s => s
  | j => dumps j

/-- `_response_metadata.py:48-52` — one entry of a `metadata` object: `none` = `TypeError` (value not iterable). -/
def addMetadataEntry (t : Headers) (key : Str) : Json → Option Headers
  | .str s => some (t.add key s)
  | .arr l => some (l.foldl (fun t v => t.add key (jsonText v)) t)
  | .obj m => some (m.foldl (fun t p => t.add key p.1) t)
  | _ => none

/-- the loop `_response_metadata.py:47-52`: the trailers so far and whether it raised. -/
def addMetadata : Headers → List (Str × Json) → Headers × Bool
  | t, [] => (t, false)
  | t, (k, v) :: r =>
    match addMetadataEntry t k v with
    | none => (t, true)
    | some t' => addMetadata t' r

/-- `_response_metadata.py:40-54` `handle_response_trailers` for the `metadata` member of a Connect end message. When
the loop raises, the values already added stay only in an object that existed before. -/
def handleMetadataJson (sink : Sink) (metadata : Json) : Sink × Option Exc :=
  match sink with
  | none => (none, none)
  | some r =>
    match metadata with
    | .obj m =>
      match addMetadata r.getTrailers m with
      | (t, true) =>
        (some { r with trailers := r.trailers.map fun _ => t },
          some (.other .typeError (pys! "object is not iterable")))
      | (t, false) => (some (storeTrailers r t), none)
    | _ => (some r, some (.other .attributeError (pys! "object has no attribute 'items'")))

end Conn
