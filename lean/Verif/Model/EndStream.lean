import Verif.Model.Envelope
import Verif.Model.RespMeta
import Verif.Py.Url
/-
Model of the end of a stream: `EnvelopeWriter.end`, `EnvelopeReader.handle_end_message` and
`handle_response_complete` of the three protocols (`_protocol_connect.py`, `_protocol_grpc.py`).
-/
namespace Conn
open Py

/-- `_gen/status_pb.py` `google.rpc.Status`. -/
structure Status where
  code : Int
  message : Str
  details : List (Str × Bytes)
deriving DecidableEq, Repr, Inhabited

/-- `Status.to_binary` / `Status.from_binary` (protobuf, not part of the code). -/
structure StatusCodec where
  toBinary : Status → Bytes
  fromBinary : Bytes → Except Exc Status

/-- the value fits the message type: `code` is an `int32`, and protobuf messages are smaller than 2 GiB -/
structure Status.Ok (s : Status) : Prop where
  code : -2 ^ 31 ≤ s.code ∧ s.code < 2 ^ 31
  message : (utf8Encode s.message).length < 2 ^ 31
  details : ∀ d ∈ s.details, (utf8Encode d.1).length + d.2.length + 20 < 2 ^ 31

/-- protobuf's laws for `Status`: values round-trip, and no bytes are the message with all defaults (shown for the
wire format itself in `Verif/Proofs/Protobuf.lean`) -/
structure StatusCodec.Lawful (c : StatusCodec) : Prop where
  roundtrip : ∀ s : Status, s.Ok → c.fromBinary (c.toBinary s) = .ok s
  empty : c.fromBinary [] = .ok ⟨0, [], []⟩

/-! ### writers -/

/-- `_protocol_connect.py:165-169` — `metadata.setdefault(key, []).append(value)` over all trailers. -/
def metadataOf (items : List (Str × Str)) : Dict Str (List Str) :=
  items.foldl (fun d p => Headers.appendExtra d p.1 p.2) []

/-- `_protocol_connect.py:164-171` — the end-of-stream JSON object. -/
def connectEndJson (trailers : Headers) (error : Option ConnectErr) : Json :=
  let md := if trailers.truthy then
      [(pys! "metadata", Json.obj ((metadataOf trailers.allitems).map fun p => (p.1, .arr (p.2.map .str))))]
    else []
  let er := match error with
    | some e => [(pys! "error", e.toDict)]
    | none => []
  .obj (md ++ er)

/-- `_protocol_connect.py:163-175` `ConnectEnvelopeWriter.end`. -/
def EnvelopeWriter.connectEnd {M : Type} (w : EnvelopeWriter M) (trailers : Headers) (error : Option ConnectErr) :
    Except Exc Bytes :=
  packEnvelope (w.pre ||| 2) (w.compress (utf8Encode (dumps (connectEndJson trailers error))))

/-- the `google.rpc.Status` of an error — `_protocol_grpc.py:171-175`. -/
def ConnectErr.toStatus (e : ConnectErr) : Status :=
  { code := match parseInt e.code.grpcStatus with
      | some n => n
      | none => 0      -- not reachable: the status strings are decimal numbers
    message := e.message
    details := e.details.map fun d => (d.typeUrl, d.value) }

/-- `_protocol_grpc.py:161-182` `GRPCEnvelopeWriter.end`. -/
def grpcTrailers (sc : StatusCodec) (user : Headers) (error : Option ConnectErr) : Headers :=
  let t := Headers.ofPairs user.allitems
  match error with
  | none => t.setItem (pys! "grpc-status") (pys! "0")
  | some e =>
    let t := t.setItem (pys! "grpc-status") e.code.grpcStatus
    let t := if e.message.isEmpty then t else t.setItem (pys! "grpc-message") (quote e.message)
    if e.details.isEmpty then t
    else t.setItem (pys! "grpc-status-details-bin") (rstripChar '=' (b64encode (sc.toBinary e.toStatus)))

/-- `"".join(f"{k}: {v}\r\n" …)` — `_protocol_grpc.py:188`. -/
def trailerBlock (items : List (Str × Str)) : Str :=
  items.flatMap fun p => p.1 ++ pys! ": " ++ p.2 ++ ['\r', '\n']

/-- `_protocol_grpc.py:186-192` `GRPCWebEnvelopeWriter.end`. -/
def EnvelopeWriter.grpcWebEnd {M : Type} (w : EnvelopeWriter M) (sc : StatusCodec) (user : Headers)
    (error : Option ConnectErr) : Except Exc Bytes :=
  packEnvelope (w.pre ||| 128) (w.compress (utf8Encode (trailerBlock (grpcTrailers sc user error).allitems)))

/-- Result of `writer.end(...)`: bytes to append to the body, or HTTP trailers. -/
inductive EndOut where
  | body (b : Bytes)
  | trailers (h : Headers)
deriving DecidableEq, Repr, Inhabited

/-- `writer.end(user_trailers, error)` of the three protocols. -/
def EnvelopeWriter.end' {M : Type} (w : EnvelopeWriter M) (p : Proto) (sc : StatusCodec) (user : Headers)
    (error : Option ConnectErr) : Except Exc EndOut :=
  match p with
  | .connect => (w.connectEnd user error).map .body
  | .grpc => .ok (.trailers (grpcTrailers sc user error))
  | .grpcWeb => (w.grpcWebEnd sc user error).map .body

/-! ### readers -/

/-- State shared by the client readers: the metadata sink, `_read_message` and `_trailers`
(`_protocol_grpc.py:321`, `382`). -/
structure ClientSub where
  sink : Sink
  readMessage : Bool
  trailers : HTTPHeaders
deriving DecidableEq, Repr, Inhabited

def ClientSub.init (sink : Sink) : ClientSub := ⟨sink, false, []⟩

/-- `_protocol_connect.py:327-332` — the `error` member of an end message. -/
def connectEndError (error : Option Json) : Except Exc Bool :=
  match error with
  | none => .ok true
  | some j =>
    if j.truthy then
      match j with
      | .obj m => (match ConnectErr.fromDict m 500 .unknown with
        | .error e => .error e
        | .ok ce => .error (.connect ce))
      | _ => .error (.other .attributeError (pys! "object has no attribute 'get'"))
    else .ok true

/-- `_protocol_connect.py:316-332` `ConnectEnvelopeReader.handle_end_message`. -/
def connectEndHook : EndHook ClientSub := fun s pre data =>
  if pre &&& 2 = 0 then (s, .ok false)
  else
    match loadsBytes data with
    | none => (s, .error (.other .valueError (pys! "JSONDecodeError")))
    | some (.obj m) =>
      match Dict.get? m (pys! "metadata") with
      | none => (s, connectEndError (Dict.get? m (pys! "error")))
      | some md =>
        if md.truthy then
          match handleMetadataJson s.sink md with
          | (sink, some e) => ({ s with sink }, .error e)
          | (sink, none) => ({ s with sink }, connectEndError (Dict.get? m (pys! "error")))
        else (s, connectEndError (Dict.get? m (pys! "error")))
    | some _ => (s, .error (.other .attributeError (pys! "object has no attribute 'get'")))

/-- `_protocol_grpc.py:323-330` `GRPCEnvelopeReader.handle_end_message`. -/
def grpcEndHook : EndHook ClientSub := fun s _ _ => ({ s with readMessage := true }, .ok false)

/-- `data.split(b"\r\n")`. -/
def splitCRLF : Bytes → List Bytes
  | [] => [[]]
  | [b] => [[b]]
  | b :: c :: r =>
    if b = 13 ∧ c = 10 then [] :: splitCRLF r
    else match splitCRLF (c :: r) with
      | [] => [[b]]          -- not reachable: `splitCRLF` never returns `[]`
      | p :: ps => (b :: p) :: ps

/-- `_protocol_grpc.py:394-395` — one line of the trailer block: `line.split(b":", 1)`, decode and strip; `none` =
`ValueError` (no colon, or not UTF-8). -/
def parseTrailerLine (line : Bytes) : Option (Str × Str) :=
  if (58 : UInt8) ∈ line then
    match utf8Decode (line.takeWhile (· != 58)), utf8Decode ((line.dropWhile (· != 58)).drop 1) with
    | some k, some v => some (strip k, strip v)
    | _, _ => none
  else none

/-- `_protocol_grpc.py:391-395` — the loop over the lines; the second component tells whether it raised. -/
def addTrailerLines : HTTPHeaders → List Bytes → HTTPHeaders × Bool
  | t, [] => (t, false)
  | t, line :: r =>
    if line.isEmpty then addTrailerLines t r
    else match parseTrailerLine line with
      | none => (t, true)
      | some (k, v) => addTrailerLines (HTTPHeaders.add t k v) r

/-- `_protocol_grpc.py:384-396` `GRPCWebEnvelopeReader.handle_end_message`.  `pyqwest.Headers.add` may refuse names or
values that are not legal in HTTP; that is not modelled. -/
def grpcWebEndHook : EndHook ClientSub := fun s pre data =>
  let s := { s with readMessage := true }
  if pre &&& 128 = 0 then (s, .ok false)
  else
    match addTrailerLines s.trailers (splitCRLF data) with
    | (t, true) => ({ s with trailers := t }, .error (.other .valueError (pys! "not enough values to unpack")))
    | (t, false) => ({ s with trailers := t }, .ok true)

def Proto.endHook : Proto → EndHook ClientSub
  | .connect => connectEndHook
  | .grpc => grpcEndHook
  | .grpcWeb => grpcWebEndHook

/-- What the client library knows about an HTTP response besides its body. -/
structure HTTPResponse where
  status : Int
  headers : HTTPHeaders
  trailers : HTTPHeaders
deriving DecidableEq, Repr, Inhabited

/-- "missing grpc-status trailer" — `_protocol_grpc.py:347`, `354`. -/
def missingStatus : Exc := .mk .internal (pys! "missing grpc-status trailer")

/-- `raise e or ConnectError(...)`. -/
def orMissing : Option ConnectErr → Exc
  | some e => .connect e
  | none => missingStatus

/-- `code or …` — `_protocol_grpc.py:363`, `367`; `e` is the stream-reset error. -/
def codeOr (e : Option ConnectErr) (c : Code) : Code :=
  match e with
  | some e => e.code
  | none => c

/-- `_protocol_grpc.py:358-370` — the error carried by a set of trailers with a status. -/
def errorOfTrailers (sc : StatusCodec) (t : HTTPHeaders) (status : Str) (e : Option ConnectErr) : Option Exc :=
  if status = pys! "0" then none
  else
    match t.get (pys! "grpc-status-details-bin") with
    | some d =>
      if d.isEmpty then
        some (.mk (codeOr e (codeOfGrpcStatus status)) (unquote (t.getD (pys! "grpc-message") [])))
      else
        match b64decode (d ++ pys! "===") with
        | none => some (.other .valueError (pys! "binascii.Error"))
        | some b =>
          match sc.fromBinary b with
          | .error ex => some ex
          | .ok st => some (.connect
              { code := codeOr e (codeOfGrpcStatus (intStr st.code)), message := st.message
                details := st.details.map fun p => { typeUrl := p.1, value := p.2 } })
    | none => some (.mk (codeOr e (codeOfGrpcStatus status)) (unquote (t.getD (pys! "grpc-message") [])))

/-- `_protocol_grpc.py:335-370` `GRPCEnvelopeReader.handle_response_complete`; `httpTrailers` is
`get_response_trailers(response)`.  Result: the sink afterwards and the exception raised, if any. -/
def grpcComplete (sc : StatusCodec) (s : ClientSub) (respHeaders httpTrailers : HTTPHeaders) (e : Option ConnectErr) :
    Sink × Option Exc :=
  match httpTrailers.get (pys! "grpc-status") with
  | some st => (handleResponseTrailers s.sink httpTrailers, errorOfTrailers sc httpTrailers st e)
  | none =>
    if s.readMessage then (s.sink, some (orMissing e))
    else
      match respHeaders.get (pys! "grpc-status") with
      | none => (handleResponseTrailers s.sink respHeaders, some (orMissing e))
      | some st => (handleResponseTrailers s.sink respHeaders, errorOfTrailers sc respHeaders st e)

/-- `handle_response_complete(response, e)` — `_envelope.py:94-99` (no effect), `_protocol_grpc.py:335-370`, with
`get_response_trailers` `_protocol_grpc.py:332-333`, `398-399`. -/
def Proto.complete (p : Proto) (sc : StatusCodec) (s : ClientSub) (resp : HTTPResponse) (e : Option ConnectErr) :
    Sink × Option Exc :=
  match p with
  | .connect => (s.sink, none)
  | .grpc => grpcComplete sc s resp.headers resp.trailers e
  | .grpcWeb => grpcComplete sc s resp.headers s.trailers e

end Conn
