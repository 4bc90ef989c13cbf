import Verif.Model.ServerAsync
import Verif.Model.ServerSync
import Verif.Model.Client
/-
Model of bidirectional streams while both sides are active: the client of `_client_sync.py:352-436`, `_client_async.py:359-435`, the ASGI
application of `_server_async.py:368-493`, `561-595` or the WSGI application of `_server_sync.py:411-506`, `568-605`, and the bytes between
them. In `Model/Client.lean`, `Model/ServerAsync.lean` and `Model/ServerSync.lean` the whole
request is there before the handler runs; here requests and responses are interleaved, one move at a time, in any order.
Not modelled here: failures of the connection, cancellation, timeouts, interceptors and the validation of the request (see the other models);
exceptions of `aclose()`; the handler's changes to the metadata after its generator has been closed.
-/
namespace Conn
open Py

/-- What the handler (an async generator) does next: it asks the request stream for its next message (`none`: the stream has ended), it yields
a message, or it ends (with an exception or without) — `_server_async.py:427`, `430`, `_server_sync.py:465`, `468`, `592`. -/
inductive Next (Req Res σ : Type) where
  | read (k : Except Exc (Option Req) → σ)
  | emit (m : Res) (s : σ)
  | done (outcome : Option Exc)

/-- A handler, with all its internal state, and the headers and trailers it has set on its context so far. It may run for ever. -/
structure LiveHandler (Req Res : Type) where
  State : Type
  init : State
  next : State → Next Req Res State
  info : State → Meta

/-- A generator that reads the messages of a body (`_server_async.py:561-577`, `_server_sync.py:568-577`, `_client_async.py:396-401`): the reader, the messages of the last
chunk that have not been asked for, the exception after them, and whether the last chunk has been read. A chunk is decoded when it arrives; the
code decodes message by message when asked. -/
structure Inlet (M σ : Type) where
  reader : ReaderState σ
  ready : List M
  err : Option Exc
  eof : Bool

/-- `reader.feed(chunk)` — `_server_async.py:571`, `_client_async.py:397`. -/
def Inlet.chunk {M σ : Type} (cfg : ReaderCfg M σ) (i : Inlet M σ) (b : Bytes) (last : Bool) : Inlet M σ :=
  match feed cfg i.reader b with
  | (ms, .raised e, s) => ⟨s, ms, some e, last⟩
  | (ms, .done, s) => ⟨s, ms, none, last⟩

/-- Nothing is left of what has been read. -/
def Inlet.idle {M σ : Type} (i : Inlet M σ) : Bool := i.ready.isEmpty && i.err.isNone && !i.eof

/-- The server the application runs on. The `read(size)` of a WSGI server's input may return what there is, or wait until there are `size` bytes or the
body has ended (`fills`), as the `read(size)` of Python's buffered files does. `SERVER_PROTOCOL` starts with `HTTP/1` or it doesn't (`http1`). -/
inductive Host where
  | asgi
  | wsgi (fills http1 : Bool)
deriving DecidableEq, Repr

/-- The two sides of a stream: the client, the application and the server it runs on, the codec and the compressions the application uses, the caller's metadata object;
`seen` is what the HTTP implementations make of the fields of a message. -/
structure Line (Req Res : Type) where
  c : Client Req Res
  app : App Req Res
  host : Host
  codec : ServerCodec Req Res
  reqComp : Compression
  resComp : Compression
  sc : StatusCodec
  sink : Sink
  seen : List (Str × Str) → HTTPHeaders

/-- A stream in progress. -/
structure Duplex {Req Res : Type} (h : LiveHandler Req Res) where
  /-- what the caller has given to the stream, and whether the caller has ended it -/
  given : List Req
  closed : Bool
  /-- the bytes of the request the application has not read -/
  up : Bytes
  inlet : Inlet Req Unit
  /-- what the handler has been told by the request stream -/
  told : List (Except Exc (Option Req))
  handler : h.State
  yielded : List Res
  /-- the metadata when the response headers were sent -/
  started : Option Meta
  /-- the bytes of the response the client has not read -/
  down : Bytes
  /-- the HTTP trailers, when the application has finished -/
  ended : Option (List (Str × Str))
  /-- the client's reader, when it has the response headers -/
  outlet : Option (Compression × Inlet Res ClientSub)
  received : List Res
  /-- how the iteration over the responses ended -/
  outcome : Option (Sink × Option Exc)

/-- What may happen next: the caller gives a message or ends the stream; a chunk of `n` bytes of the request reaches the application, which
is waiting for it; the request stream answers the handler; the handler yields a message; the handler ends; the response headers reach
the client; a chunk of the response reaches the client; the caller gets the next message, or the end. -/
inductive Move (Req : Type) where
  | give (m : Req)
  | close
  | arrive (n : Nat) (last : Bool)
  | answer
  | emit
  | finish
  | headers
  | reply (n : Nat) (last : Bool)
  | take

/-- The caller's moves. -/
def Move.byCaller {Req : Type} : Move Req → Bool
  | .give _ | .close => true
  | _ => false

section
variable {Req Res : Type}

/-- The beginning of a stream. -/
def Duplex.start (h : LiveHandler Req Res) : Duplex h :=
  { given := [], closed := false, up := [], inlet := ⟨ReaderState.init (), [], none, false⟩, told := [], handler := h.init, yielded := []
    started := none, down := [], ended := none, outlet := none, received := [], outcome := none }

/-- A chunk of `n` of the bytes under way may arrive: the last chunk when the sender has ended and nothing remains; any other is not empty.
(Empty chunks in between change nothing.) -/
def mayArrive (under : Bytes) (ended : Bool) (n : Nat) (last : Bool) : Bool :=
  if last then ended && n == under.length else decide (0 < n) && decide (n ≤ under.length)

/-- A chunk of `n` of the bytes of the request under way may arrive. An ASGI server chooses the chunks. On WSGI (`_server_sync.py:137-143`) a chunk is what
`input_stream.read(4096)` returns, and an empty one is the end. -/
def Host.mayArrive : Host → Bytes → Bool → Nat → Bool → Bool
  | .asgi, under, ended, n, last => Conn.mayArrive under ended n last
  | .wsgi fills _, under, ended, n, last =>
    Conn.mayArrive under ended n last && (if last then n == 0 else decide (n ≤ 4096) && (!fills || n == 4096 || (ended && n == under.length)))

/-- The error of the last events when the handler's stream ends with `e`, or nothing if the exception goes to the server instead —
`_server_async.py:457-464`; `_server_sync.py:490`, `595` catch `Exception`. -/
def Host.reports : Host → Option Exc → Option (Option Exc)
  | .asgi, e => some (asgiError e)
  | .wsgi _ _, none => some none
  | .wsgi _ _, some e => if e.isException then some (some e) else none

/-- `_drain_request_body` — `_server_sync.py:654-661`: on HTTP/1 the rest of the request is read. -/
def Host.drains : Host → Bool
  | .asgi => false
  | .wsgi _ http1 => http1

/-- An error can be reported: no draining is called for (`_server_sync.py:494`, `597`), or it can come to its end, which is when the caller has ended the
request. The bytes it throws away remain in `up`, where nothing reads them any more. -/
def Line.drained (l : Line Req Res) (closed : Bool) (e : Option Exc) : Bool := !(l.host.drains && e.isSome) || closed

/-- `writer.end(...)` and the last events — `_server_async.py:457-491`, `_server_sync.py:470-480`, `490-506`, `595-605`. -/
def Line.finish (l : Line Req Res) {h : LiveHandler Req Res} (s : Duplex h) (info : Meta) (e : Option Exc) : Option (Duplex h) :=
  match l.host.reports e with
  | none => none
  | some e =>
    if !l.drained s.closed e then none                 -- `_drain_request_body` waits
    else match (EnvelopeWriter.mk l.codec.res (some l.resComp)).end' l.c.proto l.sc info.trailers (e.map ConnectErr.fromException) with
    | .error _ => none                                 -- the exception goes to the server
    | .ok (.body b) => some { s with started := some (s.started.getD info), down := s.down ++ b, ended := some [] }
    | .ok (.trailers t) => some { s with started := some (s.started.getD info), ended := some t.allitems }

/-- The fields of `_send_stream_response_headers` — `_server_async.py:531-558`, `_server_sync.py:551-565`. -/
def Line.fields (l : Line Req Res) (m : Meta) : List (Str × Str) := streamHeaders l.c.proto l.codec.name l.resComp.name m

/-- The end of the iteration over the responses with the exception `e`, through the `except` clauses — `_client_sync.py:418-436`,
`_client_async.py:414-427`. -/
def Line.fail (l : Line Req Res) (sink : Sink) (fromFeed : Bool) (sub : Option ClientSub) (e : Exc) : Sink × Option Exc :=
  let streamError := if l.c.flavor = .sync ∧ fromFeed ∧ e.isConnect then some e else none
  let q := l.c.mapStreamExc l.sc sink ⟨false, false, none, false⟩ streamError sub none e
  (q.1, some q.2)

/-- One move; `none` if it is not possible. -/
def Line.step (l : Line Req Res) {h : LiveHandler Req Res} : Move Req → Duplex h → Option (Duplex h)
  -- `_client_async.py:430-435` `_streaming_request_content`: one envelope per message
  | .give m, s =>
    if s.closed then none
    else match (EnvelopeWriter.mk l.c.codec (some l.c.send)).write m with
      | .ok b => some { s with given := s.given ++ [m], up := s.up ++ b }
      | .error _ => none                               -- the exception goes to the HTTP client, see C48
  | .close, s => if s.closed then none else some { s with closed := true }
  -- `_server_async.py:580-595`, `_server_sync.py:137-143` `_read_body`, called for by `_request_stream` when there is no message left
  | .arrive n last, s =>
    match h.next s.handler with
    | .read _ =>
      if s.inlet.idle && l.host.mayArrive s.up s.closed n last then
        some { s with up := s.up.drop n, inlet := s.inlet.chunk (l.app.reader l.codec l.reqComp) (s.up.take n) last }
      else none
    | _ => none
  -- `_server_async.py:561-577`, `_server_sync.py:568-577` `_request_stream`: a generator that has raised or returned is exhausted
  | .answer, s =>
    match h.next s.handler with
    | .read k =>
      match s.inlet.ready, s.inlet.err with
      | m :: ms, _ =>
        some { s with inlet := { s.inlet with ready := ms }, told := s.told ++ [.ok (some m)], handler := k (.ok (some m)) }
      | [], some e =>
        some { s with inlet := { s.inlet with err := none, eof := true }, told := s.told ++ [.error e], handler := k (.error e) }
      | [], none =>
        if s.inlet.eof then some { s with told := s.told ++ [.ok none], handler := k (.ok none) } else none
    | _ => none
  -- `_server_async.py:430-445`, `_server_sync.py:468-489`, `589-594`: the headers before the first message, one envelope per message; an exception of
  -- `writer.write` ends the stream; a WSGI server sends a chunk before it asks for the next
  | .emit, s =>
    match s.ended, h.next s.handler with
    | none, .emit m s' =>
      match (EnvelopeWriter.mk l.codec.res (some l.resComp)).write m with
      | .ok b =>
        some { s with handler := s', yielded := s.yielded ++ [m], started := some (s.started.getD (h.info s')), down := s.down ++ b }
      | .error e => l.finish { s with started := some (s.started.getD (h.info s')) } (h.info s') (some e)
    | _, _ => none
  | .finish, s =>
    match s.ended, h.next s.handler with
    | none, .done e => l.finish s (h.info s.handler) e
    | _, _ => none
  -- `_client_async.py:382-395`: the response headers
  | .headers, s =>
    match s.started, s.outlet, s.outcome with
    | some i, none, none =>
      let headers := l.seen (l.fields i)
      let sink := handleResponseHeaders l.sink headers
      match l.c.proto.validateStream l.c.codec.name (headers.getD (pys! "content-type") []) with
      | some e => some { s with outcome := some (l.fail sink false none e) }
      | none =>
        match l.c.proto.responseCompression headers l.c.comps true with
        | .error e => some { s with outcome := some (l.fail sink false none e) }
        | .ok comp => some { s with outlet := some (comp, ⟨ReaderState.init (ClientSub.init sink), [], none, false⟩) }
    | _, _, _ => none
  -- `_client_async.py:396`: the next chunk, called for when there is no message left
  | .reply n last, s =>
    match s.outlet, s.outcome with
    | some (comp, o), none =>
      if o.idle && mayArrive s.down s.ended.isSome n last then
        some { s with down := s.down.drop n, outlet := some (comp, o.chunk (l.c.reader comp) (s.down.take n) last) }
      else none
    | _, _ => none
  -- `_client_async.py:397-402`: the next message; at the end `handle_response_complete`
  | .take, s =>
    match s.outlet, s.outcome, s.started with
    | some (comp, o), none, some i =>
      match o.ready, o.err with
      | m :: ms, _ => some { s with outlet := some (comp, { o with ready := ms }), received := s.received ++ [m] }
      | [], some e => some { s with outcome := some (l.fail o.reader.sub.sink true (some o.reader.sub) e) }
      | [], none =>
        if o.eof then
          let q := l.c.proto.complete l.sc o.reader.sub ⟨200, l.seen (l.fields i), l.seen (s.ended.getD [])⟩ none
          match q.2 with
          | none => some { s with outcome := some (q.1, none) }
          | some e => some { s with outcome := some (l.fail q.1 false (some (o.reader.sub.withSink q.1)) e) }
        else none
    | _, _, _ => none

/-- A history: moves one after the other. -/
def Line.run (l : Line Req Res) {h : LiveHandler Req Res} : List (Move Req) → Duplex h → Option (Duplex h)
  | [], s => some s
  | mv :: mvs, s => (l.step mv s).bind (l.run mvs)

end

end Conn
