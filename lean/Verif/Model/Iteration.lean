import Verif.Model.Client
/-
Model of a streaming call as the caller sees it: the generator of `_client_sync.py:352-436`, `_client_async.py:359-427`, which the caller
resumes (`next`, `async for`) and may close before its end. In `Model/Client.lean` it is iterated to its end; here it is resumed one message at a time.
Not modelled here: an exception thrown into the generator by `throw`/`athrow`; the caller's own use of `resp`; the order of requests and responses (see
`Model/Duplex.lean`): the HTTP client takes the whole request before it answers.
-/
namespace Conn
open Py

/-- What the generator `_read_messages` does when it is resumed: it yields a message, returns, or raises; with the reader at that time. -/
inductive Pulled (M σ : Type) where
  | message (m : M) (s : ReaderState σ)
  | more (s : ReaderState σ)
  | raised (e : Exc) (s : ReaderState σ)

/-- `_envelope.py:49-80` — the message of `n` bytes at the beginning of the buffer. -/
def readOne {M σ : Type} (c : ReaderCfg M σ) (s : ReaderState σ) (pre : UInt8) (n : Nat) : Pulled M σ :=
  if s.buffer.length < n + 5 then .more { s with next := some n }
  else
    let s1 : ReaderState σ := { s with buffer := s.buffer.drop (5 + n), next := none }
    match c.payload pre ((s.buffer.drop 5).take n) with
    | .error e => .raised e s1
    | .ok d =>
      match c.handleEnd s.sub pre d with
      | (sub, .error e) => .raised e { s1 with sub }
      | (sub, .ok true) => .more { s1 with sub }
      | (sub, .ok false) =>
        match c.codec.decode d with
        | .error e => .raised e { s1 with sub }
        | .ok m => .message m { s1 with sub }

/-- `_envelope.py:46-84` `_read_messages`, resumed once. -/
def readNext {M σ : Type} (c : ReaderCfg M σ) (s : ReaderState σ) : Pulled M σ :=
  match s.buffer with
  | [] => .more s
  | pre :: t =>
    match s.next with
    | some n => readOne c s pre n
    | none =>
      match t with
      | b1 :: b2 :: b3 :: b4 :: _ => readOne c s pre (be32Decode b1 b2 b3 b4)
      | _ => .more s

/-- What the call does to the HTTP client: it sends the request, gets the response and reads its chunks, and leaves the response's
context manager, which releases the connection. -/
inductive Effect where
  | sent (r : HttpRequest)
  | opened
  | chunk (b : Bytes)
  | released
deriving DecidableEq

/-- The generator: it has not been resumed yet; it is suspended at a `yield`; it is exhausted or closed. -/
inductive GenPhase where
  | fresh
  | paused (resp : StreamResponse) (comp : Compression) (reader : ReaderState ClientSub) (rest : List Bytes)
  | over

/-- The generator, the caller's metadata object, and what it has done to the HTTP client. -/
structure Iteration where
  phase : GenPhase
  sink : Sink
  log : List Effect

/-- What the caller gets from `next`: a message, the end, or an exception. -/
inductive Got (Res : Type) where
  | message (m : Res)
  | stop
  | raised (e : Exc)

/-- The call: what the generator closes over. -/
structure StreamCall (Req Res : Type) where
  c : Client Req Res
  sc : StatusCodec
  http : HttpRequest → Except Exc StreamResponse
  cs : Circumstances
  ctx : RequestContext
  reqs : List Req
  srcErr : Option Exc

section
variable {Req Res : Type}

/-- `content` and the arguments of `self._http_client.stream(...)` — `_client_sync.py:367-377`, `_client_async.py:372-381`. -/
def StreamCall.request (k : StreamCall Req Res) : HttpRequest :=
  let content := streamingContent ⟨k.c.codec, some k.c.send⟩ k.reqs k.srcErr
  { method := pys! "POST", url := k.c.url k.ctx.method, headers := k.ctx.requestHeaders.allitems
    timeoutMs := k.ctx.timeoutMs, body := content.1, bodyErr := content.2 }

/-- Leaving the `with` statement with the exception `e`, and the `except` clauses — `_client_sync.py:418-436`, `_client_async.py:414-427`. `fromFeed`: see
`Inside`. -/
def StreamCall.leave (k : StreamCall Req Res) (resp : StreamResponse) (sink : Sink) (log : List Effect) (reader : Option ClientSub) (fromFeed : Bool)
    (e : Option Exc) : Iteration × Got Res :=
  let streamError := match k.c.flavor, fromFeed, e with
    | .sync, true, some e => if e.isConnect then some e else none
    | _, _, _ => none
  match leaveWith k.c.flavor k.cs e resp.exitErr with
  | none => (⟨.over, sink, log ++ [.released]⟩, .stop)
  | some e =>
    let q := k.c.mapStreamExc k.sc sink k.cs streamError reader (some resp) e
    (⟨.over, q.1, log ++ [.released]⟩, .raised q.2)

/-- The end of the body — `_client_sync.py:395-406`, `_client_async.py:402`. -/
def StreamCall.atEnd (k : StreamCall Req Res) (resp : StreamResponse) (log : List Effect) (sub : ClientSub) : Iteration × Got Res :=
  match resp.bodyErr with
  | some e => k.leave resp sub.sink log (some sub) true (some e)
  | none =>
    if k.c.flavor = .sync ∧ k.cs.expiredAtEnd then k.leave resp sub.sink log (some sub) false (some (.other .timeoutError []))
    else
      let q := k.c.proto.complete k.sc sub ⟨resp.status, resp.headers, resp.trailers⟩ none
      k.leave resp q.1 log (some (sub.withSink q.1)) false q.2

/-- `for chunk in resp.content` — `_client_sync.py:393-397`, `_client_async.py:396-397`: chunks are read until there is a message. -/
def StreamCall.chunks (k : StreamCall Req Res) (resp : StreamResponse) (comp : Compression) :
    ReaderState ClientSub → List Bytes → List Effect → Iteration × Got Res
  | s, [], log => k.atEnd resp log s.sub
  | s, b :: rest, log =>
    match readNext (k.c.reader comp) { s with buffer := s.buffer ++ b } with
    | .message m s => (⟨.paused resp comp s rest, s.sub.sink, log ++ [.chunk b]⟩, .message m)
    | .raised e s => k.leave resp s.sub.sink (log ++ [.chunk b]) (some s.sub) true (some e)
    | .more s => k.chunks resp comp s rest (log ++ [.chunk b])

/-- The generator resumed at a `yield` — `_client_sync.py:394`, `_client_async.py:398-401`. -/
def StreamCall.resume (k : StreamCall Req Res) (resp : StreamResponse) (comp : Compression) (s : ReaderState ClientSub) (rest : List Bytes)
    (log : List Effect) : Iteration × Got Res :=
  match readNext (k.c.reader comp) s with
  | .message m s => (⟨.paused resp comp s rest, s.sub.sink, log⟩, .message m)
  | .raised e s => k.leave resp s.sub.sink log (some s.sub) true (some e)
  | .more s => k.chunks resp comp s rest log

/-- The response has come — `_client_sync.py:378-417`, `_client_async.py:382-413`. -/
def StreamCall.begin (k : StreamCall Req Res) (sink : Sink) (resp : StreamResponse) (log : List Effect) : Iteration × Got Res :=
  let sink := handleResponseHeaders sink resp.headers
  if resp.status = 200 then
    match k.c.proto.validateStream k.c.codec.name (resp.headers.getD (pys! "content-type") []) with
    | some e => k.leave resp sink log none false (some e)
    | none =>
      match k.c.proto.responseCompression resp.headers k.c.comps true with
      | .error e => k.leave resp sink log none false (some e)
      | .ok comp => k.chunks resp comp (ReaderState.init (ClientSub.init sink)) resp.chunks log
  else
    let log := log ++ resp.chunks.map .chunk
    match resp.bodyErr with
    | some e => k.leave resp sink log none false (some e)
    | none =>
      match ConnectErr.fromResponse resp.status resp.chunks.flatten with
      | .error e => k.leave resp sink log none false (some e)
      | .ok e => k.leave resp sink log none false (some (.connect e))

/-- `next(stream)`, `await anext(stream)`. `cancelled`: the task is cancelled at the `await sleep(0)` after the last message
(`_client_async.py:401`; the sync client has none). -/
def StreamCall.next (k : StreamCall Req Res) (cancelled : Bool) (i : Iteration) : Iteration × Got Res :=
  match i.phase with
  | .over => (i, .stop)
  | .fresh =>
    let log := i.log ++ [.sent k.request]
    match k.http k.request with
    | .error e =>
      match leaveWith k.c.flavor k.cs (some e) none with
      | none => (⟨.over, i.sink, log⟩, .stop)         -- not reachable
      | some e =>
        let q := k.c.mapStreamExc k.sc i.sink k.cs none none none e
        (⟨.over, q.1, log⟩, .raised q.2)
    | .ok resp => k.begin i.sink resp (log ++ [.opened])
  | .paused resp comp s rest =>
    if k.c.flavor = .async ∧ cancelled then k.leave resp s.sub.sink i.log (some s.sub) false (some .cancelled)
    else k.resume resp comp s rest i.log

/-- `stream.close()`, `await stream.aclose()`: the generator is resumed with `GeneratorExit`, which no `except` clause catches; an exception of the
response's context manager replaces it. The result is the exception that `close` raises. -/
def StreamCall.close (k : StreamCall Req Res) (i : Iteration) : Iteration × Option Exc :=
  match i.phase with
  | .over => (i, none)
  | .fresh => ({ i with phase := .over }, none)
  | .paused resp _ s _ =>
    match resp.exitErr with
    | none => (⟨.over, i.sink, i.log ++ [.released]⟩, none)
    | some _ =>
      match k.leave resp s.sub.sink i.log (some s.sub) false none with
      | (i, .raised e) => (i, some e)
      | (i, _) => (i, none)

/-- What the caller does with the stream. -/
inductive Use where
  | next (cancelled : Bool)
  | close

/-- One after the other. -/
def StreamCall.use (k : StreamCall Req Res) : Use → Iteration → Iteration
  | .next b, i => (k.next b i).1
  | .close, i => (k.close i).1

/-- The generator when the method of the client has returned it: nothing has happened. -/
def Iteration.start (sink : Sink) : Iteration := ⟨.fresh, sink, []⟩

/-- `_client_sync.py:447-457`, `_client_async.py:442-452` `_consume_single_response` — the generator is not closed when there are too many messages. -/
def StreamCall.single (k : StreamCall Req Res) (i : Iteration) : Iteration × Except Exc Res :=
  match k.next false i with
  | (i, .raised e) => (i, .error e)
  | (i, .stop) => (i, .error zeroMessages)
  | (i, .message m) =>
    match k.next false i with
    | (i, .raised e) => (i, .error e)
    | (i, .stop) => (i, .ok m)
    | (i, .message _) => (i, .error multipleMessages)

end
end Conn
