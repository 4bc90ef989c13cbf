import Verif.Model.ServerSync
/-
What the WSGI application leaves of the request body: `wsgi.input` when the response is complete. `Model/ServerSync.lean` says what is answered; here the
input is followed read by read. `C97_same` shows that the request stream read this way is the one of that model.
-/
namespace Conn
open Py

/-- `_server_sync.py:655` — `environ.get("SERVER_PROTOCOL", "").startswith("HTTP/1")`. -/
def Environ.http1 (env : Environ) : Bool :=
  startsWith (pys! "HTTP/1") (match env.vars.get? (pys! "SERVER_PROTOCOL") with
    | some v => v
    | none => [])

/-- `_server_sync.py:137-143` `_read_body`, iterated to its end: what is left then. `fuel` bounds the number of reads, as in `readBodyAux`. -/
def unreadAux : Nat → List Bytes → List Bytes
  | 0, segs => segs
  | fuel + 1, segs =>
    let r := readInput 4096 segs
    if r.1.isEmpty then r.2 else unreadAux fuel r.2

def unread (segs : List Bytes) : List Bytes := unreadAux (segs.flatten.length + 1) segs

/-- `_server_sync.py:654-661` `_drain_request_body`. -/
def Environ.drain (env : Environ) (segs : List Bytes) : List Bytes := if env.http1 then unread segs else segs

/-- An `except Exception` clause that begins with `_drain_request_body` (`_server_sync.py:241-242`, `490-494`, `595-597`); other exceptions pass. -/
def Environ.caught (env : Environ) (e : Exc) (segs : List Bytes) : List Bytes := if e.isException then env.drain segs else segs

/-- the loop of `_server_sync.py:122-128`: what it leaves. -/
def unreadRest (todo : Nat) (segs : List Bytes) : List Bytes :=
  if _h : todo = 0 then segs
  else
    if h' : (readInput todo segs).1 = [] then (readInput todo segs).2
    else unreadRest (todo - (readInput todo segs).1.length) (readInput todo segs).2
termination_by todo
decreasing_by
  have : 0 < (readInput todo segs).1.length := List.length_pos_iff.mpr h'
  omega

/-- `_server_sync.py:109-134` `_read_body_with_content_length`: what it leaves. -/
def unreadWithLength (segs : List Bytes) (n : Nat) : List Bytes :=
  let r := readInput n segs
  if r.1.length = n then r.2 else unreadRest (n - r.1.length) r.2

/-- `_server_sync.py:305-310`: what is left when the body has been read, or could not be. -/
def wsgiRawLeft (env : Environ) : List Bytes :=
  let len : Except Exc Int := match env.vars.get? (pys! "CONTENT_LENGTH") with
    | none => .ok 0
    | some s =>
      if s.isEmpty then .ok 0
      else match parseInt s with
        | some n => .ok n
        | none => .error (.other .valueError (pys! "invalid literal for int() with base 10: '" ++ s ++ pys! "'"))
  match len with
  | .error _ => env.input
  | .ok n => if n > 0 then unreadWithLength env.input n.toNat else unread env.input

section
variable {Req Res : Type}

/-- `_server_sync.py:286-310`: nothing is read when there is no codec for the content type. -/
def App.wsgiPostLeft (app : App Req Res) (env : Environ) (headers : Headers) : List Bytes :=
  match app.codecs.get? (connectCodecName (headers.getD (pys! "content-type") []) false) with
  | none => env.input
  | some _ => wsgiRawLeft env

/-- `_server_sync.py:246-284` `_handle_unary` with the `except` clause of `__call__`. -/
def App.wsgiUnaryLeft (app : App Req Res) (env : Environ) (httpMethod : Str) (headers : Headers) (ctx : RequestContext)
    (f : Req → RequestContext → Call Res) : List Bytes :=
  let read := if httpMethod = pys! "GET" then app.wsgiGet env else app.wsgiPost env headers
  let left := if httpMethod = pys! "GET" then env.input else app.wsgiPostLeft env headers
  match read with
  | .error e => env.caught e left
  | .ok (req, codec) =>
    let run := f req ctx
    match (HState.init ⟨[], none⟩ : HState Req).call run.steps run.result with
    | (_, .error e) => env.caught e left
    | (_, .ok response) =>
      match codec.res.encode response with
      | .error e => env.caught e left
      | .ok _ => left

/-- `_request_stream` (`_server_sync.py:568-577`), a generator: the rest of the input, the reader, the messages of the last chunk that have not been asked
for, the exception after them, and whether it has ended. A chunk is decoded when it is read; the code decodes message by message when asked. -/
structure Puller (Req : Type) where
  segs : List Bytes
  reader : ReaderState Unit
  ready : List Req
  err : Option Exc
  over : Bool

/-- `next(request_stream)`: the next message, `none` at the end, or an exception. `fuel` bounds the number of reads. -/
def Puller.askAux (cfg : ReaderCfg Req Unit) : Nat → Puller Req → Puller Req × Except Exc (Option Req)
  | fuel, p => match p.ready with
    | m :: ms => ({ p with ready := ms }, .ok (some m))
    | [] => match p.err with
      | some e => ({ p with err := none, over := true }, .error e)
      | none =>
        if p.over then (p, .ok none)
        else match fuel with
          | 0 => (p, .ok none)
          | fuel + 1 =>
            let r := readInput 4096 p.segs
            if r.1.isEmpty then ({ p with segs := r.2, over := true }, .ok none)
            else match feed cfg p.reader r.1 with
              | (ms, .raised e, s) => Puller.askAux cfg fuel ⟨r.2, s, ms, some e, false⟩
              | (ms, .done, s) => Puller.askAux cfg fuel ⟨r.2, s, ms, none, false⟩

def Puller.ask (cfg : ReaderCfg Req Unit) (p : Puller Req) : Puller Req × Except Exc (Option Req) :=
  p.askAux cfg (p.segs.flatten.length + 1)

/-- `n` times `next(request_stream)`: what it says. -/
def Puller.answers (cfg : ReaderCfg Req Unit) : Nat → Puller Req → List (Except Exc (Option Req))
  | 0, _ => []
  | n + 1, p => (p.ask cfg).2 :: Puller.answers cfg n (p.ask cfg).1

/-- `_consume_single_request` — `_server_sync.py:608-618`: the message, or what is raised. -/
def Puller.single (cfg : ReaderCfg Req Unit) (p : Puller Req) : Puller Req × Except Exc Req :=
  match p.ask cfg with
  | (p, .error e) => (p, .error e)
  | (p, .ok none) => (p, .error zeroRequests)
  | (p, .ok (some m)) => match p.ask cfg with
    | (p, .error e) => (p, .error e)
    | (p, .ok none) => (p, .ok m)
    | (p, .ok (some _)) => (p, .error multipleRequests)

/-- One step of a handler: the rest of the request, the metadata, and the exception it raises. -/
def Puller.step (cfg : ReaderCfg Req Unit) (p : Puller Req) (info : Meta) : Step → Puller Req × Meta × Option Exc
  | .update f => (p, f info, none)
  | .recv caught => match p.ask cfg with
    | (p, .ok _) => (p, info, none)
    | (p, .error e) => (p, info, if caught then none else some e)

/-- `_server_sync.py:580-605` `_response_stream`, on the rest of the handler's run. -/
def StreamCfg.leftBody (c : StreamCfg Req Res) (env : Environ) (cfg : ReaderCfg Req Unit) (outcome : Option Exc) :
    List (Act Res) → Puller Req → Meta → List Bytes
  | [], p, _ => match outcome with
    | none => p.segs
    | some e => env.caught e p.segs
  | .step s :: as, p, info => match p.step cfg info s with
    | (p, _, some e) => env.caught e p.segs
    | (p, info, none) => c.leftBody env cfg outcome as p info
  | .emit m :: as, p, info => match c.writer.write m with
    | .error e => env.caught e p.segs
    | .ok _ => c.leftBody env cfg outcome as p info

/-- `_server_sync.py:466-489` — up to the first message, then `_response_stream`. -/
def StreamCfg.leftFirst (c : StreamCfg Req Res) (env : Environ) (cfg : ReaderCfg Req Unit) (outcome : Option Exc) :
    List (Act Res) → Puller Req → Meta → List Bytes
  | [], p, info => match outcome with
    | some e => env.caught e p.segs
    | none => match c.writer.end' c.proto c.sc info.trailers none with
      | .ok _ => p.segs
      | .error e => env.caught e p.segs
  | .step s :: as, p, info => match p.step cfg info s with
    | (p, _, some e) => env.caught e p.segs
    | (p, info, none) => c.leftFirst env cfg outcome as p info
  | .emit m :: as, p, info => c.leftBody env cfg outcome (.emit m :: as) p info

/-- `_server_sync.py:452-465`: the endpoint's function is called. `s` are the messages of the request, on which the function's run depends. -/
def Handler.left (h : Handler Req Res) (c : StreamCfg Req Res) (env : Environ) (cfg : ReaderCfg Req Unit) (s : ReqStream Req) (ctx : RequestContext)
    (p : Puller Req) : List Bytes :=
  match h with
  | .unary f => match p.single cfg with
    | (p, .error e) => env.caught e p.segs
    | (p, .ok m) => c.leftFirst env cfg (f m ctx).toScript.outcome (f m ctx).toScript.acts p .empty
  | .clientStream f => c.leftFirst env cfg (f s ctx).toScript.outcome (f s ctx).toScript.acts p .empty
  | .serverStream f => match p.single cfg with
    | (p, .error e) => env.caught e p.segs
    | (p, .ok m) => c.leftFirst env cfg (f m ctx).outcome (f m ctx).acts p .empty
  | .bidi f => c.leftFirst env cfg (f s ctx).outcome (f s ctx).acts p .empty

/-- `_server_sync.py:411-506` `_handle_stream` with the `except` clause of `__call__`. -/
def App.wsgiStreamLeft (app : App Req Res) (sc : StatusCodec) (env : Environ) (p : Proto) (headers : Headers) (ctx : RequestContext)
    (handler : Handler Req Res) : List Bytes :=
  let comps := p.negotiateStreamCompression headers app.comps
  match app.codecs.get? (p.codecNameFromContentType (headers.getD (pys! "content-type") []) true) with
  | none => env.drain env.input
  | some codec =>
    let cfg : StreamCfg Req Res :=
      { proto := p, sc, codecName := codec.name, comp := comps.2, writer := ⟨codec.res, some comps.2⟩, calls := [] }
    match comps.1 with
    | none => env.drain env.input
    | some reqComp =>
      handler.left cfg env (app.reader codec reqComp) (app.wsgiRequests env codec reqComp) ctx ⟨env.input, ReaderState.init (), [], none, false⟩

/-- `_server_sync.py:192-244` `__call__`, and the returned iterable iterated to its end: what is left of the request body. -/
def App.wsgiLeft (app : App Req Res) (sc : StatusCodec) (env : Environ) : List Bytes :=
  match app.wsgiRoute env with
  | .error e => env.caught e env.input
  | .ok r =>
    match r.ep.handler, r.proto with
    | .unary f, .connect => app.wsgiUnaryLeft env r.httpMethod r.headers r.ctx f
    | handler, p => app.wsgiStreamLeft sc env p r.headers r.ctx handler

end

end Conn
