import Verif.Spec.Relay
import Verif.Model.Interceptor
/-
Services that answer streaming calls by calling another service of this library: chains of any length (C95).
-/
namespace Spec
open Conn Py

section
variable {Req Res : Type}

/-- The kind of a handler. -/
def kindOf : Handler Req Res → Kind
  | .unary _ => .unary
  | .clientStream _ => .clientStream
  | .serverStream _ => .serverStream
  | .bidi _ => .bidi

/-- `script` is the run of the handler when it is called with the request messages `reqs`. -/
def RunOn (handler : Handler Req Res) (reqs : List Req) (ctx : RequestContext) (script : Script Res) : Prop :=
  ∃ req h0, Starts ⟨reqs, none⟩ ctx handler req h0 script

/-- The messages a run produces. -/
def produced : List (Act Res) → List Res
  | [] => []
  | .emit m :: as => m :: produced as
  | .step _ :: as => produced as

/-- Its other actions. -/
def stepsOf : List (Act Res) → List Step
  | [] => []
  | .emit _ :: as => stepsOf as
  | .step s :: as => s :: stepsOf as

/-- Its actions before the first message. -/
def stepsBefore : List (Act Res) → List Step
  | [] => []
  | .emit _ :: _ => []
  | .step s :: as => s :: stepsBefore as

/-- What a run produces: its messages, then the exception it ends with, if any. -/
def streamed (script : Script Res) : List Res × Option Exc := (produced script.acts, script.outcome)

/-- What a streaming call over the hop gives its caller: the messages, then the exception, if any. (A client-stream call gives one message or an exception.) -/
def Hop.streams (h : Hop Req Res) (sc : StatusCodec) (k : Kind) (reqs : List Req) (ctx : RequestContext) : List Res × Option Exc :=
  match k, reqs with
  | .serverStream, [req] =>
    let r := h.client.executeServerStream sc (h.http ctx) none (h.circumstances ctx) req h.method (h.user ctx) (h.timeout ctx)
    (r.messages, r.exc)
  | .bidi, _ =>
    let r := h.client.executeBidiStream sc (h.http ctx) none (h.circumstances ctx) reqs none h.method (h.user ctx) (h.timeout ctx)
    (r.messages, r.exc)
  | .clientStream, _ =>
    match (h.client.executeClientStream sc (h.http ctx) none (h.circumstances ctx) reqs none h.method (h.user ctx) (h.timeout ctx)).2 with
    | .ok r => ([r], none)
    | .error e => ([], some e)
  | _, _ => ([], none)      -- not considered

/-- The application of the hop serves its method with the handler; both sides agree, by any of the protocols, on how the requests are sent; the network
works. -/
structure Hop.ServesStream (h : Hop Req Res) (sc : StatusCodec) (reqs : List Req) (handler : Handler Req Res) : Prop where
  lawful : h.client.proto ≠ .connect → sc.Lawful
  ordinary : Ordinary h.app
  call : ∀ ctx, Calm (h.circumstances ctx) ∧ StreamCall h.client h.app h.codec h.method h.registered handler reqs (h.user ctx) (h.timeout ctx)
  network : ∀ ctx, OverWsgi h sc (h.http ctx) ∨ OverAsgi h sc (h.http ctx)

/-- The message can be sent over the hop: it can be encoded, is within the limit of the caller and below 4 GiB. -/
def Hop.HoldsMessage (h : Hop Req Res) (r : Res) : Prop :=
  ∃ b, h.codec.res.encode r = .ok b ∧ (∀ n, h.client.readMax = some n → (b.length : Int) ≤ n) ∧ ((responseComp h.client h.app).compress b).length < 2 ^ 32

/-- The hop, whose application answers with `f`, can carry the messages of `origin`, and its errors with the trailers of `f`. -/
structure Hop.CarriesStream (h : Hop Req Res) (sc : StatusCodec) (reqs : List Req) (origin f : Handler Req Res) : Prop where
  messages : ∀ ctx script, RunOn origin reqs ctx script → ∀ r ∈ produced script.acts, h.HoldsMessage r
  ending : ∀ ctx ctx' script script' e, RunOn origin reqs ctx script → RunOn f reqs ctx' script' → ReadingOf (script.outcome.map errorOf) e →
    h.HoldsEnd sc (metadataOf (stepsOf script'.acts)).trailers e

/-- The response metadata leaves the fields of the protocols alone: no content encoding, and no trailers with the names of gRPC. -/
structure ModestRun (script : Script Res) : Prop where
  encoding : fieldValues (metadataOf (stepsBefore script.acts)).headers.allitems (pys! "content-encoding") = []
  built : Props.Built (metadataOf (stepsOf script.acts)).trailers
  reserved : ∀ n ∈ grpcReserved, (metadataOf (stepsOf script.acts)).trailers.getall n = []

/-- The runs of handlers considered: what they raise is an `Exception`, with well-formed debug renderings, that fits a protobuf message. -/
structure SendableRun (script : Script Res) : Prop where
  modest : ModestRun script
  errors : ∀ e, script.outcome = some e → e.isException = true ∧ DebugOk (errorOf e) ∧ FitsAnyHop (errorOf e)

/-- Handlers of one kind that answer `reqs` by a chain of calls that ends at `origin`: `origin` itself, and every handler that calls a service whose handler
is one of the chain, with the requests it got, and produces and raises what the call does. Every hop satisfies `P`, and can carry the messages and errors of
`origin`. -/
inductive StreamChain (sc : StatusCodec) (reqs : List Req) (origin : Handler Req Res) (P : Hop Req Res → Prop) : Handler Req Res → Prop where
  | origin : StreamChain sc reqs origin P origin
  | relay {f g : Handler Req Res} (hop : Hop Req Res) (hp : P hop) (hf : StreamChain sc reqs origin P f) (hs : hop.ServesStream sc reqs f)
      (hr : hop.CarriesStream sc reqs origin f) (hk : kindOf g = kindOf origin) (hm : ∀ ctx script, RunOn g reqs ctx script → ModestRun script)
      (hg : ∀ ctx script, RunOn g reqs ctx script → streamed script = hop.streams sc (kindOf origin) reqs ctx) : StreamChain sc reqs origin P g

/-- The caller gets what the handler produced: the same messages, then the same end, or a `ConnectError` with the same code, message and details. -/
def RelayedStream (run got : List Res × Option Exc) : Prop :=
  got.1 = run.1 ∧ match run.2 with
    | none => got.2 = none
    | some e => ∃ e', got.2 = some (.connect e') ∧ report e' = report (errorOf e)

end

end Spec
