import Verif.Proofs.ClientCalls
import Verif.Props.Attempts
/-
C94: what the interceptors of a client are told of a call is what is sent.
-/
namespace Props
open Conn Py Spec

variable {Req Res : Type}

/-- **C94**: the context of a call describes it. The interceptors that take part in calls of its kind are told the context one after the other, each as the one before it has left it; then one request
is sent (none if the message of a Connect unary call cannot be encoded), which is what the context says after the last of them, headers included; and the call comes to what the call without
interceptors comes to with this context. Missing: `use_get` with gRPC and gRPC-Web (`C94_violation_get`). -/
theorem C94_partial (c : Client Req Res) (sc : StatusCodec) (http : HttpClient) (sink : Sink) (cs : Circumstances) (is : List Editor) (k : Kind) (arg : CallArg Req k)
    (method : MethodInfo) (user : UserHeaders) (timeoutMs : Option Int) (useGet : Bool) (hget : k = .unary → useGet = true → c.proto = .connect) :
    ∃ ctx ctx' notes sent, ContextOf c method (decide (k = .unary) && useGet) timeoutMs ctx ∧ Passed k is ctx notes ctx' ∧
      (c.executeWith sc http sink cs is k arg method user timeoutMs useGet).1 = notes ++ sent.map .sent ∧ (∀ r ∈ sent, SentAs c.address ctx' r) ∧
      (sent.length = 1 ∨ sent = [] ∧ k = .unary ∧ c.proto = .connect ∧ ∃ req e, c.codec.encode req = .error e) ∧
      (c.executeWith sc http sink cs is k arg method user timeoutMs useGet).2 = (c.sendRequest sc http sink cs k arg ctx').2 := by
  have key : ∀ ctx, ContextOf c method (decide (k = .unary) && useGet) timeoutMs ctx →
      c.executeWith sc http sink cs is k arg method user timeoutMs useGet =
        applyInterceptors (F := CallOf Req Res) k (is.map fun e => e.interceptor.resolve (fun (e : Editor) k => e.around k)) (c.sendRequest sc http sink cs k) arg ctx →
      ∃ ctx ctx' notes sent, ContextOf c method (decide (k = .unary) && useGet) timeoutMs ctx ∧ Passed k is ctx notes ctx' ∧
        (c.executeWith sc http sink cs is k arg method user timeoutMs useGet).1 = notes ++ sent.map .sent ∧ (∀ r ∈ sent, SentAs c.address ctx' r) ∧
        (sent.length = 1 ∨ sent = [] ∧ k = .unary ∧ c.proto = .connect ∧ ∃ req e, c.codec.encode req = .error e) ∧
        (c.executeWith sc http sink cs is k arg method user timeoutMs useGet).2 = (c.sendRequest sc http sink cs k arg ctx').2 := by
    intro ctx hctx he
    obtain ⟨notes, ctx', hp, hr⟩ := passed_apply k is (c.sendRequest sc http sink cs k) arg ctx
    obtain ⟨hs, hh⟩ := passed_headers hp
    rw [he, hr]
    have hm : ctx'.httpMethod = if decide (k = .unary) && useGet then pys! "GET" else pys! "POST" := by rw [hh]; exact hctx.httpMethod
    cases k with
    | clientStream => exact ⟨ctx, ctx', notes, [_], hctx, hp, rfl, (fun r hr => by cases List.mem_singleton.1 hr; exact sentAs_post c hm _ _), .inl rfl, rfl⟩
    | serverStream => exact ⟨ctx, ctx', notes, [_], hctx, hp, rfl, (fun r hr => by cases List.mem_singleton.1 hr; exact sentAs_post c hm _ _), .inl rfl, rfl⟩
    | bidi => exact ⟨ctx, ctx', notes, [_], hctx, hp, rfl, (fun r hr => by cases List.mem_singleton.1 hr; exact sentAs_post c hm _ _), .inl rfl, rfl⟩
    | unary =>
      refine ⟨ctx, ctx', notes, (c.unaryHttp ctx' arg).toList, hctx, hp, rfl, ?_, ?_, rfl⟩
      · intro r hr
        have hr : c.unaryHttp ctx' arg = some r := Option.mem_toList.1 hr
        unfold Client.unaryHttp at hr
        cases useGet with
        | true =>
          rw [hget rfl rfl] at hr
          dsimp only at hr
          cases hx : c.codec.encode arg with
          | error e => rw [hx] at hr; cases hr
          | ok d => rw [hx] at hr; cases hr; exact sentAs_get c hm _
        | false =>
          have hn : ¬ ctx'.httpMethod = pys! "GET" := by rw [hm]; decide
          cases hpr : c.proto with
          | connect =>
            rw [hpr] at hr
            dsimp only at hr
            cases hx : c.codec.encode arg with
            | error e => rw [hx] at hr; cases hr
            | ok d =>
              rw [hx] at hr
              cases hr
              unfold Client.unaryRequest
              dsimp only
              rw [if_neg hn]
              exact sentAs_post c hm _ _
          | grpc => rw [hpr] at hr; cases hr; exact sentAs_post c hm _ _
          | grpcWeb => rw [hpr] at hr; cases hr; exact sentAs_post c hm _ _
      · unfold Client.unaryHttp
        cases hpr : c.proto with
        | connect =>
          dsimp only
          cases hx : c.codec.encode arg with
          | error e => exact .inr ⟨rfl, rfl, rfl, _, _, hx⟩
          | ok d => exact .inl rfl
        | grpc => exact .inl rfl
        | grpcWeb => exact .inl rfl
  have hc : ∀ get stream, ContextOf c method get timeoutMs (c.context method (if get then pys! "GET" else pys! "POST") user timeoutMs stream) := fun get stream =>
    ⟨rfl, rfl, fun t ht h0 => by subst ht; exact if_neg h0, fun ht => by subst ht; rfl, rfl⟩
  cases k with
  | unary => exact key _ (hc useGet false) (by unfold Client.executeWith clientExecutor; rw [List.map_map]; rfl)
  | clientStream => exact key _ (hc false true) (by unfold Client.executeWith clientExecutor; rw [List.map_map]; rfl)
  | serverStream => exact key _ (hc false true) (by unfold Client.executeWith clientExecutor; rw [List.map_map]; rfl)
  | bidi => exact key _ (hc false true) (by unfold Client.executeWith clientExecutor; rw [List.map_map]; rfl)

/-- **C94, the requests noted are the requests made**: a call is the same with another HTTP client that responds alike to the requests that are noted as sent. -/
theorem C94_sent (c : Client Req Res) (sc : StatusCodec) (http http' : HttpClient) (sink : Sink) (cs : Circumstances) (is : List Editor) (k : Kind) (arg : CallArg Req k)
    (method : MethodInfo) (user : UserHeaders) (timeoutMs : Option Int) (useGet : Bool)
    (h : ∀ r, Note.sent r ∈ (c.executeWith sc http sink cs is k arg method user timeoutMs useGet).1 → http'.full r = http.full r ∧ http'.stream r = http.stream r) :
    c.executeWith sc http' sink cs is k arg method user timeoutMs useGet = c.executeWith sc http sink cs is k arg method user timeoutMs useGet := by
  have key : ∀ ctx, (∀ http, c.executeWith sc http sink cs is k arg method user timeoutMs useGet =
        applyInterceptors (F := CallOf Req Res) k (is.map fun e => e.interceptor.resolve (fun (e : Editor) k => e.around k)) (c.sendRequest sc http sink cs k) arg ctx) →
      c.executeWith sc http' sink cs is k arg method user timeoutMs useGet = c.executeWith sc http sink cs is k arg method user timeoutMs useGet := by
    intro ctx he
    rw [he] at h
    rw [he, he]
    obtain ⟨notes, ctx', hp, hr⟩ := passed_apply k is (c.sendRequest sc http sink cs k) arg ctx
    obtain ⟨notes2, ctx2, hp2, hr2⟩ := passed_apply k is (c.sendRequest sc http' sink cs k) arg ctx
    obtain ⟨rfl, rfl⟩ := passed_unique hp2 hp
    rw [hr] at h
    rw [hr, hr2, sendRequest_http c sc http http' sink cs k arg ctx2 fun r hr => h r (List.mem_append_right _ hr)]
  cases k with
  | unary => exact key (c.context method (if useGet then pys! "GET" else pys! "POST") user timeoutMs false) fun _ => by unfold Client.executeWith clientExecutor; rw [List.map_map]; rfl
  | clientStream => exact key (c.context method (pys! "POST") user timeoutMs true) fun _ => by unfold Client.executeWith clientExecutor; rw [List.map_map]; rfl
  | serverStream => exact key (c.context method (pys! "POST") user timeoutMs true) fun _ => by unfold Client.executeWith clientExecutor; rw [List.map_map]; rfl
  | bidi => exact key (c.context method (pys! "POST") user timeoutMs true) fun _ => by unfold Client.executeWith clientExecutor; rw [List.map_map]; rfl

/-- **C94, without interceptors**: the calls of all four kinds are those the other properties speak of, whole streams of requests and the exceptions after them included. -/
theorem C94_bare (c : Client Req Res) (sc : StatusCodec) (http : HttpClient) (sink : Sink) (cs : Circumstances) (method : MethodInfo) (user : UserHeaders)
    (timeoutMs : Option Int) (useGet : Bool) (req : Req) (reqs : List Req) (srcErr : Option Exc) :
    (c.executeWith sc http sink cs [] .unary req method user timeoutMs useGet).2 = c.executeUnary sc http sink cs req method user timeoutMs useGet ∧
    (c.executeWith sc http sink cs [] .clientStream (reqs, srcErr) method user timeoutMs useGet).2 =
      c.executeClientStream sc http sink cs reqs srcErr method user timeoutMs ∧
    (c.executeWith sc http sink cs [] .serverStream req method user timeoutMs useGet).2 = c.executeServerStream sc http sink cs req method user timeoutMs ∧
    (c.executeWith sc http sink cs [] .bidi (reqs, srcErr) method user timeoutMs useGet).2 =
      c.executeBidiStream sc http sink cs reqs srcErr method user timeoutMs := ⟨rfl, rfl, rfl, rfl⟩

/-- **C94 is false of `use_get` with gRPC and gRPC-Web**: the interceptors are told GET, and the request is a POST. -/
theorem C94_violation_get (c : Client Req Res) (hc : c.proto ≠ .connect) (sc : StatusCodec) (http : HttpClient) (sink : Sink) (cs : Circumstances) (is : List Editor) (req : Req)
    (method : MethodInfo) (user : UserHeaders) (timeoutMs : Option Int) :
    ∃ ctx ctx' notes r, ctx.httpMethod = pys! "GET" ∧ ctx'.httpMethod = pys! "GET" ∧ Passed .unary is ctx notes ctx' ∧
      (c.executeWith sc http sink cs is .unary req method user timeoutMs true).1 = notes ++ [.sent r] ∧ r.method = pys! "POST" := by
  obtain ⟨notes, ctx', hp, hr⟩ := passed_apply .unary is (c.sendRequest sc http sink cs .unary) req (c.context method (pys! "GET") user timeoutMs false)
  obtain ⟨hs, hh⟩ := passed_headers hp
  have he : c.executeWith sc http sink cs is .unary req method user timeoutMs true =
      applyInterceptors (F := CallOf Req Res) .unary (is.map fun e => e.interceptor.resolve (fun (e : Editor) k => e.around k)) (c.sendRequest sc http sink cs .unary) req
        (c.context method (pys! "GET") user timeoutMs false) := by
    unfold Client.executeWith clientExecutor
    rw [List.map_map]
    rfl
  refine ⟨_, ctx', notes, c.streamHttp ctx' [req] none, rfl, by rw [hh]; rfl, hp, ?_, rfl⟩
  rw [he, hr]
  show notes ++ (c.unaryHttp ctx' req).toList.map .sent = _
  congr 1
  unfold Client.unaryHttp
  cases hpr : c.proto with
  | connect => exact absurd hpr hc
  | grpc => rfl
  | grpcWeb => rfl

/-! ### the hypotheses are met -/

/-- one for streams of responses, one with `on_start` that adds a header, one for all calls -/
def demoEditors : List Editor :=
  [⟨1, fun k => k == .serverStream, false, fun h => h.setItem (pys! "x-a") (pys! "1")⟩, ⟨2, fun _ => false, true, fun h => h.setItem (pys! "x-b") (pys! "2")⟩,
   ⟨3, fun _ => true, false, id⟩]

/-- what is noted, in short -/
def shortNote : Note → Nat × List Char × List (Option (List Char))
  | .told n ctx => (n, ctx.httpMethod, [ctx.requestHeaders.get (pys! "x-a"), ctx.requestHeaders.get (pys! "x-b")])
  | .sent r => (0, r.method, [r.headers.get (pys! "x-a"), r.headers.get (pys! "x-b")])

def silentHttp : HttpClient := ⟨fun _ => .error (.other .runtimeError []), fun _ => .error (.other .runtimeError [])⟩

example (f : Flavor) :
    ((demoClient f .connect).executeWith demoStatus silentHttp none default demoEditors .unary [1] demoMethod (.mapping []) none true).1.map shortNote =
      [(2, pys! "GET", [none, none]), (3, pys! "GET", [none, some (pys! "2")]), (0, pys! "GET", [none, some (pys! "2")])] ∧
    ((demoClient f .grpc).executeWith demoStatus silentHttp none default demoEditors .serverStream [1] demoMethod (.mapping []) none false).1.map shortNote =
      [(1, pys! "POST", [none, none]), (2, pys! "POST", [some (pys! "1"), none]), (3, pys! "POST", [some (pys! "1"), some (pys! "2")]),
       (0, pys! "POST", [some (pys! "1"), some (pys! "2")])] ∧
    ((demoClient f .grpc).executeWith demoStatus silentHttp none default demoEditors .unary [1] demoMethod (.mapping []) none true).1.map shortNote =
      [(2, pys! "GET", [none, none]), (3, pys! "GET", [none, some (pys! "2")]), (0, pys! "POST", [none, some (pys! "2")])] := by
  cases f <;> exact ⟨by decide +kernel, by decide +kernel, by decide +kernel⟩

/-- `C94_sent`: two HTTP clients that respond differently to everything but the request of the call -/
example (f : Flavor) : (∀ r, Note.sent r ∈ ((demoClient f .connect).executeWith demoStatus silentHttp none default demoEditors .unary [1] demoMethod (.mapping []) none false).1 →
      r.method = pys! "POST") ∧
    ∃ r, Note.sent r ∈ ((demoClient f .connect).executeWith demoStatus silentHttp none default demoEditors .unary [1] demoMethod (.mapping []) none false).1 := by
  cases f <;> exact ⟨(fun r hr => by
    rcases List.mem_cons.1 hr with h | hr
    · cases h
    rcases List.mem_cons.1 hr with h | hr
    · cases h
    cases List.mem_singleton.1 hr
    rfl), _, List.mem_cons_of_mem _ (List.mem_cons_of_mem _ (List.mem_singleton.2 rfl))⟩

end Props
