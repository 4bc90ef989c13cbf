import Verif.Spec.ClientCalls
import Verif.Proofs.Interceptor
import Verif.Proofs.Headers
/-
Lemmas for C94.
-/
namespace Props
open Conn Py Spec

section
variable {Req Res : Type}

theorem passed_apply (k : Kind) : ∀ (is : List Editor) (base : CallOf Req Res k) (a : CallArg Req k) (ctx : RequestContext),
    ∃ notes ctx', Passed k is ctx notes ctx' ∧
      applyInterceptors (F := CallOf Req Res) k (is.map fun e => e.interceptor.resolve (fun (e : Editor) k => e.around k)) base a ctx = (notes ++ (base a ctx').1, (base a ctx').2)
  | [], base, a, ctx => ⟨[], ctx, .nil ctx, rfl⟩
  | e :: is, base, a, ctx => by
    by_cases h : TakesPart e k
    · obtain ⟨notes, ctx', hp, hr⟩ := passed_apply k is base a { ctx with requestHeaders := e.edit ctx.requestHeaders }
      refine ⟨_, ctx', .told h hp, ?_⟩
      rw [List.map_cons, applyInterceptors_cons]
      have hm : (e.interceptor.resolve (F := CallOf Req Res) (fun (e : Editor) k => e.around k)).method k = some (e.around k) := by
        unfold Interceptor.resolve Editor.interceptor
        rcases h with h | h
        · rw [h]; rfl
        · by_cases hc : e.callbacks = true
          · rw [hc]; rfl
          · rw [if_neg hc]
            exact if_pos h
      rw [hm]
      show (_ :: (applyInterceptors (F := CallOf Req Res) k _ base a _).1, (applyInterceptors (F := CallOf Req Res) k _ base a _).2) = _
      rw [hr]
      rfl
    · obtain ⟨notes, ctx', hp, hr⟩ := passed_apply k is base a ctx
      refine ⟨_, ctx', .skip h hp, ?_⟩
      rw [List.map_cons, applyInterceptors_cons]
      have hm : (e.interceptor.resolve (F := CallOf Req Res) (fun (e : Editor) k => e.around k)).method k = none := by
        unfold Interceptor.resolve Editor.interceptor
        rw [if_neg fun hc => h (.inl hc)]
        exact if_neg fun hc => h (.inr hc)
      rw [hm]
      exact hr

/-- only the headers are changed on the way -/
theorem passed_headers {k : Kind} {is : List Editor} {ctx ctx' : RequestContext} {notes : List Note} (h : Passed k is ctx notes ctx') :
    ∃ hs, ctx' = { ctx with requestHeaders := hs } := by
  induction h with
  | nil ctx => exact ⟨_, rfl⟩
  | skip h hr ih => exact ih
  | told h hr ih =>
    obtain ⟨hs, e⟩ := ih
    exact ⟨hs, e⟩

theorem drop'_none {h : HTTPHeaders} {k : List Char} (hn : h.get k = none) : h.filter (fun p => p.1 != lower k) = h :=
  List.filter_eq_self.2 fun p hp => by
    have : p.1 ≠ lower k := fun he => by
      exact (Dict.get?_eq_none_iff _ _).1 hn (he ▸ List.mem_map.2 ⟨p, hp, rfl⟩)
    exact bne_iff_ne.2 this

theorem sentAs_get (c : Client Req Res) {ctx : RequestContext} (hg : ctx.httpMethod = pys! "GET") (data : Bytes) : SentAs c.address ctx (c.unaryRequest ctx data) := by
  unfold Client.unaryRequest
  dsimp only
  rw [if_pos hg]
  refine ⟨hg.symm, fun h => absurd hg h, fun _ => ⟨_, rfl⟩, ?_, rfl⟩
  rw [if_pos hg]
  show HTTPHeaders.drop' (prepareGetParams _ _ _).2 _ = _
  unfold prepareGetParams HTTPHeaders.drop'
  dsimp only
  cases he : HTTPHeaders.get ctx.requestHeaders.allitems (pys! "content-encoding") with
  | some v =>
    dsimp only
    rw [List.filter_filter]
    rfl
  | none =>
    dsimp only
    rw [← List.filter_filter, show ctx.requestHeaders.allitems.filter (fun p => p.1 != pys! "content-encoding") = _ from drop'_none he]
    rfl

theorem sentAs_post (c : Client Req Res) {ctx : RequestContext} (hg : ctx.httpMethod = pys! "POST") (b : List Bytes) (e : Option Exc) :
    SentAs c.address ctx { method := pys! "POST", url := c.url ctx.method, headers := ctx.requestHeaders.allitems, timeoutMs := ctx.timeoutMs, body := b, bodyErr := e } := by
  have hn : ctx.httpMethod ≠ pys! "GET" := by rw [hg]; decide
  exact ⟨hg.symm, fun _ => rfl, fun h => absurd h hn, (if_neg hn).symm, rfl⟩

theorem passed_unique {k : Kind} {is : List Editor} {ctx : RequestContext} {notes notes' : List Note} {ctx1 ctx2 : RequestContext} (h : Passed k is ctx notes ctx1)
    (h' : Passed k is ctx notes' ctx2) : notes = notes' ∧ ctx1 = ctx2 := by
  induction h generalizing notes' with
  | nil => cases h'; exact ⟨rfl, rfl⟩
  | skip hn _ ih => cases h' with
    | skip _ hr => exact ih hr
    | told hy _ => exact absurd hy hn
  | told hy _ ih => cases h' with
    | skip hn _ => exact absurd hy hn
    | told _ hr => obtain ⟨rfl, rfl⟩ := ih hr; exact ⟨rfl, rfl⟩

/-- what a call comes to depends on the HTTP client only through the request that is noted -/
theorem sendRequest_http (c : Client Req Res) (sc : StatusCodec) (http http' : HttpClient) (sink : Sink) (cs : Circumstances) (k : Kind) (arg : CallArg Req k) (ctx : RequestContext)
    (h : ∀ r, Note.sent r ∈ (c.sendRequest sc http sink cs k arg ctx).1 → http'.full r = http.full r ∧ http'.stream r = http.stream r) :
    c.sendRequest sc http' sink cs k arg ctx = c.sendRequest sc http sink cs k arg ctx := by
  have hb : ∀ reqs e, http'.stream (c.streamHttp ctx reqs e) = http.stream (c.streamHttp ctx reqs e) →
      c.bidi sc http'.stream sink cs ctx reqs e = c.bidi sc http.stream sink cs ctx reqs e := by
    intro reqs e he
    unfold Client.streamHttp at he
    unfold Client.bidi
    dsimp only at he ⊢
    rw [he]
  cases k with
  | clientStream =>
    show (_, _) = (_, _)
    rw [hb _ _ (h _ (List.mem_singleton.2 rfl)).2]
  | serverStream =>
    show (_, _) = (_, _)
    rw [hb _ _ (h _ (List.mem_singleton.2 rfl)).2]
  | bidi =>
    show (_, _) = (_, _)
    rw [hb _ _ (h _ (List.mem_singleton.2 rfl)).2]
  | unary =>
    show (_, c.sendUnary sc http' sink cs ctx arg) = (_, c.sendUnary sc http sink cs ctx arg)
    congr 1
    have h : ∀ r, c.unaryHttp ctx arg = some r → http'.full r = http.full r ∧ http'.stream r = http.stream r := fun r hr =>
      h r (List.mem_map.2 ⟨r, by rw [hr]; exact List.mem_singleton.2 rfl, rfl⟩)
    unfold Client.unaryHttp at h
    unfold Client.sendUnary
    cases hp : c.proto with
    | connect =>
      rw [hp] at h
      dsimp only at h ⊢
      unfold Client.connectUnary
      cases hx : c.codec.encode arg with
      | error e => rfl
      | ok d =>
        rw [hx] at h
        dsimp only
        rw [(h _ rfl).1]
    | grpc => rw [hp] at h; exact congrArg Client.single (hb _ _ (h _ rfl).2)
    | grpcWeb => rw [hp] at h; exact congrArg Client.single (hb _ _ (h _ rfl).2)

end
end Props
