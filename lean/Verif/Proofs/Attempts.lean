import Verif.Spec.Attempts
/-
Lemmas for C88.
-/
namespace Props
open Conn Py Spec

section
variable {Req Res : Type}

theorem run_andThen (rd : Rat → Rat) (next : CallFn Req Res) (k : Except Exc Res → Plan Req Res) : ∀ (p : Plan Req Res) (s : CallState),
    (Spec.Plan.andThen p k).run rd next s = (k (p.run rd next s).2).run rd next (p.run rd next s).1 := by
  intro p
  induction p with
  | result r => intro s; rfl
  | next req k' ih => intro s; exact ih _ _
  | edit f p ih => intro s; exact ih _
  | wait d p ih => intro s; exact ih _
  | look k' ih => intro s; exact ih _ _

theorem run_around (rd : Rat → Rat) (next : CallFn Req Res) (inner : Req → Plan Req Res) : ∀ (p : Plan Req Res) (s : CallState),
    (Spec.Plan.around inner p).run rd next s = p.run rd (fun req => (inner req).run rd next) s := by
  intro p
  induction p with
  | result r => intro s; rfl
  | next req k ih =>
    intro s
    show (Spec.Plan.andThen (inner req) fun r => Spec.Plan.around inner (k r)).run rd next s = _
    rw [run_andThen, ih]
    rfl
  | edit f p ih => intro s; exact ih _
  | wait d p ih => intro s; exact ih _
  | look k ih => intro s; exact ih _ _

theorem executor_run (rd : Rat → Rat) (base : Kind → CallFn Req Res) : ∀ (is : List (Req → Plan Req Res)) (req : Req) (s : CallState),
    clientExecutor (F := fun _ => CallFn Req Res) (M := Empty) (fun m => nomatch m) (is.map (Plan.interceptor rd)) base .unary req s =
      (asOne is req).run rd (base .unary) s := by
  intro is
  unfold clientExecutor applyInterceptors
  induction is with
  | nil => intro req s; rfl
  | cons p ps ih =>
    intro req s
    rw [List.map_cons, List.map_cons, List.reverse_cons, List.foldl_append]
    show (p req).run rd _ s = (Spec.Plan.around (asOne ps) (p req)).run rd (base .unary) s
    rw [run_around]
    congr 1
    funext req s
    exact ih req s

theorem later_ge (t d : Rat) : t ≤ later t d := by
  unfold later
  split <;> grind

theorem sendUnary_just (c : Client Req Res) (sc : StatusCodec) (sink : Sink) (cs : Circumstances) (ctx : RequestContext) (req : Req) :
    SendsJust (c.unaryHttp ctx req).toList fun h => c.sendUnary sc h sink cs ctx req := by
  have hb : ∀ r, r = (⟨pys! "POST", c.url ctx.method, ctx.requestHeaders.allitems, ctx.timeoutMs,
        (streamingContent ⟨c.codec, some c.send⟩ [req] none).1, (streamingContent ⟨c.codec, some c.send⟩ [req] none).2⟩ : HttpRequest) →
      SendsJust (Res := Res) [r] fun h => Client.single (c.bidi sc h.stream sink cs ctx [req] none) := by
    rintro r rfl
    refine ⟨?_, Nat.le_refl _, ?_⟩
    · intro h h' hh
      dsimp only
      unfold Client.bidi
      dsimp only
      rw [(hh _ (List.mem_singleton.2 rfl)).2]
    · intro r hr h e _ he
      rw [List.mem_singleton] at hr
      subst hr
      dsimp only
      unfold Client.bidi
      dsimp only
      rw [he]
      dsimp only
      have : leaveWith c.flavor cs (some (.connect e)) none = some (.connect e) := by
        unfold leaveWith
        cases c.flavor <;> rfl
      rw [this]
      rfl
  unfold Client.unaryHttp Client.sendUnary
  cases hp : c.proto with
  | grpc => exact hb _ rfl
  | grpcWeb => exact hb _ rfl
  | connect =>
    dsimp only
    unfold Client.connectUnary
    cases c.codec.encode req with
    | error e => exact ⟨fun _ _ _ => rfl, Nat.zero_le _, (fun _ hr => by cases hr)⟩
    | ok data =>
      dsimp only [Option.toList]
      refine ⟨?_, Nat.le_refl _, ?_⟩
      · intro h h' hh
        dsimp only
        rw [(hh _ (List.mem_singleton.2 rfl)).1]
      · intro r hr h e he _
        rw [List.mem_singleton] at hr
        subst hr
        dsimp only
        rw [he]
        rfl

/-- a call without interceptors, but with these headers -/
def plainCall (c : Client Req Res) (sc : StatusCodec) (ctx : RequestContext) (headers : Headers) (req : Req) (http : HttpClient) (sink : Sink)
    (cs : Circumstances) : Sink × Except Exc Res :=
  c.sendUnary sc http sink cs { ctx with requestHeaders := headers } req

theorem run_follows (c : Client Req Res) (rd : Rat → Rat) (sc : StatusCodec) (net : Network) (ctx : RequestContext) (e : Option Rat) :
    ∀ (p : Plan Req Res) (s : CallState), s.ctx = { ctx with requestHeaders := s.ctx.requestHeaders } → s.end_ = e →
    ∃ as rss, Tries (fun t => remainingMs rd e t) p s.ctx.requestHeaders s.now as (p.run rd (c.attempt rd sc net) s).2 ∧
      EachAlone (plainCall c sc ctx) net (s.sent.map (·.1)) s.sink as rss (p.run rd (c.attempt rd sc net) s).1.sink ∧
      rss = as.map (fun a => (c.unaryHttp { ctx with requestHeaders := a.headers } a.req).toList) ∧
      (p.run rd (c.attempt rd sc net) s).1.sent = s.sent ++ (as.zip rss).flatMap fun x => x.2.map fun r => (r, timeoutSeconds rd e x.1.start) := by
  intro p
  induction p with
  | result r => intro s _ _; exact ⟨[], [], .result .., .nil .., rfl, by simp [Plan.run]⟩
  | next req k ih =>
    intro s hs he
    obtain ⟨as, rss, h1, h2, h3, h4⟩ := ih (c.attempt rd sc net req s).2 (c.attempt rd sc net req s).1 hs he
    refine ⟨⟨req, s.ctx.requestHeaders, s.now, (c.attempt rd sc net req s).2, (c.attempt rd sc net req s).1.now⟩ :: as,
      (c.unaryHttp s.ctx req).toList :: rss, .next (later_ge ..) h1, ?_, ?_, ?_⟩
    · refine .cons (sink' := (c.attempt rd sc net req s).1.sink) ?_ ?_ ?_
      · show c.sendUnary sc _ s.sink _ { ctx with requestHeaders := s.ctx.requestHeaders } req = _
        rw [← hs]
        rfl
      · intro sink cs
        have := sendUnary_just c sc sink cs s.ctx req
        rw [hs] at this
        rw [hs]
        exact this
      · have : (c.attempt rd sc net req s).1.sent.map (·.1) = s.sent.map (·.1) ++ (c.unaryHttp s.ctx req).toList := by
          show (s.sent ++ _).map _ = _
          rw [List.map_append, List.map_map]
          congr 1
          exact List.map_id _
        rw [this] at h2
        exact h2
    · rw [List.map_cons, ← h3]
      dsimp only
      rw [← hs]
    · show (Plan.run rd _ (k (c.attempt rd sc net req s).2) (c.attempt rd sc net req s).1).1.sent = _
      rw [h4]
      show (s.sent ++ _) ++ _ = _
      rw [List.append_assoc, List.zip_cons_cons, List.flatMap_cons, he]
  | edit f p ih => intro s hs he; obtain ⟨as, rss, h1, h2⟩ := ih { s with ctx := { s.ctx with requestHeaders := f s.ctx.requestHeaders } } (by rw [hs]) he; exact ⟨as, rss, .edit h1, h2⟩
  | wait d p ih => intro s hs he; obtain ⟨as, rss, h1, h2⟩ := ih { s with now := later s.now d } hs he; exact ⟨as, rss, .wait h1, h2⟩
  | look k ih =>
    intro s hs he
    obtain ⟨as, rss, h1, h2⟩ := ih (remainingMs rd s.end_ s.now) s hs he
    refine ⟨as, rss, .look ?_, h2⟩
    rw [← he]
    rw [← he] at h1
    exact h1

/-! ### interceptors that pass the request on -/

theorem passes_andThen {req : Req} {k : Except Exc Res → Plan Req Res} (hk : ∀ r, PassesOn req (k r)) {p : Plan Req Res} (hp : PassesOn req p) :
    PassesOn req (Spec.Plan.andThen p k) := by
  induction hp with
  | result r => exact hk r
  | next _ ih => exact .next ih
  | wait _ ih => exact .wait ih
  | look _ ih => exact .look ih

theorem passes_around {req : Req} {inner : Req → Plan Req Res} (hi : PassesOn req (inner req)) {p : Plan Req Res} (hp : PassesOn req p) :
    PassesOn req (Spec.Plan.around inner p) := by
  induction hp with
  | result r => exact .result r
  | next _ ih => exact passes_andThen ih hi
  | wait _ ih => exact .wait ih
  | look _ ih => exact .look ih

theorem passes_asOne : ∀ (is : List (Req → Plan Req Res)), (∀ p ∈ is, ∀ req, PassesOn req (p req)) → ∀ req, PassesOn req (asOne is req)
  | [], _, req => .next fun r => .result r
  | p :: ps, h, req => passes_around (passes_asOne ps (fun q hq => h q (List.mem_cons_of_mem _ hq)) req) (h p (List.mem_cons_self ..) req)

theorem follows_passes {left : Rat → Option Rat} {req : Req} {p : Plan Req Res} {h : Headers} {t : Rat} {as : List (Attempt Req Res)} {r : Except Exc Res}
    (hf : Tries left p h t as r) (hp : PassesOn req p) : ∀ a ∈ as, a.req = req ∧ a.headers = h := by
  induction hf with
  | result r h t => intro a ha; cases ha
  | next ht hf ih =>
    cases hp with
    | next hk =>
      intro a ha
      rcases List.mem_cons.1 ha with rfl | ha
      · exact ⟨rfl, rfl⟩
      · exact ih (hk _) a ha
  | edit hf ih => cases hp
  | wait hf ih => cases hp with | wait hk => exact ih hk
  | look hf ih => cases hp with | look hk => exact ih (hk _)

/-- attempts are made one after the other -/
theorem follows_order {left : Rat → Option Rat} {p : Plan Req Res} {h : Headers} {t : Rat} {as : List (Attempt Req Res)} {r : Except Exc Res}
    (hf : Tries left p h t as r) : (∀ a ∈ as, t ≤ a.start ∧ a.start ≤ a.stop) ∧ as.Pairwise fun a b => a.stop ≤ b.start := by
  induction hf with
  | result r h t => exact ⟨(fun a ha => by cases ha), .nil⟩
  | @next req k h t t' r r' as ht hf ih =>
    refine ⟨?_, .cons (fun b hb => (ih.1 b hb).1) ih.2⟩
    intro a ha
    rcases List.mem_cons.1 ha with rfl | ha
    · exact ⟨by show t ≤ t; grind, ht⟩
    · refine ⟨?_, (ih.1 a ha).2⟩
      have := (ih.1 a ha).1
      grind
  | edit hf ih => exact ih
  | @wait d k h t r as hf ih =>
    refine ⟨fun a ha => ⟨?_, (ih.1 a ha).2⟩, ih.2⟩
    have := (ih.1 a ha).1
    split at this <;> grind
  | look hf ih => exact ih

theorem separate_congr {plain plain' : Headers → Req → HttpClient → Sink → Circumstances → Sink × Except Exc Res} {net : Network} {before : List HttpRequest}
    {sink sink' : Sink} {as : List (Attempt Req Res)} {rss : List (List HttpRequest)} (h : EachAlone plain net before sink as rss sink')
    (hp : ∀ a ∈ as, plain a.headers a.req = plain' a.headers a.req) : EachAlone plain' net before sink as rss sink' := by
  induction h with
  | nil before sink => exact .nil ..
  | @cons _ _ _ _ a _ _ _ hcall hsent _ ih =>
    have ha := hp a (List.mem_cons_self ..)
    refine .cons ?_ ?_ (ih fun b hb => hp b (List.mem_cons_of_mem _ hb))
    · rw [← ha]; exact hcall
    · intro sink cs; rw [← ha]; exact hsent sink cs

/-! ### what is recorded -/

theorem add_truthy (h : Headers) (k v : Str) : (h.add k v).truthy = true := by
  have hset : ∀ (d : Dict Str Str) (k v : Str), (d.set k v) ≠ [] := by
    intro d k v
    cases d with
    | nil => simp [Dict.set]
    | cons p d =>
      obtain ⟨a, b⟩ := p
      unfold Dict.set
      split <;> simp
  have : (h.add k v).store ≠ [] := by
    unfold Headers.add
    dsimp only
    split
    · rename_i hc
      intro he
      have he : h.store = [] := he
      rw [he] at hc
      cases hc
    · exact hset _ _ _
  unfold Headers.truthy Headers.len
  cases hs : (h.add k v).store with
  | nil => exact absurd hs this
  | cons a l => rfl

theorem sortFields_truthy : ∀ (l : HTTPHeaders) (hs ts : Headers), hs.truthy = true ∨ (∃ p ∈ l, startsWith (pys! "trailer-") p.1 = false) →
    (sortFields (hs, ts) l).1.truthy = true
  | [], hs, ts, h => by
    rcases h with h | ⟨p, hp, _⟩
    · exact h
    · cases hp
  | (k, v) :: l, hs, ts, h => by
    unfold sortFields
    cases hk : startsWith (pys! "trailer-") k with
    | true =>
      rw [if_pos rfl]
      refine sortFields_truthy l _ _ ?_
      rcases h with h | ⟨p, hp, hpk⟩
      · exact .inl h
      · rcases List.mem_cons.1 hp with rfl | hp
        · rw [hk] at hpk; cases hpk
        · exact .inr ⟨p, hp, hpk⟩
    | false =>
      rw [if_neg (by decide)]
      exact sortFields_truthy l _ _ (.inl (add_truthy ..))

theorem get?_pair {v : Str} {k : Str} : ∀ {d : Dict Str Str}, d.get? k = some v → (k, v) ∈ d
  | [], h => by cases h
  | (k', v') :: d, h => by
    unfold Dict.get? at h
    split at h
    · rename_i hk
      cases h
      rw [hk]
      exact List.mem_cons_self ..
    · exact List.mem_cons_of_mem _ (get?_pair h)

/-- A response with a content type replaces the headers recorded before. -/
theorem recorded_anew (h : Option Headers) (f : HTTPHeaders) (hf : f.getD (pys! "content-type") [] ≠ []) :
    handleResponseHeaders (some ⟨h, none⟩) f = handleResponseHeaders (some .new) f := by
  have : (sortFields (Headers.empty, Headers.empty) f).1.truthy = true := by
    apply sortFields_truthy
    unfold HTTPHeaders.getD at hf
    cases hg : f.get (pys! "content-type") with
    | none => rw [hg] at hf; exact absurd rfl hf
    | some v =>
      refine .inr ⟨_, get?_pair hg, ?_⟩
      show startsWith (pys! "trailer-") (lower (pys! "content-type")) = false
      decide +kernel
  show some _ = some _
  dsimp only
  rw [this]
  rfl

theorem validStream_type {p : Proto} {name ct : Str} (h : p.validateStream name ct = none) : ct ≠ [] := by
  rintro rfl
  cases p with
  | connect =>
    have h : connectValidateStream name [] = none := h
    unfold connectValidateStream at h
    simp [startsWith] at h
  | grpc =>
    have h : grpcValidateStream (pys! "application/grpc") (pys! "application/grpc+") name [] = none := h
    unfold grpcValidateStream at h
    simp [startsWith] at h
  | grpcWeb =>
    have h : grpcValidateStream (pys! "application/grpc-web") (pys! "application/grpc-web+") name [] = none := h
    unfold grpcValidateStream at h
    simp [startsWith] at h

theorem validResponse_type {name ct : Str} {status : Int} (h : connectValidateResponse name status ct = none) : ct ≠ [] := by
  rintro rfl
  have hn : normalizeContentType [] = [] := by decide +kernel
  unfold connectValidateResponse at h
  dsimp only at h
  rw [hn] at h
  split at h
  · rw [if_neg (by decide)] at h; cases h
  · rw [if_pos (by decide)] at h; cases h

theorem sendUnary_anew (c : Client Req Res) (sc : StatusCodec) (http : HttpClient) (hs : Option Headers) (cs : Circumstances) (ctx : RequestContext) (req : Req)
    {m : Res} (hm : (c.sendUnary sc http (some ⟨hs, none⟩) cs ctx req).2 = .ok m) :
    c.sendUnary sc http (some ⟨hs, none⟩) cs ctx req = c.sendUnary sc http (some .new) cs ctx req := by
  have key : ∀ hm : (Client.single (c.bidi sc http.stream (some ⟨hs, none⟩) cs ctx [req] none)).2 = .ok m,
      Client.single (c.bidi sc http.stream (some ⟨hs, none⟩) cs ctx [req] none) = Client.single (c.bidi sc http.stream (some .new) cs ctx [req] none) := by
    intro hm
    unfold Client.bidi at hm ⊢
    dsimp only at hm ⊢
    cases hr : http.stream ⟨pys! "POST", c.url ctx.method, ctx.requestHeaders.allitems, ctx.timeoutMs,
        (streamingContent ⟨c.codec, some c.send⟩ [req] none).1, (streamingContent ⟨c.codec, some c.send⟩ [req] none).2⟩ with
    | error e =>
      rw [hr] at hm
      dsimp only at hm
      cases hl : leaveWith c.flavor cs (some e) none with
      | none => rw [hl] at hm; cases hm
      | some e => rw [hl] at hm; cases hm
    | ok resp =>
      rw [hr] at hm
      dsimp only at hm ⊢
      by_cases hv : resp.headers.getD (pys! "content-type") [] = []
      · have hi : (c.inside sc (some ⟨hs, none⟩) resp cs).messages = [] ∧ (c.inside sc (some ⟨hs, none⟩) resp cs).exc ≠ none := by
          unfold Client.inside
          dsimp only
          split
          · cases hvs : c.proto.validateStream c.codec.name (resp.headers.getD (pys! "content-type") []) with
            | none => exact absurd hv (validStream_type hvs)
            | some e => exact ⟨rfl, by simp⟩
          · cases resp.bodyErr with
            | some e => exact ⟨rfl, by simp⟩
            | none =>
              dsimp only
              cases ConnectErr.fromResponse resp.status resp.chunks.flatten <;> exact ⟨rfl, by simp⟩
        exfalso
        generalize c.inside sc (some ⟨hs, none⟩) resp cs = i at hi hm
        unfold Client.single consumeSingle at hm
        cases hl : leaveWith c.flavor cs i.exc resp.exitErr with
        | none => rw [hl] at hm; dsimp only at hm; rw [hi.1] at hm; cases hm
        | some e => rw [hl] at hm; dsimp only at hm; rw [hi.1] at hm; cases hm
      · have hi : c.inside sc (some ⟨hs, none⟩) resp cs = c.inside sc (some .new) resp cs := by
          unfold Client.inside
          rw [recorded_anew hs _ hv]
        rw [hi]
  unfold Client.sendUnary at hm ⊢
  cases hp : c.proto with
  | grpc => rw [hp] at hm; exact key hm
  | grpcWeb => rw [hp] at hm; exact key hm
  | connect =>
    rw [hp] at hm
    dsimp only at hm ⊢
    unfold Client.connectUnary at hm ⊢
    cases he : c.codec.encode req with
    | error e => rw [he] at hm; cases hm
    | ok data =>
      rw [he] at hm
      dsimp only at hm ⊢
      cases hr : http.full (c.unaryRequest ctx (c.send.compress data)) with
      | error e => rw [hr] at hm; cases hm
      | ok resp =>
        rw [hr] at hm
        dsimp only at hm ⊢
        have : c.unaryResponse (some ⟨hs, none⟩) resp = c.unaryResponse (some .new) resp := by
          unfold Client.unaryResponse at hm ⊢
          cases hv : connectValidateResponse c.codec.name resp.status (resp.headers.getD (pys! "content-type") []) with
          | some e => rw [hv] at hm; cases hm
          | none =>
            rw [recorded_anew hs _ (validResponse_type hv)]
            rw [hv] at hm
            dsimp only at hm ⊢
            cases hc : Proto.responseCompression .connect resp.headers c.comps false with
            | error e => rw [hc] at hm; cases hm
            | ok comp => rfl
        rw [this]

end
end Props
