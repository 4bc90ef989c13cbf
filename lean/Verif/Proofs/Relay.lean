import Verif.Spec.Relay
import Verif.Props.StreamEndToEnd
/-
Lemmas for C95.
-/
namespace Props
open Conn Py Spec

variable {Req Res : Type}

/-- the run of a handler without request messages to read, up to the end of its steps -/
theorem runs_after {write : Res → Except Exc Bytes} {close : Option Exc} {rest : List (Act Res)} {outcome : Option Exc} {i' : Meta} {out : List Res}
    {h' : HState Req} {e : Option Exc} : ∀ (steps : List Step) (i : Meta),
    Runs write close ⟨[], none, steps.foldl (fun m s => match s with | .update f => f m | .recv _ => m) i, []⟩ rest outcome i' out h' e →
    Runs write close ⟨[], none, i, []⟩ (steps.map .step ++ rest) outcome i' out h' e
  | [], _, h => h
  | .update f :: steps, i, h => .step (.update _ f) (runs_after steps (f i) h)
  | .recv b :: steps, i, h => .step (.ended i [] b) (runs_after steps i h)

theorem modest_headers {run : Call Res} (h : Modest run) : fieldValues (Spec.metadataOf run.steps).headers.allitems (pys! "content-encoding") = [] := by
  have := h.encoding
  unfold metadataFields fieldValues at this
  rw [List.filter_append, List.map_append, List.append_eq_nil_iff] at this
  exact this.1

theorem fitsAnyHop_fits {e : ConnectErr} (h : FitsAnyHop e) : FitsProtobuf e := ⟨h.1, fun d hd => (h.2 d hd).1⟩

theorem fitsAnyHop_read {e e' : ConnectErr} (h : FitsAnyHop e) (hr : report e' = report e) (ha : AsRead e e') : FitsAnyHop e' := by
  have hm : e'.message = e.message := by
    have := congrArg (fun x => x.2.1) hr
    exact this
  refine ⟨by rw [hm]; exact h.1, ?_⟩
  intro d' hd'
  obtain ⟨_, d, hd, h1, h2⟩ := ha d' hd'
  obtain ⟨h3, h4⟩ := h.2 d hd
  rw [h1]
  rcases h2 with h2 | h2
  · rw [h2]; exact ⟨h3, h4⟩
  · rw [h2, typeNameOf_url]; exact ⟨h4, h4⟩

theorem debugOk_read {e e' : ConnectErr} (ha : AsRead e e') : DebugOk e' := by
  intro d hd j hj
  rw [(ha d hd).1] at hj
  cases hj

/-- what the caller of a hop is told of the time -/
def HopTimeout (hop : Hop Req Res) (ctx ctx' : RequestContext) : Prop :=
  ∃ meant, TimeoutTold (hop.timeout ctx) hop.client.timeoutMs meant ∧ StreamTimeoutTold hop.client.proto meant ctx'.timeoutMs

theorem map_connect (e : Option ConnectErr) : (e.map Exc.connect).map errorOf = e := by cases e <;> rfl

theorem asRead_trans {e e' e'' : ConnectErr} (h : AsRead e e') (h' : AsRead e' e'') : AsRead e e'' := by
  intro d'' hd''
  obtain ⟨h1, d', hd', h2, h3⟩ := h' d'' hd''
  obtain ⟨_, d, hd, h4, h5⟩ := h d' hd'
  refine ⟨h1, d, hd, h2.trans h4, ?_⟩
  rcases h3 with h3 | h3
  · rw [h3]; exact h5
  · rcases h5 with h5 | h5
    · right; rw [h3, h5]
    · right; rw [h3, h5, typeNameOf_url]

theorem hop_gets {hop : Hop Req Res} {sc : StatusCodec} {req : Req} {f : Req → RequestContext → Call Res} (hs : hop.Serves sc req f)
    (hf : ∀ ctx, Sendable (f req ctx)) (hh : ∀ ctx r, (f req ctx).result = .ok r → hop.Holds r)
    (hw : hop.client.proto = .grpcWeb → ∀ ctx, hop.HoldsEnd sc (Spec.metadataOf (f req ctx).steps).trailers (failureOf (f req ctx)))
    (ctx : RequestContext) :
    ∃ ctx', HopTimeout hop ctx ctx' ∧ Gets hop.codec (f req ctx') (hop.outcome sc req ctx) := by
  by_cases hp : hop.client.proto = .connect
  · have hcall := hs.connect hp ctx
    have hreg : ∀ ctx', Regular hop.client hop.codec (f req ctx') := fun ctx' =>
      { exceptions := by
          rintro e (he | ⟨r, hr, he⟩)
          · obtain ⟨h1, h2, h3, _⟩ := (hf ctx').errors e he
            exact ⟨h1, h3, h2⟩
          · obtain ⟨b, hb, _⟩ := hh ctx' r hr
            rw [hb] at he
            cases he
        encoding := (hf ctx').modest.encoding
        limit := by
          intro r b hr hb n hn
          obtain ⟨b', hb', h1, _⟩ := hh ctx' r hr
          rw [hb'] at hb
          cases hb
          exact h1 n hn }
    rcases hs.network ctx with hnet | hnet
    · obtain ⟨rq, ha, _, h1⟩ := C58_connect_wsgi_partial hop.client hop.app hop.codec hop.method hop.registered f req _ _ hop.useGet hcall sc none
        (hop.circumstances ctx)
      obtain ⟨env, hsee, _, hfull, _⟩ := hnet rq ha
      obtain ⟨ctx', _, h2, _, _, h3⟩ := h1 env hsee
      obtain ⟨r, h4, h5⟩ := h3 (hreg ctx')
      obtain ⟨resp, h6, h7⟩ := hfull r h4
      refine ⟨ctx', ⟨_, h2, ?_⟩, (h5 hop.undo resp hs.undoes h6 _ h7).1⟩
      rw [hp]
      rfl
    · obtain ⟨rq, ha, _, h1⟩ := C58_connect_asgi_partial hop.client hop.app hop.codec hop.method hop.registered f req _ _ hop.useGet hcall sc none
        (hop.circumstances ctx)
      obtain ⟨scope, env, hsee, _, hrel, _, _, hroot, hfull, _⟩ := hnet rq ha
      obtain ⟨ctx', _, _, _, h2, _, _, h3⟩ := h1 scope env hsee hrel hroot
      obtain ⟨r, h4, h5⟩ := h3 (hreg ctx')
      obtain ⟨resp, h6, h7⟩ := hfull r h4
      refine ⟨ctx', ⟨_, h2, ?_⟩, (h5 hop.undo resp hs.undoes h6 _ h7).1⟩
      rw [hp]
      rfl
  · obtain ⟨hlaw, hord, hcall⟩ := hs.grpc hp
    obtain ⟨hcalm, hcall⟩ := hcall ctx
    have hnc : hop.client.proto ≠ .connect := hp
    -- the run of the handler
    have hrun : ∀ ctx', ∃ (script : Script Res) (i : Meta) (out : List Res) (h' : HState Req) (e : Option Exc), Starts ⟨[req], none⟩ ctx' (.unary f) (some req) (ready ⟨[], none⟩) script ∧ script.closeErr = none ∧
        Runs (writerOf hop.codec (responseComp hop.client hop.app)).write none (ready (Req := Req) ⟨[], none⟩) script.acts script.outcome i out h' e ∧
        RegularStream hop.client hop.codec sc (responseComp hop.client hop.app) i.headers out h'.info.trailers e := by
      intro ctx'
      have hmod := (hf ctx').modest
      have hsend := (hf ctx').errors
      have hhold := hh ctx'
      have hend := fun h => hw h ctx'
      have hst : ∀ {script : Script Res}, Responds (f req ctx') script → Starts ⟨[req], none⟩ ctx' (.unary f) (some req) (ready ⟨[], none⟩) script :=
        fun hr => .unary f req rfl rfl hr
      have hreg : ∀ out e, (∀ n, hop.client.readMax = some n → ∀ m ∈ out, ∀ d, hop.codec.res.encode m = .ok d → (d.length : Int) ≤ n) →
          (∀ x, e = some x → (f req ctx').result = .error x) → e.map errorOf = failureOf (f req ctx') →
          RegularStream hop.client hop.codec sc (responseComp hop.client hop.app) (Spec.metadataOf (f req ctx').steps).headers out
            (Spec.metadataOf (f req ctx').steps).trailers e := by
        intro out e hlim herr hfail
        exact {
          caught := fun x hx => (hsend x (herr x hx)).1
          built := hmod.built
          encoding := modest_headers hmod
          limit := by
            intro n hn
            refine ⟨hlim n hn, ?_⟩
            rw [hfail]
            cases hpr : hop.client.proto with
            | connect => exact absurd hpr hp
            | grpc => exact hs.limit n hn
            | grpcWeb => rw [← hpr]; exact (hend hpr).limit n hn
          ends := by
            cases hpr : hop.client.proto with
            | connect => exact absurd hpr hp
            | grpc => exact ⟨_, rfl⟩
            | grpcWeb =>
              obtain ⟨o, ho⟩ := (hend hpr).ends
              unfold EndsWith at ho
              rw [hpr, ← hfail, map_connect] at ho
              exact ⟨o, ho⟩
          debug := fun h => absurd h hnc
          status := fun _ => hlaw
          error := fun _ x hx => ⟨fitsAnyHop_fits (hsend x (herr x hx)).2.2.2, fun _ =>
            ⟨hmod.reserved _ (.tail _ (.tail _ (.head _))), fun _ => hmod.reserved _ (.tail _ (.head _))⟩⟩
          legal := fun h => (hend h).legal h }
      generalize f req ctx' = run at *
      obtain ⟨steps, result⟩ := run
      cases result with
      | ok r =>
        obtain ⟨b, hb, h1, h2⟩ := hhold r rfl
        have hw := (C08_write_exact (writerOf hop.codec (responseComp hop.client hop.app)) r b hb).1 (h2 hp)
        refine ⟨_, Spec.metadataOf steps, [r], ⟨[], none, Spec.metadataOf steps, []⟩, none, hst (.returned steps r), rfl,
          runs_after steps _ (.emit hw (.done _ _)), hreg [r] none ?_ (fun x hx => by cases hx) rfl⟩
        intro n hn m hm d hd
        rw [List.mem_singleton] at hm
        subst hm
        rw [hb] at hd
        cases hd
        exact h1 n hn
      | error x =>
        refine ⟨_, Spec.metadataOf steps, [], ⟨[], none, Spec.metadataOf steps, []⟩, some x, hst (.raised steps x), rfl, ?_,
          hreg [] (some x) (fun _ _ m hm => by cases hm) (fun y hy => by cases hy; rfl) rfl⟩
        have := runs_after (write := (writerOf hop.codec (responseComp hop.client hop.app)).write) (close := none) (rest := []) (outcome := some x)
          steps ⟨Headers.empty, Headers.empty⟩ (.done (⟨[], none, Spec.metadataOf steps, []⟩ : HState Req) (some x))
        rw [List.append_nil] at this
        exact this
    have hfit : ∀ ctx' r b, (f req ctx').result = .ok r → hop.codec.res.encode r = .ok b →
        ((responseComp hop.client hop.app).compress b).length < 2 ^ 32 := by
      intro ctx' r b hr hb
      obtain ⟨b', hb', _, h2⟩ := hh ctx' r hr
      rw [hb'] at hb
      cases hb
      exact h2 hp
    rcases hs.network ctx with hnet | hnet
    · obtain ⟨rq, ha, _, h1⟩ := C58_grpc_wsgi_partial hop.client hnc hop.app hop.codec hop.method hop.registered f req _ _ hop.useGet hcall sc none
        (fun r hr => by cases hr) (hop.circumstances ctx) hcalm
      obtain ⟨env, hsee, htr, _, hstream⟩ := hnet rq ha
      obtain ⟨ctx', h2, h3⟩ := h1 env hsee htr
      obtain ⟨script, i, out, h', e, e1, _, e3, e4⟩ := hrun ctx'
      obtain ⟨_, _, r, h4, h5⟩ := h3 _ _ _ e1 _ _ _ _ e3 e4
      obtain ⟨resp, h6, h7⟩ := hstream r h4
      exact ⟨ctx', h2.timeout, (h5 resp h6 _ h7).result (hfit ctx')⟩
    · obtain ⟨rq, ha, _, h1⟩ := C58_grpc_asgi_partial hop.client hnc hop.app hop.codec hop.method hop.registered f req _ _ hop.useGet hcall hord sc none
        (fun r hr => by cases hr) (hop.circumstances ctx) hcalm
      obtain ⟨scope, env, hsee, htr, hrel, hcan, hdis, hroot, _, hstream⟩ := hnet rq ha
      obtain ⟨ctx', _, _, h2, h3⟩ := h1 scope env hsee htr hrel hcan hdis hroot
      obtain ⟨script, i, out, h', e, e1, e2, e3, e4⟩ := hrun ctx'
      obtain ⟨_, _, r, h4, h5⟩ := h3 _ _ _ e1 _ _ _ _ (by rw [e2]; exact e3) e4
      obtain ⟨resp, h6, h7⟩ := hstream r h4
      exact ⟨ctx', h2.timeout, (h5 resp h6 _ h7).result (hfit ctx')⟩

/-- the invariant of a chain: where its handlers end up -/
structure Ended (req : Req) (origin f : Req → RequestContext → Call Res) (R : RequestContext → RequestContext → Prop) : Prop where
  sendable : ∀ ctx, Sendable (f req ctx)
  same : ∀ ctx, ∃ ctx', R ctx ctx' ∧ match (origin req ctx').result with
    | .ok r => (f req ctx).result = .ok r
    | .error e => ∃ x, (f req ctx).result = .error x ∧ report (errorOf x) = report (errorOf e) ∧ (errorOf x = errorOf e ∨ AsRead (errorOf e) (errorOf x))

theorem gets_relayed {codec : ServerCodec Req Res} {run : Call Res} {res : Except Exc Res} (h : Gets codec run res)
    (hh : ∀ r, run.result = .ok r → ∃ b, codec.res.encode r = .ok b) : Relayed run.result res ∧ (∀ e, res = .error e → ∃ x e', run.result = .error x ∧
      e = .connect e' ∧ report e' = report (errorOf x) ∧ AsRead (errorOf x) e') := by
  cases h with
  | returned hr he => rw [hr]; exact ⟨rfl, fun e he => by cases he⟩
  | failed hf hr hb =>
    rcases hf with hf | ⟨r, h1, h2⟩
    · rw [hf]; exact ⟨⟨_, rfl, hr⟩, fun e he => by cases he; exact ⟨_, _, rfl, rfl, hr, hb⟩⟩
    · obtain ⟨b, hb⟩ := hh r h1
      rw [hb] at h2
      cases h2

theorem ended_holds {req : Req} {origin f : Req → RequestContext → Call Res} {R : RequestContext → RequestContext → Prop}
    (h : Ended req origin f R) {hop : Hop Req Res} (hr : ∀ ctx r, (origin req ctx).result = .ok r → hop.Holds r) :
    ∀ ctx r, (f req ctx).result = .ok r → hop.Holds r := by
  intro ctx r hres
  obtain ⟨ctx', _, hm⟩ := h.same ctx
  cases ho : (origin req ctx').result with
  | ok r' =>
    rw [ho] at hm
    dsimp only at hm
    rw [hres] at hm
    cases hm
    exact hr ctx' r ho
  | error e =>
    rw [ho] at hm
    obtain ⟨x, hx, _⟩ := hm
    rw [hres] at hx
    cases hx

theorem ended_ends {sc : StatusCodec} {req : Req} {origin f : Req → RequestContext → Call Res} {R : RequestContext → RequestContext → Prop}
    (h : Ended req origin f R) {hop : Hop Req Res} (hr : hop.Carries sc req origin f) (hw : hop.client.proto = .grpcWeb) (ctx : RequestContext) :
    hop.HoldsEnd sc (Spec.metadataOf (f req ctx).steps).trailers (failureOf (f req ctx)) := by
  obtain ⟨ctx', _, hm⟩ := h.same ctx
  refine hr.ending hw ctx' ctx _ ?_
  unfold failureOf
  cases ho : (origin req ctx').result with
  | ok r' =>
    rw [ho] at hm
    dsimp only at hm
    rw [hm]
    rfl
  | error e =>
    rw [ho] at hm
    obtain ⟨x, hx, h1, h2⟩ := hm
    rw [hx]
    exact ⟨_, rfl, h1, h2⟩

theorem ended_call {sc : StatusCodec} {req : Req} {origin f : Req → RequestContext → Call Res} {R : RequestContext → RequestContext → Prop}
    (h : Ended req origin f R) {hop : Hop Req Res} (hs : hop.Serves sc req f) (hr : hop.Carries sc req origin f)
    (ctx : RequestContext) : ∃ ctx1 ctx', HopTimeout hop ctx ctx1 ∧ R ctx1 ctx' ∧ (Relayed (origin req ctx').result (hop.outcome sc req ctx) ∧
      ∀ e e', (origin req ctx').result = .error e → hop.outcome sc req ctx = .error (.connect e') → AsRead (errorOf e) e') ∧
      ∀ e, hop.outcome sc req ctx = .error e → ∃ e', e = .connect e' ∧ DebugOk e' ∧ FitsAnyHop e' := by
  have hh := ended_holds h hr.response
  obtain ⟨ctx1, ht, hg⟩ := hop_gets hs h.sendable hh (ended_ends h hr) ctx
  obtain ⟨h1, h2⟩ := gets_relayed hg fun r hr => by
    obtain ⟨b, hb, _⟩ := hh ctx1 r hr
    exact ⟨b, hb⟩
  obtain ⟨ctx', hR, hm⟩ := h.same ctx1
  refine ⟨ctx1, ctx', ht, hR, ?_, ?_⟩
  · cases ho : (origin req ctx').result with
    | ok r =>
      rw [ho] at hm
      dsimp only at hm
      rw [hm] at h1
      exact ⟨h1, fun e e' h => by cases h⟩
    | error e =>
      rw [ho] at hm
      obtain ⟨x, hx, hrep, hread⟩ := hm
      rw [hx] at h1
      obtain ⟨e', h3, h4⟩ := h1
      refine ⟨⟨e', h3, h4.trans hrep⟩, ?_⟩
      intro e1 e2 he1 he2
      cases he1
      obtain ⟨x', e3, h5, h6, _, h7⟩ := h2 _ he2
      rw [hx] at h5
      cases h5
      cases h6
      rcases hread with hread | hread
      · rw [← hread]; exact h7
      · exact asRead_trans hread h7
  · intro e he
    obtain ⟨x, e', h3, h4, h5, h6⟩ := h2 e he
    refine ⟨e', h4, debugOk_read h6, ?_⟩
    exact fitsAnyHop_read ((h.sendable ctx1).errors x h3).2.2.2 h5 h6

theorem chain_ended {sc : StatusCodec} {req : Req} {origin : Req → RequestContext → Call Res} {P : Hop Req Res → Prop}
    (R : RequestContext → RequestContext → Prop) (hrefl : ∀ ctx, R ctx ctx)
    (hstep : ∀ hop ctx ctx1 ctx', P hop → HopTimeout hop ctx ctx1 → R ctx1 ctx' → R ctx ctx')
    (horigin : ∀ ctx, Sendable (origin req ctx)) {f : Req → RequestContext → Call Res} (hc : Chain sc req origin P f) : Ended req origin f R := by
  induction hc with
  | origin =>
    refine ⟨horigin, fun ctx => ⟨ctx, hrefl ctx, ?_⟩⟩
    cases (origin req ctx).result with
    | ok r => rfl
    | error e => exact ⟨e, rfl, rfl, .inl rfl⟩
  | relay hop hp hf hs hr hm hg ih =>
    have hcall := ended_call ih hs hr
    refine ⟨fun ctx => ⟨hm ctx, ?_⟩, fun ctx => ?_⟩
    · intro e he
      rw [hg ctx] at he
      obtain ⟨_, _, _, _, _, h1⟩ := hcall ctx
      obtain ⟨e', rfl, h2, h3⟩ := h1 e he
      exact ⟨rfl, (fun s hs h => by cases h), h2, h3⟩
    · obtain ⟨ctx1, ctx', ht, hR, h1, _⟩ := hcall ctx
      refine ⟨ctx', hstep hop ctx ctx1 ctx' hp ht hR, ?_⟩
      rw [hg ctx]
      cases ho : (origin req ctx').result with
      | ok r => rw [ho] at h1; exact h1.1
      | error e =>
        rw [ho] at h1
        obtain ⟨⟨e', h2, h3⟩, h4⟩ := h1
        exact ⟨.connect e', h2, h3, .inr (h4 e e' rfl h2)⟩

end Props
