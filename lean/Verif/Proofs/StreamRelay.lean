import Verif.Spec.StreamRelay
import Verif.Proofs.Relay
/-
Lemmas for C95, streams.
-/
namespace Props
open Conn Py Spec

variable {Req Res : Type}

abbrev metaAfter (i : Meta) (steps : List Step) : Meta :=
  steps.foldl (fun m s => match s with | .update f => f m | .recv _ => m) i

/-- the run of a handler whose request messages arrive and whose messages can be written -/
theorem runs_all {write : Res → Except Exc Bytes} {close : Option Exc} {outcome : Option Exc} : ∀ (acts : List (Act Res)) (h : HState Req),
    h.err = none → (∀ m ∈ produced acts, ∃ b, write m = .ok b) →
    ∃ h', Runs write close h acts outcome (metaAfter h.info (stepsBefore acts)) (produced acts) h' outcome ∧
      h'.info = metaAfter h.info (stepsOf acts)
  | [], h, _, _ => ⟨h, .done h outcome, rfl⟩
  | .emit m :: as, h, he, hw => by
    obtain ⟨b, hb⟩ := hw m (.head _)
    obtain ⟨h', h1, h2⟩ := runs_all (write := write) (close := close) (outcome := outcome) as h he fun m' hm => hw m' (.tail _ hm)
    exact ⟨h', .emit hb h1, h2⟩
  | .step (.update f) :: as, h, he, hw => by
    obtain ⟨h', h1, h2⟩ := runs_all (write := write) (close := close) (outcome := outcome) as ⟨h.reqs, h.err, f h.info, h.got⟩ he hw
    exact ⟨h', .step (.update h f) h1, h2⟩
  | .step (.recv c) :: as, ⟨[], err, i, got⟩, he, hw => by
    cases he
    obtain ⟨h', h1, h2⟩ := runs_all (write := write) (close := close) (outcome := outcome) as (⟨[], none, i, got⟩ : HState Req) rfl hw
    exact ⟨h', .step (.ended i got c) h1, h2⟩
  | .step (.recv c) :: as, ⟨m :: ms, err, i, got⟩, he, hw => by
    obtain ⟨h', h1, h2⟩ := runs_all (write := write) (close := close) (outcome := outcome) as (⟨ms, err, i, got ++ [m]⟩ : HState Req) he hw
    exact ⟨h', .step (.message m ms err i got c) h1, h2⟩

theorem starts_ready {reqs : List Req} {ctx : RequestContext} {handler : Handler Req Res} {req : Option Req} {h0 : HState Req} {script : Script Res}
    (h : Starts ⟨reqs, none⟩ ctx handler req h0 script) : h0.err = none ∧ h0.info = ⟨Headers.empty, Headers.empty⟩ := by
  cases h <;> exact ⟨rfl, rfl⟩

theorem responds_toScript (c : Call Res) : Responds c c.toScript := by
  obtain ⟨steps, result⟩ := c
  cases result with
  | ok r => exact .returned steps r
  | error e => exact .raised steps e

theorem produced_steps : ∀ (steps : List Step) (rest : List (Act Res)), produced (steps.map .step ++ rest) = produced rest
  | [], _ => rfl
  | _ :: steps, rest => produced_steps steps rest

theorem responds_streamed {c : Call Res} {script : Script Res} (h : Responds c script) :
    streamed script = match c.result with
      | .ok r => ([r], none)
      | .error e => ([], some e) := by
  cases h with
  | returned steps r => unfold streamed; dsimp only; rw [produced_steps]; rfl
  | raised steps e =>
    unfold streamed
    have := produced_steps (Res := Res) steps []
    rw [List.append_nil] at this
    dsimp only
    rw [this]
    rfl

/-- the calls over a hop -/
theorem stream_hop {hop : Hop Req Res} {sc : StatusCodec} {reqs : List Req} {f : Handler Req Res} (hs : hop.ServesStream sc reqs f)
    (hk : kindOf f ≠ .unary) (hone : kindOf f = .serverStream → reqs.length = 1)
    (hf : ∀ ctx script, RunOn f reqs ctx script → SendableRun script)
    (hh : ∀ ctx script, RunOn f reqs ctx script → ∀ r ∈ produced script.acts, hop.HoldsMessage r)
    (hw : ∀ ctx script, RunOn f reqs ctx script → hop.HoldsEnd sc (Spec.metadataOf (stepsOf script.acts)).trailers (script.outcome.map errorOf))
    (ctx : RequestContext) :
    ∃ ctx' script, HopTimeout hop ctx ctx' ∧ RunOn f reqs ctx' script ∧ (hop.streams sc (kindOf f) reqs ctx).1 = produced script.acts ∧
      Seen (script.outcome.map errorOf) (hop.streams sc (kindOf f) reqs ctx).2 := by
  obtain ⟨hcalm, hcall⟩ := hs.call ctx
  have hrun : ∀ {ctx' req h0 script}, Starts ⟨reqs, none⟩ ctx' f req h0 script → ∀ close, ∃ i out h' e,
      Runs (writerOf hop.codec (responseComp hop.client hop.app)).write close h0 script.acts script.outcome i out h' e ∧
      out = produced script.acts ∧ e = script.outcome ∧
      RegularStream hop.client hop.codec sc (responseComp hop.client hop.app) i.headers out h'.info.trailers e := by
    intro ctx' req h0 script hst close
    have hon : RunOn f reqs ctx' script := ⟨req, h0, hst⟩
    obtain ⟨h1, h2⟩ := starts_ready hst
    have hhold := hh ctx' script hon
    have hend := hw ctx' script hon
    obtain ⟨hmod, herr⟩ := hf ctx' script hon
    obtain ⟨h', h3, h4⟩ := runs_all (close := close) (outcome := script.outcome)
      (write := (writerOf hop.codec (responseComp hop.client hop.app)).write) script.acts h0 h1 (by
        intro m hm
        obtain ⟨b, hb, _, h32⟩ := hhold m hm
        exact ⟨_, (C08_write_exact (writerOf hop.codec (responseComp hop.client hop.app)) m b hb).1 h32⟩)
    rw [h2] at h3 h4
    refine ⟨_, _, _, _, h3, rfl, rfl, ?_⟩
    rw [h4]
    exact {
      caught := fun x hx => (herr x hx).1
      built := hmod.built
      encoding := hmod.encoding
      limit := by
        intro n hn
        refine ⟨?_, hend.limit n hn⟩
        intro m hm d hd
        obtain ⟨b, hb, hl, _⟩ := hhold m hm
        rw [hb] at hd
        cases hd
        exact hl n hn
      ends := by
        obtain ⟨o, ho⟩ := hend.ends
        unfold EndsWith at ho ⊢
        rw [map_connect] at ho
        exact ⟨o, ho⟩
      debug := fun _ x hx => (herr x hx).2.1
      status := hs.lawful
      error := fun _ x hx => ⟨fitsAnyHop_fits (herr x hx).2.2, fun _ =>
        ⟨hmod.reserved _ (.tail _ (.tail _ (.head _))), fun _ => hmod.reserved _ (.tail _ (.head _))⟩⟩
      legal := hend.legal }
  -- the answer of a call with one response
  have hsingle : ∀ (g : ReqStream Req → RequestContext → Call Res) (ctx' : RequestContext) (res : Except Exc Res), f = .clientStream g →
      ((∀ r b, (g ⟨reqs, none⟩ ctx').result = .ok r → hop.codec.res.encode r = .ok b →
        ((responseComp hop.client hop.app).compress b).length < 2 ^ 32) → Gets hop.codec (g ⟨reqs, none⟩ ctx') res) →
      (match res with | .ok r => (([r], none) : List Res × Option Exc) | .error e => ([], some e)).1 = produced (g ⟨reqs, none⟩ ctx').toScript.acts ∧
      Seen ((g ⟨reqs, none⟩ ctx').toScript.outcome.map errorOf) (match res with | .ok r => (([r], none) : List Res × Option Exc) | .error e => ([], some e)).2 := by
    intro g ctx' res hfg hgets
    subst hfg
    have hon : RunOn (.clientStream g) reqs ctx' (g ⟨reqs, none⟩ ctx').toScript := ⟨_, _, .clientStream g (responds_toScript _)⟩
    have hhold := hh ctx' _ hon
    have hst := responds_streamed (responds_toScript (g ⟨reqs, none⟩ ctx'))
    have h1 := congrArg Prod.fst hst
    have h2 := congrArg Prod.snd hst
    change produced (g ⟨reqs, none⟩ ctx').toScript.acts = _ at h1
    change (g ⟨reqs, none⟩ ctx').toScript.outcome = _ at h2
    have hg := hgets (by
      intro r b hr hb
      obtain ⟨b', hb', _, h32⟩ := hhold r (by rw [h1, hr]; exact .head _)
      rw [hb'] at hb
      cases hb
      exact h32)
    rw [h1, h2]
    cases hg with
    | returned hr he => rw [hr]; exact ⟨rfl, rfl⟩
    | failed hfl hr hb =>
      rcases hfl with hfl | ⟨r, h3, h4⟩
      · rw [hfl]; exact ⟨rfl, _, rfl, hr, hb⟩
      · obtain ⟨b, hb', _⟩ := hhold r (by rw [h1, h3]; exact .head _)
        rw [hb'] at h4
        cases h4
  cases f with
  | unary g => exact absurd rfl hk
  | clientStream g =>
    rcases hs.network ctx with hnet | hnet
    · obtain ⟨rq, ha, _, h1⟩ := C59_client_stream_wsgi_partial hop.client hop.app hop.codec hop.method hop.registered g reqs _ _ hcall sc none
        (fun r hr => by cases hr) (hop.circumstances ctx) hcalm
      obtain ⟨env, hsee, htr, _, hstream⟩ := hnet rq ha
      obtain ⟨ctx', h2, h3⟩ := h1 env hsee htr
      have hst : Starts ⟨reqs, none⟩ ctx' (.clientStream g) none (ready ⟨reqs, none⟩) (g ⟨reqs, none⟩ ctx').toScript := .clientStream g (responds_toScript _)
      obtain ⟨i, out, h', e, e1, e2, e3, e4⟩ := hrun hst none
      obtain ⟨_, _, r, h4, h5⟩ := h3 _ _ _ hst _ _ _ _ e1 e4
      obtain ⟨resp, h6, h7⟩ := hstream r h4
      exact ⟨ctx', _, h2.timeout, ⟨_, _, hst⟩, hsingle g ctx' _ rfl (h5 resp h6 _ h7).result⟩
    · obtain ⟨rq, ha, _, h1⟩ := C59_client_stream_asgi_partial hop.client hop.app hop.codec hop.method hop.registered g reqs _ _ hcall hs.ordinary sc none
        (fun r hr => by cases hr) (hop.circumstances ctx) hcalm
      obtain ⟨scope, env, hsee, htr, hrel, hcan, hdis, hroot, _, hstream⟩ := hnet rq ha
      obtain ⟨ctx', _, _, h2, h3⟩ := h1 scope env hsee htr hrel hcan hdis hroot
      have hst : Starts ⟨reqs, none⟩ ctx' (.clientStream g) none (ready ⟨reqs, none⟩) (g ⟨reqs, none⟩ ctx').toScript := .clientStream g (responds_toScript _)
      obtain ⟨i, out, h', e, e1, e2, e3, e4⟩ := hrun hst (g ⟨reqs, none⟩ ctx').toScript.closeErr
      obtain ⟨_, _, r, h4, h5⟩ := h3 _ _ _ hst _ _ _ _ e1 e4
      obtain ⟨resp, h6, h7⟩ := hstream r h4
      exact ⟨ctx', _, h2.timeout, ⟨_, _, hst⟩, hsingle g ctx' _ rfl (h5 resp h6 _ h7).result⟩
  | serverStream g =>
    have hone := hone rfl
    obtain ⟨m, hm⟩ := List.length_eq_one_iff.1 hone
    subst hm
    rcases hs.network ctx with hnet | hnet
    · obtain ⟨rq, ha, _, h1⟩ := C59_server_stream_wsgi_partial hop.client hop.app hop.codec hop.method hop.registered g m _ _ hcall sc none
        (fun r hr => by cases hr) (hop.circumstances ctx) hcalm
      obtain ⟨env, hsee, htr, _, hstream⟩ := hnet rq ha
      obtain ⟨ctx', h2, h3⟩ := h1 env hsee htr
      have hst : Starts ⟨[m], none⟩ ctx' (.serverStream g) (some m) (ready ⟨[], none⟩) (g m ctx') := .serverStream g m rfl rfl
      obtain ⟨i, out, h', e, e1, e2, e3, e4⟩ := hrun hst none
      obtain ⟨_, _, r, h4, h5⟩ := h3 _ _ _ hst _ _ _ _ e1 e4
      obtain ⟨resp, h6, h7⟩ := hstream r h4
      have h8 := h5 resp h6 _ h7
      subst e2 e3
      exact ⟨ctx', _, h2.timeout, ⟨_, _, hst⟩, h8.messages, h8.outcome⟩
    · obtain ⟨rq, ha, _, h1⟩ := C59_server_stream_asgi_partial hop.client hop.app hop.codec hop.method hop.registered g m _ _ hcall hs.ordinary sc none
        (fun r hr => by cases hr) (hop.circumstances ctx) hcalm
      obtain ⟨scope, env, hsee, htr, hrel, hcan, hdis, hroot, _, hstream⟩ := hnet rq ha
      obtain ⟨ctx', _, _, h2, h3⟩ := h1 scope env hsee htr hrel hcan hdis hroot
      have hst : Starts ⟨[m], none⟩ ctx' (.serverStream g) (some m) (ready ⟨[], none⟩) (g m ctx') := .serverStream g m rfl rfl
      obtain ⟨i, out, h', e, e1, e2, e3, e4⟩ := hrun hst (g m ctx').closeErr
      obtain ⟨_, _, r, h4, h5⟩ := h3 _ _ _ hst _ _ _ _ e1 e4
      obtain ⟨resp, h6, h7⟩ := hstream r h4
      have h8 := h5 resp h6 _ h7
      subst e2 e3
      exact ⟨ctx', _, h2.timeout, ⟨_, _, hst⟩, h8.messages, h8.outcome⟩
  | bidi g =>
    rcases hs.network ctx with hnet | hnet
    · obtain ⟨rq, ha, _, h1⟩ := C59_bidi_wsgi_partial hop.client hop.app hop.codec hop.method hop.registered g reqs _ _ hcall sc none
        (fun r hr => by cases hr) (hop.circumstances ctx) hcalm
      obtain ⟨env, hsee, htr, _, hstream⟩ := hnet rq ha
      obtain ⟨ctx', h2, h3⟩ := h1 env hsee htr
      have hst : Starts ⟨reqs, none⟩ ctx' (.bidi g) none (ready ⟨reqs, none⟩) (g ⟨reqs, none⟩ ctx') := .bidi g
      obtain ⟨i, out, h', e, e1, e2, e3, e4⟩ := hrun hst none
      obtain ⟨_, _, r, h4, h5⟩ := h3 _ _ _ hst _ _ _ _ e1 e4
      obtain ⟨resp, h6, h7⟩ := hstream r h4
      have h8 := h5 resp h6 _ h7
      subst e2 e3
      exact ⟨ctx', _, h2.timeout, ⟨_, _, hst⟩, h8.messages, h8.outcome⟩
    · obtain ⟨rq, ha, _, h1⟩ := C59_bidi_asgi_partial hop.client hop.app hop.codec hop.method hop.registered g reqs _ _ hcall hs.ordinary sc none
        (fun r hr => by cases hr) (hop.circumstances ctx) hcalm
      obtain ⟨scope, env, hsee, htr, hrel, hcan, hdis, hroot, _, hstream⟩ := hnet rq ha
      obtain ⟨ctx', _, _, h2, h3⟩ := h1 scope env hsee htr hrel hcan hdis hroot
      have hst : Starts ⟨reqs, none⟩ ctx' (.bidi g) none (ready ⟨reqs, none⟩) (g ⟨reqs, none⟩ ctx') := .bidi g
      obtain ⟨i, out, h', e, e1, e2, e3, e4⟩ := hrun hst (g ⟨reqs, none⟩ ctx').closeErr
      obtain ⟨_, _, r, h4, h5⟩ := h3 _ _ _ hst _ _ _ _ e1 e4
      obtain ⟨resp, h6, h7⟩ := hstream r h4
      have h8 := h5 resp h6 _ h7
      subst e2 e3
      exact ⟨ctx', _, h2.timeout, ⟨_, _, hst⟩, h8.messages, h8.outcome⟩

/-- the invariant of a chain -/
structure StreamEnded (reqs : List Req) (origin f : Handler Req Res) (R : RequestContext → RequestContext → Prop) : Prop where
  kind : kindOf f = kindOf origin
  sendable : ∀ ctx script, RunOn f reqs ctx script → SendableRun script
  same : ∀ ctx script, RunOn f reqs ctx script → ∃ ctx' script', R ctx ctx' ∧ RunOn origin reqs ctx' script' ∧
    produced script.acts = produced script'.acts ∧ ReadingOf (script'.outcome.map errorOf) (script.outcome.map errorOf)

theorem readingOf_seen {e e' : Option ConnectErr} {x : Option Exc} (h : ReadingOf e e') (hs : Seen e' x) : Seen e x := by
  cases e with
  | none =>
    have h : e' = none := h
    subst h
    exact hs
  | some e =>
    obtain ⟨y, rfl, h1, h2⟩ := h
    obtain ⟨z, h3, h4, h5⟩ := hs
    refine ⟨z, h3, h4.trans h1, ?_⟩
    rcases h2 with rfl | h2
    · exact h5
    · exact asRead_trans h2 h5

theorem seen_reading {e : Option ConnectErr} {x : Option Exc} (h : Seen e x) : ReadingOf e (x.map errorOf) := by
  cases e with
  | none =>
    have h : x = none := h
    subst h
    rfl
  | some e =>
    obtain ⟨z, rfl, h4, h5⟩ := h
    exact ⟨z, rfl, h4, .inr h5⟩

theorem relayedStream_of {script : Script Res} {got : List Res × Option Exc} (h : got.1 = produced script.acts)
    (hs : Seen (script.outcome.map errorOf) got.2) : RelayedStream (streamed script) got := by
  refine ⟨h, ?_⟩
  show match script.outcome with
    | none => _
    | some e => _
  cases ho : script.outcome with
  | none => rw [ho] at hs; exact hs
  | some e =>
    rw [ho] at hs
    obtain ⟨z, h1, h2, _⟩ := hs
    exact ⟨z, h1, h2⟩

theorem stream_ended_call {sc : StatusCodec} {reqs : List Req} {origin f : Handler Req Res} {R : RequestContext → RequestContext → Prop}
    (h : StreamEnded reqs origin f R) (hk : kindOf origin ≠ .unary) (hone : kindOf origin = .serverStream → reqs.length = 1)
    {hop : Hop Req Res} (hs : hop.ServesStream sc reqs f) (hr : hop.CarriesStream sc reqs origin f) (ctx : RequestContext) :
    ∃ ctx1 ctx' script, HopTimeout hop ctx ctx1 ∧ R ctx1 ctx' ∧ RunOn origin reqs ctx' script ∧
      (hop.streams sc (kindOf origin) reqs ctx).1 = produced script.acts ∧ Seen (script.outcome.map errorOf) (hop.streams sc (kindOf origin) reqs ctx).2 ∧
      ∀ e, (hop.streams sc (kindOf origin) reqs ctx).2 = some e → e.isException = true ∧ DebugOk (errorOf e) ∧ FitsAnyHop (errorOf e) := by
  obtain ⟨ctx1, sf, h1, h2, h3, h4⟩ := stream_hop hs (by rw [h.kind]; exact hk) (by rw [h.kind]; exact hone) h.sendable
    (by
      intro c script hon r hmem
      obtain ⟨c', so, _, ho, hp, _⟩ := h.same c script hon
      rw [hp] at hmem
      exact hr.messages c' so ho r hmem)
    (by
      intro c script hon
      obtain ⟨c', so, _, ho, _, hrd⟩ := h.same c script hon
      exact hr.ending c' c so script _ ho hon hrd) ctx
  obtain ⟨ctx', so, hR, ho, hp, hrd⟩ := h.same ctx1 sf h2
  rw [h.kind] at h3 h4
  refine ⟨ctx1, ctx', so, h1, hR, ho, h3.trans hp, readingOf_seen hrd h4, ?_⟩
  intro e he
  rw [he] at h4
  cases hout : sf.outcome with
  | none => rw [hout] at h4; cases h4
  | some x =>
    rw [hout] at h4
    obtain ⟨e', h5, h6, h7⟩ := h4
    cases h5
    exact ⟨rfl, debugOk_read h7, fitsAnyHop_read ((h.sendable ctx1 sf h2).errors x hout).2.2 h6 h7⟩

theorem stream_chain_ended {sc : StatusCodec} {reqs : List Req} {origin : Handler Req Res} {P : Hop Req Res → Prop}
    (R : RequestContext → RequestContext → Prop) (hrefl : ∀ ctx, R ctx ctx)
    (hstep : ∀ hop ctx ctx1 ctx', P hop → HopTimeout hop ctx ctx1 → R ctx1 ctx' → R ctx ctx')
    (hk : kindOf origin ≠ .unary) (hone : kindOf origin = .serverStream → reqs.length = 1)
    (horigin : ∀ ctx script, RunOn origin reqs ctx script → SendableRun script) {f : Handler Req Res} (hc : StreamChain sc reqs origin P f) :
    StreamEnded reqs origin f R := by
  induction hc with
  | origin =>
    refine ⟨rfl, horigin, fun ctx script hon => ⟨ctx, script, hrefl ctx, hon, rfl, ?_⟩⟩
    cases script.outcome with
    | none => rfl
    | some e => exact ⟨_, rfl, rfl, .inl rfl⟩
  | relay hop hp hf hs hr hkg hm hg ih =>
    have hcall := stream_ended_call ih hk hone hs hr
    refine ⟨hkg, fun ctx script hon => ⟨hm ctx script hon, ?_⟩, fun ctx script hon => ?_⟩
    · intro e he
      have h1 := congrArg Prod.snd (hg ctx script hon)
      change script.outcome = _ at h1
      rw [he] at h1
      obtain ⟨_, _, _, _, _, _, _, _, h2⟩ := hcall ctx
      exact h2 e h1.symm
    · have h1 := congrArg Prod.fst (hg ctx script hon)
      have h2 := congrArg Prod.snd (hg ctx script hon)
      change produced script.acts = _ at h1
      change script.outcome = _ at h2
      obtain ⟨ctx1, ctx', so, ht, hR, ho, h3, h4, _⟩ := hcall ctx
      refine ⟨ctx', so, hstep hop ctx ctx1 ctx' hp ht hR, ho, h1.trans h3, ?_⟩
      rw [h2]
      exact seen_reading h4

end Props
