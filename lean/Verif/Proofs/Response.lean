import Verif.Spec.Response
import Verif.Proofs.Request
import Verif.Props.Wire
/-
What the servers write in answer to requests in the published formats is in the published formats.
-/
namespace Conn
open Py Spec Props

variable {Req Res : Type} {c : Client Req Res} {app : App Req Res} {codec : ServerCodec Req Res}

/-! ### compressions -/

theorem plainName_chars {n : Str} (h : PlainName n) {d : Char} (hd : d = ';' ∨ d = '*') : d ∉ n := by
  intro hc
  rcases h.2 d hc with ⟨h1, h2⟩ | ⟨h1, h2⟩ | h1 <;> rcases hd with rfl | rfl <;> first | (revert h1 h2; decide) | (revert h1; decide)

/-- the server answers in a compression the client knows -/
theorem accepted (hf : CanRead c app codec) {text : Str} (h : AcceptList c text) :
    negotiateCompression text app.comps = .identity ∨
    ∃ n, (Dict.get? c.comps n).isSome = true ∧ Dict.get? app.comps n = some (negotiateCompression text app.comps) := by
  obtain ⟨es, hne, rfl, hes⟩ := h
  unfold negotiateCompression
  rw [split_acceptText es hne fun e he => (hes e he).1, negotiateFrom_entries _ _ fun e he => (hes e he).1]
  cases hs : es.findSome? fun e => Dict.get? app.comps e.name with
  | none => exact .inl rfl
  | some k =>
    right
    obtain ⟨e, he, hk⟩ := List.exists_of_findSome?_eq_some hs
    refine ⟨e.name, ?_, hk⟩
    have hp := (hf.byName e.name k hk).2
    rcases (hes e he).2 with h | h | h | h
    · exact h
    · exact absurd h (plainName_chars hp (.inl rfl))
    · exact absurd h (plainName_chars hp (.inr rfl))
    · exact absurd h hp.1

theorem known_comp (hf : CanRead c app codec) {k : Compression} (h : k = .identity ∨
    ∃ n, (Dict.get? c.comps n).isSome = true ∧ Dict.get? app.comps n = some k) :
    ∃ k', Dict.get? c.comps k.name = some k' ∧ k.name ≠ [] ∧
      (k ≠ .identity → k' ≠ .identity ∧ ∀ b, k'.decompress (k.compress b) = .ok b) := by
  rcases h with rfl | ⟨n, h1, h2⟩
  · exact ⟨_, hf.identity.2, by decide, fun h => absurd rfl h⟩
  · obtain ⟨k', hk'⟩ := Option.isSome_iff_exists.1 h1
    obtain ⟨h3, h4⟩ := hf.byName n k h2
    rw [h3]
    exact ⟨k', hk', h4.1, hf.undo n k k' h2 hk'⟩

theorem accepted_stream (hf : CanRead c app codec) {rq : HttpRequest} (h : AcceptsStream c rq) {hs : Headers} (ha : Arrived rq.headers hs) {k : Compression}
    (hk : ResponseCompression app c.proto hs k) :
    ∃ k', Dict.get? c.comps k.name = some k' ∧ k.name ≠ [] ∧
      (k ≠ .identity → k' ≠ .identity ∧ ∀ b, k'.decompress (k.compress b) = .ok b) := by
  refine known_comp hf ?_
  unfold ResponseCompression at hk
  have hfw : Forwarded (acceptHeader c.proto) ∧ acceptHeader c.proto ∈ protocolNames := by cases c.proto <;> decide +kernel
  subst hk
  rcases h with h | ⟨text, h1, h2⟩
  · rw [(getall_nil (ha.unset _ hfw.2 h)).2]
    exact accepted hf ⟨[⟨[], [], []⟩], by simp, rfl, by
      intro e he
      rw [List.mem_singleton] at he
      subst he
      exact ⟨⟨by simp, by simp, by simp, by simp, by simp⟩, .inr (.inr (.inr rfl))⟩⟩
  · rw [(getall_one (ha.one _ _ hfw.1 h1)).2]
    exact accepted hf h2

/-! ### the end of a stream -/

variable {sc : StatusCodec} {i : Meta} {ms : List Res} {trailers : Headers} {e : Option Exc} {bs : List Bytes} {r : StreamedResponse}
  {comp k' : Compression}

/-- the end of a response, with the size of its contents -/
theorem stream_end (hk : comp ≠ .identity → k' ≠ .identity ∧ ∀ b, k'.decompress (comp.compress b) = .ok b)
    (hr : RegularResponse c codec sc comp i.headers ms trailers e) {out : EndOut} (h : EndsWith (writerOf codec comp) c.proto sc trailers e out)
    {fs : List Frame} {resp : StreamResponse}
    (hb : match (generalizing := false) out with
      | .body eb => resp.chunks.flatten = fs.flatMap Frame.bytes ++ eb
      | .trailers t => resp.chunks.flatten = fs.flatMap Frame.bytes ∧ resp.trailers = t.allitems) :
    StreamEnd c.readMax sc k' trailers.allitems (e.map errorOf) resp fs c.proto := by
  have hcomp : ∀ k, (writerOf codec comp).compression = some k → k ≠ .identity →
      k' ≠ .identity ∧ ∀ b, k'.decompress (k.compress b) = .ok b := by
    intro k e; cases e; exact hk
  have hreg := hr.regular
  have conv : ∀ {P : ConnectErr → Prop}, (∀ x, e = some x → P (errorOf x)) → ∀ x, e.map errorOf = some x → P x := by
    intro P hP x hx
    cases e with
    | none => cases hx
    | some y => cases hx; exact hP y rfl
  have hstatus : c.proto ≠ .connect → StatusFields sc trailers.allitems (e.map errorOf) (grpcTrailers sc trailers (e.map errorOf)).allitems := by
    intro hp
    exact statusFields_grpcTrailers sc (hreg.status hp) trailers hreg.built.inv _ (conv fun x hx => (hreg.error hp x hx).1)
      (conv (P := fun x => x.message = [] → _) fun x hx => hr.message hp x hx)
      (conv (P := fun x => x.details = [] → _) fun x hx hd => ((hreg.error hp x hx).2 hd).1)
  have hlim := fun n hn => (hreg.limit n hn).2
  unfold EndsWith at h
  cases hc : c.proto with
  | connect =>
    rw [hc] at h hlim
    unfold EnvelopeWriter.end' at h
    dsimp only at h
    unfold EnvelopeWriter.connectEnd at h
    obtain ⟨m, h1, h2⟩ := endObject_json hreg.built.inv (e.map errorOf)
    have hwf := connectEndJson_wf hreg.built.inv (e.map errorOf) (conv (hreg.debug hc))
    cases hp : packEnvelope ((writerOf codec comp).pre ||| 2) ((writerOf codec comp).compress
      (utf8Encode (dumps (connectEndJson trailers (e.map errorOf))))) with
    | error x => rw [hp] at h; cases h
    | ok eb =>
      rw [hp] at h; cases h
      obtain ⟨f, hf, rfl⟩ := endFrame_pack (writerOf codec comp) k' hcomp 2 (.inl rfl) _ _ hp
      exact .envelope hf (.connect (by rw [loadsBytes_dumps _ hwf, h1]) h2) hlim hb
  | grpc =>
    rw [hc] at h hstatus
    cases h
    exact .trailers (by rw [hb.2]; exact hstatus (by decide)) hb.1
  | grpcWeb =>
    rw [hc] at h hlim hstatus
    unfold EnvelopeWriter.end' at h
    dsimp only at h
    unfold EnvelopeWriter.grpcWebEnd at h
    cases hp : packEnvelope ((writerOf codec comp).pre ||| 128) ((writerOf codec comp).compress
      (utf8Encode (trailerBlock (grpcTrailers sc trailers (e.map errorOf)).allitems))) with
    | error x => rw [hp] at h; cases h
    | ok eb =>
      rw [hp] at h; cases h
      obtain ⟨f, hf, rfl⟩ := endFrame_pack (writerOf codec comp) k' hcomp 128 (.inr rfl) _ _ hp
      exact .envelope hf (.grpcWeb (block_trailerBlock _ (grpcTrailers_legal sc trailers hreg.built.inv (hreg.legal hc) _))
        (hstatus (by decide))) hlim hb

/-- what was written is in the format -/
theorem wrote_conforming (hf : CanRead c app codec) (hkn : Dict.get? c.comps comp.name = some k') (hne : comp.name ≠ [])
    (hk : comp ≠ .identity → k' ≠ .identity ∧ ∀ b, k'.decompress (comp.compress b) = .ok b)
    (hr : RegularResponse c codec sc comp i.headers ms trailers e) (hw : Wrote c.proto codec sc comp i ms trailers e bs r)
    {chunks : List Bytes} (hc : chunks.flatten = r.body) :
    ConformingStream c sc ms trailers.allitems (e.map errorOf) (inChunks r chunks) := by
  have hreg := hr.regular
  obtain ⟨out, hout, hends⟩ := hw.ends
  have ha : Agree (writerOf codec comp) (c.reader k') := ⟨hf.messages, by
    intro k h1 h2; cases h1; exact hk h2⟩
  obtain ⟨fs, f1, f2, f3, f4⟩ := writeAll_frames (writerOf codec comp) (c.reader k') ha ms bs hw.writes (fun n hn => (hreg.limit n hn).1)
  rw [receives_eq] at f4
  have hbs : bs.flatten = fs.flatMap Frame.bytes := by rw [f2, List.flatMap_def]
  have henc : lower (encodingHeader c.proto) = encodingHeader c.proto := by cases c.proto <;> decide +kernel
  have hdiff : encodingHeader c.proto ≠ pys! "content-type" := by cases c.proto <;> decide
  exact {
    status := by show (r.status : Int) = 200; rw [hw.status]; rfl
    lower := by
      intro p hp
      have hp : p ∈ r.fields := hp
      rw [hw.fields] at hp
      unfold streamFields at hp
      simp only [List.cons_append, List.mem_cons, List.nil_append] at hp
      rcases hp with rfl | rfl | hp
      · exact (by decide +kernel : lower (pys! "content-type") = pys! "content-type")
      · exact henc
      · exact Headers.allitems_low hr.headers.inv p hp
    trailersLower := by
      intro p hp
      have hp : p ∈ r.trailers := hp
      cases out with
      | body eb => rw [hends.2] at hp; cases hp
      | trailers t =>
        rw [hends.2] at hp
        unfold EndsWith EnvelopeWriter.end' at hout
        cases hcp : c.proto with
        | grpc =>
          rw [hcp] at hout
          cases hout
          exact Headers.allitems_low (inv_grpcTrailers _ _ _) p hp
        | connect =>
          rw [hcp] at hout
          dsimp only at hout
          cases hx : (writerOf codec comp).connectEnd trailers (e.map errorOf) with
          | error x => rw [hx] at hout; cases hout
          | ok x => rw [hx] at hout; cases hout
        | grpcWeb =>
          rw [hcp] at hout
          dsimp only at hout
          cases hx : (writerOf codec comp).grpcWebEnd sc trailers (e.map errorOf) with
          | error x => rw [hx] at hout; cases hout
          | ok x => rw [hx] at hout; cases hout
    type := by
      refine ⟨streamType c.proto c.codec.name, ?_, ?_⟩
      · show fieldValues r.fields _ = _
        rw [hw.fields, ← hf.name]
        unfold streamFields
        rw [List.cons_append, fieldValues_cons, if_pos rfl, List.cons_append, fieldValues_cons, if_neg, List.nil_append,
          hr.own _ List.mem_cons_self]
        · rfl
        · show lower (encodingHeader c.proto) ≠ lower (pys! "content-type")
          rw [henc, show lower (pys! "content-type") = pys! "content-type" from by decide +kernel]
          exact hdiff
      · cases c.proto with
        | connect => rfl
        | grpc => exact .inl rfl
        | grpcWeb => exact .inl rfl
    body := by
      refine ⟨k', fs, .inr ⟨comp.name, ?_, hne, hkn⟩, ?_, f4, ?_⟩
      · show fieldValues r.fields _ = _
        rw [hw.fields]
        unfold streamFields
        rw [List.cons_append, fieldValues_cons, if_neg, List.cons_append, fieldValues_cons, if_pos rfl, List.nil_append,
          hr.own _ (List.mem_cons_of_mem _ List.mem_cons_self)]
        · show lower (pys! "content-type") ≠ lower (encodingHeader c.proto)
          rw [henc, show lower (pys! "content-type") = pys! "content-type" from by decide +kernel]
          exact fun h => hdiff h.symm
      · intro f hfs
        refine ⟨f1 f hfs, ?_⟩
        rw [f3 f hfs]
        unfold EnvelopeWriter.pre
        cases comp with
        | identity => exact .inl rfl
        | custom => exact .inr rfl
      · refine stream_end hk hr hout ?_
        cases out with
        | body eb =>
          show chunks.flatten = _
          rw [hc, hends.1, hbs]
        | trailers t =>
          refine ⟨?_, hends.2⟩
          show chunks.flatten = _
          rw [hc, hends.1, hbs]
    bodyErr := rfl
    exitErr := rfl }

/-! ### unary responses -/

theorem answer_conforming {run : Call Res} {r : Response} (hf : CanRead c app codec)
    (hcomp : comp = .identity ∨ ∃ n, (Dict.get? c.comps n).isSome = true ∧ Dict.get? app.comps n = some comp)
    (hr : RegularAnswer c codec run) (ha : Answers codec comp run r) {undo : Undo} (hundo : Undoes undo c app) {resp : FullResponse}
    (hrec : Received undo r resp) : ConformingAnswer c codec run resp := by
  obtain ⟨k, hk1, hk2, _⟩ := known_comp hf hcomp
  have hreg := hr.regular
  cases ha with
  | success hrun he =>
    rename_i x data
    have henc : fieldValues ([(pys! "content-type", pys! "application/" ++ codec.name),
        (pys! "content-encoding", comp.name), (pys! "vary", pys! "Accept-Encoding")] ++ metadataFields (Spec.metadataOf run.steps))
          (pys! "content-encoding") = [comp.name] := by
      rw [List.cons_append, fieldValues_cons, if_neg (by decide +kernel), List.cons_append, fieldValues_cons,
        if_pos (by decide +kernel), List.cons_append, fieldValues_cons, if_neg (by decide +kernel), List.nil_append,
        hreg.encoding]
    have hcontent : resp.content = data := by
      rcases hrec.encoded comp.name henc with ⟨h1, h2⟩ | ⟨h1, h2⟩
      · rcases hcomp with rfl | ⟨n, _, h3⟩
        · exact h2
        · have := (hf.byName n comp h3).1
          rw [h1] at this
          subst this
          rw [hf.identity.1] at h3
          cases h3
          exact h2
      · rcases hcomp with rfl | ⟨n, h4, h3⟩
        · exact absurd rfl h1
        · have := (hf.byName n comp h3).1
          subst this
          have := hundo comp.name comp ((Dict.get?_isSome_iff _ _).1 h4) h3 h1 data
          rw [this] at h2
          exact (Option.some.inj h2).symm
    refine ⟨?_, ?_⟩
    · intro x' data' h1 h2
      rw [hrun] at h1
      cases h1
      rw [he] at h2
      cases h2
      exact {
        status := hrec.status
        lower := hrec.lower
        type := by
          refine ⟨pys! "application/" ++ codec.name, ?_, by rw [hf.name]; exact plain_type hf.plain⟩
          rw [hrec.field _ (by decide +kernel) (by decide +kernel), List.cons_append, fieldValues_cons, if_pos (by decide +kernel)]
          congr 1
          rw [List.cons_append, fieldValues_cons, if_neg (by decide +kernel), List.cons_append, fieldValues_cons,
            if_neg (by decide +kernel), List.nil_append, hr.type]
        encoding := by
          rcases hrec.encoding with h | h
          · exact ⟨_, .inl ⟨h, rfl⟩⟩
          · exact ⟨k, .inr ⟨comp.name, by rw [h, henc], hk2, hk1⟩⟩
        body := by rw [hcontent]; exact hf.messages x data he
        limit := by rw [hcontent]; exact hreg.limit x data hrun he }
    · rintro e (h | ⟨x', h1, h2⟩)
      · rw [hrun] at h; cases h
      · rw [hrun] at h1
        cases h1
        rw [he] at h2
        cases h2
  | failure hfail hh hresp hm =>
    rename_i e
    obtain ⟨ct, hct1, hfields⟩ := hm
    obtain ⟨hst, _, hbody⟩ := hresp
    have henc : fieldValues r.fields (pys! "content-encoding") = [] := by
      rw [hfields, fieldValues_cons, if_neg (by rw [hct1]; decide +kernel)]
      exact hreg.encoding
    refine ⟨?_, ?_⟩
    · intro x data h1 h2
      rcases hfail with h | ⟨x', h3, h4⟩
      · rw [h1] at h; cases h
      · rw [h1] at h3
        cases h3
        rw [h2] at h4
        cases h4
    · intro e' he'
      have : e' = e := by
        rcases hfail with h | ⟨x, h1, h2⟩ <;> rcases he' with h' | ⟨x', h1', h2'⟩
        · rw [h] at h'; cases h'; rfl
        · rw [h] at h1'; cases h1'
        · rw [h1] at h'; cases h'
        · rw [h1] at h1'; cases h1'; rw [h2] at h2'; cases h2'; rfl
      subst this
      exact {
        status := by rw [hrec.status, hst]; exact connectHttpStatus_ne _
        lower := hrec.lower
        type := by
          refine ⟨pys! "application/json", ?_, by decide +kernel⟩
          rw [hrec.field _ (by decide +kernel) (by decide +kernel), hfields, fieldValues_cons, if_pos (by rw [hct1]; decide +kernel), hr.type]
        encoding := by
          refine ⟨.identity, .inl ⟨?_, rfl⟩⟩
          rcases hrec.encoding with h | h
          · exact h
          · rw [h, henc]
        body := by rw [hrec.plain henc]; exact hbody }
  | http hfail => exact absurd rfl ((hreg.exceptions _ hfail).2.2 _ _)

end Conn
