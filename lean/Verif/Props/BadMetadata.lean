import Verif.Props.BadMessage
import Verif.Spec.BadMetadata
/-
C83 is false of every end message with metadata that cannot be recorded.
-/
namespace Props
open Conn Py Spec

variable {Req Res : Type}

theorem addMetadata_append (a b : List (Str × Json)) : ∀ t t', addMetadata t a = (t', false) → addMetadata t (a ++ b) = addMetadata t' b := by
  induction a with
  | nil => intro t t' h; cases h; rfl
  | cons p a ih =>
    intro t t' h
    obtain ⟨k, v⟩ := p
    rw [List.cons_append, addMetadata]
    rw [addMetadata] at h
    cases he : addMetadataEntry t k v with
    | none => rw [he] at h; cases h
    | some t1 => rw [he] at h; exact ih _ _ h

/-- what happens to the metadata: nothing outside of a block; inside it raises, and keeps what it has recorded only if there were trailers before -/
theorem handleMetadataJson_odd {md : Json} {fields : List (Str × Str)} (h : Unrecordable md fields) (r : RespMeta) :
    md.truthy = true ∧ ∃ cls msg, Ordinarily cls ∧ handleMetadataJson (some r) md =
      (some { r with trailers := r.trailers.map fun t => fields.foldl (fun t p => t.add p.1 p.2) t }, some (.other cls msg)) := by
  cases h with
  | notObject h hj =>
    have ht : md.truthy = true := by
      cases hh : md.truthy with
      | true => rfl
      | false => exact absurd (blank_truthy.1 hh) h
    refine ⟨ht, .attributeError, pys! "object has no attribute 'items'", ⟨fun h => (by cases h), fun _ h => (by cases h)⟩, ?_⟩
    have hr : ({ r with trailers := r.trailers.map fun t => ([] : List (Str × Str)).foldl (fun t p => t.add p.1 p.2) t } : RespMeta) = r := by
      obtain ⟨a, b⟩ := r
      cases b <;> rfl
    rw [hr]
    cases md with
    | obj m => exact absurd rfl (hj m)
    | _ => rfl
  | @member good name j rest hs =>
    refine ⟨?_, .typeError, pys! "object is not iterable", ⟨fun h => (by cases h), fun _ h => (by cases h)⟩, ?_⟩
    · cases good <;> rfl
    · have hadd : ∀ t, addMetadata t ((good.map fun p => (p.1, .arr (p.2.map .str))) ++ (name, j) :: rest) =
          ((good.flatMap fun p => p.2.map fun v => (p.1, v)).foldl (fun t p => t.add p.1 p.2) t, true) := by
        intro t
        refine (addMetadata_append _ _ _ _ (addMetadata_json good t)).trans ?_
        rw [addMetadata]
        have : ∀ t, addMetadataEntry t name j = none := by
          intro t
          rcases hs with rfl | ⟨_, rfl⟩ | ⟨_, rfl⟩ | ⟨_, rfl⟩ <;> rfl
        rw [this]
        rfl
      unfold handleMetadataJson
      dsimp only
      rw [hadd]
      obtain ⟨a, b⟩ := r
      cases b <;> rfl

/-- **C83 is false of every response by Connect whose end message has metadata that cannot be recorded**: outside of a block the stream delivers its messages and ends; inside a
block it delivers them and raises UNAVAILABLE. What came before the bad member is recorded if the block has trailers already, and lost if not. -/
theorem C83_violation_metadata_all (c : Client Req Res) (hp : c.proto = .connect) (sc : StatusCodec) (ms : List Res) (resp : StreamResponse)
    (fields : List (List Char × List Char)) (h : OddEnd c ms resp fields) (http : HttpClient) (hh : ∀ rq, http.stream rq = .ok resp)
    (cs : Circumstances) (hcs : Calm cs) (reqs : List Req) (srcErr : Option Exc) (m : MethodInfo) (user : UserHeaders) (t : Option Int) :
    ((c.executeBidiStream sc http none cs reqs srcErr m user t).messages = ms ∧
      (c.executeBidiStream sc http none cs reqs srcErr m user t).exc = none) ∧
    ∀ r, (c.executeBidiStream sc http (some r) cs reqs srcErr m user t).messages = ms ∧
      (∃ e, (c.executeBidiStream sc http (some r) cs reqs srcErr m user t).exc = some e ∧ Blames .unavailable [] e) ∧
      (c.executeBidiStream sc http (some r) cs reqs srcErr m user t).sink =
        (handleResponseHeaders (some r) resp.headers).map fun r => { r with trailers := r.trailers.map fun t => fields.foldl (fun t p => t.add p.1 p.2) t } := by
  obtain ⟨comp, fs, f, contents, mm, md, hcomp, hok, hms, hf, hj, herr, hmd, hodd, hl, hb⟩ := h.body
  obtain ⟨ct, hct, htype⟩ := h.type
  have henc : c.proto.requestEncodingHeader true = encodingHeader c.proto := by cases c.proto <;> rfl
  rw [hp] at hf
  have hpre : f.flags &&& 2 ≠ 0 := by
    rcases hf.2 with ⟨h, _⟩ | ⟨h, _⟩ <;> rw [h] <;> decide
  rw [member_eq] at hmd
  have hend : connectEndError (Dict.get? mm (pys! "error")) = .ok true := by
    rcases herr with he | he <;> rw [member_eq] at he <;> rw [he] <;> rfl
  have hdata : ∀ f ∈ fs, ∀ s d, (c.reader comp).handleEnd s f.flags d = (passOf c s, .ok false) :=
    fun f hf s d => client_data c comp f (hok f hf).2 s d
  have hpass : ∀ n s, passes (passOf c) n s = s := by
    intro n s
    have hid : ∀ s, passOf c s = s := fun s => if_pos hp
    induction n generalizing s with
    | zero => rfl
    | succ n ih => rw [passes, hid, ih]
  have hpay := payload_endFrame (c.reader comp) 2 (.inl rfl) f contents hf hl
  have hinside : ∀ sink, c.inside sc sink resp cs = c.readBody sc (handleResponseHeaders sink resp.headers) comp resp cs := by
    intro sink
    unfold Client.inside
    dsimp only
    rw [if_pos h.status, header_getD h.lower (by decide +kernel) (.inl hct), validateStream_type htype]
    dsimp only
    rw [responseCompression_named h.lower (by rw [henc]; exact hcomp)]
  obtain ⟨htr, _⟩ := handleMetadataJson_odd hodd RespMeta.new
  constructor
  · have hhe : ∀ s : ClientSub, s.sink = none → (c.reader comp).handleEnd s f.flags contents = (s, .ok true) := by
      intro s hs
      unfold Client.reader
      rw [hp]
      show connectEndHook s f.flags contents = _
      unfold connectEndHook
      rw [if_neg hpre, hj]
      dsimp only
      rw [hmd]
      dsimp only
      rw [if_pos htr, hs, hend]
      obtain ⟨a, b, d⟩ := s
      cases hs
      rfl
    have hin : (c.inside sc none resp cs).messages = ms ∧ (c.inside sc none resp cs).exc = none := by
      rw [hinside]
      show (c.readBody sc none comp resp cs).messages = ms ∧ _
      obtain ⟨h1, h2, h3⟩ := feedAll_messages_end (c.reader comp) (passOf c) (ClientSub.init none) fs ms resp.chunks
        (fun f hf => (hok f hf).1) hdata (by rw [receives_eq]; exact hms) f hf.1 contents hpay hb (by rw [hpass, hhe _ rfl]; intro h; cases h)
      rw [hpass, hhe _ rfl] at h2
      show (c.readBody sc none comp resp cs).messages = ms ∧ (c.readBody sc none comp resp cs).exc = none
      unfold Client.readBody
      dsimp only
      rw [calm_cancel hcs]
      dsimp only
      rw [h2, h1, h.bodyErr]
      dsimp only
      rw [if_neg (by rw [hcs.1]; simp)]
      refine ⟨rfl, ?_⟩
      dsimp only
      rw [hp]
      rfl
    have hlv : leaveWith c.flavor cs none none = none := by cases c.flavor <;> rfl
    show (c.bidi sc http.stream none cs _ reqs srcErr).messages = _ ∧ (c.bidi sc http.stream none cs _ reqs srcErr).exc = _
    unfold Client.bidi
    dsimp only
    rw [hh]
    dsimp only
    rw [h.exitErr, hin.2, hlv]
    exact ⟨hin.1, rfl⟩
  · intro r
    obtain ⟨r1, hr1⟩ : ∃ r1, handleResponseHeaders (some r) resp.headers = some r1 := ⟨_, rfl⟩
    obtain ⟨_, cls, msg, ho, hmj⟩ := handleMetadataJson_odd hodd r1
    have hhe : (c.reader comp).handleEnd (ClientSub.init (some r1)) f.flags contents =
        ({ ClientSub.init (some r1) with sink := some { r1 with trailers := r1.trailers.map fun t => fields.foldl (fun t p => t.add p.1 p.2) t } },
          .error (.other cls msg)) := by
      unfold Client.reader
      rw [hp]
      show connectEndHook _ f.flags contents = _
      unfold connectEndHook
      rw [if_neg hpre, hj]
      dsimp only
      rw [hmd]
      dsimp only
      rw [if_pos htr]
      show (match handleMetadataJson (some r1) md with | (sink, some e) => _ | (sink, none) => _ : ClientSub × Except Exc Bool) = _
      rw [hmj]
    have hin : (c.inside sc (some r) resp cs).messages = ms ∧ (c.inside sc (some r) resp cs).exc = some (.other cls msg) ∧
        (c.inside sc (some r) resp cs).sink = some { r1 with trailers := r1.trailers.map fun t => fields.foldl (fun t p => t.add p.1 p.2) t } := by
      rw [hinside, hr1]
      obtain ⟨h1, h2, h3⟩ := feedAll_messages_end (c.reader comp) (passOf c) (ClientSub.init (some r1)) fs ms resp.chunks
        (fun f hf => (hok f hf).1) hdata (by rw [receives_eq]; exact hms) f hf.1 contents hpay hb (by rw [hpass, hhe]; intro h; cases h)
      rw [hpass, hhe] at h2 h3
      unfold Client.readBody
      dsimp only
      rw [calm_cancel hcs]
      dsimp only
      rw [h2, h1, h3]
      exact ⟨rfl, rfl, rfl⟩
    obtain ⟨hm, he, hs⟩ := hin
    have hlv : leaveWith c.flavor cs (some (Exc.other cls msg)) none = some (.other cls msg) := by cases c.flavor <;> rfl
    have key : ∀ se : Option Exc, se = none → c.mapStreamExc sc (c.inside sc (some r) resp cs).sink cs se (c.inside sc (some r) resp cs).reader (some resp)
        (.other cls msg) = ((c.inside sc (some r) resp cs).sink, .connect ⟨.unavailable, msg, []⟩) := by
      rintro se rfl
      unfold Client.mapStreamExc Client.mapReset
      cases cls with
      | timeoutError => exact absurd rfl ho.1
      | streamError code => exact absurd rfl (ho.2 code)
      | _ => rfl
    show (c.bidi sc http.stream (some r) cs _ reqs srcErr).messages = _ ∧ (∃ e, (c.bidi sc http.stream (some r) cs _ reqs srcErr).exc = some e ∧ _) ∧
      (c.bidi sc http.stream (some r) cs _ reqs srcErr).sink = _
    unfold Client.bidi
    dsimp only
    rw [hh]
    dsimp only
    rw [h.exitErr, he, hlv]
    dsimp only
    rw [key _ (by cases c.flavor <;> cases (c.inside sc (some r) resp cs).fromFeed <;> rfl), hr1]
    exact ⟨hm, ⟨_, rfl, _, rfl, rfl, List.nil_infix⟩, hs⟩

/-- a message, then `{"metadata": {"a": ["b"], "c": 5}}` -/
example (f : Flavor) : OddEnd (demoClient f .connect) [[7]]
    (okStream (pys! "application/connect+raw") [[0, 0, 0, 0, 1, 7], [2, 0, 0, 0, 36] ++ utf8Encode (pys! "{\"metadata\": {\"a\": [\"b\"], \"c\": 5}}  ")] [])
    [(pys! "a", pys! "b")] where
  status := rfl
  lower := by decide +kernel
  type := ⟨pys! "application/connect+raw", by decide +kernel, rfl⟩
  body := ⟨.identity, [⟨0, [7]⟩], ⟨2, utf8Encode (pys! "{\"metadata\": {\"a\": [\"b\"], \"c\": 5}}  ")⟩, utf8Encode (pys! "{\"metadata\": {\"a\": [\"b\"], \"c\": 5}}  "),
    [(pys! "metadata", .obj [(pys! "a", .arr [.str (pys! "b")]), (pys! "c", .int 5)])], .obj [(pys! "a", .arr [.str (pys! "b")]), (pys! "c", .int 5)],
    .inl ⟨by cases f <;> decide +kernel, rfl⟩, by simp [Frame.Ok], by cases f <;> decide +kernel,
    ⟨by unfold Frame.Ok; decide +kernel, .inl ⟨by cases f <;> rfl, rfl⟩⟩, by decide +kernel, .inl (by decide +kernel), by decide +kernel,
    .member (good := [(pys! "a", [pys! "b"])]) (name := pys! "c") (j := .int 5) (rest := []) (.inr (.inr (.inl ⟨5, rfl⟩))),
    (by cases f <;> exact fun n h => by cases h), by decide +kernel⟩
  bodyErr := rfl
  exitErr := rfl

end Props
