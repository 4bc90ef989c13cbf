import Verif.Props.Stream
/-
C32 when the end of a stream cannot be written: Connect and gRPC-Web put it into an envelope, whose length is a 32-bit number.
-/
namespace Props
open Conn Py Spec

section
variable {Req Res : Type}

theorem length_flatMap_ge {α β : Type} (f : α → List β) (h : ∀ a, 1 ≤ (f a).length) : ∀ xs : List α, xs.length ≤ (xs.flatMap f).length
  | [] => Nat.le_refl 0
  | x :: xs => by
    rw [List.flatMap_cons, List.length_append, List.length_cons]
    have := h x
    have := length_flatMap_ge f h xs
    omega

theorem utf8_ge (s : Str) : s.length ≤ (utf8Encode s).length := by
  refine length_flatMap_ge _ (fun c => ?_) s
  unfold utf8EncodeChar
  dsimp only
  split
  · exact Nat.le_refl 1
  split
  · exact Nat.le_succ 1
  split
  · exact Nat.succ_le_succ (Nat.zero_le _)
  · exact Nat.succ_le_succ (Nat.zero_le _)

theorem uEscape_ge (n : Nat) : 1 ≤ (uEscape n).length := by
  unfold uEscape
  simp

theorem dumpsStr_ge (s : Str) : s.length ≤ (dumpsStr s).length := by
  have : ∀ c, 1 ≤ (jsonEscape c).length := by
    intro c
    unfold jsonEscape
    repeat' split
    all_goals first | decide | exact Nat.le_refl 1 | exact uEscape_ge _ | (rw [List.length_append]; exact Nat.le_trans (uEscape_ge _) (Nat.le_add_right _ _))
  have h := length_flatMap_ge jsonEscape this s
  unfold dumpsStr
  simp only [List.length_append, List.length_cons, List.length_nil]
  omega

theorem dumps_toDict_ge (e : ConnectErr) : e.message.length ≤ (dumps e.toDict).length := by
  have := dumpsStr_ge e.message
  unfold ConnectErr.toDict
  dsimp only
  split
  · simp only [dumps, dumpsMembers, List.length_append]
    omega
  · simp only [List.cons_append, dumps, dumpsMembers, List.length_append, List.length_cons]
    omega

theorem dumps_end_ge (tr : Headers) (e : ConnectErr) : e.message.length ≤ (dumps (connectEndJson tr (some e))).length := by
  have := dumps_toDict_ge e
  unfold connectEndJson
  dsimp only
  split
  · simp only [List.cons_append, List.nil_append, dumps, dumpsMembers, List.length_append, List.length_cons]
    omega
  · simp only [List.nil_append, dumps, dumpsMembers, List.length_append]
    omega

/-- The end of a Connect stream without compression cannot be written if it reports an error whose message has 2^32 characters or more. -/
theorem end_too_long (codec : ServerCodec Req Res) (sc : StatusCodec) (tr : Headers) (code : Code) (msg : Str) (h : 2 ^ 32 ≤ msg.length) :
    ¬ ∃ out, EndsWith (writerOf codec .identity) .connect sc tr (some (.mk code msg)) out := by
  rintro ⟨out, ho⟩
  have hl := Nat.le_trans (dumps_end_ge tr { code, message := msg }) (utf8_ge _)
  unfold EndsWith EnvelopeWriter.end' EnvelopeWriter.connectEnd packEnvelope at ho
  dsimp only at ho
  rw [if_neg (by
    show ¬ (utf8Encode (dumps (connectEndJson tr (some { code, message := msg })))).length < 4294967296
    have : (2 : Nat) ^ 32 ≤ (utf8Encode (dumps (connectEndJson tr (some { code, message := msg })))).length := Nat.le_trans h hl
    omega)] at ho
  cases ho

/-- a run without messages -/
theorem wsgiFirst_silent {c : StreamCfg Req Res} {h h' : HState Req} {acts : List (Act Res)} {o e : Option Exc} {i : Meta} {ms : List Res}
    (hr : Runs c.writer.write none h acts o i ms h' e) (hp : ¬ Produces h acts) (he : Caught e) (hno : ¬ ∃ out, EndsWith c.writer c.proto c.sc h'.info.trailers e out) :
    ∃ st f st' f' rest, (c.wsgiFirst o acts h).events = .start st f :: .start st' f' :: rest := by
  have only : ∀ (h : HState Req) (x : Exc), x.isException = true → (¬ ∃ out, EndsWith c.writer c.proto c.sc h.info.trailers (some x) out) →
      ∃ st f st' f' rest, (c.wsgiErrorOnly h [] x).events = .start st f :: .start st' f' :: rest := by
    intro h x hx hno
    unfold StreamCfg.wsgiErrorOnly
    rw [if_pos hx]
    cases hend : c.writer.end' c.proto c.sc h.info.trailers (some (ConnectErr.fromException x)) with
    | ok out =>
      refine absurd ⟨out, ?_⟩ hno
      cases x <;> exact hend
    | error y =>
      obtain ⟨msg, rfl⟩ := (Conn.end_error hend).2
      exact ⟨_, _, _, _, _, rfl⟩
  induction hr with
  | done h o =>
    cases o with
    | some x => exact only h x (he x rfl) hno
    | none =>
      unfold StreamCfg.wsgiFirst
      cases hend : c.writer.end' c.proto c.sc h.info.trailers none with
      | ok out => exact absurd ⟨out, hend⟩ hno
      | error y =>
        obtain ⟨msg, rfl⟩ := (Conn.end_error hend).2
        dsimp only
        unfold StreamCfg.wsgiErrorOnly
        rw [if_pos (show (Exc.other Cls.structError msg).isException = true from rfl)]
        cases hend2 : c.writer.end' c.proto c.sc h.info.trailers (some (ConnectErr.fromException (.other .structError msg))) with
        | ok out => exact ⟨_, _, _, _, _, rfl⟩
        | error z => 
          obtain ⟨msg', rfl⟩ := (Conn.end_error hend2).2
          exact ⟨_, _, _, _, _, rfl⟩
  | step hs hr ih =>
    unfold StreamCfg.wsgiFirst
    rw [does_iff.2 hs]
    exact ih (fun hp' => hp (.later hs hp')) he hno
  | raised hs =>
    unfold StreamCfg.wsgiFirst
    rw [does_iff.2 hs]
    exact only _ _ (he _ rfl) hno
  | emit _ _ _ => exact absurd .now hp
  | unwritable _ => exact absurd .now hp

/-- **C32 is false of ends that cannot be written** (`C32_wsgi_stream_partial` excludes them): when the handler has produced no message and how it ended cannot be told in an envelope,
`start_response` is called a second time. -/
theorem C32_violation_end (app : App Req Res) (sc : StatusCodec) (env : Environ) (key : List Char) (ep : Endpoint Req Res) (p : Proto)
    (codec : ServerCodec Req Res) (reqComp resComp : Compression) (h : WsgiStreamed app env key ep p codec reqComp resComp)
    (hp : Pieces env.input) (s : ReqStream Req) (hs : WsgiMessages app env codec reqComp s) :
    ∃ ctx, ∀ req h0 script, Starts s ctx ep.handler req h0 script → ¬ Produces h0 script.acts →
      ∀ i ms h' e, Runs (writerOf codec resComp).write none h0 script.acts script.outcome i ms h' e → Caught e →
      (¬ ∃ out, EndsWith (writerOf codec resComp) p sc h'.info.trailers e out) →
      ∃ status fields status' fields' rest, (app.wsgi sc env).events = .start status fields :: .start status' fields' :: rest := by
  obtain ⟨name, hn, hcodec⟩ := h.codec
  obtain ⟨hm, ctx, hctx, hcases⟩ := wsgi_stream_cases h.streams hn hcodec h.resComp
  refine ⟨ctx, fun req h0 script hst hnp i ms h' e hr he hno => ?_⟩
  rw [wsgiMessages_iff hp] at hs
  subst hs
  rw [((hcases sc).2 reqComp h.reqComp).2 req h0 script (starts_iff.2 hst)]
  exact wsgiFirst_silent (c := streamCfg p sc codec resComp [⟨key, ctx, req⟩]) hr hnp he hno

/-! ### the hypotheses are met -/

/-- a handler that fails with a message of 2^32 characters -/
def wordyRun (_ : Bytes) (_ : RequestContext) : Script Bytes := ⟨[], some (.mk .internal (List.replicate (2 ^ 32) 'a')), none⟩

def wordyApp : App Bytes Bytes := .new [(pys! "/a.S/List", ⟨listInfo, .serverStream wordyRun⟩)] (pys! "/a.S") .identity (some 10) none [protoCodec]

theorem wordy_violates (sc : StatusCodec) : ∃ status fields status' fields' rest,
    (wordyApp.wsgi sc (flowEnviron (pys! "/a.S/List") (pys! "application/connect+proto") [] [[0, 0, 0, 0, 1, 3]])).events =
      .start status fields :: .start status' fields' :: rest := by
  have hpc : Pieces (flowEnviron (pys! "/a.S/List") (pys! "application/connect+proto") [] [[0, 0, 0, 0, 1, 3]]).input := by
    intro s hs
    rw [List.mem_singleton.1 hs]
    exact List.cons_ne_nil _ _
  obtain ⟨ctx, h⟩ := C32_violation_end wordyApp sc (flowEnviron (pys! "/a.S/List") (pys! "application/connect+proto") [] [[0, 0, 0, 0, 1, 3]]) (pys! "/a.S/List")
    ⟨listInfo, .serverStream wordyRun⟩ .connect protoCodec .identity .identity
    ⟨⟨wsgiLookup_ok.1 rfl, ⟨pys! "POST", rfl, .inl rfl⟩, (speaks_iff ..).2 (by decide +kernel), fun h => (by cases h),
        connectHeaders_of (by decide +kernel) (by decide +kernel), fun _ => rfl⟩,
      ⟨pys! "proto", (streamCodecName_iff ..).2 (by decide +kernel), rfl⟩, .inl rfl, responseCompression_iff.1 rfl⟩
    hpc ⟨[[3]], none⟩ ((wsgiMessages_iff hpc).2 (by decide +kernel))
  exact h _ _ _ (.serverStream wordyRun [3] rfl rfl) (by rintro ⟨⟩) _ _ _ _ (.done ..) (by rintro x ⟨⟩; rfl)
    (end_too_long _ _ _ _ _ (by rw [List.length_replicate]; exact Nat.le_refl _))

end
end Props
