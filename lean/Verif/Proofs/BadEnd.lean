import Verif.Props.Client
import Verif.Proofs.Rejected
import Verif.Spec.BadEnd
/-
Lemmas for C99.
-/
namespace Conn
open Py Spec Props

theorem blank_truthy {j : Json} : j.truthy = false ↔ Blank j := by
  constructor
  · intro h
    cases j with
    | null => exact .null
    | bool b => cases b with
      | true => cases h
      | false => exact .no
    | int i =>
      have : i = 0 := by simpa [Json.truthy] using h
      subst this; exact .zero
    | flt t =>
      refine .float ?_
      by_cases h1 : t = pys! "0.0"
      · exact .inl h1
      · refine .inr ?_
        have : ¬ (t != pys! "-0.0") = true := by
          intro h2
          rw [show Json.truthy (.flt t) = (t != pys! "0.0" && t != pys! "-0.0") from rfl, h2, bne_iff_ne.2 h1] at h
          cases h
        simpa using this
    | str s => cases s with
      | nil => exact .str
      | cons => cases h
    | arr l => cases l with
      | nil => exact .arr
      | cons => cases h
    | obj l => cases l with
      | nil => exact .obj
      | cons => cases h
  · intro h
    cases h with
    | float h => rcases h with rfl | rfl <;> decide
    | _ => rfl

theorem connectEndError_truthy {j : Json} (h : ¬ Blank j) : ∃ e, connectEndError (some j) = .error e := by
  have ht : j.truthy = true := by
    cases hh : j.truthy with
    | true => rfl
    | false => exact absurd (blank_truthy.1 hh) h
  unfold connectEndError
  dsimp only
  rw [if_pos ht]
  cases j with
  | obj m =>
    dsimp only
    cases ConnectErr.fromDict m 500 .unknown with
    | error e => exact ⟨_, rfl⟩
    | ok ce => exact ⟨_, rfl⟩
  | _ => exact ⟨_, rfl⟩

/-- the lines, as the reader finds them -/
theorem splitCRLF_last : ∀ (l : Bytes), (13 : UInt8) ∉ l → splitCRLF l = [l]
  | [], _ => rfl
  | [_], _ => rfl
  | b :: c :: l, h => by
    have hb : b ≠ 13 := by rintro rfl; exact h (by simp)
    have ih := splitCRLF_last (c :: l) (by intro hm; exact h (by simp at hm ⊢; exact .inr hm))
    rw [splitCRLF, if_neg (fun hh => hb hh.1), ih]

theorem splitCRLF_text {text : Bytes} {lines : List Bytes} (h : Lines text lines) : splitCRLF text = lines := by
  obtain ⟨init, last, rfl, rfl, hcr⟩ := h
  induction init with
  | nil =>
    rw [List.flatMap_nil, List.nil_append, List.nil_append]
    exact splitCRLF_last _ (hcr _ (by simp))
  | cons l ls ih =>
    rw [List.flatMap_cons, List.append_assoc, List.append_assoc]
    show splitCRLF (l ++ 13 :: 10 :: ((ls.flatMap fun l => l ++ [13, 10]) ++ last)) = _
    rw [splitCRLF_line l _ (hcr l (by simp)), ih (fun x hx => hcr x (by
      rw [List.cons_append]; exact .tail _ hx))]
    rfl

theorem takeWhile_colon : ∀ (n v : Bytes), (58 : UInt8) ∉ n → (n ++ 58 :: v).takeWhile (· != 58) = n ∧
    ((n ++ 58 :: v).dropWhile (· != 58)).drop 1 = v
  | [], v, _ => by simp
  | b :: n, v, h => by
    have hb : (b != 58) = true := by
      rw [bne_iff_ne]; rintro rfl; exact h (by simp)
    obtain ⟨h1, h2⟩ := takeWhile_colon n v (fun hm => h (by simp [hm]))
    rw [List.cons_append, List.takeWhile_cons, if_pos hb, List.dropWhile_cons, if_pos hb, h1]
    exact ⟨rfl, h2⟩

theorem parseTrailerLine_noField {line : Bytes} (h : NoField line) : line.isEmpty = false ∧ parseTrailerLine line = none := by
  obtain ⟨h0, h⟩ := h
  refine ⟨by cases line with | nil => exact absurd rfl h0 | cons => rfl, ?_⟩
  unfold parseTrailerLine
  rcases h with h | ⟨n, v, rfl, hn, h⟩
  · rw [if_neg h]
  · rw [if_pos (by simp), (takeWhile_colon n v hn).1, (takeWhile_colon n v hn).2]
    rcases h with h | h <;> rw [h]
    · cases utf8Decode n <;> rfl

theorem addTrailerLines_noField {line : Bytes} (hb : NoField line) : ∀ (lines : List Bytes) (t : HTTPHeaders), line ∈ lines →
    (addTrailerLines t lines).2 = true := by
  intro lines
  induction lines with
  | nil => intro t h; cases h
  | cons l lines ih =>
    intro t h
    rw [addTrailerLines]
    rcases List.mem_cons.1 h with rfl | h
    · obtain ⟨h1, h2⟩ := parseTrailerLine_noField hb
      rw [h1, h2]
      rfl
    · split
      · exact ih _ h
      · cases parseTrailerLine l with
        | none => rfl
        | some q => exact ih _ h

theorem errorOfTrailers_failed (sc : StatusCodec) (t : HTTPHeaders) {st : Str} (h : st ≠ pys! "0") : errorOfTrailers sc t st none ≠ none := by
  unfold errorOfTrailers
  rw [if_neg h]
  repeat' split
  all_goals exact fun h => by cases h

theorem grpcComplete_failed (sc : StatusCodec) (s : ClientSub) (headers : HTTPHeaders) {t : HTTPHeaders} {st : Str}
    (ht : t.get (pys! "grpc-status") = some st) (h0 : st ≠ pys! "0") : (grpcComplete sc s headers t none).2 ≠ none := by
  unfold grpcComplete
  rw [ht]
  exact errorOfTrailers_failed sc t h0

/-- the last envelope raises, or its trailers have another status -/
theorem endHook_failed {p : Proto} (hp : p ≠ .grpc) {contents : Bytes} (h : NoSuccess false p contents) {comp : Compression} {f : Frame}
    (hf : EndFrame comp (endFlag p) f contents) (s : ClientSub) (hs : s.trailers = []) :
    (∃ e, (p.endHook s f.flags contents).2 = .error e) ∨
    (p = .grpcWeb ∧ (p.endHook s f.flags contents).2 = .ok true ∧
      ∃ st, (p.endHook s f.flags contents).1.trailers.get (pys! "grpc-status") = some st ∧ st ≠ pys! "0") := by
  cases p with
  | grpc => exact absurd rfl hp
  | connect =>
    left
    have hpre : f.flags &&& 2 ≠ 0 := by
      rcases hf.2 with ⟨h, _⟩ | ⟨h, _⟩ <;> rw [h] <;> decide
    show ∃ e, (connectEndHook s f.flags contents).2 = .error e
    unfold connectEndHook
    rw [if_neg hpre]
    cases h with
    | notJson h => rw [h]; exact ⟨_, rfl⟩
    | @notObject _ j h hj =>
      rw [h]
      cases j with
      | obj m => exact absurd rfl (hj m)
      | _ => exact ⟨_, rfl⟩
    | @error _ m e h he hn =>
      rw [h]
      rw [member_eq] at he
      have hn : ¬ Blank e := hn
      obtain ⟨x, hx⟩ := connectEndError_truthy hn
      dsimp only
      rw [he, hx]
      repeat' split
      all_goals exact ⟨_, rfl⟩
  | grpcWeb =>
    have hpre : f.flags &&& 128 ≠ 0 := by
      rcases hf.2 with ⟨h, _⟩ | ⟨h, _⟩ <;> rw [h] <;> decide
    show (∃ e, (grpcWebEndHook s f.flags contents).2 = .error e) ∨ (_ ∧ (grpcWebEndHook s f.flags contents).2 = .ok true ∧
      ∃ st, (grpcWebEndHook s f.flags contents).1.trailers.get (pys! "grpc-status") = some st ∧ st ≠ pys! "0")
    unfold grpcWebEndHook
    dsimp only
    rw [if_neg hpre, hs]
    cases h with
    | @line _ lines line h hl hb =>
      left
      have hk := addTrailerLines_noField hb lines [] hl
      rw [splitCRLF_text h]
      generalize addTrailerLines [] lines = q at hk
      obtain ⟨t, b⟩ := q
      subst hk
      exact ⟨_, rfl⟩
    | @status fields text st hb hst h0 =>
      right
      rw [addTrailerLines_block hb]
      refine ⟨rfl, rfl, st, ?_, h0⟩
      rw [List.nil_append, http_get_eq, fieldValues_map_lower, hst]
      · rfl
      · intro p hp
        obtain ⟨q, _, rfl⟩ := List.mem_map.1 hp
        exact Headers.lower_idem _

section
variable {Req Res : Type} {c : Client Req Res} {sc : StatusCodec} {resp : StreamResponse}

theorem calm_cancel {cs : Circumstances} (hcs : Calm cs) (n : Nat) : cancelPoint c.flavor cs.cancelAfter n = none := by
  rw [hcs.2]
  cases c.flavor <;> rfl

theorem inside_failed (hsc : ∀ b e, sc.fromBinary b = .error e → Plain e) {ms : List Res} (h : FailedStream false c ms resp) (sink : Sink)
    {cs : Circumstances} (hcs : Calm cs) :
    (c.inside sc sink resp cs).messages = ms ∧ ∃ e, (c.inside sc sink resp cs).exc = some e ∧ Plain e := by
  obtain ⟨comp, fs, hcomp, hok, hms, hend⟩ := h.body
  obtain ⟨ct, hct, htype⟩ := h.type
  have henc : c.proto.requestEncodingHeader true = encodingHeader c.proto := by cases c.proto <;> rfl
  unfold Client.inside
  dsimp only
  rw [if_pos h.status, header_getD h.lower (by decide +kernel) (.inl hct), validateStream_type htype]
  dsimp only
  rw [responseCompression_named h.lower (by rw [henc]; exact hcomp)]
  dsimp only
  generalize handleResponseHeaders sink resp.headers = sink'
  have hdata : ∀ f ∈ fs, ∀ s d, (c.reader comp).handleEnd s f.flags d = (passOf c s, .ok false) :=
    fun f hf s d => client_data c comp f (hok f hf).2 s d
  have hms' : fs.map (policyOf (c.reader comp)).message = ms.map .ok := by rw [receives_eq]; exact hms
  obtain ⟨hp1, hp2⟩ := passes_sink c fs.length (ClientSub.init sink')
  have hstatus : ∀ sub : ClientSub, (c.proto.complete sc sub ⟨resp.status, resp.headers, resp.trailers⟩ none).2 ≠ none →
      ∃ e, (c.proto.complete sc sub ⟨resp.status, resp.headers, resp.trailers⟩ none).2 = some e ∧ Plain e := by
    intro sub hne
    cases hq : (c.proto.complete sc sub ⟨resp.status, resp.headers, resp.trailers⟩ none).2 with
    | none => exact absurd hq hne
    | some e => exact ⟨e, rfl, complete_exc c sc hsc sub _ e hq⟩
  unfold Client.readBody
  dsimp only
  rw [calm_cancel hcs]
  dsimp only
  generalize hpr : c.proto = p at hend
  cases hend with
  | @envelope _ f contents hf hc hl hb =>
    have hpg : p ≠ .grpc := by rintro rfl; cases hc
    have hflag : endFlag p = 2 ∨ endFlag p = 128 := by
      cases p with
      | connect => exact .inl rfl
      | grpc => exact absurd rfl hpg
      | grpcWeb => exact .inr rfl
    have hpay := payload_endFrame (c.reader comp) (endFlag p) hflag f contents hf hl
    have hhe : ∀ s, (c.reader comp).handleEnd s f.flags contents = p.endHook s f.flags contents := by
      intro s; unfold Client.reader; rw [hpr]
    rcases endHook_failed hpg hc hf (passes (passOf c) fs.length (ClientSub.init sink')) hp2 with ⟨e, he⟩ | ⟨hw, ho, st, hst, h0⟩
    · obtain ⟨h1, h2, h3⟩ := feedAll_messages_end (c.reader comp) (passOf c) (ClientSub.init sink') fs ms resp.chunks
        (fun f hf => (hok f hf).1) hdata hms' f hf.1 contents hpay hb (by rw [hhe, he]; intro h; cases h)
      rw [hhe, he] at h2
      rw [h2, h1]
      exact ⟨rfl, e, rfl, endHook_plain p _ _ _ e he⟩
    · obtain ⟨h1, h2, h3⟩ := feedAll_messages_end (c.reader comp) (passOf c) (ClientSub.init sink') fs ms resp.chunks
        (fun f hf => (hok f hf).1) hdata hms' f hf.1 contents hpay hb (by rw [hhe, ho]; intro h; cases h)
      rw [hhe, ho] at h2
      rw [hhe] at h3
      rw [h2, h1, h3, h.bodyErr]
      dsimp only
      rw [if_neg (by rw [hcs.1]; simp)]
      refine ⟨rfl, ?_⟩
      dsimp only
      rw [← hpr]
      exact hstatus _ (by rw [hpr, hw]; rw [hw] at hst; exact grpcComplete_failed sc _ _ hst h0)
  | @trailers st hs h0 hb =>
    obtain ⟨h1, h2, h3⟩ := feedAll_messages (c.reader comp) (passOf c) (ClientSub.init sink') fs ms resp.chunks (fun f hf => (hok f hf).1)
      hdata hms' hb
    rw [h2, h1, h3, h.bodyErr]
    dsimp only
    rw [if_neg (by rw [hcs.1]; simp)]
    refine ⟨rfl, ?_⟩
    dsimp only
    rw [← hpr]
    refine hstatus _ (by rw [hpr]; refine grpcComplete_failed sc _ _ ?_ h0; rw [http_get_eq _ h.trailersLower, hs]; rfl)

theorem bidi_failed (hsc : ∀ b e, sc.fromBinary b = .error e → Plain e) {ms : List Res} (h : FailedStream false c ms resp)
    {http : HttpRequest → Except Exc StreamResponse} (hh : ∀ rq, http rq = .ok resp) (sink : Sink) {cs : Circumstances} (hcs : Calm cs)
    (ctx : RequestContext) (reqs : List Req) (srcErr : Option Exc) :
    (c.bidi sc http sink cs ctx reqs srcErr).messages = ms ∧
    ∃ ce, (c.bidi sc http sink cs ctx reqs srcErr).exc = some (.connect ce) := by
  obtain ⟨hm, e, he, hp⟩ := inside_failed hsc h sink hcs
  have hl : leaveWith c.flavor cs (some e) none = some e := by
    cases e with
    | cancelled => exact absurd hp.1 (by simp [Exc.isException])
    | _ => cases c.flavor <;> rfl
  unfold Client.bidi
  dsimp only
  rw [hh]
  dsimp only
  rw [h.exitErr, he, hl]
  refine ⟨hm, ?_⟩
  dsimp only
  obtain ⟨ce, hce⟩ := mapStreamExc_connect c sc (c.inside sc sink resp cs).sink cs
    (match c.flavor, (c.inside sc sink resp cs).fromFeed, some e with
      | .sync, true, some e => if e.isConnect then some e else none
      | _, _, _ => none) (by
      intro x hx
      split at hx
      · rename_i y _ _ _ hy
        cases hy
        split at hx
        · cases hx
          cases e with
          | connect ce => exact ⟨ce, rfl⟩
          | _ => rename_i hy; cases hy
        · cases hx
      · cases hx) (c.inside sc sink resp cs).reader (some resp) e (fun _ => hp.1) (fun hr => absurd hr hp.2)
  exact ⟨ce, congrArg some hce⟩

/-- the end of a stream by Connect with an empty error -/
theorem connectEndHook_blank {contents : Bytes} {m : List (Str × Json)} {e : Json} (h : loadsBytes contents = some (.obj m))
    (he : member m (pys! "error") = some e) (hb : Blank e) (hmd : Absent m (pys! "metadata")) (s : ClientSub) {pre : UInt8} (hpre : pre &&& 2 ≠ 0) :
    connectEndHook s pre contents = (s, .ok true) := by
  rw [member_eq] at he
  have hx : connectEndError (some e) = .ok true := by
    unfold connectEndError
    dsimp only
    rw [if_neg (by rw [blank_truthy.2 hb]; decide)]
  unfold connectEndHook
  rw [if_neg hpre, h]
  dsimp only
  rw [he, hx]
  rcases hmd with hmd | hmd <;> rw [member_eq] at hmd <;> rw [hmd]
  rfl

theorem bidi_blank {ms : List Res} (hpr : c.proto = .connect) (h : EmptyError c ms resp)
    {http : HttpRequest → Except Exc StreamResponse} (hh : ∀ rq, http rq = .ok resp) (sink : Sink) {cs : Circumstances} (hcs : Calm cs)
    (ctx : RequestContext) (reqs : List Req) (srcErr : Option Exc) :
    (c.bidi sc http sink cs ctx reqs srcErr).messages = ms ∧ (c.bidi sc http sink cs ctx reqs srcErr).exc = none := by
  have hin : (c.inside sc sink resp cs).messages = ms ∧ (c.inside sc sink resp cs).exc = none := by
    obtain ⟨comp, fs, f, contents, m, e, hcomp, hok, hms, hf, hj, he, hbl, _, hmd, hl, hb⟩ := h.body
    obtain ⟨ct, hct, htype⟩ := h.type
    have henc : c.proto.requestEncodingHeader true = encodingHeader c.proto := by cases c.proto <;> rfl
    rw [hpr] at hf
    have hpre : f.flags &&& 2 ≠ 0 := by
      rcases hf.2 with ⟨h, _⟩ | ⟨h, _⟩ <;> rw [h] <;> decide
    unfold Client.inside
    dsimp only
    rw [if_pos h.status, header_getD h.lower (by decide +kernel) (.inl hct), validateStream_type htype]
    dsimp only
    rw [responseCompression_named h.lower (by rw [henc]; exact hcomp)]
    dsimp only
    generalize handleResponseHeaders sink resp.headers = sink'
    have hdata : ∀ f ∈ fs, ∀ s d, (c.reader comp).handleEnd s f.flags d = (passOf c s, .ok false) :=
      fun f hf s d => client_data c comp f (hok f hf).2 s d
    have hhe : ∀ s, (c.reader comp).handleEnd s f.flags contents = (s, .ok true) := by
      intro s; unfold Client.reader; rw [hpr]; exact connectEndHook_blank hj he hbl hmd s hpre
    obtain ⟨h1, h2, h3⟩ := feedAll_messages_end (c.reader comp) (passOf c) (ClientSub.init sink') fs ms resp.chunks
      (fun f hf => (hok f hf).1) hdata (by rw [receives_eq]; exact hms) f hf.1 contents
      (payload_endFrame (c.reader comp) 2 (.inl rfl) f contents hf hl) hb (by rw [hhe]; intro h; cases h)
    rw [hhe] at h2
    unfold Client.readBody
    dsimp only
    rw [calm_cancel hcs]
    dsimp only
    rw [h2, h1, h.bodyErr]
    dsimp only
    rw [if_neg (by rw [hcs.1]; simp)]
    refine ⟨rfl, ?_⟩
    dsimp only
    rw [hpr]
    rfl
  have hl : leaveWith c.flavor cs none none = none := by cases c.flavor <;> rfl
  unfold Client.bidi
  dsimp only
  rw [hh]
  dsimp only
  rw [h.exitErr, hin.2, hl]
  exact ⟨hin.1, rfl⟩

end

end Conn
