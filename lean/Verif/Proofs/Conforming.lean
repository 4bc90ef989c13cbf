import Verif.Proofs.Wire
import Verif.Spec.Conforming
/-
Lemmas for C70: what the client makes of any response in the published formats.
-/
namespace Conn
open Py Spec Props

/-! ### the end of a Connect stream -/

theorem metadataObject_json {trailers : List (Str × Str)} {md : List (Str × Json)} (h : MetadataObject trailers md) :
    ∃ m : Multimap, md = jsonMetadata m ∧ ∀ n, fieldValues m.pairs n = fieldValues trailers n := by
  have : ∃ m : Multimap, md = jsonMetadata m := by
    have ha := h.arrays
    clear h
    induction md with
    | nil => exact ⟨[], rfl⟩
    | cons p md ih =>
      obtain ⟨m, hm⟩ := ih fun q hq => ha q (by simp [hq])
      obtain ⟨vs, hv⟩ := ha p (by simp)
      refine ⟨(p.1, vs) :: m, ?_⟩
      show p :: md = (p.1, .arr (vs.map .str)) :: jsonMetadata m
      rw [hm, ← hv]
  obtain ⟨m, rfl⟩ := this
  exact ⟨m, rfl, fun n => by rw [← metadata_values, h.values]⟩

theorem endError_object {error : Option ConnectErr} {m : List (Str × Json)} {trailers : List (Str × Str)} (h : EndObject trailers error m) :
    EndsAs error (connectEndError (Dict.get? m (pys! "error"))) := by
  have he := h.error
  cases error with
  | none =>
    have he : Absent m (pys! "error") := he
    unfold Absent at he
    rw [member_eq] at he
    rcases he with he | he <;> rw [he] <;> rfl
  | some e =>
    obtain ⟨em, h1, h2⟩ := he
    rw [member_eq] at h1
    obtain ⟨e', h3, h4⟩ := fromDict_object h2 500 .unknown
    refine ⟨e', ?_, h4⟩
    rw [h1]
    unfold connectEndError
    have ht : (Json.obj em).truthy = true := by
      cases em with
      | nil => have := h2.code; cases this
      | cons p r => rfl
    dsimp only
    rw [if_pos ht, h3]

/-- what the client makes of any end message of a Connect stream -/
theorem connectEndHook_object {trailers : List (Str × Str)} {error : Option ConnectErr} {data : Bytes} {m : List (Str × Json)}
    (hj : loadsBytes data = some (.obj m)) (h : EndObject trailers error m) (s : ClientSub) (pre : UInt8) (hpre : pre &&& 2 ≠ 0)
    (hfresh : ∀ r, s.sink = some r → r.getTrailers.Inv) :
    (∀ r, s.sink = some r → ∃ r', (connectEndHook s pre data).1.sink = some r' ∧ r'.headers = r.headers ∧
        ∀ k, r'.getTrailers.getall k = r.getTrailers.getall k ++ fieldValues trailers k) ∧
      EndsAs error (connectEndHook s pre data).2 := by
  have herr := endError_object h
  unfold connectEndHook
  rw [if_neg hpre, hj]
  dsimp only
  rcases h.metadata with ⟨md, hmd, hmo⟩ | ⟨h0, hmd⟩
  · rw [member_eq] at hmd
    rw [hmd]
    dsimp only
    obtain ⟨mm, rfl, hv⟩ := metadataObject_json hmo
    cases mm with
    | nil =>
      rw [if_neg (by decide)]
      refine ⟨fun r hr => ⟨r, hr, rfl, ?_⟩, herr⟩
      intro k
      rw [← hv k]
      exact (List.append_nil _).symm
    | cons p mm =>
      rw [if_pos (by rfl)]
      cases hs : s.sink with
      | none => exact ⟨fun r hr => (by cases hr), herr⟩
      | some r =>
        have hh : handleMetadataJson (some r) (.obj (jsonMetadata (p :: mm))) =
            (some (storeTrailers r ((Multimap.pairs (p :: mm)).foldl (fun t p => t.add p.1 p.2) r.getTrailers)), none) := by
          unfold handleMetadataJson
          dsimp only
          rw [addMetadata_json]
        rw [hh]
        dsimp only
        refine ⟨fun r' hr' => ?_, herr⟩
        cases hr'
        refine ⟨_, rfl, storeTrailers_headers _ _, ?_⟩
        intro k
        rw [storeTrailers_getall r _ (hfresh r hs), ← hv k]
        rfl
  · unfold Absent at hmd
    rw [member_eq] at hmd
    have hsame : ∀ r, s.sink = some r → ∃ r', s.sink = some r' ∧ r'.headers = r.headers ∧
        ∀ k, r'.getTrailers.getall k = r.getTrailers.getall k ++ fieldValues trailers k := by
      refine fun r hr => ⟨r, hr, rfl, ?_⟩
      intro k
      rw [h0]
      exact (List.append_nil _).symm
    rcases hmd with hmd | hmd <;> rw [hmd]
    · exact ⟨hsame, herr⟩
    · dsimp only
      rw [if_neg (by decide)]
      exact ⟨hsame, herr⟩

/-! ### the status of gRPC -/

theorem grpcNumber_pos (c : Code) : grpcNumber c ≠ 0 := by cases c <;> decide

theorem codeOf_number (c : Code) : codeOfGrpcStatus (intStr (grpcNumber c)) = c := by
  rw [← grpcStatus_number]; exact codeOfGrpcStatus_roundtrip c

/-- the outcome read from any status trailers -/
theorem errorOfTrailers_fields {sc : StatusCodec} (hsc : sc.Lawful) {trailers : List (Str × Str)} {error : Option ConnectErr}
    {t : HTTPHeaders} (hlow : ∀ p ∈ t, lower p.1 = p.1) (h : StatusFields sc trailers error t) :
    SeenExactly error (errorOfTrailers sc t (intStr (statusNumber error)) none) := by
  cases error with
  | none =>
    unfold errorOfTrailers
    rw [if_pos (by decide +kernel)]
    rfl
  | some e =>
    have hne : intStr (statusNumber (some e)) ≠ pys! "0" := by
      show intStr (grpcNumber e.code) ≠ _
      rw [← grpcStatus_number]; exact grpcStatus_ne_zero _
    have hmsg : unquote (t.getD (pys! "grpc-message") []) = e.message := by
      unfold HTTPHeaders.getD
      rw [http_get_eq t hlow]
      rcases h.message e rfl with ⟨v, h1, h2⟩ | ⟨h0, h1⟩
      · rw [h1]; exact unquote_percent h2
      · rw [h1, h0]; rfl
    have hcode : codeOfGrpcStatus (intStr (statusNumber (some e))) = e.code := codeOf_number _
    unfold errorOfTrailers
    rw [if_neg hne, http_get_eq t hlow]
    rcases h.details e rfl with ⟨v, b, h1, h2, h3⟩ | ⟨h0, h1⟩
    · rw [h1]
      dsimp only [List.head?]
      have hv : v.isEmpty = false := by
        cases v with
        | nil =>
          exfalso
          rw [base64_nil h2, hsc.empty] at h3
          have := congrArg Status.code (Except.ok.inj h3)
          exact grpcNumber_pos e.code (by have : (0 : Int) = (grpcNumber e.code : Int) := this; omega)
        | cons c r => rfl
      rw [hv, if_neg (by simp), b64decode_base64 h2]
      dsimp only
      rw [h3]
      dsimp only
      refine ⟨_, rfl, codeOf_number _, rfl, ?_, ?_⟩
      · rw [List.map_map]
        simp [Function.comp_def]
      · intro x hx
        obtain ⟨d, _, rfl⟩ := List.mem_map.1 hx
        rfl
    · rw [h1]
      dsimp only [List.head?]
      exact ⟨_, rfl, hcode, hmsg, by rw [h0], fun _ h => by cases h⟩

theorem trailers_stored {sc : StatusCodec} {trailers : List (Str × Str)} {error : Option ConnectErr} {t : HTTPHeaders}
    (h : StatusFields sc trailers error t) {sink : Sink} (hs : ∀ r, sink = some r → r.getTrailers.Inv) :
    ∀ r, sink = some r → ∃ r', handleResponseTrailers sink t = some r' ∧ r'.headers = r.headers ∧
      ∀ k, lower k ∉ grpcReserved → r'.getTrailers.getall k = r.getTrailers.getall k ++ fieldValues trailers k := by
  rintro r rfl
  refine ⟨_, rfl, storeTrailers_headers _ _, ?_⟩
  intro k hk
  rw [storeTrailers_getall r _ (hs r rfl), ← h.own k hk]
  rfl

/-- status fields, found by the client where it looks first -/
theorem grpcComplete_fields {sc : StatusCodec} (hsc : sc.Lawful) {trailers : List (Str × Str)} {error : Option ConnectErr}
    {t : HTTPHeaders} (hlow : ∀ p ∈ t, lower p.1 = p.1) (h : StatusFields sc trailers error t) (s : ClientSub)
    (hs : ∀ r, s.sink = some r → r.getTrailers.Inv) (rh : HTTPHeaders) :
    SeenExactly error (grpcComplete sc s rh t none).2 ∧
    ∀ r, s.sink = some r → ∃ r', (grpcComplete sc s rh t none).1 = some r' ∧ r'.headers = r.headers ∧
      ∀ k, lower k ∉ grpcReserved → r'.getTrailers.getall k = r.getTrailers.getall k ++ fieldValues trailers k := by
  unfold grpcComplete
  rw [http_get_eq t hlow, h.status]
  exact ⟨errorOfTrailers_fields hsc hlow h, trailers_stored h hs⟩

/-- status fields in the headers -/
theorem grpcComplete_only {sc : StatusCodec} (hsc : sc.Lawful) {trailers : List (Str × Str)} {error : Option ConnectErr}
    {t rh : HTTPHeaders} (hlow : ∀ p ∈ rh, lower p.1 = p.1) (h : StatusFields sc trailers error rh) (s : ClientSub)
    (hs : ∀ r, s.sink = some r → r.getTrailers.Inv) (hm : s.readMessage = false) (ht : t.get (pys! "grpc-status") = none) :
    SeenExactly error (grpcComplete sc s rh t none).2 ∧
    ∀ r, s.sink = some r → ∃ r', (grpcComplete sc s rh t none).1 = some r' ∧ r'.headers = r.headers ∧
      ∀ k, lower k ∉ grpcReserved → r'.getTrailers.getall k = r.getTrailers.getall k ++ fieldValues trailers k := by
  unfold grpcComplete
  rw [ht]
  dsimp only
  rw [hm, if_neg (by simp), http_get_eq rh hlow, h.status]
  exact ⟨errorOfTrailers_fields hsc hlow h, trailers_stored h hs⟩

/-! ### header blocks -/

/-- one line of a block -/
def blockLine (n l v r : Str) : Bytes := utf8Encode (n ++ [':'] ++ l ++ v ++ r)

theorem blank_space {s : Str} (h : ∀ c ∈ s, c = ' ' ∨ c = '\t') : ∀ c ∈ s, isSpace c = true := by
  intro c hc
  rcases h c hc with rfl | rfl <;> decide

theorem parse_blockLine {n l v r : Str} (hn : LegalName n) (hv : LegalValue v) (hl : ∀ c ∈ l, c = ' ' ∨ c = '\t')
    (hr : ∀ c ∈ r, c = ' ' ∨ c = '\t') : parseTrailerLine (blockLine n l v r) = some (n, v) := by
  have hk : (58 : UInt8) ∉ utf8Encode n := by
    intro hm
    exact hn.colon (mem_utf8Encode_ascii hm (by decide))
  have e0 : blockLine n l v r = utf8Encode n ++ (58 :: utf8Encode (l ++ v ++ r)) := by
    unfold blockLine
    simp only [utf8Encode_append, List.append_assoc]
    rfl
  have e1 : (blockLine n l v r).takeWhile (· != 58) = utf8Encode n := by
    rw [e0, List.takeWhile_append_of_pos (by
      intro b hb; simp only [bne_iff_ne]; rintro rfl; exact hk hb)]
    simp
  have e2 : (blockLine n l v r).dropWhile (· != 58) = 58 :: utf8Encode (l ++ v ++ r) := by
    rw [e0, List.dropWhile_append_of_pos (by
      intro b hb; simp only [bne_iff_ne]; rintro rfl; exact hk hb)]
    simp
  unfold parseTrailerLine
  rw [if_pos (by rw [e0]; simp), e1, e2, utf8Decode_encode, List.drop_one, List.tail_cons, utf8Decode_encode]
  dsimp only
  rw [strip_of_ends _ hn.first hn.last, strip_padded l v r (blank_space hl) (blank_space hr) hv.first hv.last]

theorem blockLine_no_cr {n l v r : Str} (hn : LegalName n) (hv : LegalValue v) (hl : ∀ c ∈ l, c = ' ' ∨ c = '\t')
    (hr : ∀ c ∈ r, c = ' ' ∨ c = '\t') : (13 : UInt8) ∉ blockLine n l v r := by
  intro hm
  have := mem_utf8Encode_ascii hm (by decide)
  have hb : ∀ s : Str, (∀ c ∈ s, c = ' ' ∨ c = '\t') → '\r' ∉ s := by
    intro s hs h; rcases hs _ h with h | h <;> cases h
  simp only [List.mem_append, List.mem_singleton] at this
  rcases this with (((h | h) | h) | h) | h
  · exact hn.cr h
  · cases h
  · exact hb l hl h
  · exact hv.cr h
  · exact hb r hr h

/-- every header block is read field by field -/
theorem addTrailerLines_block {fields : List (Str × Str)} {text : Str} (h : Block fields text) :
    ∀ t : HTTPHeaders, addTrailerLines t (splitCRLF (utf8Encode text)) = (t ++ fields.map fun p => (lower p.1, p.2), false) := by
  induction h with
  | nil => intro t; simp [utf8Encode, splitCRLF, addTrailerLines]
  | @line n v l r fields text hn hv hl hr _ ih =>
    intro t
    have e : utf8Encode (n ++ [':'] ++ l ++ v ++ r ++ ['\r', '\n'] ++ text) = blockLine n l v r ++ 13 :: 10 :: utf8Encode text := by
      unfold blockLine
      rw [utf8Encode_append, utf8Encode_append, List.append_assoc]
      rfl
    have hne : (blockLine n l v r).isEmpty = false := by
      unfold blockLine
      simp only [utf8Encode_append, List.append_assoc]
      cases utf8Encode n <;> rfl
    rw [e, splitCRLF_line _ _ (blockLine_no_cr hn hv hl hr), addTrailerLines, hne, if_neg (by simp), parse_blockLine hn hv hl hr]
    dsimp only
    rw [ih]
    unfold HTTPHeaders.add
    simp

theorem statusFields_lower {sc : StatusCodec} {trailers : List (Str × Str)} {error : Option ConnectErr} {fields : List (Str × Str)}
    (h : StatusFields sc trailers error fields) : StatusFields sc trailers error (fields.map fun p => (lower p.1, p.2)) := by
  refine ⟨?_, ?_, ?_, ?_⟩
  · intro n hn; rw [fieldValues_map_lower]; exact h.own n hn
  · rw [fieldValues_map_lower]; exact h.status
  · rw [fieldValues_map_lower]; exact h.message
  · rw [fieldValues_map_lower]; exact h.details

/-! ### reading the body -/

section
variable {M σ : Type}

theorem frameRun_messages (c : ReaderCfg M σ) (pass : σ → σ) (fs : List Frame) (ms : List M)
    (hdata : ∀ f ∈ fs, ∀ s d, c.handleEnd s f.flags d = (pass s, .ok false)) (hm : fs.map (policyOf c).message = ms.map .ok) :
    ∀ s, frameRun c s fs = (ms, .done, passes pass fs.length s, []) := by
  induction fs generalizing ms with
  | nil =>
    intro s
    cases ms with
    | nil => rfl
    | cons m ms => simp at hm
  | cons f fs ih =>
    intro s
    cases ms with
    | nil => simp at hm
    | cons m ms =>
      simp only [List.map_cons, List.cons.injEq] at hm
      have ih' := ih ms (fun g hg => hdata g (by simp [hg])) hm.2 (pass s)
      have hf := hdata f (by simp)
      obtain ⟨h1, _⟩ := hm
      unfold Policy.message at h1
      unfold frameRun
      rw [payload_eq]
      cases hi : (policyOf c).inflate f with
      | error e => rw [hi] at h1; cases h1
      | ok d0 =>
        rw [hi] at h1
        dsimp only at h1 ⊢
        cases hc : (policyOf c).checkSize d0 with
        | error e => rw [hc] at h1; cases h1
        | ok d =>
          rw [hc] at h1
          dsimp only at h1 ⊢
          rw [hf]
          dsimp only
          have : c.codec.decode d = .ok m := h1
          rw [this, ih']
          rfl

/-- messages in any envelopes, then the end envelope -/
theorem feedAll_messages_end (c : ReaderCfg M σ) (pass : σ → σ) (sub : σ) (fs : List Frame) (ms : List M) (chunks : List Bytes)
    (hok : ∀ f ∈ fs, f.Ok) (hdata : ∀ f ∈ fs, ∀ s d, c.handleEnd s f.flags d = (pass s, .ok false))
    (hm : fs.map (policyOf c).message = ms.map .ok) (g : Frame) (hg : g.Ok) (d : Bytes) (hp : c.payload g.flags g.payload = .ok d)
    (hcut : chunks.flatten = fs.flatMap Frame.bytes ++ g.bytes)
    (hhook : (c.handleEnd (passes pass fs.length sub) g.flags d).2 ≠ .ok false) :
    (feedAll c (.init sub) chunks).1 = ms ∧
    (feedAll c (.init sub) chunks).2.1 = (match (c.handleEnd (passes pass fs.length sub) g.flags d).2 with
      | .error e => .raised e
      | .ok _ => .done) ∧
    (feedAll c (.init sub) chunks).2.2.sub = (c.handleEnd (passes pass fs.length sub) g.flags d).1 := by
  have hs : Splits chunks.flatten (fs ++ [g]) [] := by
    refine ⟨?_, ?_, incomplete_of_lt_five (by simp)⟩
    · rw [hcut, List.append_nil, List.flatMap_append]; simp
    · intro f hf
      rcases List.mem_append.1 hf with hf | hf
      · exact hok f hf
      · rw [List.mem_singleton] at hf; subst hf; exact hg
  have hrun : frameRun c sub (fs ++ [g]) = (ms, (match (c.handleEnd (passes pass fs.length sub) g.flags d).2 with
      | .error e => HStop.raised e
      | .ok _ => .ended), (c.handleEnd (passes pass fs.length sub) g.flags d).1, []) := by
    rw [frameRun_append, frameRun_messages c pass fs ms hdata hm sub]
    dsimp only
    unfold frameRun
    rw [hp]
    dsimp only
    rcases hh : c.handleEnd (passes pass fs.length sub) g.flags d with ⟨sub', r⟩
    rw [hh] at hhook
    rcases r with e | b
    · simp
    · cases b with
      | true => simp
      | false => exact absurd rfl hhook
  have hclean : Clean (frameRun c sub (fs ++ [g])) [] := by
    intro _; rw [hrun]; exact ⟨rfl, rfl⟩
  have hr := feedAll_splits c (.init sub) (by intro n hn; cases hn) chunks (fs := fs ++ [g]) (rest := [])
    (by simpa [ReaderState.init] using hs) (fun _ => incomplete_of_lt_five (by simp [ReaderState.init])) hclean
  have hsub : (ReaderState.init sub).sub = sub := rfl
  rw [hsub, hrun] at hr
  refine ⟨hr.1, hr.2.1.trans ?_, hr.2.2⟩
  cases (c.handleEnd (passes pass fs.length sub) g.flags d).2 <;> rfl

/-- messages in any envelopes, and nothing else -/
theorem feedAll_messages (c : ReaderCfg M σ) (pass : σ → σ) (sub : σ) (fs : List Frame) (ms : List M) (chunks : List Bytes)
    (hok : ∀ f ∈ fs, f.Ok) (hdata : ∀ f ∈ fs, ∀ s d, c.handleEnd s f.flags d = (pass s, .ok false))
    (hm : fs.map (policyOf c).message = ms.map .ok) (hcut : chunks.flatten = fs.flatMap Frame.bytes) :
    (feedAll c (.init sub) chunks).1 = ms ∧ (feedAll c (.init sub) chunks).2.1 = .done ∧
    (feedAll c (.init sub) chunks).2.2.sub = passes pass fs.length sub := by
  have hrun := frameRun_messages c pass fs ms hdata hm sub
  have hsp : Splits chunks.flatten fs [] := by
    refine ⟨?_, hok, incomplete_of_lt_five (by decide)⟩
    rw [hcut, List.append_nil]
  obtain ⟨h1, h2, h3⟩ := feedAll_splits c (.init sub) (by intro n h; cases h) chunks hsp
    (fun _ => incomplete_of_lt_five (by show 0 < 5; decide)) (by
      intro h
      rw [show (ReaderState.init sub).sub = sub from rfl, hrun] at h
      cases h)
  rw [show (ReaderState.init sub).sub = sub from rfl, hrun] at h1 h2 h3
  exact ⟨h1, h2, h3⟩

theorem payload_endFrame (c : ReaderCfg M σ) (flag : UInt8) (hflag : flag = 2 ∨ flag = 128) (f : Frame) (d : Bytes)
    (h : EndFrame c.compression flag f d) (hl : ∀ n, c.readMax = some n → (d.length : Int) ≤ n) : c.payload f.flags f.payload = .ok d := by
  have hlim : ∀ x : Except Exc Bytes, x = .ok d → (match x with
      | .error e => Except.error e
      | .ok d => match c.readMax with
        | some n => if (d.length : Int) > n then Except.error (tooLarge n) else Except.ok d
        | none => Except.ok d) = Except.ok d := by
    rintro x rfl
    dsimp only
    cases hm : c.readMax with
    | none => rfl
    | some n => dsimp only; rw [if_neg (by have := hl n hm; omega)]
  unfold ReaderCfg.payload
  apply hlim
  rcases h.2 with ⟨h1, h2⟩ | ⟨h1, h2, h3⟩
  · rw [h1, h2]
    have : flag &&& 1 = 0 := by rcases hflag with rfl | rfl <;> decide
    rw [this]; rfl
  · rw [h1]
    have : (flag + 1) &&& 1 = 1 := by rcases hflag with rfl | rfl <;> decide
    rw [this]
    cases hc : c.compression with
    | identity => exact absurd hc h2
    | custom nm co de => rw [hc] at h3; simpa [Compression.isIdentity] using h3

end

section
variable {Req Res : Type} {c : Client Req Res} {sc : StatusCodec} {ms : List Res} {trailers : List (Str × Str)}
  {error : Option ConnectErr} {resp : StreamResponse}

theorem receives_eq (c : Client Req Res) (comp : Compression) : policyOf (c.reader comp) = receives c comp := by
  cases comp <;> rfl

/-- every message envelope is one for the client -/
theorem client_data (c : Client Req Res) (comp : Compression) (f : Frame) (hf : f.flags = 0 ∨ f.flags = 1) :
    ∀ (s : ClientSub) d, (c.reader comp).handleEnd s f.flags d =
      ((if c.proto = .connect then s else { s with readMessage := true }), .ok false) := by
  intro s d
  unfold Client.reader
  dsimp only
  cases c.proto with
  | connect => rcases hf with h | h <;> rw [h] <;> rfl
  | grpc => rfl
  | grpcWeb => rcases hf with h | h <;> rw [h] <;> rfl

/-- the state of the reader after the messages -/
abbrev passOf (c : Client Req Res) (s : ClientSub) : ClientSub := if c.proto = .connect then s else { s with readMessage := true }

theorem passes_sink (c : Client Req Res) : ∀ n (s : ClientSub), (passes (passOf c) n s).sink = s.sink ∧
    (passes (passOf c) n s).trailers = s.trailers
  | 0, s => ⟨rfl, rfl⟩
  | n + 1, s => by
    obtain ⟨h1, h2⟩ := passes_sink c n (passOf c s)
    refine ⟨h1.trans ?_, h2.trans ?_⟩ <;> · unfold passOf; split <;> rfl

/-- what the client makes of the body of a response -/
theorem readBody_conforming (hsc : c.proto ≠ .connect → sc.Lawful) (hc : ConformingStream c sc ms trailers error resp) {comp : Compression}
    {fs : List Frame} (hok : ∀ f ∈ fs, f.Ok ∧ (f.flags = 0 ∨ f.flags = 1)) (hms : fs.map (receives c comp).message = ms.map .ok)
    (hend : StreamEnd c.readMax sc comp trailers error resp fs c.proto) {sink : Sink} (hsink : ∀ r, sink = some r → Built r.getTrailers)
    {cs : Circumstances} (hcs : Calm cs) :
    (c.readBody sc sink comp resp cs).messages = ms ∧ Seen error (c.readBody sc sink comp resp cs).exc ∧
    ∀ rm, sink = some rm → ∃ rm', (c.readBody sc sink comp resp cs).sink = some rm' ∧ rm'.headers = rm.headers ∧
      ∀ n, (c.proto ≠ .connect → lower n ∉ grpcReserved) → rm'.getTrailers.getall n = rm.getTrailers.getall n ++ fieldValues trailers n := by
  have hcan : ∀ n, cancelPoint c.flavor cs.cancelAfter n = none := by
    intro n
    rw [hcs.2]
    cases c.flavor <;> rfl
  have hdata : ∀ f ∈ fs, ∀ s d, (c.reader comp).handleEnd s f.flags d = (passOf c s, .ok false) :=
    fun f hf s d => client_data c comp f (hok f hf).2 s d
  have hms' : fs.map (policyOf (c.reader comp)).message = ms.map .ok := by rw [receives_eq]; exact hms
  obtain ⟨hp1, hp2⟩ := passes_sink c fs.length (ClientSub.init sink)
  have hinv : ∀ r, (passes (passOf c) fs.length (ClientSub.init sink)).sink = some r → r.getTrailers.Inv := by
    rw [hp1]; exact fun r hr => (hsink r hr).inv
  unfold Client.readBody
  dsimp only
  rw [hcan]
  dsimp only
  generalize hpr : c.proto = p at hend
  cases hend with
  | @envelope _ f contents hf hcont hl hb =>
    cases hcont with
    | connect hj ho =>
      have hpay := payload_endFrame (c.reader comp) 2 (.inl rfl) f contents hf hl
      have hpre : f.flags &&& 2 ≠ 0 := by
        rcases hf.2 with ⟨h, _⟩ | ⟨h, _⟩ <;> rw [h] <;> decide
      have hhe : ∀ s, (c.reader comp).handleEnd s f.flags contents = connectEndHook s f.flags contents := by
        intro s; unfold Client.reader; rw [hpr]; rfl
      obtain ⟨g1, g2⟩ := connectEndHook_object hj ho (passes (passOf c) fs.length (ClientSub.init sink)) f.flags hpre hinv
      obtain ⟨h1, h2, h3⟩ := feedAll_messages_end (c.reader comp) (passOf c) (ClientSub.init sink) fs ms resp.chunks (fun f hf => (hok f hf).1)
        hdata hms' f hf.1 contents hpay hb (by
          rw [hhe]
          cases error with
          | none => rw [show _ = _ from g2]; intro h; cases h
          | some e => obtain ⟨e', g2, _⟩ := g2; rw [g2]; intro h; cases h)
      rw [hhe] at h2 h3
      have hsinks : ∀ rm, sink = some rm → ∃ rm', (connectEndHook (passes (passOf c) fs.length (ClientSub.init sink)) f.flags
          contents).1.sink = some rm' ∧ rm'.headers = rm.headers ∧ ∀ n, (Proto.connect ≠ .connect → lower n ∉ grpcReserved) →
          rm'.getTrailers.getall n = rm.getTrailers.getall n ++ fieldValues trailers n := by
        intro rm hrm
        obtain ⟨rm', a1, a2, a3⟩ := g1 rm (by rw [hp1]; exact hrm)
        exact ⟨rm', a1, a2, fun n _ => a3 n⟩
      rw [h2, h1, h3]
      cases error with
      | none =>
        rw [show _ = _ from g2, hc.bodyErr]
        dsimp only
        rw [if_neg (by rw [hcs.1]; simp)]
        exact ⟨rfl, rfl, hsinks⟩
      | some e =>
        obtain ⟨e', g2, g3⟩ := g2
        rw [g2]
        exact ⟨rfl, ⟨e', rfl, g3⟩, hsinks⟩
    | grpcWeb hblock hs =>
      rename_i fields text
      have hpay := payload_endFrame (c.reader comp) 128 (.inr rfl) f _ hf hl
      have hpre : f.flags &&& 128 ≠ 0 := by
        rcases hf.2 with ⟨h, _⟩ | ⟨h, _⟩ <;> rw [h] <;> decide
      let s0 := passes (passOf c) fs.length (ClientSub.init sink)
      have ht0 : s0.trailers = [] := hp2
      have hhe : (c.reader comp).handleEnd s0 f.flags (utf8Encode text) =
          (⟨s0.sink, true, fields.map fun p => (lower p.1, p.2)⟩, .ok true) := by
        unfold Client.reader; rw [hpr]
        show grpcWebEndHook s0 f.flags (utf8Encode text) = _
        unfold grpcWebEndHook
        dsimp only
        rw [if_neg hpre, ht0, addTrailerLines_block hblock]
        rfl
      obtain ⟨h1, h2, h3⟩ := feedAll_messages_end (c.reader comp) (passOf c) (ClientSub.init sink) fs ms resp.chunks (fun f hf => (hok f hf).1)
        hdata hms' f hf.1 _ hpay hb (by rw [hhe]; intro h; cases h)
      rw [hhe] at h2 h3
      rw [h2, h1, h3, hc.bodyErr]
      dsimp only
      rw [if_neg (by rw [hcs.1]; simp)]
      have hlow : ∀ p ∈ fields.map (fun p => (lower p.1, p.2)), lower p.1 = p.1 := by
        intro p hp
        obtain ⟨q, _, rfl⟩ := List.mem_map.1 hp
        exact Headers.lower_idem _
      obtain ⟨g1, g2⟩ := grpcComplete_fields (hsc (by rw [hpr]; decide)) hlow (statusFields_lower hs)
        ⟨s0.sink, true, fields.map fun p => (lower p.1, p.2)⟩ hinv resp.headers
      refine ⟨rfl, seen_of_exactly g1, ?_⟩
      intro rm hrm
      obtain ⟨rm', a1, a2, a3⟩ := g2 rm (by show s0.sink = _; rw [hp1]; exact hrm)
      exact ⟨rm', a1, a2, fun n hn => a3 n (hn (by decide))⟩
  | trailers hs hb =>
    obtain ⟨h1, h2, h3⟩ := feedAll_messages (c.reader comp) (passOf c) (ClientSub.init sink) fs ms resp.chunks (fun f hf => (hok f hf).1)
      hdata hms' hb
    rw [h2, h1, h3, hc.bodyErr]
    dsimp only
    rw [if_neg (by rw [hcs.1]; simp)]
    obtain ⟨g1, g2⟩ := grpcComplete_fields (hsc (by rw [hpr]; decide)) hc.trailersLower hs
      (passes (passOf c) fs.length (ClientSub.init sink)) hinv resp.headers
    refine ⟨rfl, seen_of_exactly g1, ?_⟩
    intro rm hrm
    obtain ⟨rm', a1, a2, a3⟩ := g2 rm (by rw [hp1]; exact hrm)
    exact ⟨rm', a1, a2, fun n hn => a3 n (hn (by decide))⟩
  | trailersOnly hp hs hfs hb ht =>
    subst hfs
    obtain ⟨h1, h2, h3⟩ := feedAll_messages (c.reader comp) (passOf c) (ClientSub.init sink) [] ms resp.chunks (by simp)
      (by simp) hms' hb
    rw [h2, h1, h3, hc.bodyErr]
    dsimp only
    rw [if_neg (by rw [hcs.1]; simp)]
    have key : ∀ t : HTTPHeaders, t.get (pys! "grpc-status") = none →
        Seen error (grpcComplete sc (ClientSub.init sink) resp.headers t none).2 ∧
        ∀ rm, sink = some rm → ∃ rm', (grpcComplete sc (ClientSub.init sink) resp.headers t none).1 = some rm' ∧ rm'.headers = rm.headers ∧
          ∀ n, (p ≠ .connect → lower n ∉ grpcReserved) → rm'.getTrailers.getall n = rm.getTrailers.getall n ++ fieldValues trailers n := by
      intro t hg
      obtain ⟨g1, g2⟩ := grpcComplete_only (hsc (by rw [hpr]; exact hp)) hc.lower hs (ClientSub.init sink)
        (fun r hr => (hsink r hr).inv) rfl hg
      refine ⟨seen_of_exactly g1, ?_⟩
      intro rm hrm
      obtain ⟨rm', a1, a2, a3⟩ := g2 rm hrm
      exact ⟨rm', a1, a2, fun n hn => a3 n (hn hp)⟩
    cases p with
    | connect => exact absurd rfl hp
    | grpc => exact ⟨rfl, key _ (by rw [http_get_eq _ hc.trailersLower, ht rfl]; rfl)⟩
    | grpcWeb => exact ⟨rfl, key _ rfl⟩

/-- what the metadata object knows when the headers have arrived -/
theorem told_headers {headers : HTTPHeaders} (hlow : ∀ p ∈ headers, lower p.1 = p.1) :
    ∃ rm, handleResponseHeaders (some RespMeta.new) headers = some rm ∧
      (∀ n, ¬ pys! "trailer-" <+: lower n → rm.getHeaders.getall n = fieldValues headers n) ∧
      ∀ n, rm.getTrailers.getall n = fieldValues headers (pys! "trailer-" ++ n) := by
  obtain ⟨h1, h2⟩ := sortFields_getall headers hlow Headers.empty Headers.empty Headers.inv_empty Headers.inv_empty
  have e1 : ∀ n, Headers.empty.getall n = [] := fun n => getall_of_falsy rfl n
  refine ⟨_, rfl, ?_, ?_⟩
  · intro n hn
    have hg := h1 n hn
    rw [e1, List.nil_append] at hg
    unfold RespMeta.getHeaders
    dsimp only
    cases ht : (sortFields (Headers.empty, Headers.empty) headers).1.truthy with
    | true => rw [if_pos rfl]; exact hg
    | false =>
      rw [if_neg (by decide), ← hg, getall_of_falsy ht]
      exact e1 n
  · intro n
    have hg := h2 n
    rw [e1, List.nil_append] at hg
    unfold RespMeta.getTrailers
    dsimp only
    cases ht : (sortFields (Headers.empty, Headers.empty) headers).2.truthy with
    | true => rw [if_pos rfl]; exact hg
    | false =>
      rw [if_neg (by decide), ← hg, getall_of_falsy ht]
      exact e1 n

theorem no_trailer_fields {headers : HTTPHeaders} (hno : ∀ q ∈ headers, ¬ pys! "trailer-" <+: lower q.1) (n : Str) :
    fieldValues headers (pys! "trailer-" ++ n) = [] := by
  refine fieldValues_none ?_
  intro p hp e
  refine hno p hp ⟨lower n, ?_⟩
  rw [e, lower_append]
  rfl

theorem validateStream_type {p : Proto} {codec ct : Str} (h : StreamedType p codec ct) : p.validateStream codec ct = none := by
  cases p with
  | connect => rw [show ct = _ from h]; exact validateStream_ok .connect codec
  | grpc =>
    rcases h with rfl | ⟨rfl, rfl⟩
    · exact validateStream_ok .grpc codec
    · decide +kernel
  | grpcWeb =>
    rcases h with rfl | ⟨rfl, rfl⟩
    · exact validateStream_ok .grpcWeb codec
    · decide +kernel

theorem responseCompression_named {p : Proto} {headers : HTTPHeaders} (hlow : ∀ p ∈ headers, lower p.1 = p.1)
    {comps : Dict Str Compression} {stream : Bool} {comp : Compression} (h : Named comps headers (p.requestEncodingHeader stream) comp) :
    p.responseCompression headers comps stream = .ok comp := by
  unfold Proto.responseCompression
  rw [http_get_eq _ hlow]
  rcases h with ⟨h1, rfl⟩ | ⟨n, h1, h2, h3⟩
  · rw [h1]; rfl
  · rw [h1]
    dsimp only [List.head?]
    rw [if_neg (by simpa using h2), h3]

/-- what the caller gets from a conforming response -/
theorem bidi_conforming (hsc : c.proto ≠ .connect → sc.Lawful) (hc : ConformingStream c sc ms trailers error resp)
    {sink : Sink} (hsink : ∀ r, sink = some r → Built r.getTrailers) {cs : Circumstances} (hcs : Calm cs) {ctx : RequestContext}
    {reqs : List Req} {srcErr : Option Exc} {http : HttpRequest → Except Exc StreamResponse} (hh : ∀ rq, http rq = .ok resp) :
    Understood c.proto sink resp.headers ms trailers error (c.bidi sc http sink cs ctx reqs srcErr) := by
  obtain ⟨comp, fs, hcomp, hok, hms, hend⟩ := hc.body
  obtain ⟨ct, hct, htype⟩ := hc.type
  have hin : c.inside sc sink resp cs = c.readBody sc (handleResponseHeaders sink resp.headers) comp resp cs := by
    have h1 : resp.headers.getD (pys! "content-type") [] = ct := by
      unfold HTTPHeaders.getD
      rw [http_get_eq _ hc.lower, hct]
      rfl
    have h2 : c.proto.requestEncodingHeader true = encodingHeader c.proto := by cases c.proto <;> rfl
    unfold Client.inside
    dsimp only
    rw [if_pos hc.status, h1, validateStream_type htype]
    dsimp only
    rw [responseCompression_named hc.lower (by rw [h2]; exact hcomp)]
  obtain ⟨h1, h2, h3⟩ := readBody_conforming hsc hc hok hms hend (built_headers hsink resp.headers) hcs
  rw [← hin] at h1 h2 h3
  have hb : c.bidi sc http sink cs ctx reqs srcErr =
      ⟨(c.inside sc sink resp cs).sink, (c.inside sc sink resp cs).messages, (c.inside sc sink resp cs).exc⟩ := by
    unfold Client.bidi
    dsimp only
    rw [hh]
    dsimp only
    rw [hc.exitErr]
    cases he : error with
    | none =>
      rw [he] at h2
      have h2 : (c.inside sc sink resp cs).exc = none := h2
      rw [h2]
      unfold leaveWith
      cases c.flavor <;> rfl
    | some x =>
      rw [he] at h2
      obtain ⟨e', h2, _⟩ := h2
      rw [h2]
      unfold leaveWith
      cases c.flavor <;> rfl
  rw [hb]
  refine ⟨h1, h2, ?_⟩
  intro hs
  rw [hs] at h3 ⊢
  obtain ⟨rm, g1, g2, g3⟩ := told_headers hc.lower
  obtain ⟨rm', g4, g5, g6⟩ := h3 rm g1
  refine ⟨rm', g4, ?_, ?_⟩
  · intro n hn
    rw [← g2 n hn]
    unfold RespMeta.getHeaders
    rw [g5]
  · intro hno n hn
    rw [g6 n hn, g3 n, no_trailer_fields hno n, List.nil_append]

theorem single_conforming {p : Proto} {sink : Sink} {headers : HTTPHeaders} {r : StreamResult Res}
    (h : Understood p sink headers ms trailers error r) : UnderstoodSingle p sink headers ms trailers error (Client.single r) := by
  refine ⟨?_, h.metadata⟩
  have h1 := h.messages
  have h2 := h.outcome
  show Single ms error (consumeSingle r)
  unfold consumeSingle
  rw [h1]
  cases ms with
  | nil =>
    cases error with
    | none => rw [show r.exc = none from h2]; exact ⟨_, rfl, rfl⟩
    | some e => obtain ⟨e', h2, h3⟩ := h2; rw [h2]; exact ⟨e', rfl, h3.1⟩
  | cons m ms =>
    cases ms with
    | nil =>
      cases error with
      | none => rw [show r.exc = none from h2]; rfl
      | some e => obtain ⟨e', h2, h3⟩ := h2; rw [h2]; exact ⟨e', rfl, h3.1⟩
    | cons m' ms => exact ⟨_, rfl, rfl⟩

theorem contentType_of {headers : HTTPHeaders} (hlow : ∀ p ∈ headers, lower p.1 = p.1) {ct : Str}
    (h : fieldValues headers (pys! "content-type") = [ct]) : headers.getD (pys! "content-type") [] = ct := by
  unfold HTTPHeaders.getD
  rw [http_get_eq _ hlow, h]
  rfl

theorem conformingUnary_response {m : Res} {resp : FullResponse} (h : ConformingUnary c m resp) (sink : Sink) :
    c.unaryResponse sink resp = (handleResponseHeaders sink resp.headers, .ok m) := by
  obtain ⟨ct, h1, h2⟩ := h.type
  obtain ⟨comp, h3⟩ := h.encoding
  unfold Client.unaryResponse
  rw [contentType_of h.lower h1, h.status, (connectValidate_ok _ _).2 h2]
  dsimp only
  rw [responseCompression_named (p := .connect) (stream := false) h.lower h3]
  dsimp only
  rw [if_pos rfl, h.body]
  cases hr : c.readMax with
  | none => rfl
  | some n => dsimp only; rw [if_neg (by have := h.limit n hr; omega)]

theorem conformingError_response {e : ConnectErr} {resp : FullResponse} (h : ConformingError c e resp) (sink : Sink) :
    ∃ e', c.unaryResponse sink resp = (handleResponseHeaders sink resp.headers, .error (.connect e')) ∧ report e' = report e ∧ AsRead e e' := by
  obtain ⟨ct, h1, h2⟩ := h.type
  obtain ⟨comp, h3⟩ := h.encoding
  obtain ⟨e', h4, h5⟩ := fromResponse_body h.body resp.status
  refine ⟨e', ?_, h5⟩
  have hv : connectValidateResponse c.codec.name resp.status ct = none := by
    unfold connectValidateResponse
    dsimp only
    rw [if_pos h.status, show normalizeContentType ct = mediaType ct from rfl, if_pos h2]
  unfold Client.unaryResponse
  rw [contentType_of h.lower h1, hv]
  dsimp only
  rw [responseCompression_named (p := .connect) (stream := false) h.lower h3]
  dsimp only
  rw [if_neg h.status, h4]

theorem unaryMetadata_headers {headers : HTTPHeaders} (hlow : ∀ p ∈ headers, lower p.1 = p.1) (sink : Sink) :
    UnaryMetadata headers sink (handleResponseHeaders sink headers) := by
  rintro rfl
  exact told_headers hlow

end

end Conn
