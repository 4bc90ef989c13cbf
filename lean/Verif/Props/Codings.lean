import Verif.Props.UnaryResponse
import Verif.Spec.Codings
/-
C92: a compressed message that was cut or extended is not delivered as another message.
-/
namespace Props
open Conn Py Spec

variable {Req Res : Type}

theorem dropZeros (l : Bytes) : ∃ n, l = List.replicate n 0 ++ l.dropWhile (· == 0) ∧ (l.dropWhile (· == 0)).head? ≠ some 0 := by
  induction l with
  | nil => exact ⟨0, rfl, by simp⟩
  | cons b l ih =>
    by_cases hb : b = 0
    · subst hb
      obtain ⟨n, h1, h2⟩ := ih
      refine ⟨n + 1, ?_, ?_⟩
      · rw [List.dropWhile_cons_of_pos (by rfl), List.replicate_succ, List.cons_append, ← h1]
      · rw [List.dropWhile_cons_of_pos (by rfl)]
        exact h2
    · refine ⟨0, ?_, ?_⟩
      · rw [List.dropWhile_cons_of_neg (by simpa using hb)]
        rfl
      · rw [List.dropWhile_cons_of_neg (by simpa using hb)]
        simpa using hb

theorem dropWhile_zeros (n : Nat) (l : Bytes) (h : l.head? ≠ some 0) : (List.replicate n 0 ++ l).dropWhile (· == 0) = l := by
  induction n with
  | zero =>
    cases l with
    | nil => rfl
    | cons b l => exact List.dropWhile_cons_of_neg (by simpa using h)
  | succ n ih =>
    rw [List.replicate_succ, List.cons_append, List.dropWhile_cons_of_pos (by rfl)]
    exact ih

theorem gzipMembers_ok {f : Format} (hf : Sensible f) (n : Nat) (payload data : Bytes) (hn : payload.length ≤ n) :
    gzipMembers f n payload = .ok data ↔ Members f payload data := by
  induction n generalizing payload data with
  | zero =>
    cases payload with
    | cons b p => cases hn
    | nil =>
      refine ⟨fun h => by cases h; exact .nil, fun h => ?_⟩
      cases h with
      | nil => rfl
      | cons _ _ _ hp _ => exact absurd rfl hp
  | succ n ih =>
    cases payload with
    | nil =>
      refine ⟨fun h => by cases h; exact .nil, fun h => ?_⟩
      cases h with
      | nil => rfl
      | cons _ _ _ hp _ => exact absurd rfl hp
    | cons b p =>
      unfold gzipMembers
      constructor
      · intro h
        cases hs : f.scan (b :: p) with
        | bad => rw [hs] at h; cases h
        | incomplete c => rw [hs] at h; cases h
        | frame content rest =>
          rw [hs] at h
          dsimp only at h
          obtain ⟨z, h1, h2⟩ := dropZeros rest
          have hl := hf.eats _ _ _ hs
          have hl' : (rest.dropWhile (· == 0)).length ≤ n := by
            have := congrArg List.length h1
            rw [List.length_append] at this
            rw [List.length_cons] at hl hn
            omega
          cases hm : gzipMembers f n (rest.dropWhile (· == 0)) with
          | error e => rw [hm] at h; cases h
          | ok more =>
            rw [hm] at h
            cases h
            exact .cons z (hs.trans (congrArg _ h1)) h2 (by simp) ((ih _ _ hl').1 hm)
      · intro h
        cases h with
        | @cons _ content after more zeros hs hz _ hm =>
          have hl := hf.eats _ _ _ hs
          rw [hs]
          dsimp only
          rw [dropWhile_zeros _ _ hz, (ih _ _ (by rw [List.length_append, List.length_cons] at hl; rw [List.length_cons] at hn; omega)).2 hm]

theorem gzipMembers_error {f : Format} (n : Nat) (payload : Bytes) (e : Exc) (h : gzipMembers f n payload = .error e) : ∃ cls msg, e = .other cls msg := by
  induction n generalizing payload with
  | zero =>
    cases payload with
    | nil => cases h
    | cons b p => cases h; exact ⟨_, _, rfl⟩
  | succ n ih =>
    cases payload with
    | nil => cases h
    | cons b p =>
      unfold gzipMembers at h
      cases hs : f.scan (b :: p) with
      | bad => rw [hs] at h; cases h; exact ⟨_, _, rfl⟩
      | incomplete c => rw [hs] at h; cases h; exact ⟨_, _, rfl⟩
      | frame content rest =>
        rw [hs] at h
        dsimp only at h
        cases hm : gzipMembers f n (rest.dropWhile (· == 0)) with
        | error e' => rw [hm] at h; cases h; exact ih _ hm
        | ok more => rw [hm] at h; cases h

theorem write_ne_nil {f : Format} (hf : Sensible f) (data : Bytes) : f.write data ≠ [] := by
  intro h
  have := hf.eats _ _ _ (hf.whole data [])
  rw [List.append_nil, h] at this
  cases this

/-- **C92, exactly what the gzip compression accepts**: a sequence of members with zero bytes after any of them; the result is their contents, one after the other. Everything else raises
an ordinary exception. -/
theorem C92_gzip_accepts (f : Format) (hf : Sensible f) (payload : List UInt8) :
    (∀ data, (gzipCompression f).decompress payload = .ok data ↔ Members f payload data) ∧
    ((∀ data, ¬ Members f payload data) → Undecompressible (gzipCompression f) payload) := by
  have h1 : ∀ data, (gzipCompression f).decompress payload = .ok data ↔ Members f payload data :=
    fun data => gzipMembers_ok hf payload.length payload data (Nat.le_refl _)
  refine ⟨h1, fun hno => ?_⟩
  cases hd : (gzipCompression f).decompress payload with
  | ok data => exact absurd ((h1 data).1 hd) (hno data)
  | error e =>
    obtain ⟨cls, msg, rfl⟩ := gzipMembers_error _ _ _ hd
    exact ⟨cls, msg, hd⟩

/-- **C92, round trip**: each of the three compressions undoes what it has done, and is not taken for identity. -/
theorem C92_round_trip (f : Format) (hf : Sensible f) :
    ∀ c ∈ [gzipCompression f, brotliCompression f, zstdCompression f], c ≠ .identity ∧ ∀ data, c.decompress (c.compress data) = .ok data := by
  intro c hc
  have hw : ∀ data, f.scan (f.write data) = .frame data [] := fun data => by
    have := hf.whole data []
    rwa [List.append_nil] at this
  simp only [List.mem_cons, List.not_mem_nil, or_false] at hc
  rcases hc with rfl | rfl | rfl
  · refine ⟨(fun h => by cases h), fun data => ((C92_gzip_accepts f hf _).1 data).2 ?_⟩
    have := Members.cons (f := f) 0 (hw data) (by simp) (write_ne_nil hf data) .nil
    rwa [List.append_nil] at this
  · refine ⟨(fun h => by cases h), fun data => ?_⟩
    show brotliDecompress f (f.write data) = _
    unfold brotliDecompress
    rw [hw]
  · refine ⟨(fun h => by cases h), fun data => ?_⟩
    show zstdRead f (f.write data) = _
    unfold zstdRead
    rw [hw]

/-- **C92, gzip**: a payload that has lost its end is refused, unless nothing is left of it; so is one followed by anything that is not a member (possibly after zero bytes). -/
theorem C92_gzip_partial (f : Format) (hf : Sensible f) (data : List UInt8) :
    (∀ part, CutShort (gzipCompression f) data part → part ≠ [] → Undecompressible (gzipCompression f) part) ∧
    (∀ zeros more, more ≠ [] → more.head? ≠ some 0 → (∀ c r, f.scan more ≠ .frame c r) →
      Undecompressible (gzipCompression f) (f.write data ++ (List.replicate zeros 0 ++ more))) := by
  constructor
  · intro part hp hne
    refine (C92_gzip_accepts f hf part).2 fun out hm => ?_
    obtain ⟨known, hk, _⟩ := hf.cut data part hp.1 hp.2
    cases hm with
    | nil => exact hne rfl
    | cons _ h _ _ _ => rw [hk] at h; cases h
  · intro zeros more hne hz hbad
    refine (C92_gzip_accepts f hf _).2 fun out hm => ?_
    generalize hpay : f.write data ++ (List.replicate zeros 0 ++ more) = payload at hm
    cases hm with
    | nil => exact write_ne_nil hf data (List.append_eq_nil_iff.1 hpay).1
    | @cons _ content after more' z h hz' hp hm =>
      rw [← hpay, hf.whole] at h
      injection h with h1 h2
      have : more = after := by
        rw [← dropWhile_zeros zeros more hz, h2, dropWhile_zeros z after hz']
      subst this
      cases hm with
      | nil => exact hne rfl
      | cons _ h' _ _ _ => exact hbad _ _ h'

/-- **C92, brotli**: a payload that has lost its end, or has something after it, is refused. -/
theorem C92_brotli (f : Format) (hf : Sensible f) (data payload : List UInt8)
    (h : CutShort (brotliCompression f) data payload ∨ Extended (brotliCompression f) data payload) : Undecompressible (brotliCompression f) payload := by
  refine ⟨.custom 2, pys! "brotli: decoder failed", ?_⟩
  show brotliDecompress f payload = _
  unfold brotliDecompress
  rcases h with h | ⟨more, hne, rfl⟩
  · obtain ⟨known, hk, _⟩ := hf.cut data payload h.1 h.2
    rw [hk]
  · rw [show f.scan ((brotliCompression f).compress data ++ more) = _ from hf.whole data more]
    cases more with
    | nil => exact absurd rfl hne
    | cons b m => rfl

/-- **C92 is violated by zstd**: a payload that has lost its end is accepted, as a beginning of the message; what follows a payload is ignored. -/
theorem C92_violation_zstd (f : Format) (hf : Sensible f) (data payload : List UInt8) :
    (CutShort (zstdCompression f) data payload → ∃ known, known <+: data ∧ (zstdCompression f).decompress payload = .ok known) ∧
    (Extended (zstdCompression f) data payload → (zstdCompression f).decompress payload = .ok data) := by
  constructor
  · intro h
    obtain ⟨known, hk, hp⟩ := hf.cut data payload h.1 h.2
    refine ⟨known, hp, ?_⟩
    show zstdRead f payload = _
    unfold zstdRead
    rw [hk]
  · rintro ⟨more, _, rfl⟩
    show zstdRead f (f.write data ++ more) = _
    unfold zstdRead
    rw [hf.whole]

/-- **C92 is violated by gzip**: of a payload of which nothing is left, the empty message remains; two payloads in a row are one message. -/
theorem C92_violation_gzip (f : Format) (hf : Sensible f) (a b : List UInt8) (hb : (f.write b).head? ≠ some 0) :
    CutShort (gzipCompression f) a [] ∧ (gzipCompression f).decompress [] = .ok [] ∧
    (gzipCompression f).decompress (f.write a ++ f.write b) = .ok (a ++ b) := by
  refine ⟨⟨List.nil_prefix, fun h => write_ne_nil hf a h.symm⟩, rfl, ((C92_gzip_accepts f hf _).1 _).2 ?_⟩
  have h2 := Members.cons (f := f) 0 (by
    have := hf.whole b []
    rwa [List.append_nil] at this) (by simp) (write_ne_nil hf b) .nil
  rw [List.append_nil] at h2
  exact Members.cons 0 (hf.whole a (f.write b)) hb (fun h => write_ne_nil hf a (List.append_eq_nil_iff.1 h).1) h2

/-! ### the servers -/

/-- what the servers refuse: gzip that is cut to something, brotli that is cut or extended -/
theorem spoilt {f : Format} (hf : Sensible f) {c : Compression} {data payload : Bytes}
    (h : (c = gzipCompression f ∧ CutShort c data payload ∧ payload ≠ []) ∨ (c = brotliCompression f ∧ (CutShort c data payload ∨ Extended c data payload))) :
    Undecompressible c payload := by
  rcases h with ⟨rfl, h, hne⟩ | ⟨rfl, h⟩
  · exact (C92_gzip_partial f hf data).1 payload h hne
  · exact C92_brotli f hf data payload h

/-- **C92, WSGI**: a unary request with a body in gzip that lost its end (but not everything), or in brotli that lost its end or was extended, is refused with `invalid_argument`; the handler
does not run. -/
theorem C92_wsgi_partial (app : App Req Res) (sc : StatusCodec) (env : Environ) (key : List Char) (m : MethodInfo)
    (fn : Req → RequestContext → Call Res) (codec : ServerCodec Req Res) (h : WsgiPosted app env key m fn codec) (hp : Pieces env.input)
    (raw : List UInt8) (hraw : WsgiBody env raw) (f : Format) (hf : Sensible f) (c : Compression) (hn : wsgiEncoding env ≠ pys! "identity")
    (hc : Dict.get? app.comps (wsgiEncoding env) = some c) (data : List UInt8)
    (hs : (c = gzipCompression f ∧ CutShort c data raw ∧ raw ≠ []) ∨ (c = brotliCompression f ∧ (CutShort c data raw ∨ Extended c data raw))) :
    WsgiRefused (app.wsgi sc env) .invalidArgument := by
  obtain ⟨cls, msg, he⟩ := spoilt hf hs
  exact C38_wsgi_post_decompress_partial app sc env key m fn codec h hp raw hraw c hn hc _ he rfl

/-- **C92, ASGI**: … the handler does not run, and the answer is an error. (An empty body is not decompressed.) -/
theorem C92_asgi_partial (app : App Req Res) (sc : StatusCodec) (scope : Scope) (env : Env) (headers : Headers) (key : List Char) (m : MethodInfo)
    (fn : Req → RequestContext → Call Res) (codec : ServerCodec Req Res) (h : AsgiPosted app scope headers key m fn codec)
    (raw : List UInt8) (hraw : AsgiBody env.receive raw) (hne : raw ≠ []) (f : Format) (hf : Sensible f) (c : Compression)
    (hc : Dict.get? app.comps (lower (headers.getD (pys! "content-encoding") (pys! "identity"))) = some c) (data : List UInt8)
    (hs : (c = gzipCompression f ∧ CutShort c data raw) ∨ (c = brotliCompression f ∧ (CutShort c data raw ∨ Extended c data raw))) :
    (app.asgi sc scope env).calls = [] ∧ (Reliable env → AsgiRefused (app.asgi sc scope env) .unknown) := by
  obtain ⟨cls, msg, he⟩ := spoilt hf (hs.imp_left fun h => ⟨h.1, h.2, hne⟩)
  have he : app.asgiPost env headers codec = .error (.other cls msg) := by
    obtain ⟨hb1, hb2⟩ := asgiBody_ok.2 hraw
    rw [asgiPost_eq, hb1]
    dsimp only
    rw [hb2]
    unfold asgiInflate
    rw [hc]
    dsimp only
    rw [he]
    cases raw with
    | nil => exact absurd rfl hne
    | cons b r => rfl
  rw [asgi_posted h sc env he]
  refine ⟨asgiFail_calls .., fun hr => ?_⟩
  obtain ⟨r, h1, h2⟩ := asgiFail_error hr ([] : List (Called Req)) (.inr ⟨cls, msg, rfl⟩) (some .empty)
  exact ⟨asgiFail_calls .., r, _, h1, h2, rfl⟩

/-- **C92 is violated by the servers**: the handler of a unary method runs on what is left of a message in zstd that lost its end, if that can be decoded as a message. -/
theorem C92_violation_wsgi (app : App Req Res) (sc : StatusCodec) (env : Environ) (key : List Char) (m : MethodInfo)
    (fn : Req → RequestContext → Call Res) (codec : ServerCodec Req Res) (h : WsgiPosted app env key m fn codec) (hp : Pieces env.input)
    (raw : List UInt8) (hraw : WsgiBody env raw) (f : Format) (hf : Sensible f) (hn : wsgiEncoding env ≠ pys! "identity")
    (hc : Dict.get? app.comps (wsgiEncoding env) = some (zstdCompression f)) (data : List UInt8) (hs : CutShort (zstdCompression f) data raw)
    (hd : ∀ known, known <+: data → WithinLimit app known ∧ ∃ req, codec.req.decode known = .ok req) :
    ∃ known req ctx, known <+: data ∧ codec.req.decode known = .ok req ∧ (app.wsgi sc env).calls = [⟨key, ctx, some req⟩] := by
  obtain ⟨known, hk, hz⟩ := (C92_violation_zstd f hf data raw).1 hs
  obtain ⟨hl, req, hreq⟩ := hd known hk
  obtain ⟨name, hname, hcod⟩ := h.codec
  obtain ⟨ctx, _, h1, _⟩ := C63_wsgi app sc env key (pys! "POST") m fn h.unary hp codec req
    ⟨h.ready, .inl ⟨rfl, name, raw, known, hname, hcod, hraw, .inr ⟨hn, _, hc, hz⟩, hl, hreq⟩⟩
  exact ⟨known, req, ctx, hk, hreq, h1⟩

theorem C92_violation_asgi (app : App Req Res) (sc : StatusCodec) (scope : Scope) (env : Env) (headers : Headers) (key : List Char) (m : MethodInfo)
    (fn : Req → RequestContext → Call Res) (codec : ServerCodec Req Res) (h : AsgiPosted app scope headers key m fn codec) (hr : Reliable env)
    (raw : List UInt8) (hraw : AsgiBody env.receive raw) (f : Format) (hf : Sensible f)
    (hc : Dict.get? app.comps (lower (headers.getD (pys! "content-encoding") (pys! "identity"))) = some (zstdCompression f)) (data : List UInt8)
    (hs : CutShort (zstdCompression f) data raw) (hd : ∀ known, known <+: data → WithinLimit app known ∧ ∃ req, codec.req.decode known = .ok req) :
    ∃ known req ctx, known <+: data ∧ codec.req.decode known = .ok req ∧ (app.asgi sc scope env).calls = [⟨key, ctx, some req⟩] := by
  obtain ⟨known, hk, hz⟩ : ∃ known, known <+: data ∧ ((raw = [] ∧ known = []) ∨ (raw ≠ [] ∧ (zstdCompression f).decompress raw = .ok known)) := by
    by_cases hne : raw = []
    · exact ⟨[], List.nil_prefix, .inl ⟨hne, rfl⟩⟩
    · obtain ⟨known, hk, hz⟩ := (C92_violation_zstd f hf data raw).1 hs
      exact ⟨known, hk, .inr ⟨hne, hz⟩⟩
  obtain ⟨hl, req, hreq⟩ := hd known hk
  obtain ⟨name, hname, hcod⟩ := h.codec
  obtain ⟨ctx, _, h1, _⟩ := C63_asgi app sc scope env headers key m fn h.unary hr codec req
    ⟨h.ready, .inl ⟨h.method, name, raw, known, hname, hcod, hraw, ⟨_, hc, hz⟩, hl, hreq⟩⟩
  exact ⟨known, req, ctx, hk, hreq, h1⟩

/-- **C92 is violated by the ASGI server**: of a message in any compression of which nothing is left, the message that is encoded as nothing remains. -/
theorem C92_violation_asgi_empty (app : App Req Res) (sc : StatusCodec) (scope : Scope) (env : Env) (headers : Headers) (key : List Char) (m : MethodInfo)
    (fn : Req → RequestContext → Call Res) (codec : ServerCodec Req Res) (h : AsgiPosted app scope headers key m fn codec) (hr : Reliable env)
    (hraw : AsgiBody env.receive []) (c : Compression)
    (hc : Dict.get? app.comps (lower (headers.getD (pys! "content-encoding") (pys! "identity"))) = some c)
    (hl : WithinLimit app []) (req : Req) (hd : codec.req.decode [] = .ok req) : ∃ ctx, (app.asgi sc scope env).calls = [⟨key, ctx, some req⟩] := by
  obtain ⟨name, hname, hcod⟩ := h.codec
  obtain ⟨ctx, _, h1, _⟩ := C63_asgi app sc scope env headers key m fn h.unary hr codec req
    ⟨h.ready, .inl ⟨h.method, name, [], [], hname, hcod, hraw, ⟨_, hc, .inl ⟨rfl, rfl⟩⟩, hl, hd⟩⟩
  exact ⟨ctx, h1⟩

/-! ### the hypotheses are met -/

/-- a format: every byte is announced by a 1; a 2 ends the frame -/
def plainWrite : Bytes → Bytes
  | [] => [2]
  | b :: data => 1 :: b :: plainWrite data
def plainScan : Bytes → Scan
  | [] => .incomplete []
  | [a] => if a = 1 then .incomplete [] else if a = 2 then .frame [] [] else .bad
  | a :: b :: rest =>
    if a = 1 then
      match plainScan rest with
      | .frame content r => .frame (b :: content) r
      | .incomplete content => .incomplete (b :: content)
      | .bad => .bad
    else if a = 2 then .frame [] (b :: rest) else .bad
def plainFormat : Format := ⟨plainWrite, plainScan⟩

theorem plainScan_one {b : UInt8} {rest : Bytes} :
    (∀ c r, plainScan rest = .frame c r → plainScan (1 :: b :: rest) = .frame (b :: c) r) ∧
    (∀ c, plainScan rest = .incomplete c → plainScan (1 :: b :: rest) = .incomplete (b :: c)) :=
  ⟨fun c r h => by rw [plainScan, if_pos rfl, h], fun c h => by rw [plainScan, if_pos rfl, h]⟩

theorem plainScan_two (rest : Bytes) : plainScan (2 :: rest) = .frame [] rest := by
  cases rest <;> rfl

theorem plainScan_eats (payload : Bytes) : ∀ content rest, plainScan payload = .frame content rest → rest.length < payload.length := by
  match payload with
  | [] => intro _ _ h; cases h
  | [a] =>
    intro content rest h
    rw [plainScan] at h
    by_cases h1 : a = 1
    · rw [if_pos h1] at h; cases h
    · rw [if_neg h1] at h
      by_cases h2 : a = 2
      · rw [if_pos h2] at h; cases h; exact Nat.zero_lt_one
      · rw [if_neg h2] at h; cases h
  | a :: b :: p =>
    intro content rest h
    rw [plainScan] at h
    by_cases h1 : a = 1
    · rw [if_pos h1] at h
      cases hs : plainScan p with
      | frame c r =>
        rw [hs] at h
        cases h
        have := plainScan_eats p _ _ hs
        simp only [List.length_cons]
        omega
      | incomplete c => rw [hs] at h; cases h
      | bad => rw [hs] at h; cases h
    · rw [if_neg h1] at h
      by_cases h2 : a = 2
      · rw [if_pos h2] at h; cases h; exact Nat.lt_succ_self _
      · rw [if_neg h2] at h; cases h

theorem plainScan_cut (data : Bytes) : ∀ part, part <+: plainWrite data → part ≠ plainWrite data →
    ∃ known, plainScan part = .incomplete known ∧ known <+: data := by
  induction data with
  | nil =>
    intro part hp hne
    cases part with
    | nil => exact ⟨[], rfl, List.nil_prefix⟩
    | cons b p =>
      obtain ⟨rfl, hp'⟩ := List.cons_prefix_cons.1 hp
      rw [List.prefix_nil] at hp'
      subst hp'
      exact absurd rfl hne
  | cons b data ih =>
    intro part hp hne
    match part, hp, hne with
    | [], _, _ => exact ⟨[], rfl, List.nil_prefix⟩
    | [x], hp, _ =>
      obtain ⟨rfl, _⟩ := List.cons_prefix_cons.1 hp
      exact ⟨[], rfl, List.nil_prefix⟩
    | x :: y :: p, hp, hne =>
      obtain ⟨rfl, hp'⟩ := List.cons_prefix_cons.1 hp
      obtain ⟨rfl, hp''⟩ := List.cons_prefix_cons.1 hp'
      obtain ⟨known, hk, hpre⟩ := ih p hp'' (fun h => hne (by rw [h]; rfl))
      exact ⟨y :: known, plainScan_one.2 _ hk, List.cons_prefix_cons.2 ⟨rfl, hpre⟩⟩

theorem plain_sensible : Sensible plainFormat := by
  refine ⟨fun data rest => ?_, plainScan_cut, plainScan_eats⟩
  show plainScan (plainWrite data ++ rest) = _
  induction data with
  | nil => exact plainScan_two rest
  | cons b data ih => exact plainScan_one.1 _ _ ih

/-- cut after its first byte; two in a row; followed by rubbish -/
example : CutShort (zstdCompression plainFormat) [7, 8] [1, 7, 1] ∧ (zstdCompression plainFormat).decompress [1, 7, 1] = .ok [7] ∧
    Extended (zstdCompression plainFormat) [7] [1, 7, 2, 9] ∧ (zstdCompression plainFormat).decompress [1, 7, 2, 9] = .ok [7] ∧
    CutShort (gzipCompression plainFormat) [7, 8] [1, 7, 1] ∧ Undecompressible (gzipCompression plainFormat) [1, 7, 1] ∧
    (gzipCompression plainFormat).decompress [1, 7, 2, 0, 0, 1, 8, 2, 0] = .ok [7, 8] ∧ Undecompressible (gzipCompression plainFormat) [1, 7, 2, 0, 9] ∧
    Extended (brotliCompression plainFormat) [7] [1, 7, 2, 2] ∧ Undecompressible (brotliCompression plainFormat) [1, 7, 2, 2] ∧
    (plainFormat.write []).head? ≠ some 0 :=
  ⟨⟨by decide +kernel, by decide +kernel⟩, by decide +kernel, ⟨[9], by decide, by decide +kernel⟩, by decide +kernel, ⟨by decide +kernel, by decide +kernel⟩,
    ⟨_, _, rfl⟩, by decide +kernel, ⟨_, _, rfl⟩, ⟨[2], by decide, by decide +kernel⟩, ⟨_, _, rfl⟩, by decide +kernel⟩

def codingApp : App Bytes Bytes :=
  .new [(pys! "/a.S/Echo", ⟨echoInfo, .unary echoCall⟩)] (pys! "/a.S") flipComp (some 10)
    (some [zstdCompression plainFormat, gzipCompression plainFormat, brotliCompression plainFormat]) [⟨pys! "proto", rawCodec, rawCodec⟩]
def codingEnviron (enc : Str) (input : List Bytes) : Environ := pickyEnviron [(pys! "HTTP_CONTENT_ENCODING", enc)] input
def codingScope (enc : Str) : Scope := pickyScope [(utf8Encode (pys! "content-encoding"), utf8Encode enc)]

theorem coding_posted (input : List Bytes) :
    WsgiPosted codingApp (codingEnviron (pys! "zstd") input) (pys! "/a.S/Echo") echoInfo echoCall ⟨pys! "proto", rawCodec, rawCodec⟩ ∧
    WsgiPosted codingApp (codingEnviron (pys! "gzip") input) (pys! "/a.S/Echo") echoInfo echoCall ⟨pys! "proto", rawCodec, rawCodec⟩ := by
  have hct : (wsgiHeaders (codingEnviron (pys! "zstd") []).vars).getD (pys! "content-type") [] = pys! "application/proto; charset=utf-8" := by decide +kernel
  have hct' : (wsgiHeaders (codingEnviron (pys! "gzip") []).vars).getD (pys! "content-type") [] = pys! "application/proto; charset=utf-8" := by decide +kernel
  constructor
  · exact ⟨⟨wsgiLookup_ok.1 rfl, rfl, (negotiate_connect _).1 (by
      show negotiateServerProtocol ((wsgiHeaders (codingEnviron (pys! "zstd") []).vars).getD _ _) = _
      rw [hct]; decide +kernel)⟩, connectHeaders_of (by rfl) (by rfl), pys! "proto", (unaryCodecName_iff ..).2 (by
      show connectCodecName ((wsgiHeaders (codingEnviron (pys! "zstd") []).vars).getD _ _) false = _
      rw [hct]; decide +kernel), rfl⟩
  · exact ⟨⟨wsgiLookup_ok.1 rfl, rfl, (negotiate_connect _).1 (by
      show negotiateServerProtocol ((wsgiHeaders (codingEnviron (pys! "gzip") []).vars).getD _ _) = _
      rw [hct']; decide +kernel)⟩, connectHeaders_of (by rfl) (by rfl), pys! "proto", (unaryCodecName_iff ..).2 (by
      show connectCodecName ((wsgiHeaders (codingEnviron (pys! "gzip") []).vars).getD _ _) false = _
      rw [hct']; decide +kernel), rfl⟩

/-- a request of two bytes, cut in two different ways: zstd delivers one byte, gzip nothing, brotli nothing -/
example : WsgiPosted codingApp (codingEnviron (pys! "zstd") [[1, 7], [1]]) (pys! "/a.S/Echo") echoInfo echoCall ⟨pys! "proto", rawCodec, rawCodec⟩ ∧
    WsgiBody (codingEnviron (pys! "zstd") [[1, 7], [1]]) [1, 7, 1] ∧ wsgiEncoding (codingEnviron (pys! "zstd") [[1, 7], [1]]) ≠ pys! "identity" ∧
    Dict.get? codingApp.comps (wsgiEncoding (codingEnviron (pys! "zstd") [[1, 7], [1]])) = some (zstdCompression plainFormat) ∧
    (∀ known : Bytes, known <+: [7, 8] → WithinLimit codingApp known ∧ ∃ req, rawCodec.decode known = .ok req) ∧
    (codingApp.wsgi demoStatus (codingEnviron (pys! "zstd") [[1, 7], [1]])).calls.map (·.req) = [some [7]] ∧
    WsgiPosted codingApp (codingEnviron (pys! "gzip") [[1, 7], [1]]) (pys! "/a.S/Echo") echoInfo echoCall ⟨pys! "proto", rawCodec, rawCodec⟩ ∧
    Dict.get? codingApp.comps (wsgiEncoding (codingEnviron (pys! "gzip") [[1, 7], [1]])) = some (gzipCompression plainFormat) ∧
    (codingApp.wsgi demoStatus (codingEnviron (pys! "gzip") [[1, 7], [1]])).calls.length = 0 ∧
    (codingApp.wsgi demoStatus (codingEnviron (pys! "br") [[1, 7, 2, 2]])).calls.length = 0 :=
  ⟨(coding_posted _).1, .whole (fun s hs => by cases hs), by decide +kernel, by
    rw [show wsgiEncoding (codingEnviron (pys! "zstd") [[1, 7], [1]]) = pys! "zstd" by decide +kernel]; rfl,
    fun known hk => ⟨fun n hn => by
      cases hn
      have := hk.length_le
      simp only [List.length_cons, List.length_nil] at this
      omega, known, rfl⟩, by decide +kernel, (coding_posted _).2, by
    rw [show wsgiEncoding (codingEnviron (pys! "gzip") [[1, 7], [1]]) = pys! "gzip" by decide +kernel]; rfl, by decide +kernel, by decide +kernel⟩

/-- on ASGI -/
example : AsgiPosted codingApp (codingScope (pys! "zstd")) (pickyHeaders [(pys! "content-encoding", pys! "zstd")]) (pys! "/a.S/Echo") echoInfo echoCall
      ⟨pys! "proto", rawCodec, rawCodec⟩ ∧
    Dict.get? codingApp.comps (lower ((pickyHeaders [(pys! "content-encoding", pys! "zstd")]).getD (pys! "content-encoding") (pys! "identity"))) =
      some (zstdCompression plainFormat) ∧
    (codingApp.asgi demoStatus (codingScope (pys! "zstd")) (demoEnv [.request [1, 7, 1] false])).calls.map (·.req) = [some [7]] ∧
    (codingApp.asgi demoStatus (codingScope (pys! "gzip")) (demoEnv [.request [1, 7, 1] false])).calls.length = 0 ∧
    (codingApp.asgi demoStatus (codingScope (pys! "br")) (demoEnv [.request [1, 7, 1] false])).calls.length = 0 ∧
    (codingApp.asgi demoStatus (codingScope (pys! "br")) (demoEnv [.request [] false])).calls.map (·.req) = [some []] :=
  ⟨⟨⟨asgiLookup_ok.1 rfl, by decide +kernel, (negotiate_connect _).1 (by decide +kernel)⟩, rfl,
    connectHeaders_of (by decide +kernel) (by decide +kernel), pys! "proto", (unaryCodecName_iff ..).2 (by decide +kernel), rfl⟩, by
    rw [show lower ((pickyHeaders [(pys! "content-encoding", pys! "zstd")]).getD (pys! "content-encoding") (pys! "identity")) = pys! "zstd" by decide +kernel]
    rfl, by decide +kernel, by decide +kernel, by decide +kernel, by decide +kernel⟩

end Props
