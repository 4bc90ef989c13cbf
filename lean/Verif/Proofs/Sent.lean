import Verif.Spec.Sent
import Verif.Proofs.Response
/-
Proofs for C74.
-/
namespace Conn
open Py Spec Props

variable {Req Res : Type}

/-! ### queries -/

theorem hexDigit_hex (n : Nat) (h : n < 16) : HexDigit (hexDigit n) n := by
  have : ∀ n < 16, (hexDigit n).toNat = (if n < 10 then 48 + n else 55 + n) := fun n h => hexDigit_toNat n h
  have h1 := this n h
  by_cases h10 : n < 10
  · rw [if_pos h10] at h1
    refine .inl ⟨?_, ?_, ?_⟩
    · show (48 : Nat) ≤ (hexDigit n).toNat; omega
    · show (hexDigit n).toNat ≤ 57; omega
    · show (hexDigit n).toNat = n + 48; omega
  · rw [if_neg h10] at h1
    refine .inr (.inr ⟨?_, ?_, ?_⟩)
    · show (65 : Nat) ≤ (hexDigit n).toNat; omega
    · show (hexDigit n).toNat ≤ 70; omega
    · show (hexDigit n).toNat + 10 = n + 65; omega

theorem alwaysSafe_range {n : Nat} (h : alwaysSafe n = true) : 0x21 ≤ n ∧ n ≤ 0x7E ∧ n ≠ 35 := by
  simp only [alwaysSafe, Bool.or_eq_true, Bool.and_eq_true, decide_eq_true_eq, beq_iff_eq] at h
  omega

theorem queryText_quotePlus {res : List Char} (hr : ∀ c ∈ res, c ∈ ['%', '+', '&', '#', '=']) (b : Bytes) :
    QueryText res (b.flatMap fun b => if b.toNat = 32 then ['+'] else quoteByte b) b := by
  induction b with
  | nil => exact .nil
  | cons x b ih =>
    rw [List.flatMap_cons]
    have hx : x.toNat < 256 := x.toNat_lt
    have e0 : UInt8.ofNat x.toNat = x := UInt8.ofNat_toNat
    by_cases h : x.toNat = 32
    · rw [if_pos h]
      have : x = 0x20 := by rw [← e0, h]; rfl
      rw [this]
      exact .blank ih
    · rw [if_neg h]
      unfold quoteByte
      by_cases hs : alwaysSafe x.toNat = true
      · rw [if_pos hs]
        have h1 := alwaysSafe_range hs
        have h2 := alwaysSafe_lt hs
        have e : (Char.ofNat x.toNat).toNat = x.toNat := ofNat_toNat' (by omega)
        have := QueryText.plain (reserved := res) (c := Char.ofNat x.toNat) (by rw [e]; omega) (by
          intro hc
          have h3 := hr _ hc
          simp only [List.mem_cons, List.not_mem_nil, or_false] at h3
          rcases h3 with h3 | h3 | h3 | h3 | h3 <;> rw [h3] at e <;> have e : _ = x.toNat := e <;>
            simp only [show ('%' : Char).toNat = 37 from rfl, show ('+' : Char).toNat = 43 from rfl, show ('&' : Char).toNat = 38 from rfl,
              show ('#' : Char).toNat = 35 from rfl, show ('=' : Char).toNat = 61 from rfl] at e <;> omega) ih
        rw [e, e0] at this
        exact this
      · rw [if_neg hs]
        have := QueryText.escaped (reserved := res) (hexDigit_hex (x.toNat / 16) (by omega)) (hexDigit_hex (x.toNat % 16) (by omega)) ih
        rw [show 16 * (x.toNat / 16) + x.toNat % 16 = x.toNat by omega, e0] at this
        exact this

theorem query_urlencode (l : List (Str × Str)) (hne : l ≠ []) : Query (l.map fun p => (p.1, utf8Encode p.2)) (urlencode l) := by
  induction l with
  | nil => exact absurd rfl hne
  | cons p l ih =>
    obtain ⟨k, v⟩ := p
    have h1 := queryText_quotePlus (res := ['%', '+', '&', '#', '=']) (fun _ h => h) (utf8Encode k)
    have h2 := queryText_quotePlus (res := ['%', '+', '&', '#']) (by decide) (utf8Encode v)
    cases l with
    | nil => exact .one h1 h2
    | cons q l => exact .more h1 h2 (ih (by simp))

/-! ### timeouts -/

theorem announced_of {c : Client Req Res} {user : UserHeaders} {t : Option Int} (hl : TimeoutLegal c user t) {fields : List (Str × Str)}
    (hv : fieldValues fields (timeoutName c.proto) = match pickTimeout t c.timeoutMs with
      | some ms => [timeoutText c.proto ms]
      | none => given user (timeoutName c.proto)) :
    ∃ told, Announced fields c.proto told ∧ StreamTimeoutTold c.proto (pickTimeout t c.timeoutMs) told := by
  unfold TimeoutLegal at hl
  rw [callTimeout_eq] at hl
  cases hp : pickTimeout t c.timeoutMs with
  | none =>
    rw [hp] at hl hv
    refine ⟨none, .none (by rw [hv]; exact hl), ?_⟩
    cases c.proto <;> rfl
  | some ms =>
    rw [hp] at hl hv
    dsimp only at hl hv
    have grpc : ∀ p : Proto, p ≠ .connect → ms < 360000000000000 → fieldValues fields (timeoutName p) = [serializeTimeout ms] →
        ∃ told, Announced fields p told ∧ StreamTimeoutTold .grpc (some ms) told := by
      intro p hp h hv
      obtain ⟨⟨ds, u, h1, h2, h3, h4, h5⟩, _⟩ := C09_timeout_header_legal ms h
      obtain ⟨⟨u', k⟩, hk, rfl⟩ := List.mem_map.1 h5
      rw [h1] at hv
      refine ⟨_, .grpc hp hv h4 h2 h3 hk, ?_⟩
      obtain ⟨s, e1, e2, e3, e4⟩ := C10_never_lengthened ms h
      rw [h1, C11_parse_exact ds u' k h4 h2 h3 hk] at e1
      have e1 := Except.ok.inj e1
      refine ⟨_, rfl, ?_⟩
      rw [e1]
      exact ⟨e2, fun h0 => ⟨(e3 h0).1, (e3 h0).2.1⟩, e4⟩
    cases hc : c.proto with
    | connect =>
      rw [hc] at hl hv
      obtain ⟨n, rfl⟩ := Int.eq_ofNat_of_zero_le hl.1
      refine ⟨some ((decimal (natDigits n) : Nat) : Int), .connect hv (natDigits_digits n) (List.length_pos_iff.mpr (natDigits_ne_nil n))
        (natDigits_length_le n 10 (by omega) (by have := hl.2; omega)), ?_⟩
      show _ = _
      rw [decimal_natDigits]
    | grpc => rw [hc] at hl hv; exact grpc _ (by decide) hl hv
    | grpcWeb => rw [hc] at hl hv; exact grpc _ (by decide) hl hv

theorem accept_list_of {c : Client Req Res} (hid : Dict.get? c.comps (pys! "identity") = some .identity) (hn : ∀ n ∈ Dict.keys c.comps, PlainName n) :
    AcceptList c c.acceptHeader := by
  refine ⟨(Dict.keys c.comps).map fun n => ⟨[], n, []⟩, ?_, (acceptText_names _).symm, ?_⟩
  · intro e
    have h : pys! "identity" ∈ Dict.keys c.comps := (Dict.get?_isSome_iff _ _).1 (by rw [hid]; rfl)
    rw [List.map_eq_nil_iff.1 e] at h
    cases h
  · intro e he
    obtain ⟨n, h1, rfl⟩ := List.mem_map.1 he
    exact ⟨plainName_entry (hn n h1), .inl ((Dict.get?_isSome_iff _ _).2 h1)⟩

/-! ### unary calls by Connect -/

section
variable {c : Client Req Res} {app : App Req Res} {codec : ServerCodec Req Res} {m : MethodInfo}
  {req : Req} {user : UserHeaders} {t : Option Int} {data : Bytes}

theorem posted_of (hcodec : SameCodec c app codec) (hcomps : Compressions c app) (hp : c.proto = .connect) (hd : c.codec.encode req = .ok data)
    (hl : WithinLimit app data) : Posted app codec c.address (methodPath m) (theRequest c m user t false data) req := by
  have hrq : theRequest c m user t false data = _ := unaryRequest_post c m user t (c.send.compress data)
  have hf := context_fields c hp m (pys! "POST") user t
  have hi := context_inv c m (pys! "POST") user t false
  have hval : ∀ n, fieldValues (theRequest c m user t false data).headers n = (c.context m (pys! "POST") user t false).requestHeaders.getall n := by
    intro n
    rw [hrq]
    exact fieldValues_allitems hi n
  obtain ⟨k, hk1, hk2⟩ := hcomps.send
  refine ⟨by rw [hrq], by rw [hrq], ⟨_, c.codec.name, by rw [hval]; exact hf.type, plain_type hcodec.plain, hcodec.notGrpc, hcodec.found⟩,
    data, .inr ⟨c.send.name, k, by rw [hval]; exact hf.encoding, by rw [plainName_lower hcomps.sendName]; exact hk1, ?_⟩, hl, hcodec.request req data hd⟩
  rw [hrq]
  dsimp only
  rw [List.flatten_cons, List.flatten_nil, List.append_nil]
  exact hk2 data

/-- the parameters of a GET request -/
abbrev sentParams (c : Client Req Res) (raw : Bytes) : List (Str × Bytes) :=
  [(pys! "connect", utf8Encode (pys! "v1")), (pys! "base64", utf8Encode (pys! "1")), (pys! "compression", utf8Encode c.send.name),
    (pys! "encoding", utf8Encode c.codec.name), (pys! "message", utf8Encode (urlsafeB64encode raw))]

theorem queried_of (hcodec : SameCodec c app codec) (hcomps : Compressions c app) (hp : c.proto = .connect) (hd : c.codec.encode req = .ok data) :
    Queried app codec c.address (methodPath m) (sentParams c (c.send.compress data)) (theRequest c m user t true data) req := by
  have hrq : theRequest c m user t true data = _ := unaryRequest_get c hp m user t (c.send.compress data)
  have hi := context_inv c m (pys! "GET") user t false
  have hlow := Headers.allitems_low hi
  obtain ⟨k, hk1, hk2⟩ := hcomps.send
  refine ⟨by rw [hrq], ?_, ⟨_, by rw [hrq], query_urlencode [(pys! "connect", pys! "v1"), (pys! "base64", pys! "1"),
      (pys! "compression", c.send.name), (pys! "encoding", c.codec.name), (pys! "message", urlsafeB64encode (c.send.compress data))] (by simp)⟩, ⟨c.codec.name, rfl, hcodec.found⟩, c.send.compress data, data,
    .inr ⟨rfl, urlsafeB64encode (c.send.compress data), rfl, b64encode (c.send.compress data), ⟨0, by simp⟩, rfl⟩,
    .inr ⟨c.send.name, k, rfl, hk1, hk2 data⟩, hcodec.request req data hd⟩
  rw [hrq]
  exact fieldValues_dropped _ _ _ (fun p hp => hlow p (mem_drop hp)) rfl

/-- the message of a GET request is in base64 -/
theorem sent_text (hp : c.proto = .connect) {app : App Req Res} {codec : ServerCodec Req Res} (useGet : Bool) (params : List (Str × Bytes))
    (h : Queried app codec c.address (methodPath m) params (theRequest c m user t useGet data) req) : TextMessage params := by
  obtain ⟨h1, _, ⟨q, h2, h3⟩, _⟩ := h
  cases useGet with
  | false =>
    have hrq : theRequest c m user t false data = _ := unaryRequest_post c m user t (c.send.compress data)
    rw [hrq] at h1
    exact absurd h1 (show pys! "POST" ≠ pys! "GET" by decide)
  | true =>
    have hrq : theRequest c m user t true data = _ := unaryRequest_get c hp m user t (c.send.compress data)
    rw [hrq] at h2
    have h2 := List.append_cancel_left h2
    intro hb
    have h4 := query_get h3 (pys! "base64")
    rw [if_pos hb, ← h2, getParams] at h4
    cases h4

end

/-! ### streams -/

theorem sent_frames {c : Client Req Res} {app : App Req Res} {codec : ServerCodec Req Res} (hcodec : SameCodec c app codec)
    {k : Compression} (hk : c.send ≠ .identity → k ≠ .identity ∧ ∀ b, k.decompress (c.send.compress b) = .ok b) {reqs : List Req}
    (hm : ∀ r ∈ reqs, ∃ data, c.codec.encode r = .ok data ∧ (c.send.compress data).length < 2 ^ 32 ∧ WithinLimit app data) :
    (streamingContent ⟨c.codec, some c.send⟩ reqs none).2 = none ∧
    ∃ fs : List Frame, (∀ f ∈ fs, f.Ok ∧ (f.flags = 0 ∨ f.flags = 1)) ∧
      (streamingContent ⟨c.codec, some c.send⟩ reqs none).1.flatten = fs.flatMap Frame.bytes ∧
      fs.map (serverPolicy app codec k).message = reqs.map .ok := by
  have hw : ∃ bs, streamingContent ⟨c.codec, some c.send⟩ reqs none = (bs, none) ∧
      reqs.map (EnvelopeWriter.write ⟨c.codec, some c.send⟩) = bs.map .ok := by
    clear hk
    induction reqs with
    | nil => exact ⟨[], rfl, rfl⟩
    | cons r reqs ih =>
      obtain ⟨bs, h1, h2⟩ := ih fun x hx => hm x (List.mem_cons_of_mem _ hx)
      obtain ⟨data, h3, h4, _⟩ := hm r List.mem_cons_self
      obtain ⟨h5, _⟩ := C08_write_exact ⟨c.codec, some c.send⟩ r data h3
      refine ⟨_ :: bs, show _ = _ from ?_, by rw [List.map_cons, h5 h4, h2, List.map_cons]⟩
      unfold streamingContent
      rw [h5 h4, h1]
  obtain ⟨bs, h1, h2⟩ := hw
  rw [h1]
  refine ⟨rfl, ?_⟩
  obtain ⟨fs, h3, h4, h6, h5⟩ := writeAll_frames (σ := Unit) ⟨c.codec, some c.send⟩
    ⟨codec.req, k, app.readMax, fun s _ _ => (s, .ok false)⟩
    ⟨hcodec.request, by intro k' e; cases e; exact hk⟩ reqs bs h2 (by
      intro n hn r hr d hd
      obtain ⟨data, e1, _, e3⟩ := hm r hr
      rw [show (EnvelopeWriter.mk c.codec (some c.send)).codec = c.codec from rfl, e1] at hd
      cases hd
      exact e3 n hn)
  refine ⟨fs, fun f hf => ⟨h3 f hf, ?_⟩, by rw [h4, List.flatMap_def], h5⟩
  rw [h6 f hf]
  unfold EnvelopeWriter.pre
  cases c.send with
  | identity => exact .inl rfl
  | custom => exact .inr rfl

theorem sends_stream {c : Client Req Res} {app : App Req Res} {codec : ServerCodec Req Res} {m : MethodInfo} {reqs : List Req}
    {user : UserHeaders} {t : Option Int} (hcodec : SameCodec c app codec) (hcomps : StreamCompressions c app) (hname : c.send.name ≠ [])
    (hm : ∀ r ∈ reqs, ∃ data, c.codec.encode r = .ok data ∧ (c.send.compress data).length < 2 ^ 32 ∧ WithinLimit app data)
    (hl : TimeoutLegal c user t) (method : Str) (stream : Bool) (hst : c.proto = .connect → stream = true)
    {α : Type} (g : StreamResult Res → α) (sc : StatusCodec) (sink : Sink) (cs : Circumstances) :
    SendsStream c app codec m t reqs fun http => g (c.bidi sc http.stream sink cs (c.context m method user t stream) reqs none) := by
  have hf := stream_context_fields c m method user t stream hst
  have hv := theStream_fields c m method user t stream reqs
  have htn : timeoutName c.proto = timeoutHeader c.proto := by cases c.proto <;> rfl
  obtain ⟨told, h1, h2⟩ := announced_of hl (fields := (theStream c m method user t stream reqs).headers) (by
    rw [hv, htn]
    exact hf.timeout)
  obtain ⟨k, hk1, hk2⟩ := hcomps.request
  obtain ⟨h3, fs, h4, h5, h6⟩ := sent_frames hcodec hk2 hm
  refine ⟨theStream c m method user t stream reqs, pickTimeout t c.timeoutMs, told, ?_, ?_, h3, timeoutTold_pick _ _, h2,
    ⟨_, by rw [hv]; exact hf.accept, accept_list_of hcomps.clientIdentity hcomps.names⟩, fun hc => by rw [hv]; exact hf.version hc, ?_⟩
  · intro a b hab
    exact congrArg g (bidi_sends_one c sc sink cs _ reqs a b hab)
  · refine ⟨rfl, theStream_url .., fun hc => .inr (by rw [hv]; exact hf.version hc), h1, ⟨_, c.codec.name, by rw [hv]; exact hf.type, ?_, hcodec.found⟩,
      ⟨k, fs, .inr ⟨c.send.name, by rw [hv]; exact hf.encoding, hname, hk1⟩, h4, h5, h6⟩⟩
    cases c.proto with
    | connect => exact plain_connect_type hcodec.plain
    | grpc => exact .inl rfl
    | grpcWeb => exact .inl rfl
  · intro hc
    rw [hv]
    have he : (c.context m method user t stream).requestHeaders =
        c.proto.clientHeaders c.userAgent user (pickTimeout t c.timeoutMs) c.codec.name stream c.acceptHeader (some c.send) := rfl
    rw [he, hc]
    show (grpcClientHeaders .grpc c.userAgent user (pickTimeout t c.timeoutMs) c.codec.name stream c.acceptHeader (some c.send)).getall _ = _
    rw [grpcClientHeaders_getall]
    cases pickTimeout t c.timeoutMs <;> rfl

end Conn
