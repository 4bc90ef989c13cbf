import Verif.Proofs.EndStream
import Verif.Proofs.Protobuf
/-
C16, C17, C18, C19, C21: what a client learns of the outcome of an RPC is what the server reported.
Specification: `Verif/Spec/Errors.lean`.
-/
namespace Props
open Py Spec Conn

variable {M : Type}

/-- A `Headers` object obtained by any history of API calls. -/
def Built (h : Headers) : Prop := ∃ history, h = headersAfter Headers.empty history

theorem Built.inv {h : Headers} (hb : Built h) : h.Inv := by
  obtain ⟨ops, rfl⟩ := hb
  exact headersAfter_inv Headers.inv_empty ops

theorem fits_ok {e : ConnectErr} (h : FitsProtobuf e) : e.toStatus.Ok := by
  refine ⟨?_, h.message, ?_⟩
  · have : e.toStatus.code = Int.ofNat (grpcNumber e.code) := by
      unfold ConnectErr.toStatus
      dsimp only
      cases e.code <;> decide +kernel
    rw [this]
    cases e.code <;> decide
  · intro d hd
    unfold ConnectErr.toStatus at hd
    obtain ⟨x, hx, rfl⟩ := List.mem_map.1 hd
    exact h.details x hx

/-! ### C17 -/

/-- **C17**: the HTTP status of an error is the one the protocol prescribes for its code; a client accepts that
response as an error response, and reads from its body an error with the same code, message and details.
(`DebugOk`: the optional debug rendering of every detail is a JSON value.) -/
theorem C17_connect_unary_error (e : ConnectErr) (hd : DebugOk e) (codecName : Str) :
    e.code.httpStatus.1 = connectHttpStatus e.code ∧
    connectValidateResponse codecName e.code.httpStatus.1 (pys! "application/json") = none ∧
    ∃ e', ConnectErr.fromResponse e.code.httpStatus.1 e.toJsonBytes = .ok e' ∧ report e' = report e ∧ AsRead e e' := by
  refine ⟨by cases e.code <;> rfl, ?_, fromResponse_toJsonBytes e hd _⟩
  unfold connectValidateResponse
  dsimp only
  rw [if_pos (by cases e.code <;> decide)]
  rfl

/-! ### gRPC trailers -/

theorem grpcTrailers_get (sc : StatusCodec) (user : Headers) (hu : user.Inv) (e : ConnectErr) (k : Str) :
    HTTPHeaders.get (grpcTrailers sc user (some e)).allitems k =
      (if lower (pys! "grpc-status-details-bin") = lower k ∧ e.details ≠ [] then
        some (rstripChar '=' (b64encode (sc.toBinary e.toStatus)))
      else if lower (pys! "grpc-message") = lower k ∧ e.message ≠ [] then some (quote e.message)
      else if lower (pys! "grpc-status") = lower k then some e.code.grpcStatus
      else (user.getall k).head?) := by
  rw [get_allitems (inv_grpcTrailers sc user _), grpcTrailers_getall sc user hu]
  split
  · rfl
  · split
    · rfl
    · split <;> rfl

/-- The error a client reads from the trailers a server wrote. -/
theorem errorOfTrailers_grpcTrailers (sc : StatusCodec) (hsc : sc.Lawful) (e : ConnectErr) (hfit : FitsProtobuf e)
    (user : Headers) (hu : user.Inv)
    (hres : e.details = [] → user.getall (pys! "grpc-status-details-bin") = [] ∧
      (e.message = [] → user.getall (pys! "grpc-message") = [])) :
    ∃ e', errorOfTrailers sc (grpcTrailers sc user (some e)).allitems e.code.grpcStatus none = some (.connect e') ∧
      SameError e e' := by
  have a1 : lower (pys! "grpc-status-details-bin") ≠ lower (pys! "grpc-message") := by decide +kernel
  have a2 : lower (pys! "grpc-status") ≠ lower (pys! "grpc-message") := by decide +kernel
  have a3 : lower (pys! "grpc-message") ≠ lower (pys! "grpc-status-details-bin") := by decide +kernel
  have a4 : lower (pys! "grpc-status") ≠ lower (pys! "grpc-status-details-bin") := by decide +kernel
  obtain ⟨e', h1, h2, h3, h4, h5⟩ := errorOfTrailers_get sc hsc (grpcTrailers sc user (some e)).allitems e (fits_ok hfit)
    (by
      intro hd
      rw [grpcTrailers_get sc user hu, if_neg (fun h => a1 h.1)]
      by_cases hm : e.message = []
      · rw [if_neg (fun h => h.2 hm), if_neg a2, if_pos hm, (hres hd).2 hm]; rfl
      · rw [if_pos ⟨rfl, hm⟩, if_neg hm])
    (by
      rw [grpcTrailers_get sc user hu]
      by_cases hd : e.details = []
      · rw [if_neg (fun h => h.2 hd), if_neg (fun h => a3 h.1), if_neg a4, if_pos hd, (hres hd).1]; rfl
      · rw [if_pos ⟨rfl, hd⟩, if_neg hd])
  exact ⟨e', h1, h2, h3, h4, h5⟩

theorem get_status (sc : StatusCodec) (user : Headers) (hu : user.Inv) (error : Option ConnectErr) :
    HTTPHeaders.get (grpcTrailers sc user error).allitems (pys! "grpc-status") =
      some (match error with
        | none => pys! "0"
        | some e => e.code.grpcStatus) := by
  cases error with
  | none =>
    rw [get_allitems (inv_grpcTrailers sc user _), grpcTrailers_ok_getall sc user hu, if_pos rfl]; rfl
  | some e =>
    rw [grpcTrailers_get sc user hu]
    have a1 : lower (pys! "grpc-status-details-bin") ≠ lower (pys! "grpc-status") := by decide +kernel
    have a2 : lower (pys! "grpc-message") ≠ lower (pys! "grpc-status") := by decide +kernel
    rw [if_neg (fun h => a1 h.1), if_neg (fun h => a2 h.1), if_pos rfl]

theorem trailers_user (sc : StatusCodec) (user : Headers) (hu : user.Inv) (error : Option ConnectErr) (k : Str)
    (hk : lower k ∉ grpcReserved) : (grpcTrailers sc user error).getall k = user.getall k := by
  have h : ∀ r ∈ grpcReserved, lower r ≠ lower k := by
    intro r hr he
    have hl : lower r = r := by
      simp only [grpcReserved, List.mem_cons, List.not_mem_nil, or_false] at hr
      rcases hr with rfl | rfl | rfl <;> decide +kernel
    rw [← he, hl] at hk
    exact hk hr
  have b1 : lower (pys! "grpc-status") ≠ lower k := h _ (.head _)
  have b2 : lower (pys! "grpc-message") ≠ lower k := h _ (.tail _ (.head _))
  have b3 : lower (pys! "grpc-status-details-bin") ≠ lower k := h _ (.tail _ (.tail _ (.head _)))
  cases error with
  | none => rw [grpcTrailers_ok_getall sc user hu, if_neg b1]
  | some e => rw [grpcTrailers_getall sc user hu, if_neg (fun h => b3 h.1), if_neg (fun h => b2 h.1), if_neg b1]

theorem storeTrailers_headers (r : RespMeta) (t : Headers) : (storeTrailers r t).headers = r.headers := by
  unfold storeTrailers; split <;> rfl

theorem storeTrailers_getall (r : RespMeta) (fields : HTTPHeaders) (hr : r.getTrailers.Inv) (k : Str) :
    (storeTrailers r (fields.foldl (fun t p => t.add p.1 p.2) r.getTrailers)).getTrailers.getall k =
      r.getTrailers.getall k ++ (fields.filter fun p => lower p.1 = lower k).map (·.2) := by
  have h := Headers.getall_foldl_add fields hr k
  unfold storeTrailers
  by_cases ht : (fields.foldl (fun t p => t.add p.1 p.2) r.getTrailers).truthy = true
  · rw [if_pos ht]; exact h
  · rw [if_neg ht]
    have ht' : (fields.foldl (fun t p => t.add p.1 p.2) r.getTrailers).truthy = false := by simpa using ht
    have h0 := (not_truthy_allitems _).1 ht'
    have h1 := Headers.getall_allitems (Headers.inv_foldl_add fields hr) k
    rw [h0] at h1
    rw [← h1] at h
    simp only [List.filter_nil, List.map_nil] at h
    rw [← h]
    have := h.symm
    rw [List.append_eq_nil_iff] at this
    exact this.1

/-- **C16, C19, C21 core**: the client side of gRPC, given exactly the trailers the server produced. -/
theorem grpcComplete_outcome (sc : StatusCodec) (hsc : sc.Lawful) (error : Option ConnectErr)
    (user : Headers) (hu : user.Inv)
    (herr : ∀ e, error = some e → FitsProtobuf e ∧
      (e.details = [] → user.getall (pys! "grpc-status-details-bin") = [] ∧
      (e.message = [] → user.getall (pys! "grpc-message") = []))) (s : ClientSub)
    (hs : ∀ r, s.sink = some r → r.getTrailers.Inv) (rh : HTTPHeaders) :
    SeenExactly error (grpcComplete sc s rh (grpcTrailers sc user error).allitems none).2 ∧
    ∀ r, s.sink = some r → ∃ r', (grpcComplete sc s rh (grpcTrailers sc user error).allitems none).1 = some r' ∧
      r'.headers = r.headers ∧
      ∀ k, lower k ∉ grpcReserved → r'.getTrailers.getall k = r.getTrailers.getall k ++ user.getall k := by
  unfold grpcComplete
  rw [get_status sc user hu]
  dsimp only
  refine ⟨?_, ?_⟩
  · cases error with
    | none => rfl
    | some e => exact errorOfTrailers_grpcTrailers sc hsc e (herr e rfl).1 user hu (herr e rfl).2
  · intro r hr
    rw [hr]
    refine ⟨_, rfl, ?_, ?_⟩
    · exact storeTrailers_headers _ _
    · intro k hk
      rw [storeTrailers_getall r _ (hs r hr), Headers.getall_allitems (inv_grpcTrailers sc user _), trailers_user sc user hu _ k hk]

/-- **C16**: over gRPC, an RPC that ends on the server with the error `e` (whatever other trailers the handler set)
raises on the client an error with the same code, message and details, and one that succeeds raises nothing.
`h` are the trailers the server sends; the response headers `rh`, the status line and the state of the client are
arbitrary.  The reserved names may not be used by the handler where the protocol leaves them out (C21 shows why). -/
theorem C16_grpc_error (w : EnvelopeWriter M) (sc : StatusCodec) (hsc : sc.Lawful) (e : ConnectErr)
    (hfit : FitsProtobuf e) (user : Headers) (hu : Built user)
    (hres : e.details = [] → user.getall (pys! "grpc-status-details-bin") = [] ∧
      (e.message = [] → user.getall (pys! "grpc-message") = []))
    (h : Headers) (hend : w.end' .grpc sc user (some e) = .ok (.trailers h))
    (s : ClientSub) (status : Int) (rh : HTTPHeaders) :
    ∃ e', (Proto.grpc.complete sc s ⟨status, rh, h.allitems⟩ none).2 = some (.connect e') ∧ SameError e e' := by
  have hh : h = grpcTrailers sc user (some e) := by
    have : w.end' .grpc sc user (some e) = .ok (.trailers (grpcTrailers sc user (some e))) := rfl
    rw [this] at hend
    cases hend; rfl
  subst hh
  have hi := hu.inv
  show ∃ e', (grpcComplete sc s rh (grpcTrailers sc user (some e)).allitems none).2 = some (.connect e') ∧ _
  unfold grpcComplete
  rw [get_status sc user hi]
  exact errorOfTrailers_grpcTrailers sc hsc e hfit user hi hres

/-- **C16**, the trailers set by the handler: every value of every name other than the protocol's own, in order, is
added to the trailers of the active response metadata. -/
theorem C16_grpc_user_trailers (w : EnvelopeWriter M) (sc : StatusCodec) (error : Option ConnectErr)
    (user : Headers) (hu : Built user) (h : Headers) (hend : w.end' .grpc sc user error = .ok (.trailers h))
    (s : ClientSub) (r : RespMeta) (hr : s.sink = some r) (hrt : Built r.getTrailers) (status : Int) (rh : HTTPHeaders) :
    ∃ r', (Proto.grpc.complete sc s ⟨status, rh, h.allitems⟩ none).1 = some r' ∧ r'.headers = r.headers ∧
      ∀ k, lower k ∉ grpcReserved → r'.getTrailers.getall k = r.getTrailers.getall k ++ user.getall k := by
  have hh : h = grpcTrailers sc user error := by
    have : w.end' .grpc sc user error = .ok (.trailers (grpcTrailers sc user error)) := rfl
    rw [this] at hend
    cases hend; rfl
  subst hh
  have hi := hu.inv
  show ∃ r', (grpcComplete sc s rh (grpcTrailers sc user error).allitems none).1 = some r' ∧ _
  unfold grpcComplete
  rw [get_status sc user hi, hr]
  refine ⟨_, rfl, ?_, ?_⟩
  · exact storeTrailers_headers _ _
  · intro k hk
    rw [storeTrailers_getall r _ hrt.inv, Headers.getall_allitems (inv_grpcTrailers sc user _), trailers_user sc user hi _ k hk]

/-! ### C18 -/

/-- the exception a stream ended with, if any -/
def exceptionOf : Stop → Option Exc
  | .done => none
  | .raised e => some e

/-- **C18**: a Connect stream written by an agreeing writer — the messages `ms`, then the end message for the handler's
trailers and outcome — and cut into chunks in any way: the client delivers exactly `ms`; then it ends normally if the
server succeeded and otherwise raises an error with the same code, message and details; and the server's trailers are added to the
active metadata object, duplicates and order included (to one without trailers: exactly these).  The size limit, if any, must
allow the messages and the end message. -/
theorem C18_connect_stream_end (w : EnvelopeWriter M) (c : ReaderCfg M ClientSub) (ha : Agree w c)
    (hhook : c.handleEnd = connectEndHook) (sc : StatusCodec) (trailers : Headers) (ht : Built trailers)
    (error : Option ConnectErr) (hdbg : ∀ e, error = some e → DebugOk e)
    (ms : List M) (bs chunks : List Bytes) (hw : ms.map w.write = bs.map .ok) (eb : Bytes)
    (hend : w.end' .connect sc trailers error = .ok (.body eb)) (hcut : chunks.flatten = bs.flatten ++ eb)
    (hmax : ∀ n, c.readMax = some n → (∀ m ∈ ms, ∀ d, w.codec.encode m = .ok d → (d.length : Int) ≤ n) ∧
      ((utf8Encode (dumps (connectEndJson trailers error))).length : Int) ≤ n)
    (s : ClientSub) (hsink : ∀ r, s.sink = some r → Built r.getTrailers) :
    let out := feedAll c (.init s) chunks
    out.1 = ms ∧
    Seen error (exceptionOf out.2.1) ∧
    (∀ r, s.sink = some r → ∃ r', out.2.2.sub.sink = some r' ∧ r'.headers = r.headers ∧
      (∀ k, r'.getTrailers.getall k = r.getTrailers.getall k ++ trailers.getall k) ∧
      (r.getTrailers = Headers.empty → r'.getTrailers.allitems = trailers.allitems)) ∧
    (s.sink = none → out.2.2.sub.sink = none) := by
  have hpre : w.pre = 0 ∨ w.pre = 1 := by
    unfold EnvelopeWriter.pre
    cases w.compression with
    | none => exact .inl rfl
    | some k => cases k.isIdentity <;> simp
  have h2 : (w.pre ||| 2) &&& 2 ≠ 0 := by rcases hpre with h | h <;> rw [h] <;> decide
  have h0 : w.pre &&& 2 = 0 := by rcases hpre with h | h <;> rw [h] <;> decide
  have hdata : ∀ s d, c.handleEnd s w.pre d = (id s, .ok false) := by
    intro s d; rw [hhook]; unfold connectEndHook; rw [if_pos h0]; rfl
  have hid : ∀ n (s : ClientSub), passes id n s = s := by
    intro n; induction n with
    | zero => intro s; rfl
    | succ n ih => intro s; exact ih s
  obtain ⟨s', e1, e2, e3, e4⟩ := connectEndHook_json ht.inv error hdbg s (w.pre ||| 2) h2
    (fun r hr => (hsink r hr).inv)
  have hpack : packEnvelope (w.pre ||| 2) (w.compress (utf8Encode (dumps (connectEndJson trailers error)))) = .ok eb := by
    have : w.end' .connect sc trailers error =
      (packEnvelope (w.pre ||| 2) (w.compress (utf8Encode (dumps (connectEndJson trailers error))))).map .body := rfl
    rw [this] at hend
    cases hp : packEnvelope (w.pre ||| 2) (w.compress (utf8Encode (dumps (connectEndJson trailers error)))) with
    | error e => rw [hp] at hend; cases hend
    | ok b => rw [hp] at hend; cases hend; rfl
  have hne : (connectEndHook s (w.pre ||| 2) (utf8Encode (dumps (connectEndJson trailers error)))).2 ≠ .ok false := by
    cases error with
    | none => rw [show _ = _ from e4]; intro h; cases h
    | some e => obtain ⟨e', h1, _⟩ := e4; rw [h1]; intro h; cases h
  have hr := feedAll_with_end w c ha id hdata 2 (.inl rfl) s ms bs chunks hw _ eb hpack hcut
    (fun n hn => (hmax n hn).1) (fun n hn => (hmax n hn).2) (by rw [hhook, hid]; exact hne)
  rw [hhook, hid] at hr
  obtain ⟨r1, r2, r3⟩ := hr
  intro out
  refine ⟨r1, ?_, ?_, ?_⟩
  · cases error with
    | none =>
      show exceptionOf out.2.1 = none
      rw [show out.2.1 = _ from r2, show _ = _ from e4]; rfl
    | some e =>
      obtain ⟨e', h1, h2⟩ := e4
      refine ⟨e', ?_, h2⟩
      rw [show out.2.1 = _ from r2, h1]; rfl
  · intro r hrs
    rw [show out.2.2.sub = _ from r3, e1]
    exact e3 r hrs
  · intro hn
    rw [show out.2.2.sub = _ from r3, e1]
    exact e2 hn

/-! ### C19 -/

theorem legal_of_chars {v : Str} (h : ∀ c ∈ v, c ≠ '\r' ∧ c ≠ '\n' ∧ isSpace c = false) : LegalValue v :=
  ⟨fun hm => (h _ hm).1 rfl, fun hm => (h _ hm).2.1 rfl,
   fun c hc => (h c (List.mem_of_mem_head? hc)).2.2, fun c hc => (h c (List.mem_of_getLast? hc)).2.2⟩

theorem printable_legal {c : Char} (h1 : 37 ≤ c.toNat) (h2 : c.toNat < 128) :
    c ≠ '\r' ∧ c ≠ '\n' ∧ isSpace c = false := by
  refine ⟨?_, ?_, ?_⟩
  · rintro rfl; revert h1; decide
  · rintro rfl; revert h1; decide
  · unfold isSpace
    simp only [Bool.or_eq_false_iff, Bool.and_eq_false_iff, decide_eq_false_iff_not, beq_eq_false_iff_ne]
    omega

theorem quoteChar_legal {c : Char} (h : QuoteChar c) : c ≠ '\r' ∧ c ≠ '\n' ∧ isSpace c = false := by
  have hx : 37 ≤ c.toNat ∧ c.toNat < 128 := by
    rcases h with h | rfl
    · simp only [alwaysSafe, Bool.or_eq_true, Bool.and_eq_true, decide_eq_true_eq, beq_iff_eq] at h
      omega
    · decide
  exact printable_legal hx.1 hx.2

theorem b64Char_legal : ∀ n, n < 64 → 37 ≤ (b64Char n).toNat ∧ (b64Char n).toNat < 128 := by decide +kernel

theorem grpcStatus_digits (c : Code) : ∀ x ∈ c.grpcStatus, 37 ≤ x.toNat ∧ x.toNat < 128 := by
  cases c <;> decide +kernel

theorem mem_getall {h : Headers} (hi : h.Inv) {k v : Str} : v ∈ h.getall k ↔ (lower k, v) ∈ h.allitems := by
  rw [← Headers.getall_allitems hi, List.mem_map]
  constructor
  · rintro ⟨p, hp, rfl⟩
    rw [List.mem_filter, decide_eq_true_iff] at hp
    rw [← hp.2, Headers.allitems_low hi p hp.1]; exact hp.1
  · intro hm
    exact ⟨_, List.mem_filter.2 ⟨hm, by simp [Headers.lower_idem]⟩, rfl⟩

theorem grpcTrailers_legal (sc : StatusCodec) (user : Headers) (hu : user.Inv) (hl : LegalFields user.allitems)
    (error : Option ConnectErr) : LegalFields (grpcTrailers sc user error).allitems := by
  intro p hp
  have hti := inv_grpcTrailers sc user error
  have hlow := Headers.allitems_low hti p hp
  have hm : p.2 ∈ (grpcTrailers sc user error).getall p.1 := by rw [mem_getall hti, hlow]; exact hp
  have hname : ∀ k : Str, LegalName (lower k) → lower k = lower p.1 → LegalName p.1 := by
    intro k h e; rwa [e, hlow] at h
  have huser : p.2 ∈ user.getall p.1 → LegalName p.1 ∧ LegalValue p.2 := by
    intro h
    rw [mem_getall hu, hlow] at h
    exact hl p h
  have n1 : LegalName (lower (pys! "grpc-status")) := by constructor <;> decide +kernel
  have n2 : LegalName (lower (pys! "grpc-message")) := by constructor <;> decide +kernel
  have n3 : LegalName (lower (pys! "grpc-status-details-bin")) := by constructor <;> decide +kernel
  cases error with
  | none =>
    rw [grpcTrailers_ok_getall sc user hu] at hm
    by_cases h1 : lower (pys! "grpc-status") = lower p.1
    · rw [if_pos h1, List.mem_singleton] at hm
      refine ⟨hname _ n1 h1, ?_⟩
      rw [hm]; constructor <;> decide +kernel
    · rw [if_neg h1] at hm; exact huser hm
  | some e =>
    rw [grpcTrailers_getall sc user hu] at hm
    by_cases h3 : lower (pys! "grpc-status-details-bin") = lower p.1 ∧ e.details ≠ []
    · rw [if_pos h3, List.mem_singleton] at hm
      refine ⟨hname _ n3 h3.1, ?_⟩
      rw [hm, rstrip_b64encode]
      apply legal_of_chars
      intro c hc
      obtain ⟨n, hn, rfl⟩ := b64unpadded_no_pad _ c hc
      exact printable_legal (b64Char_legal n hn).1 (b64Char_legal n hn).2
    · rw [if_neg h3] at hm
      by_cases h2 : lower (pys! "grpc-message") = lower p.1 ∧ e.message ≠ []
      · rw [if_pos h2, List.mem_singleton] at hm
        refine ⟨hname _ n2 h2.1, ?_⟩
        rw [hm]
        exact legal_of_chars fun c hc => quoteChar_legal (quote_chars _ c hc)
      · rw [if_neg h2] at hm
        by_cases h1 : lower (pys! "grpc-status") = lower p.1
        · rw [if_pos h1, List.mem_singleton] at hm
          refine ⟨hname _ n1 h1, ?_⟩
          rw [hm]
          exact legal_of_chars fun c hc => printable_legal (grpcStatus_digits _ c hc).1 (grpcStatus_digits _ c hc).2
        · rw [if_neg h1] at hm; exact huser hm

/-- **C19**: a gRPC-Web response body written by an agreeing writer — the messages, then the trailer block for the
handler's trailers and outcome — cut into chunks in any way: the client delivers exactly the messages; completing the
response raises nothing if the server succeeded, and otherwise an error with the same code, message and details; and
every trailer value the handler set (names other than the protocol's own) is added to the active metadata object, in
order.  The trailers the handler set must be legal HTTP fields. -/
theorem C19_grpc_web_trailers (w : EnvelopeWriter M) (c : ReaderCfg M ClientSub) (ha : Agree w c)
    (hhook : c.handleEnd = grpcWebEndHook) (sc : StatusCodec) (hsc : sc.Lawful) (user : Headers) (hu : Built user)
    (hlegal : LegalFields user.allitems) (error : Option ConnectErr)
    (herr : ∀ e, error = some e → FitsProtobuf e ∧
      (e.details = [] → user.getall (pys! "grpc-status-details-bin") = [] ∧
      (e.message = [] → user.getall (pys! "grpc-message") = [])))
    (ms : List M) (bs chunks : List Bytes) (hw : ms.map w.write = bs.map .ok) (eb : Bytes)
    (hend : w.end' .grpcWeb sc user error = .ok (.body eb)) (hcut : chunks.flatten = bs.flatten ++ eb)
    (hmax : ∀ n, c.readMax = some n → (∀ m ∈ ms, ∀ d, w.codec.encode m = .ok d → (d.length : Int) ≤ n) ∧
      ((utf8Encode (trailerBlock (grpcTrailers sc user error).allitems)).length : Int) ≤ n)
    (sink : Sink) (hs : ∀ r, sink = some r → Built r.getTrailers) (resp : HTTPResponse) :
    let out := feedAll c (.init (ClientSub.init sink)) chunks
    let fin := Proto.grpcWeb.complete sc out.2.2.sub resp none
    out.1 = ms ∧ out.2.1 = .done ∧
    SeenExactly error fin.2 ∧
    ∀ r, sink = some r → ∃ r', fin.1 = some r' ∧ r'.headers = r.headers ∧
      ∀ k, lower k ∉ grpcReserved → r'.getTrailers.getall k = r.getTrailers.getall k ++ user.getall k := by
  have hpre : w.pre = 0 ∨ w.pre = 1 := by
    unfold EnvelopeWriter.pre
    cases w.compression with
    | none => exact .inl rfl
    | some k => cases k.isIdentity <;> simp
  have h2 : (w.pre ||| 128) &&& 128 ≠ 0 := by rcases hpre with h | h <;> rw [h] <;> decide
  have h0 : w.pre &&& 128 = 0 := by rcases hpre with h | h <;> rw [h] <;> decide
  let pass : ClientSub → ClientSub := fun s => { s with readMessage := true }
  have hdata : ∀ s d, c.handleEnd s w.pre d = (pass s, .ok false) := by
    intro s d; rw [hhook]; unfold grpcWebEndHook; dsimp only; rw [if_pos h0]
  have hid : ∀ n (s : ClientSub), (passes pass n s).sink = s.sink ∧ (passes pass n s).trailers = s.trailers := by
    intro n; induction n with
    | zero => intro s; exact ⟨rfl, rfl⟩
    | succ n ih => intro s; exact ih (pass s)
  let t := (grpcTrailers sc user error).allitems
  let s1 := passes pass ms.length (ClientSub.init sink)
  have hblock := trailerBlock_roundtrip t (grpcTrailers_legal sc user hu.inv hlegal error)
    (Headers.allitems_low (inv_grpcTrailers sc user error))
  have hhk : grpcWebEndHook s1 (w.pre ||| 128) (utf8Encode (trailerBlock t)) =
      (⟨sink, true, t⟩, .ok true) := by
    unfold grpcWebEndHook
    dsimp only
    have ht0 : s1.trailers = [] := (hid _ _).2
    have hs0 : s1.sink = sink := (hid _ _).1
    rw [if_neg h2, ht0, hblock]
    dsimp only
    rw [hs0]
  have hpack : packEnvelope (w.pre ||| 128) (w.compress (utf8Encode (trailerBlock t))) = .ok eb := by
    have : w.end' .grpcWeb sc user error =
      (packEnvelope (w.pre ||| 128) (w.compress (utf8Encode (trailerBlock t)))).map .body := rfl
    rw [this] at hend
    cases hp : packEnvelope (w.pre ||| 128) (w.compress (utf8Encode (trailerBlock t))) with
    | error e => rw [hp] at hend; cases hend
    | ok b => rw [hp] at hend; cases hend; rfl
  have hr := feedAll_with_end w c ha pass hdata 128 (.inr rfl) (ClientSub.init sink) ms bs chunks hw _ eb hpack hcut
    (fun n hn => (hmax n hn).1) (fun n hn => (hmax n hn).2) (by
      rw [hhook]
      show (grpcWebEndHook s1 _ _).2 ≠ _
      rw [hhk]; intro h; cases h)
  rw [hhook] at hr
  rw [show grpcWebEndHook (passes pass ms.length (ClientSub.init sink)) (w.pre ||| 128) (utf8Encode (trailerBlock t)) = _
    from hhk] at hr
  obtain ⟨r1, r2, r3⟩ := hr
  intro out fin
  have hsub : out.2.2.sub = ⟨sink, true, t⟩ := r3
  have hfin : fin = grpcComplete sc ⟨sink, true, t⟩ resp.headers t none := by
    show Proto.grpcWeb.complete sc out.2.2.sub resp none = _
    rw [hsub]; rfl
  obtain ⟨g1, g2⟩ := grpcComplete_outcome sc hsc error user hu.inv herr ⟨sink, true, t⟩
    (fun r hr => (hs r hr).inv) resp.headers
  refine ⟨r1, r2, ?_, ?_⟩
  · rw [hfin]; exact g1
  · rw [hfin]; exact g2

/-! ### C21 -/

/-- **C21, success** (gRPC): whatever trailers the handler sets, an RPC that succeeded raises nothing on the client. -/
theorem C21_grpc_success_not_forgeable (w : EnvelopeWriter M) (sc : StatusCodec) (user : Headers) (hu : Built user)
    (h : Headers) (hend : w.end' .grpc sc user none = .ok (.trailers h)) (s : ClientSub) (status : Int)
    (rh : HTTPHeaders) :
    (Proto.grpc.complete sc s ⟨status, rh, h.allitems⟩ none).2 = none := by
  have hh : h = grpcTrailers sc user none := by
    have : w.end' .grpc sc user none = .ok (.trailers (grpcTrailers sc user none)) := rfl
    rw [this] at hend
    cases hend; rfl
  subst hh
  show (grpcComplete sc s rh (grpcTrailers sc user none).allitems none).2 = none
  unfold grpcComplete
  rw [get_status sc user hu.inv]
  rfl

/-- **C21, failure, partial** (gRPC): whatever trailers the handler sets, an RPC that failed never looks successful; and
if it failed with details, or with a message and no user-set `grpc-status-details-bin`, the client sees the real code,
message and details.  Missing: handlers that set reserved names which the protocol leaves out for this error, for which
the claim is false (`C21_violation_message`, `C21_violation_code`). -/
theorem C21_grpc_failure_partial (w : EnvelopeWriter M) (sc : StatusCodec) (e : ConnectErr)
    (user : Headers) (hu : Built user)
    (h : Headers) (hend : w.end' .grpc sc user (some e) = .ok (.trailers h)) (s : ClientSub) (status : Int)
    (rh : HTTPHeaders) :
    (Proto.grpc.complete sc s ⟨status, rh, h.allitems⟩ none).2 ≠ none ∧
    (sc.Lawful → FitsProtobuf e →
      (e.details ≠ [] ∨ (e.message ≠ [] ∧ user.getall (pys! "grpc-status-details-bin") = [])) →
      ∃ e', (Proto.grpc.complete sc s ⟨status, rh, h.allitems⟩ none).2 = some (.connect e') ∧ SameError e e') := by
  have hh : h = grpcTrailers sc user (some e) := by
    have : w.end' .grpc sc user (some e) = .ok (.trailers (grpcTrailers sc user (some e))) := rfl
    rw [this] at hend
    cases hend; rfl
  refine ⟨?_, ?_⟩
  · subst hh
    show (grpcComplete sc s rh (grpcTrailers sc user (some e)).allitems none).2 ≠ none
    unfold grpcComplete
    rw [get_status sc user hu.inv]
    dsimp only
    unfold errorOfTrailers
    rw [if_neg (grpcStatus_ne_zero _)]
    split
    · split
      · intro h; cases h
      · split
        · intro h; cases h
        · split <;> (intro h; cases h)
    · intro h; cases h
  · intro hsc hfit hc
    refine C16_grpc_error w sc hsc e hfit user hu ?_ h hend s status rh
    intro hd
    rcases hc with hc | hc
    · exact absurd hd hc
    · exact ⟨hc.2, fun hm => absurd hm hc.1⟩

/-- trailers a handler may build -/
def demoTrailers (l : List (Str × Str)) : Headers := headersAfter Headers.empty (l.map fun p => .add p.1 p.2)

/-- **C21 violated, message**: an error without message; the handler sets `grpc-message`: the client sees that text. -/
theorem C21_violation_message :
    ∃ (user : Headers) (e e' : ConnectErr), Built user ∧ FitsProtobuf e ∧
      (Proto.grpc.complete protobufStatus (.init none) ⟨200, [], (grpcTrailers protobufStatus user (some e)).allitems⟩ none).2
        = some (.connect e') ∧ e'.message ≠ e.message := by
  refine ⟨demoTrailers [(pys! "grpc-message", pys! "forged")], ⟨.internal, [], []⟩, ⟨.internal, pys! "forged", []⟩,
    ⟨_, rfl⟩, ⟨by decide, by simp⟩, by decide +kernel, by decide⟩

/-- **C21 violated, code**: an INTERNAL error without details; the handler sets `grpc-status-details-bin` to a status
with code 5: the client sees NOT_FOUND. -/
theorem C21_violation_code :
    ∃ (user : Headers) (e e' : ConnectErr), Built user ∧ FitsProtobuf e ∧
      (Proto.grpc.complete protobufStatus (.init none) ⟨200, [], (grpcTrailers protobufStatus user (some e)).allitems⟩ none).2
        = some (.connect e') ∧ e'.code ≠ e.code := by
  refine ⟨demoTrailers [(pys! "grpc-status-details-bin", pys! "CAU")], ⟨.internal, pys! "boom", []⟩, ⟨.notFound, [], []⟩,
    ⟨_, rfl⟩, ⟨by decide, by simp⟩, by decide +kernel, by decide⟩

/-- **C21 violated, gRPC-Web**: the handler sets a trailer whose value contains a line break; the failed RPC looks
successful to the client. -/
theorem C21_violation_grpc_web_line_break :
    ∃ (user : Headers) (e : ConnectErr) (body : Bytes), Built user ∧ FitsProtobuf e ∧
      (⟨rawCodec, none⟩ : EnvelopeWriter Bytes).end' .grpcWeb protobufStatus user (some e) = .ok (.body body) ∧
      (let out := feedAll (⟨rawCodec, .identity, none, grpcWebEndHook⟩ : ReaderCfg Bytes ClientSub)
          (.init (.init none)) [body]
       out.2.1 = .done ∧ (Proto.grpcWeb.complete protobufStatus out.2.2.sub ⟨200, [], []⟩ none).2 = none) := by
  refine ⟨demoTrailers [(pys! "x", pys! "y\r\ngrpc-status: 0")], ⟨.internal, pys! "boom", []⟩, ?_, ⟨_, rfl⟩,
    ⟨by decide, by simp⟩, ?_, ?_⟩
  rotate_left
  · rfl
  · decide +kernel

/-! ### non-vacuity -/

/-- an error with a message outside ASCII and two details -/
def demoError : ConnectErr :=
  ⟨.failedPrecondition, pys! "ça\n: échoué %", [⟨pys! "type.googleapis.com/a.B", [1, 2, 255], none⟩, ⟨pys! "c.D", [], some (.obj [])⟩]⟩

theorem demoError_fits : FitsProtobuf demoError :=
  ⟨by decide +kernel, by intro d hd; simp only [demoError, List.mem_cons, List.not_mem_nil, or_false] at hd
                         rcases hd with rfl | rfl <;> decide +kernel⟩

theorem demoError_debug : DebugOk demoError := by
  intro d hd j hj
  simp only [demoError, List.mem_cons, List.not_mem_nil, or_false] at hd
  rcases hd with rfl | rfl
  · cases hj
  · cases hj; simp [Json.WF, Json.WFMembers]

def demoUser : Headers := demoTrailers [(pys! "X-Trace", pys! "1"), (pys! "other", pys! "2"), (pys! "x-trace", pys! "3")]

/-- C16: hypotheses met by a real error with details and by trailers with a repeated name. -/
example : ∃ e', (Proto.grpc.complete protobufStatus (.init none)
    ⟨200, [], (grpcTrailers protobufStatus demoUser (some demoError)).allitems⟩ none).2 = some (.connect e') ∧
    SameError demoError e' :=
  C16_grpc_error (⟨rawCodec, none⟩ : EnvelopeWriter Bytes) protobufStatus protobufStatus_lawful demoError demoError_fits
    demoUser ⟨_, rfl⟩ (by intro h; cases h) _ rfl _ _ _

/-- C17: hypotheses met. -/
example := C17_connect_unary_error demoError demoError_debug (pys! "json")

/-- the end messages of the demo stream exist, and the demo trailers are legal -/
example : (∃ eb, demoWriter.end' .connect protobufStatus demoUser (some demoError) = .ok (.body eb)) ∧
    (∃ eb, demoWriter.end' .grpcWeb protobufStatus demoUser (some demoError) = .ok (.body eb)) ∧
    demoUser.allitems = [(pys! "x-trace", pys! "1"), (pys! "x-trace", pys! "3"), (pys! "other", pys! "2")] := by
  have h : ∀ (p : UInt8) (d : Bytes), d.length < 4294967296 → ∃ eb, packEnvelope p d = .ok eb := by
    intro p d h; unfold packEnvelope; rw [if_pos h]; exact ⟨_, rfl⟩
  refine ⟨?_, ?_, by decide +kernel⟩
  · obtain ⟨eb, he⟩ := h (demoWriter.pre ||| 2) (demoWriter.compress (utf8Encode (dumps (connectEndJson demoUser (some demoError)))))
      (by decide +kernel)
    refine ⟨eb, ?_⟩
    unfold EnvelopeWriter.end' EnvelopeWriter.connectEnd
    dsimp only
    rw [he]; rfl
  · obtain ⟨eb, he⟩ := h (demoWriter.pre ||| 128) (demoWriter.compress (utf8Encode (trailerBlock
      (grpcTrailers protobufStatus demoUser (some demoError)).allitems))) (by decide +kernel)
    refine ⟨eb, ?_⟩
    unfold EnvelopeWriter.end' EnvelopeWriter.grpcWebEnd
    dsimp only
    rw [he]; rfl

theorem demoUser_legal : LegalFields demoUser.allitems := by
  have : demoUser.allitems = [(pys! "x-trace", pys! "1"), (pys! "x-trace", pys! "3"), (pys! "other", pys! "2")] := by
    decide +kernel
  rw [this]
  intro p hp
  simp only [List.mem_cons, List.not_mem_nil, or_false] at hp
  rcases hp with rfl | rfl | rfl <;> constructor <;> constructor <;> decide +kernel

end Props
