import Verif.Spec.Client
import Verif.Props.Protocol
import Verif.Props.EndStream
import Verif.Proofs.MediaType
import Verif.Proofs.Reader
/-
Properties of the clients: C13, C14 (deadlines), C44 (unary calls), C45 (streams raise only ConnectError), C50 (close), C51 (resets).
-/
namespace Props
open Conn Py Spec

variable {Req Res : Type}

/-! ### C14 -/

/-- C14.  In exact arithmetic the remaining time is the configured timeout minus the elapsed time, in milliseconds, at
every moment; without a timeout it is absent at every moment. -/
theorem C14_remaining_time (timeoutMs : Option Int) (start now : Rat) :
    remainingMs id (endTime id timeoutMs start) now =
      timeoutMs.map fun (t : Int) => (t : Rat) - (now - start) * 1000 := by
  cases timeoutMs with
  | none => rfl
  | some t =>
    show some _ = some _
    congr 1
    show (start + (t : Rat) / 1000 - now) * 1000 = _
    grind

/-- C14: with any monotone rounding (as of double arithmetic) the reported time never increases. -/
theorem C14_never_increases (rd : Rat → Rat) (hrd : ∀ x y, x ≤ y → rd x ≤ rd y) (timeoutMs : Option Int)
    (start now later : Rat) (h : now ≤ later) (a b : Rat)
    (ha : remainingMs rd (endTime rd timeoutMs start) now = some a)
    (hb : remainingMs rd (endTime rd timeoutMs start) later = some b) : b ≤ a := by
  cases timeoutMs with
  | none => cases ha
  | some t =>
    simp only [remainingMs, endTime, Option.map_some, Option.some.injEq] at ha hb
    subst ha hb
    apply hrd
    have : rd (rd (start + rd ((t : Rat) / 1000)) - later) ≤ rd (rd (start + rd ((t : Rat) / 1000)) - now) := by
      apply hrd; grind
    grind

/-- C14: with any rounding that keeps signs, the call counts as expired from the end time on and not before. -/
theorem C14_expiry (rd : Rat → Rat) (hpos : ∀ x, 0 < rd x ↔ 0 < x) (timeoutMs : Option Int) (start now : Rat) :
    expired rd (endTime rd timeoutMs start) now = true ↔
      ∃ t, timeoutMs = some t ∧ rd (start + rd ((t : Rat) / 1000)) ≤ now := by
  cases timeoutMs with
  | none => simp [expired, remainingMs, endTime]
  | some t =>
    simp only [expired, remainingMs, endTime, Option.map_some, decide_eq_true_eq, Option.some.injEq, exists_eq_left']
    generalize rd (start + rd ((t : Rat) / 1000)) = e
    have h1 := hpos (rd (e - now) * 1000)
    have h2 := hpos (e - now)
    constructor
    · intro h
      have : ¬ 0 < rd (rd (e - now) * 1000) := by grind
      have : ¬ 0 < rd (e - now) * 1000 := fun h' => this (h1.2 h')
      have : ¬ 0 < rd (e - now) := by grind
      have : ¬ 0 < e - now := fun h' => this (h2.2 h')
      grind
    · intro h
      have : ¬ 0 < e - now := by grind
      have : ¬ 0 < rd (e - now) := fun h' => this (h2.1 h')
      have : ¬ 0 < rd (e - now) * 1000 := by grind
      have : ¬ 0 < rd (rd (e - now) * 1000) := fun h' => this (h1.1 h')
      grind

example : remainingMs id (endTime id (some 1500) 100) 101 = some 500 := by
  rw [C14_remaining_time]; show some _ = some _; congr 1; show ((1500 : Int) : Rat) - _ = _; grind
example : ∀ x : Rat, 0 < id x ↔ 0 < x := fun _ => Iff.rfl

/-! ### C13 -/

theorem pickTimeout_some (t : Int) (h : t ≠ 0) (d : Option Int) : pickTimeout (some t) d = some t := by
  show (if t = 0 then d else some t) = some t
  rw [if_neg h]

theorem fieldValues_allitems {h : Headers} (hi : Headers.Inv h) (k : Str) : fieldValues h.allitems k = h.getall k := by
  rw [← Headers.getall_allitems hi]; rfl

theorem fieldValues_drop (h : HTTPHeaders) (k n : Str) (hlow : ∀ p ∈ h, lower p.1 = p.1) (hne : lower n ≠ lower k) :
    fieldValues (h.drop' k) n = fieldValues h n := by
  unfold fieldValues HTTPHeaders.drop'
  rw [List.filter_filter]
  congr 1
  apply List.filter_congr
  intro p hp
  by_cases e : lower p.1 = lower n
  · have : p.1 ≠ lower k := by rw [← hlow p hp, e]; exact hne
    simp [e, this]
  · simp [e]

theorem mem_drop {h : HTTPHeaders} {k : Str} {p : Str × Str} (hp : p ∈ h.drop' k) : p ∈ h :=
  (List.mem_filter.1 hp).1

/-- the fields of a unary request, other than the two that a GET request does not carry -/
theorem unaryRequest_fields (c : Client Req Res) (ctx : RequestContext) (hi : Headers.Inv ctx.requestHeaders) (data : Bytes)
    (n : Str) (h1 : lower n ≠ pys! "content-type") (h2 : lower n ≠ pys! "content-encoding") :
    fieldValues (c.unaryRequest ctx data).headers n = ctx.requestHeaders.getall n := by
  have hlow := Headers.allitems_low hi
  unfold Client.unaryRequest
  by_cases hg : ctx.httpMethod = pys! "GET"
  · dsimp only
    rw [if_pos hg]
    unfold prepareGetParams
    dsimp only
    cases hc : HTTPHeaders.get ctx.requestHeaders.allitems (pys! "content-encoding") with
    | none =>
      dsimp only
      rw [fieldValues_drop _ _ _ hlow h1, fieldValues_allitems hi]
    | some e =>
      dsimp only
      rw [fieldValues_drop _ _ _ (fun p hp => hlow p (mem_drop hp)) h1, fieldValues_drop _ _ _ hlow h2,
        fieldValues_allitems hi]
  · dsimp only
    rw [if_neg hg]
    exact fieldValues_allitems hi n

theorem unaryRequest_timeout (c : Client Req Res) (ctx : RequestContext) (data : Bytes) :
    (c.unaryRequest ctx data).timeoutMs = ctx.timeoutMs := by
  unfold Client.unaryRequest
  dsimp only
  split <;> rfl

theorem context_inv (c : Client Req Res) (m : MethodInfo) (hm : Str) (user : UserHeaders) (t : Option Int) (stream : Bool) :
    Headers.Inv (c.context m hm user t stream).requestHeaders :=
  Proto.inv_clientHeaders _ _ _ _ _ _ _ _

theorem context_timeout (c : Client Req Res) (m : MethodInfo) (hm : Str) (user : UserHeaders) (t : Int) (ht : t ≠ 0)
    (stream : Bool) :
    (c.context m hm user (some t) stream).timeoutMs = some t ∧
    match c.proto with
    | .connect => (c.context m hm user (some t) stream).requestHeaders.getall (pys! "Connect-Timeout-Ms") = [intStr t]
    | _ => (c.context m hm user (some t) stream).requestHeaders.getall (pys! "Grpc-Timeout") = [serializeTimeout t] := by
  refine ⟨pickTimeout_some t ht _, ?_⟩
  have key : ∀ p : Proto, ∀ n v, (n, v) ∈ fixedHeaders p stream c.codec.name c.acceptHeader (some c.send.name) (some t) →
      ∀ k, lower k = n → c.proto = p → (c.context m hm user (some t) stream).requestHeaders.getall k = v.toList := by
    intro p n v h k hk hp
    have := C52_fixed_headers p c.userAgent user (some t) c.codec.name stream c.acceptHeader (some c.send) n k v h hk
    rw [← this, ← hp]
    unfold Client.context Proto.clientContext
    rw [pickTimeout_some t ht]
  cases hp : c.proto with
  | connect =>
    exact key .connect (pys! "connect-timeout-ms") (some (intStr t)) (by simp [fixedHeaders]) _ (by decide) hp
  | grpc =>
    exact key .grpc (pys! "grpc-timeout") (some (serializeTimeout t)) (by simp [fixedHeaders]) _ (by decide) hp
  | grpcWeb =>
    exact key .grpcWeb (pys! "grpc-timeout") (some (serializeTimeout t)) (by simp [fixedHeaders]) _ (by decide) hp

theorem serializeTimeout_ms (t : Int) (h0 : 0 < t) (h1 : t < 10 ^ 8) : serializeTimeout t = intStr t ++ pys! "m" := by
  unfold serializeTimeout
  rw [if_neg (by omega), if_pos (by omega)]
  simp

theorem bidi_sends (c : Client Req Res) (sc : StatusCodec) (sink : Sink) (cs : Circumstances) (ctx : RequestContext)
    (reqs : List Req) (srcErr : Option Exc) (P : HttpRequest → Prop)
    (hP : ∀ r : HttpRequest, r.headers = ctx.requestHeaders.allitems → r.timeoutMs = ctx.timeoutMs → P r) :
    SendsOnly P fun h => c.bidi sc h.stream sink cs ctx reqs srcErr := by
  intro h h' hh
  dsimp only
  unfold Client.bidi
  dsimp only
  rw [(hh _ (hP _ rfl rfl)).2]

theorem unary_sends (c : Client Req Res) (sink : Sink) (ctx : RequestContext) (req : Req) (P : HttpRequest → Prop)
    (hP : ∀ data, P (c.unaryRequest ctx data)) :
    SendsOnly P fun h => c.connectUnary h.full sink ctx req := by
  intro h h' hh
  dsimp only
  unfold Client.connectUnary
  cases c.codec.encode req with
  | error e => rfl
  | ok d =>
    dsimp only
    rw [(hh _ (hP _)).1]

theorem announces_unary (c : Client Req Res) (m : MethodInfo) (hm : Str) (user : UserHeaders) (t : Int) (h0 : 0 < t)
    (hc : c.proto = .connect) (stream : Bool) (data : Bytes) :
    Announces c.proto t (c.unaryRequest (c.context m hm user (some t) stream) data) := by
  obtain ⟨h1, h2⟩ := context_timeout c m hm user t (by omega) stream
  refine ⟨by rw [unaryRequest_timeout, h1], ?_⟩
  rw [hc] at h2 ⊢
  dsimp only at h2 ⊢
  rw [unaryRequest_fields c _ (context_inv ..) data _ (by decide) (by decide)]
  exact h2

theorem announces_stream (c : Client Req Res) (m : MethodInfo) (hm : Str) (user : UserHeaders) (t : Int) (h0 : 0 < t)
    (h1 : c.proto = .connect ∨ t < 10 ^ 8) (stream : Bool) (r : HttpRequest)
    (hr : r.headers = (c.context m hm user (some t) stream).requestHeaders.allitems)
    (ht : r.timeoutMs = (c.context m hm user (some t) stream).timeoutMs) : Announces c.proto t r := by
  obtain ⟨h2, h3⟩ := context_timeout c m hm user t (by omega) stream
  refine ⟨by rw [ht, h2], ?_⟩
  have hi := context_inv c m hm user (some t) stream
  rw [hr]
  cases hp : c.proto <;> rw [hp] at h3 h1 <;> dsimp only at h3 ⊢ <;> rw [fieldValues_allitems hi, h3]
  all_goals rw [serializeTimeout_ms t h0 (by simpa using h1)]

/-- C13.  Every request of a call with `timeout_ms = t`, `t > 0`, announces `t` and runs under it, whatever the client's
default, the headers the caller passes and the HTTP client's answers.
Partial: for `timeout_ms = 0` the client's default is used instead (`C13_violation_zero`). -/
theorem C13_call_timeout_partial (c : Client Req Res) (sc : StatusCodec) (sink : Sink) (cs : Circumstances)
    (m : MethodInfo) (user : UserHeaders) (t : Int) (h0 : 0 < t) (h1 : c.proto = .connect ∨ t < 10 ^ 8) :
    (∀ req useGet, SendsOnly (Announces c.proto t) fun h => c.executeUnary sc h sink cs req m user (some t) useGet) ∧
    (∀ reqs err, SendsOnly (Announces c.proto t) fun h => c.executeClientStream sc h sink cs reqs err m user (some t)) ∧
    (∀ req, SendsOnly (Announces c.proto t) fun h => c.executeServerStream sc h sink cs req m user (some t)) ∧
    (∀ reqs err, SendsOnly (Announces c.proto t) fun h => c.executeBidiStream sc h sink cs reqs err m user (some t)) := by
  have hs := fun hm stream => announces_stream c m hm user t h0 h1 stream
  refine ⟨?_, ?_, ?_, ?_⟩
  · intro req useGet
    unfold Client.executeUnary
    dsimp only
    cases hp : c.proto with
    | connect =>
      dsimp only
      rw [← hp]
      exact unary_sends c sink _ req _ fun data => announces_unary c m _ user t h0 hp false data
    | _ =>
      dsimp only
      intro h h' hh
      rw [← hp] at hh
      exact congrArg Client.single (bidi_sends c sc sink cs _ [req] none _ (hs _ _) h h' hh)
  · intro reqs err h h' hh
    exact congrArg Client.single (bidi_sends c sc sink cs _ reqs err _ (hs _ _) h h' hh)
  · intro req h h' hh
    exact bidi_sends c sc sink cs _ [req] none _ (hs _ _) h h' hh
  · intro reqs err h h' hh
    exact bidi_sends c sc sink cs _ reqs err _ (hs _ _) h h' hh

/-- A client with a default timeout of five seconds, and a method, for the examples. -/
def demoClient (f : Flavor) (p : Proto) : Client Bytes Bytes :=
  Client.new f (pys! "http://h") rawCodec rawCodec p flipComp none none (some 5000) none (pys! "ua")
def demoMethod : MethodInfo := ⟨pys! "M", pys! "S", .noSideEffects⟩
def calm : Circumstances := ⟨false, false, none, false⟩

/-- C13, the other half: a call without `timeout_ms` announces the client's default and runs under it (the constructor
keeps the default it is given). -/
theorem C13_default_timeout (f : Flavor) (address : Str) (codec : Codec Req) (resCodec : Codec Res) (p : Proto)
    (gzip : Compression) (accept : Option (List Compression)) (send : Option Compression) (readMax : Option Int) (ua : Str)
    (sc : StatusCodec) (sink : Sink) (cs : Circumstances)
    (m : MethodInfo) (user : UserHeaders) (t : Int) (h0 : 0 < t) (h1 : p = .connect ∨ t < 10 ^ 8) :
    let c := Client.new f address codec resCodec p gzip accept send (some t) readMax ua
    (∀ req useGet, SendsOnly (Announces p t) fun h => c.executeUnary sc h sink cs req m user none useGet) ∧
    (∀ reqs err, SendsOnly (Announces p t) fun h => c.executeClientStream sc h sink cs reqs err m user none) ∧
    (∀ req, SendsOnly (Announces p t) fun h => c.executeServerStream sc h sink cs req m user none) ∧
    (∀ reqs err, SendsOnly (Announces p t) fun h => c.executeBidiStream sc h sink cs reqs err m user none) := by
  intro c
  have hc : ∀ hm stream, c.context m hm user none stream = c.context m hm user (some t) stream := by
    intro hm stream
    unfold Client.context
    have : pickTimeout none c.timeoutMs = pickTimeout (some t) c.timeoutMs := by
      show pickTimeout none (some t) = pickTimeout (some t) (some t)
      unfold pickTimeout
      dsimp only
      rw [if_neg (by omega)]
    rw [this]
  have h := C13_call_timeout_partial c sc sink cs m user t h0 h1
  unfold Client.executeUnary Client.executeClientStream Client.executeServerStream Client.executeBidiStream at h ⊢
  simp only [hc]
  exact h

/-- C13 fails at zero: a call with `timeout_ms = 0` on a client with default 5000 announces 5000. -/
theorem C13_violation_zero :
    ((demoClient .sync .connect).unaryRequest
      ((demoClient .sync .connect).context demoMethod (pys! "POST") .none (some 0) false) []).timeoutMs = some 5000 ∧
    fieldValues ((demoClient .sync .connect).unaryRequest
      ((demoClient .sync .connect).context demoMethod (pys! "POST") .none (some 0) false) []).headers
      (pys! "connect-timeout-ms") = [pys! "5000"] := by
  decide +kernel

/-- the hypotheses of `C13_call_timeout_partial` are met by a call with 250 ms, and the request it sends is not trivial -/
example : fieldValues ((demoClient .async .connect).unaryRequest
      ((demoClient .async .connect).context demoMethod (pys! "GET") (.mapping [(pys! "Connect-Timeout-Ms", pys! "7")])
        (some 250) false) []).headers (pys! "connect-timeout-ms") = [pys! "250"] := by
  decide +kernel

/-! ### C50 -/

/-- C50 is false of the code: `close()` changes no call whatsoever (it only sets a flag that nothing reads). -/
theorem C50_violation_close_has_no_effect (c : Client Req Res) (sc : StatusCodec) (http : HttpClient) (sink : Sink)
    (cs : Circumstances) (m : MethodInfo) (user : UserHeaders) (t : Option Int) :
    (∀ req g, c.close.executeUnary sc http sink cs req m user t g = c.executeUnary sc http sink cs req m user t g) ∧
    (∀ reqs err, c.close.executeClientStream sc http sink cs reqs err m user t =
      c.executeClientStream sc http sink cs reqs err m user t) ∧
    (∀ req, c.close.executeServerStream sc http sink cs req m user t = c.executeServerStream sc http sink cs req m user t) ∧
    (∀ reqs err, c.close.executeBidiStream sc http sink cs reqs err m user t =
      c.executeBidiStream sc http sink cs reqs err m user t) :=
  ⟨fun _ _ => rfl, fun _ _ => rfl, fun _ => rfl, fun _ _ => rfl⟩

/-- An HTTP client that answers everything with the same response. -/
def always (full : FullResponse) (stream : StreamResponse) : HttpClient := ⟨fun _ => .ok full, fun _ => .ok stream⟩
def okFull (body : Bytes) : FullResponse := ⟨200, [(pys! "content-type", pys! "application/raw")], body⟩
def okStream (ct : Str) (chunks : List Bytes) (trailers : HTTPHeaders) : StreamResponse :=
  ⟨200, [(pys! "content-type", ct)], chunks, none, trailers, none⟩

/-- The constructor keeps the limit and the compressions it is given. -/
theorem client_limit_kept (f : Flavor) (address : Str) (codec : Codec Req) (resCodec : Codec Res) (p : Proto)
    (gzip : Compression) (accept : Option (List Compression)) (send : Option Compression) (t readMax : Option Int) (ua : Str) :
    (Client.new f address codec resCodec p gzip accept send t readMax ua).readMax = readMax := rfl

/-- … in particular a closed client still makes a successful call. -/
example : ((demoClient .sync .connect).close.executeUnary protobufStatus (always (okFull [1, 2]) default) none calm [7]
    demoMethod .none none false).2 = .ok [1, 2] := by
  decide +kernel

/-! ### C44 -/

/-- What makes a response to a Connect unary call acceptable. -/
structure Acceptable (c : Client Req Res) (resp : FullResponse) : Prop where
  status : resp.status = 200
  type : mediaType (resp.headers.getD (pys! "content-type") []) = pys! "application/" ++ c.codec.name
  encoding : ∀ enc, resp.headers.get (pys! "content-encoding") = some enc → enc = [] ∨ enc ∈ c.comps.keys
  size : ∀ n, c.readMax = some n → (resp.content.length : Int) ≤ n

/-- The exceptions that ordinary code raises (`Exception`, as opposed to task cancellation). -/
structure Ordinary (c : Client Req Res) (http : HttpClient) : Prop where
  encode : ∀ m e, c.codec.encode m = .error e → e.isException
  decode : ∀ b e, c.resCodec.decode b = .error e → e.isException
  full : ∀ r e, http.full r = .error e → e.isException
  open_ : ∀ r e, http.stream r = .error e → e.isException
  body : ∀ r resp e, http.stream r = .ok resp → resp.bodyErr = some e → e.isException
  exit : ∀ r resp e, http.stream r = .ok resp → resp.exitErr = some e → e.isException

theorem dict_get?_none {α : Type} (d : List (Str × α)) (k : Str) : Dict.get? d k = none ↔ k ∉ Dict.keys d := by
  induction d with
  | nil => simp [Dict.get?, Dict.keys]
  | cons p d ih =>
    obtain ⟨n, v⟩ := p
    rw [Dict.get?]
    by_cases e : n = k
    · subst e; simp [Dict.keys]
    · rw [if_neg e, ih]
      simp [Dict.keys, Ne.symm e]

theorem responseCompression_ok (p : Proto) (h : HTTPHeaders) (comps : Dict Str Compression) (stream : Bool) :
    (∃ x, p.responseCompression h comps stream = .ok x) ↔
      ∀ enc, h.get (p.requestEncodingHeader stream) = some enc → enc = [] ∨ enc ∈ comps.keys := by
  unfold Proto.responseCompression
  cases hg : h.get (p.requestEncodingHeader stream) with
  | none => simp
  | some enc =>
    dsimp only
    by_cases he : enc.isEmpty = true
    · rw [if_pos he]
      have : enc = [] := by simpa using he
      simp [this]
    · rw [if_neg he]
      have : enc ≠ [] := by simpa using he
      cases hc : Dict.get? comps enc with
      | none =>
        have := (dict_get?_none comps enc).1 hc
        constructor
        · rintro ⟨x, hx⟩; cases hx
        · intro h'; rcases h' enc rfl with h' | h' <;> contradiction
      | some x =>
        have : enc ∈ comps.keys := by
          by_cases hm : enc ∈ Dict.keys comps
          · exact hm
          · rw [(dict_get?_none comps enc).2 hm] at hc; cases hc
        simp [this]

theorem responseCompression_error {p : Proto} {h : HTTPHeaders} {comps : Dict Str Compression} {stream : Bool} {e : Exc}
    (he : p.responseCompression h comps stream = .error e) : ∃ ce, e = .connect ce := by
  unfold Proto.responseCompression at he
  repeat' split at he
  all_goals cases he
  exact ⟨_, rfl⟩

theorem fromDict_ordinary {m : Dict Str Json} {st : Int} {u : Code} {e : Exc} (h : ConnectErr.fromDict m st u = .error e) :
    e.isException = true := by
  have hd : ∀ l e, ConnectErr.detailsOfList l = .error e → e.isException = true := by
    intro l
    induction l with
    | nil => intro e h; cases h
    | cons j l ih =>
      intro e h
      unfold ConnectErr.detailsOfList at h
      cases hj : ConnectErr.detailOfJson j with
      | error e' =>
        rw [hj] at h; cases h
        unfold ConnectErr.detailOfJson at hj
        repeat' split at hj
        all_goals first | cases hj; rfl | cases hj
      | ok o =>
        rw [hj] at h
        dsimp only at h
        cases hl : ConnectErr.detailsOfList l with
        | error e' => rw [hl] at h; cases h; exact ih _ hl
        | ok ds => rw [hl] at h; cases h
  unfold ConnectErr.fromDict at h
  cases hj : ConnectErr.detailsOfJson (m.get? (pys! "details")) with
  | ok ds => rw [hj] at h; cases h
  | error e' =>
    rw [hj] at h; cases h
    unfold ConnectErr.detailsOfJson at hj
    repeat' split at hj
    all_goals first | exact hd _ _ hj | (cases hj; rfl) | cases hj

theorem fromResponse_ordinary {st : Int} {b : Bytes} {e : Exc} (h : ConnectErr.fromResponse st b = .error e) :
    e.isException = true := by
  unfold ConnectErr.fromResponse at h
  split at h
  · exact fromDict_ordinary h
  · cases h

theorem unaryResponse_ok (c : Client Req Res) (sink : Sink) (resp : FullResponse) (msg : Res) :
    (c.unaryResponse sink resp).2 = .ok msg ↔ Acceptable c resp ∧ c.resCodec.decode resp.content = .ok msg := by
  have henc := responseCompression_ok .connect resp.headers c.comps false
  by_cases hst : resp.status = 200
  · have hval := connectValidate_ok c.codec.name (resp.headers.getD (pys! "content-type") [])
    unfold Client.unaryResponse
    rw [hst]
    cases hv : connectValidateResponse c.codec.name 200 (resp.headers.getD (pys! "content-type") []) with
    | some e =>
      rw [hv] at hval
      constructor
      · intro h; cases h
      · rintro ⟨ha, _⟩; cases hval.2 ha.type
    | none =>
      have hty := hval.1 hv
      dsimp only
      cases hr : Proto.responseCompression .connect resp.headers c.comps false with
      | error e =>
        rw [hr] at henc
        constructor
        · intro h; cases h
        · rintro ⟨ha, _⟩
          obtain ⟨x, hx⟩ := henc.2 ha.encoding
          cases hx
      | ok x =>
        have hen := henc.1 ⟨x, hr⟩
        dsimp only
        rw [if_pos rfl]
        cases hm : c.readMax with
        | none =>
          exact ⟨fun h => ⟨⟨hst, hty, hen, fun n hn => (by rw [hm] at hn; cases hn)⟩, h⟩, fun h => h.2⟩
        | some n =>
          dsimp only
          by_cases hl : (resp.content.length : Int) > n
          · rw [if_pos hl]
            constructor
            · intro h; cases h
            · rintro ⟨ha, _⟩
              have := ha.size n hm
              omega
          · rw [if_neg hl]
            refine ⟨fun h => ⟨⟨hst, hty, hen, fun n' hn => ?_⟩, h⟩, fun h => h.2⟩
            rw [hm] at hn
            cases hn; omega
  · constructor
    · intro h
      exfalso
      unfold Client.unaryResponse at h
      cases hv : connectValidateResponse c.codec.name resp.status (resp.headers.getD (pys! "content-type") []) with
      | some e => rw [hv] at h; cases h
      | none =>
        rw [hv] at h
        dsimp only at h
        cases hr : Proto.responseCompression .connect resp.headers c.comps false with
        | error e => rw [hr] at h; cases h
        | ok x =>
          rw [hr] at h
          dsimp only at h
          rw [if_neg hst] at h
          cases hf : ConnectErr.fromResponse resp.status resp.content <;> rw [hf] at h <;> cases h
    · rintro ⟨ha, _⟩; exact absurd ha.status hst

theorem connectValidate_error {n : Str} {st : Int} {v : Str} {e : Exc} (h : connectValidateResponse n st v = some e) :
    ∃ ce, e = .connect ce := by
  unfold connectValidateResponse at h
  dsimp only at h
  repeat' split at h
  all_goals first | (cases h; exact ⟨_, rfl⟩) | cases h

theorem unaryResponse_error (c : Client Req Res) (hd : ∀ b e, c.resCodec.decode b = .error e → e.isException = true)
    (sink : Sink) (resp : FullResponse) (e : Exc) (h : (c.unaryResponse sink resp).2 = .error e) : e.isException = true := by
  unfold Client.unaryResponse at h
  cases hv : connectValidateResponse c.codec.name resp.status (resp.headers.getD (pys! "content-type") []) with
  | some e' =>
    rw [hv] at h; cases h
    obtain ⟨_, rfl⟩ := connectValidate_error hv
    rfl
  | none =>
    rw [hv] at h
    dsimp only at h
    cases hr : Proto.responseCompression .connect resp.headers c.comps false with
    | error e' =>
      rw [hr] at h; cases h
      obtain ⟨_, rfl⟩ := responseCompression_error hr
      rfl
    | ok x =>
      rw [hr] at h
      dsimp only at h
      by_cases hst : resp.status = 200
      · rw [if_pos hst] at h
        cases hm : c.readMax with
        | none => rw [hm] at h; exact hd _ _ h
        | some n =>
          rw [hm] at h
          dsimp only at h
          by_cases hl : (resp.content.length : Int) > n
          · rw [if_pos hl] at h; cases h; rfl
          · rw [if_neg hl] at h; exact hd _ _ h
      · rw [if_neg hst] at h
        cases hf : ConnectErr.fromResponse resp.status resp.content with
        | error e' => rw [hf] at h; cases h; exact fromResponse_ordinary hf
        | ok e' => rw [hf] at h; cases h; rfl

theorem mapUnaryExc_connect (f : Flavor) (e : Exc) (h : f = .sync → e.isException = true) :
    IsConnectError (mapUnaryExc f e) := by
  cases e with
  | connect ce => exact ⟨ce, rfl⟩
  | http s hs => exact ⟨_, rfl⟩
  | other c m => cases c <;> exact ⟨_, rfl⟩
  | cancelled =>
    cases f with
    | sync => cases h rfl
    | async => exact ⟨_, rfl⟩

/-- the three ways a Connect unary call can go -/
theorem connectUnary_cases (c : Client Req Res) (http : HttpRequest → Except Exc FullResponse) (sink : Sink)
    (ctx : RequestContext) (req : Req) :
    (∃ e, c.codec.encode req = .error e ∧ c.connectUnary http sink ctx req = (sink, .error (mapUnaryExc c.flavor e))) ∨
    ∃ data, c.codec.encode req = .ok data ∧
      ((∃ e, http (c.unaryRequest ctx (c.send.compress data)) = .error e ∧
        c.connectUnary http sink ctx req = (sink, .error (mapUnaryExc c.flavor e))) ∨
      ∃ resp, http (c.unaryRequest ctx (c.send.compress data)) = .ok resp ∧
        c.connectUnary http sink ctx req = ((c.unaryResponse sink resp).1,
          match (c.unaryResponse sink resp).2 with
          | .ok m => .ok m
          | .error e => .error (mapUnaryExc c.flavor e))) := by
  unfold Client.connectUnary
  cases he : c.codec.encode req with
  | error e => exact .inl ⟨e, rfl, rfl⟩
  | ok data =>
    refine .inr ⟨data, rfl, ?_⟩
    dsimp only
    cases hh : http (c.unaryRequest ctx (c.send.compress data)) with
    | error e => exact .inl ⟨e, rfl, rfl⟩
    | ok resp =>
      refine .inr ⟨resp, rfl, ?_⟩
      dsimp only
      generalize c.unaryResponse sink resp = r
      obtain ⟨s, r⟩ := r
      cases r <;> rfl

/-- C44.  A Connect unary call (POST or GET) returns a message only if it is the decoded content of an acceptable response of the
HTTP client, and otherwise raises `ConnectError`, whatever the HTTP client does.  (The sync client lets
`BaseException`s such as `KeyboardInterrupt` through: they are excluded.) -/
theorem C44_unary_result (c : Client Req Res) (hc : c.proto = .connect) (sc : StatusCodec) (http : HttpClient)
    (hord : c.flavor = .sync → Ordinary c http) (sink : Sink) (cs : Circumstances) (req : Req) (m : MethodInfo)
    (user : UserHeaders) (t : Option Int) (useGet : Bool) :
    match (c.executeUnary sc http sink cs req m user t useGet).2 with
    | .ok msg => ∃ rq resp, http.full rq = .ok resp ∧ Acceptable c resp ∧ c.resCodec.decode resp.content = .ok msg
    | .error e => IsConnectError e := by
  unfold Client.executeUnary
  dsimp only
  rw [hc]
  dsimp only
  rcases connectUnary_cases c http.full sink
      (c.context m (if useGet = true then pys! "GET" else pys! "POST") user t false) req with
    ⟨e, h1, h2⟩ | ⟨data, h1, ⟨e, h2, h3⟩ | ⟨resp, h2, h3⟩⟩
  · rw [h2]
    exact mapUnaryExc_connect _ _ fun hf => (hord hf).encode _ _ h1
  · rw [h3]
    exact mapUnaryExc_connect _ _ fun hf => (hord hf).full _ _ h2
  · rw [h3]
    dsimp only
    cases hr : (c.unaryResponse sink resp).2 with
    | ok msg => exact ⟨_, resp, h2, (unaryResponse_ok c sink resp msg).1 hr⟩
    | error e =>
      apply mapUnaryExc_connect
      intro hf
      cases hu : c.unaryResponse sink resp with
      | mk s r =>
        rw [hu] at hr
        exact unaryResponse_error c (hord hf).decode sink resp e (by rw [hu]; exact hr)

/-- C44: when every response of the HTTP client is acceptable and decodes, the call returns the decoded message. -/
theorem C44_unary_success (c : Client Req Res) (hc : c.proto = .connect) (sc : StatusCodec) (http : HttpClient)
    (sink : Sink) (cs : Circumstances) (req : Req) (henc : ∃ data, c.codec.encode req = .ok data) (m : MethodInfo)
    (user : UserHeaders) (t : Option Int) (useGet : Bool) (msg : Res)
    (hresp : ∀ rq, ∃ resp, http.full rq = .ok resp ∧ Acceptable c resp ∧ c.resCodec.decode resp.content = .ok msg) :
    (c.executeUnary sc http sink cs req m user t useGet).2 = .ok msg := by
  unfold Client.executeUnary
  dsimp only
  rw [hc]
  dsimp only
  obtain ⟨data, hdata⟩ := henc
  rcases connectUnary_cases c http.full sink
      (c.context m (if useGet = true then pys! "GET" else pys! "POST") user t false) req with
    ⟨e, h1, h2⟩ | ⟨data, h1, ⟨e, h2, h3⟩ | ⟨resp, h2, h3⟩⟩
  · rw [hdata] at h1; cases h1
  · obtain ⟨resp, hr, _⟩ := hresp (c.unaryRequest
      (c.context m (if useGet = true then pys! "GET" else pys! "POST") user t false) (c.send.compress data))
    rw [hr] at h2; cases h2
  · obtain ⟨resp', hr, ha⟩ := hresp (c.unaryRequest
      (c.context m (if useGet = true then pys! "GET" else pys! "POST") user t false) (c.send.compress data))
    rw [hr] at h2; cases h2
    rw [h3]
    dsimp only
    rw [(unaryResponse_ok c sink _ msg).2 ha]

/-- C44: a timeout raised by the HTTP client is DEADLINE_EXCEEDED; any other failure of it is UNAVAILABLE with the
text of the exception; cancellation of an async call is CANCELED. -/
theorem C44_unary_failures (c : Client Req Res) (hc : c.proto = .connect) (sc : StatusCodec) (http : HttpClient)
    (sink : Sink) (cs : Circumstances) (req : Req) (henc : ∃ data, c.codec.encode req = .ok data) (m : MethodInfo)
    (user : UserHeaders) (t : Option Int) (useGet : Bool) (e : Exc) (hfail : ∀ rq, http.full rq = .error e) :
    (∀ txt, e = .other .timeoutError txt → ∃ msg, (c.executeUnary sc http sink cs req m user t useGet).2 =
      .error (.connect { code := .deadlineExceeded, message := msg })) ∧
    (∀ cls txt, e = .other cls txt → cls ≠ .timeoutError → (c.executeUnary sc http sink cs req m user t useGet).2 =
      .error (.connect { code := .unavailable, message := txt })) ∧
    (e = .cancelled → c.flavor = .async → ∃ msg, (c.executeUnary sc http sink cs req m user t useGet).2 =
      .error (.connect { code := .canceled, message := msg })) := by
  have key : (c.executeUnary sc http sink cs req m user t useGet).2 = .error (mapUnaryExc c.flavor e) := by
    unfold Client.executeUnary
    dsimp only
    rw [hc]
    dsimp only
    obtain ⟨data, hdata⟩ := henc
    rcases connectUnary_cases c http.full sink
        (c.context m (if useGet = true then pys! "GET" else pys! "POST") user t false) req with
      ⟨e, h1, h2⟩ | ⟨data, h1, ⟨e, h2, h3⟩ | ⟨resp, h2, h3⟩⟩
    · rw [hdata] at h1; cases h1
    · rw [hfail] at h2; cases h2; rw [h3]
    · rw [hfail] at h2; cases h2
  rw [key]
  refine ⟨?_, ?_, ?_⟩
  · rintro txt rfl; exact ⟨_, rfl⟩
  · rintro cls txt rfl hcls
    cases cls <;> first | rfl | exact absurd rfl hcls
  · rintro rfl hf; rw [hf]; exact ⟨_, rfl⟩

/-- an acceptable response, and an HTTP client raising `TimeoutError` -/
example : Acceptable (demoClient .sync .connect)
    ⟨200, [(pys! "content-type", pys! " Application/Raw ; charset=utf-8"), (pys! "content-encoding", pys! "gzip")], [1]⟩ where
  status := rfl
  type := by decide +kernel
  encoding := by
    intro enc h
    have h' : HTTPHeaders.get [(pys! "content-type", pys! " Application/Raw ; charset=utf-8"),
      (pys! "content-encoding", pys! "gzip")] (pys! "content-encoding") = some (pys! "gzip") := by decide +kernel
    rw [← Option.some.inj (h'.symm.trans h)]
    exact .inr (by decide +kernel)
  size := fun n h => by cases h
example : ∃ msg, ((demoClient .async .connect).executeUnary protobufStatus ⟨fun _ => .error (.other .timeoutError []), fun _ =>
    .error .cancelled⟩ none calm [7] demoMethod .none none true).2 =
      .error (.connect { code := .deadlineExceeded, message := msg }) :=
  ⟨pys! "Request timed out", by decide +kernel⟩

/-! ### C45 -/

/-- A status message in trailers that can be decoded (or is absent). -/
def GoodDetails (sc : StatusCodec) (t : HTTPHeaders) : Prop :=
  ∀ d, t.get (pys! "grpc-status-details-bin") = some d → d ≠ [] →
    ∃ b st, b64decode (d ++ pys! "===") = some b ∧ sc.fromBinary b = .ok st

def IsReset (e : Exc) : Prop := ∃ k m, e = .other (.streamError k) m

theorem errorOfTrailers_connect (sc : StatusCodec) (t : HTTPHeaders) (hg : GoodDetails sc t) (st : Str)
    (e : Option ConnectErr) (x : Exc) (h : errorOfTrailers sc t st e = some x) : IsConnectError x := by
  unfold errorOfTrailers at h
  split at h
  · cases h
  · cases hd : HTTPHeaders.get t (pys! "grpc-status-details-bin") with
    | none => rw [hd] at h; cases h; exact ⟨_, rfl⟩
    | some d =>
      rw [hd] at h
      dsimp only at h
      by_cases he : d.isEmpty = true
      · rw [if_pos he] at h; cases h; exact ⟨_, rfl⟩
      · rw [if_neg he] at h
        obtain ⟨b, s, hb, hs⟩ := hg d hd (by simpa using he)
        rw [hb] at h
        dsimp only at h
        rw [hs] at h
        cases h; exact ⟨_, rfl⟩

theorem orMissing_connect (e : Option ConnectErr) : IsConnectError (orMissing e) := by
  cases e <;> exact ⟨_, rfl⟩

theorem grpcComplete_connect (sc : StatusCodec) (s : ClientSub) (rh tr : HTTPHeaders) (hr : GoodDetails sc rh)
    (ht : GoodDetails sc tr) (e : Option ConnectErr) (x : Exc) (h : (grpcComplete sc s rh tr e).2 = some x) :
    IsConnectError x := by
  unfold grpcComplete at h
  split at h
  · exact errorOfTrailers_connect sc tr ht _ e x h
  · split at h
    · cases h; exact orMissing_connect e
    · split at h
      · cases h; exact orMissing_connect e
      · exact errorOfTrailers_connect sc rh hr _ e x h

/-- The trailers a gRPC-Web client finds in the body of a response that uses the compression `comp`. -/
def bodyTrailers (c : Client Req Res) (comp : Compression) (sink : Sink) (resp : StreamResponse) : HTTPHeaders :=
  (feedAll (c.reader comp) (ReaderState.init (ClientSub.init sink)) resp.chunks).2.2.sub.trailers

/-- The status details among the trailers of a response, wherever the protocol has them, can be decoded. -/
structure DecodableStatus (c : Client Req Res) (sc : StatusCodec) (resp : StreamResponse) : Prop where
  headers : GoodDetails sc resp.headers
  trailers : c.proto = .grpc → GoodDetails sc resp.trailers
  body : c.proto = .grpcWeb → ∀ comp sink, GoodDetails sc (bodyTrailers c comp sink resp)

/-- What has to hold of a response for every failure to be reported as `ConnectError`: it does not end in a reset, or
the protocol has no status, or the status in its headers and trailers can be decoded. -/
def ReportableReset (c : Client Req Res) (sc : StatusCodec) (resp : StreamResponse) : Prop :=
  (∀ e, resp.bodyErr = some e ∨ resp.exitErr = some e → ¬ IsReset e) ∨ c.proto = .connect ∨ DecodableStatus c sc resp

theorem mapStreamReset_isReset {b : Bool} {e : Exc} {r : ConnectErr} (h : mapStreamReset b e = some r) : IsReset e := by
  unfold mapStreamReset at h
  split at h
  · exact ⟨_, _, rfl⟩
  · cases h

theorem mapReset_connect (c : Client Req Res) (sc : StatusCodec) (sink : Sink) (b : Bool) (reader : Option ClientSub)
    (resp : Option StreamResponse) (e : Exc)
    (hreset : IsReset e → ∀ r sub, resp = some r → reader = some sub → c.proto = .connect ∨
      (GoodDetails sc r.headers ∧ (c.proto = .grpc → GoodDetails sc r.trailers) ∧ (c.proto = .grpcWeb → GoodDetails sc sub.trailers))) :
    IsConnectError (c.mapReset sc sink b reader resp e).2 := by
  unfold Client.mapReset
  cases hm : mapStreamReset b e with
  | none => exact ⟨_, rfl⟩
  | some rst =>
    dsimp only
    have hreset := hreset (mapStreamReset_isReset hm)
    cases reader with
    | none => exact ⟨_, rfl⟩
    | some sub =>
      cases resp with
      | none => exact ⟨_, rfl⟩
      | some r =>
        dsimp only
        have hg : ∀ t, GoodDetails sc r.headers → GoodDetails sc t →
            IsConnectError (match grpcComplete sc sub r.headers t (some rst) with
              | (sink, some e2) => (sink, e2)
              | (sink, none) => (sink, .connect rst) : Sink × Exc).2 := by
          intro t h1 h2
          have hx := grpcComplete_connect sc sub r.headers t h1 h2 (some rst)
          generalize grpcComplete sc sub r.headers t (some rst) = q at hx
          obtain ⟨q1, q2⟩ := q
          cases q2 with
          | none => exact ⟨_, rfl⟩
          | some x => exact hx x rfl
        rcases hreset r sub rfl rfl with hp | ⟨h1, h2, h3⟩
        · rw [hp]; exact ⟨_, rfl⟩
        · unfold Proto.complete
          cases hp : c.proto with
          | connect => exact ⟨_, rfl⟩
          | grpc => exact hg _ h1 (h2 hp)
          | grpcWeb => exact hg _ h1 (h3 hp)

theorem mapStreamExc_connect (c : Client Req Res) (sc : StatusCodec) (sink : Sink) (cs : Circumstances)
    (se : Option Exc) (hse : ∀ e, se = some e → IsConnectError e) (reader : Option ClientSub)
    (resp : Option StreamResponse) (e : Exc) (hsync : c.flavor = .sync → e.isException = true)
    (hreset : IsReset e → ∀ r sub, resp = some r → reader = some sub → c.proto = .connect ∨
      (GoodDetails sc r.headers ∧ (c.proto = .grpc → GoodDetails sc r.trailers) ∧ (c.proto = .grpcWeb → GoodDetails sc sub.trailers))) :
    IsConnectError (c.mapStreamExc sc sink cs se reader resp e).2 := by
  unfold Client.mapStreamExc
  split
  · exact ⟨_, rfl⟩
  · exact ⟨_, rfl⟩
  · split
    · rename_i hf; exact absurd (hsync hf) (by simp [Exc.isException])
    · exact ⟨_, rfl⟩
  · cases se with
    | some x => exact hse x rfl
    | none => exact mapReset_connect c sc sink _ reader resp e hreset

/-- exceptions of the body of the `with` statement: ordinary ones, or the cancellation of an async call; never a reset unless the
HTTP client raised it -/
theorem complete_exc (c : Client Req Res) (sc : StatusCodec) (hsc : ∀ b e, sc.fromBinary b = .error e → e.isException = true ∧ ¬ IsReset e)
    (sub : ClientSub) (r : HTTPResponse) (e : Exc)
    (h : (c.proto.complete sc sub r none).2 = some e) : e.isException = true ∧ ¬ IsReset e := by
  have hc : ∀ ce : ConnectErr, (Exc.connect ce).isException = true ∧ ¬ IsReset (.connect ce) :=
    fun ce => ⟨rfl, fun ⟨_, _, h⟩ => by cases h⟩
  have hE : ∀ t st e, errorOfTrailers sc t st none = some e → e.isException = true ∧ ¬ IsReset e := by
    intro t st e h
    unfold errorOfTrailers at h
    repeat' split at h
    all_goals first
      | cases h; exact hc _
      | (cases h; exact ⟨rfl, fun ⟨_, _, h⟩ => by cases h⟩)
      | (cases h; rename_i hb; exact hsc _ _ hb)
      | cases h
  have hG : ∀ rh tr e, (grpcComplete sc sub rh tr none).2 = some e → e.isException = true ∧ ¬ IsReset e := by
    intro rh tr e h
    unfold grpcComplete at h
    repeat' split at h
    all_goals first
      | exact hE _ _ _ h
      | (cases h; exact hc _)
  cases hp : c.proto with
  | connect => rw [hp] at h; cases h
  | grpc => rw [hp] at h; exact hG _ _ _ h
  | grpcWeb => rw [hp] at h; exact hG _ _ _ h


/-- An ordinary exception that is not a stream reset. -/
def Plain (e : Exc) : Prop := e.isException = true ∧ ¬ IsReset e

theorem plain_connect (ce : ConnectErr) : Plain (.connect ce) := ⟨rfl, fun ⟨_, _, h⟩ => by cases h⟩

theorem fromDict_plain {m : Dict Str Json} {st : Int} {u : Code} {e : Exc} (h : ConnectErr.fromDict m st u = .error e) :
    Plain e := by
  have hd : ∀ l e, ConnectErr.detailsOfList l = .error e → Plain e := by
    intro l
    induction l with
    | nil => intro e h; cases h
    | cons j l ih =>
      intro e h
      unfold ConnectErr.detailsOfList at h
      cases hj : ConnectErr.detailOfJson j with
      | error e' =>
        rw [hj] at h; cases h
        unfold ConnectErr.detailOfJson at hj
        repeat' split at hj
        all_goals first | (cases hj; exact ⟨rfl, fun ⟨_, _, h⟩ => by cases h⟩) | cases hj
      | ok o =>
        rw [hj] at h
        dsimp only at h
        cases hl : ConnectErr.detailsOfList l with
        | error e' => rw [hl] at h; cases h; exact ih _ hl
        | ok ds => rw [hl] at h; cases h
  unfold ConnectErr.fromDict at h
  cases hj : ConnectErr.detailsOfJson (m.get? (pys! "details")) with
  | ok ds => rw [hj] at h; cases h
  | error e' =>
    rw [hj] at h; cases h
    unfold ConnectErr.detailsOfJson at hj
    repeat' split at hj
    all_goals first | exact hd _ _ hj | (cases hj; exact ⟨rfl, fun ⟨_, _, h⟩ => by cases h⟩) | cases hj

theorem connectEndError_plain {j : Option Json} {e : Exc} (h : connectEndError j = .error e) : Plain e := by
  unfold connectEndError at h
  repeat' split at h
  all_goals first
    | (cases h; exact plain_connect _)
    | (cases h; rename_i hf; exact fromDict_plain hf)
    | (cases h; exact ⟨rfl, fun ⟨_, _, h⟩ => by cases h⟩)
    | cases h

theorem handleMetadataJson_plain {sink sink' : Sink} {md : Json} {e : Exc}
    (h : handleMetadataJson sink md = (sink', some e)) : Plain e := by
  unfold handleMetadataJson at h
  repeat' split at h
  all_goals first
    | (cases h; exact ⟨rfl, fun ⟨_, _, h⟩ => by cases h⟩)
    | cases h

theorem endHook_plain (p : Proto) (s : ClientSub) (fl : UInt8) (d : Bytes) (e : Exc)
    (h : (p.endHook s fl d).2 = .error e) : Plain e := by
  cases p with
  | connect =>
    change (connectEndHook s fl d).2 = _ at h
    unfold connectEndHook at h
    repeat' split at h
    all_goals first
      | (exact connectEndError_plain h)
      | (cases h; rename_i hm; exact handleMetadataJson_plain hm)
      | (cases h; exact ⟨rfl, fun ⟨_, _, h⟩ => by cases h⟩)
      | cases h
  | grpc => cases h
  | grpcWeb =>
    change (grpcWebEndHook s fl d).2 = _ at h
    unfold grpcWebEndHook at h
    dsimp only at h
    repeat' split at h
    all_goals first
      | (cases h; exact ⟨rfl, fun ⟨_, _, h⟩ => by cases h⟩)
      | cases h

theorem get?_mem {V : Type} {d : Dict Str V} {k : Str} {v : V} (h : Dict.get? d k = some v) : (k, v) ∈ d := by
  induction d with
  | nil => cases h
  | cons q d ih =>
    obtain ⟨n, w⟩ := q
    rw [Dict.get?] at h
    by_cases e : n = k
    · rw [if_pos e] at h; cases h; subst e; exact .head _
    · rw [if_neg e] at h; exact .tail _ (ih h)

/-- What the user's and the protobuf library's code is assumed to raise while a response is read: ordinary exceptions, which do
not claim to be HTTP/2 resets. -/
structure PlainParts (c : Client Req Res) (sc : StatusCodec) : Prop where
  decode : ∀ b e, c.resCodec.decode b = .error e → Plain e
  comps : ∀ p ∈ c.comps, ∀ b e, p.2.decompress b = .error e → Plain e
  status : ∀ b e, sc.fromBinary b = .error e → Plain e

theorem responseCompression_mem {p : Proto} {h : HTTPHeaders} {comps : Dict Str Compression} {stream : Bool} {x : Compression}
    (he : p.responseCompression h comps stream = .ok x) : x = .identity ∨ ∃ n, (n, x) ∈ comps := by
  unfold Proto.responseCompression at he
  repeat' split at he
  all_goals first
    | (cases he; exact .inl rfl)
    | (cases he; rename_i hg; exact .inr ⟨_, get?_mem hg⟩)
    | cases he

theorem feed_plain (c : Client Req Res) (sc : StatusCodec) (hp : PlainParts c sc) (comp : Compression)
    (hc : comp = .identity ∨ ∃ n, (n, comp) ∈ c.comps) (sink : Sink) (chunks : List Bytes) (e : Exc)
    (h : (feedAll (c.reader comp) (ReaderState.init (ClientSub.init sink)) chunks).2.1 = .raised e) : Plain e := by
  refine (feedAll_inv (c.reader comp) Plain (fun _ => True) ?_ ?_ hp.decode chunks _ ?_ trivial).1 e h
  · intro fl d e he
    rcases payload_error _ _ _ _ he with ⟨ce, rfl⟩ | hd
    · exact plain_connect ce
    · rcases hc with rfl | ⟨n, hn⟩
      · cases hd
      · exact hp.comps _ hn _ _ hd
  · exact fun s fl d _ => ⟨trivial, fun e he => endHook_plain c.proto s fl d e he⟩
  · exact fun n hn => by cases hn

theorem validateStream_connect {p : Proto} {n v : Str} {e : Exc} (h : p.validateStream n v = some e) :
    ∃ ce, e = .connect ce := by
  have hb : ∀ (code : Code) (v x : Str) (e : Exc), some (badContentType code v x) = some e → ∃ ce, e = .connect ce := by
    intro code v x e h; cases h; exact ⟨_, rfl⟩
  unfold Proto.validateStream at h
  cases p <;> dsimp only at h
  · unfold connectValidateStream at h
    dsimp only at h
    repeat' split at h
    all_goals first | exact hb _ _ _ _ h | exact absurd h (by simp)
  all_goals
    unfold grpcValidateStream at h
    dsimp only at h
    repeat' split at h
    all_goals first | exact hb _ _ _ _ h | exact absurd h (by simp)

/-- an exception inside the `with` statement is plain, or is the one the HTTP client raised, or is a cancellation of an async call -/
theorem inside_exc (c : Client Req Res) (sc : StatusCodec) (hp : PlainParts c sc) (sink : Sink) (resp : StreamResponse)
    (cs : Circumstances) (e : Exc) (h : (c.inside sc sink resp cs).exc = some e) :
    Plain e ∨ resp.bodyErr = some e ∨ (c.flavor = .async ∧ e = .cancelled) := by
  unfold Client.inside at h
  dsimp only at h
  by_cases hst : resp.status = 200
  · rw [if_pos hst] at h
    cases hv : c.proto.validateStream c.codec.name (resp.headers.getD (pys! "content-type") []) with
    | some x =>
      rw [hv] at h; cases h
      obtain ⟨ce, rfl⟩ := validateStream_connect hv
      exact .inl (plain_connect ce)
    | none =>
      rw [hv] at h
      dsimp only at h
      cases hr : c.proto.responseCompression resp.headers c.comps true with
      | error x =>
        rw [hr] at h; cases h
        obtain ⟨ce, rfl⟩ := responseCompression_error hr
        exact .inl (plain_connect ce)
      | ok comp =>
        rw [hr] at h
        dsimp only at h
        unfold Client.readBody at h
        dsimp only at h
        have hfeed := feed_plain c sc hp comp (responseCompression_mem hr) (handleResponseHeaders sink resp.headers) resp.chunks
        split at h
        · rename_i hcut
          cases h
          refine .inr (.inr ⟨?_, rfl⟩)
          unfold cancelPoint at hcut
          split at hcut
          · assumption
          · cases hcut
        · split at h
          · rename_i hra
            cases h
            exact .inl (hfeed _ hra)
          · split at h
            · rename_i hb
              cases h
              exact .inr (.inl hb)
            · split at h
              · cases h; exact .inl ⟨rfl, fun ⟨_, _, h⟩ => by cases h⟩
              · exact .inl (complete_exc c sc hp.status _ _ e h)
  · rw [if_neg hst] at h
    repeat' split at h
    · rename_i hb; cases h; exact .inr (.inl hb)
    · rename_i hf; cases h
      refine .inl ?_
      unfold ConnectErr.fromResponse at hf
      split at hf
      · exact fromDict_plain hf
      · cases hf
    · cases h; exact .inl (plain_connect _)

/-- the trailers of the reader are those of the body -/
theorem inside_reader (c : Client Req Res) (sc : StatusCodec) (sink : Sink) (resp : StreamResponse) (cs : Circumstances) (sub : ClientSub)
    (h : (c.inside sc sink resp cs).reader = some sub) : sub.trailers = [] ∨ ∃ comp sink', sub.trailers = bodyTrailers c comp sink' resp := by
  unfold Client.inside at h
  dsimp only at h
  split at h
  · split at h
    · cases h
    · split at h
      · cases h
      · rename_i comp _
        unfold Client.readBody at h
        dsimp only at h
        repeat' split at h
        · cases h; exact .inl rfl
        · cases h; exact .inr ⟨comp, _, rfl⟩
        · cases h; exact .inr ⟨comp, _, rfl⟩
        · cases h; exact .inr ⟨comp, _, rfl⟩
        · cases h; exact .inr ⟨comp, _, rfl⟩
  · repeat' split at h
    all_goals cases h

/-- The HTTP client of a streaming call: what it raises is an ordinary exception (a synchronous call cannot see a
cancellation), and a response that is reset does not carry a status that cannot be decoded. -/
structure FairHttp (c : Client Req Res) (sc : StatusCodec) (http : HttpRequest → Except Exc StreamResponse) : Prop where
  open_ : ∀ r e, http r = .error e → c.flavor = .sync → e.isException = true
  body : ∀ r resp e, http r = .ok resp → resp.bodyErr = some e ∨ resp.exitErr = some e → c.flavor = .sync → e.isException = true
  reset : ∀ r resp, http r = .ok resp → ReportableReset c sc resp

theorem bidi_connectError (c : Client Req Res) (sc : StatusCodec) (hp : PlainParts c sc)
    (http : HttpRequest → Except Exc StreamResponse) (hh : FairHttp c sc http) (sink : Sink) (cs : Circumstances)
    (ctx : RequestContext) (reqs : List Req) (srcErr : Option Exc) (e : Exc)
    (h : (c.bidi sc http sink cs ctx reqs srcErr).exc = some e) : IsConnectError e := by
  unfold Client.bidi at h
  dsimp only at h
  generalize hrq : ({ method := _, url := _, headers := _, timeoutMs := _, body := _, bodyErr := _ } : HttpRequest) = rq at h
  cases hr : http rq with
  | error x =>
    rw [hr] at h
    dsimp only at h
    cases hl : leaveWith c.flavor cs (some x) none with
    | none => rw [hl] at h; cases h
    | some y =>
      rw [hl] at h
      cases h
      apply mapStreamExc_connect c sc sink cs none (fun e h => by cases h)
      · intro hf
        rw [hf] at hl
        cases hl
        exact hh.open_ _ _ hr hf
      · intro _ r sub hr'; cases hr'
  | ok resp =>
    rw [hr] at h
    dsimp only at h
    cases hl : leaveWith c.flavor cs (c.inside sc sink resp cs).exc resp.exitErr with
    | none => rw [hl] at h; cases h
    | some y =>
      rw [hl] at h
      cases h
      -- the exception is the one of the exit, the one of the body, or a `TimeoutError`
      have hy : resp.exitErr = some y ∨ (c.inside sc sink resp cs).exc = some y ∨
          (c.flavor = .async ∧ y = .other .timeoutError []) := by
        cases hx : resp.exitErr with
        | some x =>
          rw [hx] at hl
          unfold leaveWith at hl
          dsimp only at hl
          repeat' split at hl
          all_goals first
            | (cases hl; exact .inl rfl)
            | (cases hl; exact .inr (.inr ⟨by assumption, rfl⟩))
        | none =>
          rw [hx] at hl
          unfold leaveWith at hl
          dsimp only at hl
          repeat' split at hl
          all_goals first
            | exact .inr (.inl hl)
            | (cases hl; exact .inr (.inr ⟨by assumption, rfl⟩))
      apply mapStreamExc_connect
      · intro z hz
        split at hz
        · split at hz
          · rename_i x _ _ hc
            cases hz
            cases z <;> first | exact ⟨_, rfl⟩ | cases hc
          · cases hz
        · cases hz
      · intro hf
        rcases hy with hy | hy | ⟨hy, _⟩
        · exact hh.body _ _ _ hr (.inr hy) hf
        · rcases inside_exc c sc hp sink resp cs y hy with h | h | ⟨h, _⟩
          · exact h.1
          · exact hh.body _ _ _ hr (.inl h) hf
          · rw [hf] at h; cases h
        · rw [hf] at hy; cases hy
      · intro hre r sub hr' hsub
        cases hr'
        have hpl : ¬ Plain y := fun h => h.2 hre
        have hraised : resp.bodyErr = some y ∨ resp.exitErr = some y := by
          rcases hy with hy | hy | ⟨_, rfl⟩
          · exact .inr hy
          · rcases inside_exc c sc hp sink resp cs y hy with h | h | ⟨_, rfl⟩
            · exact absurd h hpl
            · exact .inl h
            · obtain ⟨_, _, h⟩ := hre; cases h
          · exact absurd ⟨rfl, fun ⟨_, _, h⟩ => by cases h⟩ hpl
        rcases hh.reset _ _ hr with h | h | h
        · exact absurd hre (h y hraised)
        · exact .inl h
        · refine .inr ⟨h.headers, h.trailers, fun hw => ?_⟩
          rcases inside_reader c sc sink resp cs sub hsub with h1 | ⟨comp, sink', h1⟩
          · rw [h1]; intro d hd; cases hd
          · rw [h1]; exact h.body hw comp sink'

theorem consumeSingle_connectError {r : StreamResult Res} (h : ∀ e, r.exc = some e → IsConnectError e) (e : Exc)
    (he : consumeSingle r = .error e) : IsConnectError e := by
  unfold consumeSingle at he
  repeat' split at he
  all_goals first
    | (cases he; exact ⟨_, rfl⟩)
    | (cases he; rename_i hx; exact h _ hx)
    | cases he

/-- **C45** (partial). Whatever the server and the network do, a failing streaming call of either client ends with the
library's `ConnectError`, never with an exception of the transport or of the parser: server streams, bidirectional
streams, client streams, and unary calls over gRPC and gRPC-Web.

Partial: assumed is that a response which ends in an HTTP/2 reset does not also carry a malformed
`grpc-status-details-bin` (`FairHttp.reset`; see `C45_violation_reset_details`). -/
theorem C45_stream_errors_partial (c : Client Req Res) (sc : StatusCodec) (hp : PlainParts c sc)
    (http : HttpClient) (hh : FairHttp c sc http.stream) (sink : Sink) (cs : Circumstances) (req : Req) (reqs : List Req)
    (srcErr : Option Exc) (m : MethodInfo) (user : UserHeaders) (t : Option Int) :
    (∀ e, (c.executeServerStream sc http sink cs req m user t).exc = some e → IsConnectError e) ∧
    (∀ e, (c.executeBidiStream sc http sink cs reqs srcErr m user t).exc = some e → IsConnectError e) ∧
    (∀ e, (c.executeClientStream sc http sink cs reqs srcErr m user t).2 = .error e → IsConnectError e) ∧
    (c.proto ≠ .connect → ∀ g e, (c.executeUnary sc http sink cs req m user t g).2 = .error e → IsConnectError e) := by
  refine ⟨fun e h => bidi_connectError c sc hp _ hh _ _ _ _ _ e h, fun e h => bidi_connectError c sc hp _ hh _ _ _ _ _ e h,
    fun e h => consumeSingle_connectError (fun e h => bidi_connectError c sc hp _ hh _ _ _ _ _ e h) e h, ?_⟩
  intro hn g e h
  refine consumeSingle_connectError (r := c.bidi sc http.stream sink cs
    (c.context m (if g then pys! "GET" else pys! "POST") user t false) [req] none)
    (fun e h => bidi_connectError c sc hp _ hh _ _ _ _ _ e h) e ?_
  unfold Client.executeUnary at h
  cases hc : c.proto with
  | connect => exact absurd hc hn
  | grpc => rw [hc] at h; exact h
  | grpcWeb => rw [hc] at h; exact h

/-- a stream that the server resets, carrying (in vain) trailers with a status, and one whose trailers are malformed -/
def resetStream (ct : Str) (chunks : List Bytes) (k : ResetCode) (trailers : HTTPHeaders) : StreamResponse :=
  ⟨200, [(pys! "content-type", ct)], chunks, some (.other (.streamError k) (pys! "reset")), trailers, none⟩

/-- the hypotheses of `C45_stream_errors_partial` are met by a gRPC stream reset after a message -/
example : PlainParts (demoClient .sync .grpc) protobufStatus ∧
    FairHttp (demoClient .sync .grpc) protobufStatus
      (fun _ => .ok (resetStream (pys! "application/grpc+raw") [[0, 0, 0, 0, 1, 7]] .cancel [(pys! "grpc-status", pys! "5")])) ∧
    ((demoClient .sync .grpc).executeServerStream protobufStatus (always default
      (resetStream (pys! "application/grpc+raw") [[0, 0, 0, 0, 1, 7]] .cancel [(pys! "grpc-status", pys! "5")])) none calm [1]
      demoMethod .none none).exc = some (.connect { code := .canceled, message := [] }) := by
  refine ⟨⟨fun b e h => (by cases h), ?_, ?_⟩, ⟨fun r e h => (by cases h), ?_, ?_⟩, by decide +kernel⟩
  · intro q hq b e h
    have hq : q ∈ [(pys! "gzip", flipComp), (pys! "identity", Compression.identity)] := by
      have : (demoClient .sync .grpc).comps = [(pys! "gzip", flipComp), (pys! "identity", Compression.identity)] := by rfl
      rw [← this]; exact hq
    simp only [List.mem_cons, List.not_mem_nil, or_false] at hq
    rcases hq with rfl | rfl <;> cases h
  · intro b e h
    change decodeStatus b = _ at h
    unfold decodeStatus at h
    repeat' split at h
    all_goals first | (cases h; exact ⟨rfl, fun ⟨_, _, h⟩ => by cases h⟩) | cases h
  · intro r resp e h h2 _
    cases h
    rcases h2 with h2 | h2 <;> cases h2
    rfl
  · intro r resp h
    cases h
    refine .inr (.inr ⟨?_, ?_, fun h => by cases h⟩)
    · intro d hd; cases hd
    · intro _ d hd; cases hd

/-- and by a gRPC-Web stream reset after a message -/
example : FairHttp (demoClient .sync .grpcWeb) protobufStatus
      (fun _ => .ok (resetStream (pys! "application/grpc-web+raw") [[0, 0, 0, 0, 1, 7]] .cancel [])) ∧
    ((demoClient .sync .grpcWeb).executeServerStream protobufStatus (always default
      (resetStream (pys! "application/grpc-web+raw") [[0, 0, 0, 0, 1, 7]] .cancel [])) none calm [1]
      demoMethod .none none).exc = some (.connect { code := .canceled, message := pys! "reset" }) := by
  refine ⟨⟨fun r e h => (by cases h), ?_, ?_⟩, by decide +kernel⟩
  · intro r resp e h h2 _
    cases h
    rcases h2 with h2 | h2 <;> cases h2
    rfl
  · intro r resp h
    cases h
    refine .inr (.inr ⟨?_, fun h => (by cases h), ?_⟩)
    · intro d hd; cases hd
    · intro _ comp sink d hd
      have : bodyTrailers (demoClient .sync .grpcWeb) comp sink
          (resetStream (pys! "application/grpc-web+raw") [[0, 0, 0, 0, 1, 7]] .cancel []) = [] := by
        have h1 : (demoClient .sync .grpcWeb).readMax = none := rfl
        have h2 : (demoClient .sync .grpcWeb).proto = .grpcWeb := rfl
        have h3 : (demoClient .sync .grpcWeb).resCodec.decode [7] = .ok [7] := rfl
        unfold bodyTrailers resetStream
        simp [feedAll, feed, readMessages, ReaderState.init, Client.reader, ReaderCfg.payload, h1, h2, h3, grpcWebEndHook, Proto.endHook, ClientSub.init, be32Decode]
      rw [this] at hd
      cases hd

/-- C45 fails for a reset stream whose trailers hold a `grpc-status-details-bin` that is not Base64: the caller sees
`binascii.Error` (a `ValueError`). -/
theorem C45_violation_reset_details (f : Flavor) :
    ∃ m, ((demoClient f .grpc).executeServerStream protobufStatus (always default
      (resetStream (pys! "application/grpc+raw") [] .cancel
        [(pys! "grpc-status", pys! "5"), (pys! "grpc-status-details-bin", pys! "A")])) none calm [1]
      demoMethod .none none).exc = some (.other .valueError m) := by
  cases f <;> exact ⟨pys! "binascii.Error", by decide +kernel⟩

/-! ### C33 (client part) -/

/-- **C33, client**: a client-streaming call returns `m` exactly if the response stream (what the same call as
a bidirectional stream delivers) is the single message `m` ending normally; with no message or several it is UNIMPLEMENTED; a
failing stream's error is raised. Likewise for unary calls over gRPC and gRPC-Web. -/
theorem C33_client_single_message (c : Client Req Res) (sc : StatusCodec) (http : HttpClient) (sink : Sink) (cs : Circumstances)
    (reqs : List Req) (srcErr : Option Exc) (m : MethodInfo) (user : UserHeaders) (t : Option Int) :
    let stream := c.executeBidiStream sc http sink cs reqs srcErr m user t
    let call := (c.executeClientStream sc http sink cs reqs srcErr m user t).2
    (∀ r, call = .ok r ↔ stream.messages = [r] ∧ stream.exc = none) ∧
    (stream.messages.length > 1 ∨ (stream.messages = [] ∧ stream.exc = none) →
      ∃ msg, call = .error (.connect { code := .unimplemented, message := msg })) ∧
    (∀ e, stream.messages.length ≤ 1 → stream.exc = some e → call = .error e) := by
  intro stream call
  have hc : call = consumeSingle stream := rfl
  rw [hc]
  unfold consumeSingle
  rcases stream.messages with _ | ⟨a, _ | ⟨b, l⟩⟩
  · dsimp only
    cases stream.exc with
    | none => simp [zeroMessages, Exc.mk]
    | some e => simp
  · dsimp only
    cases stream.exc with
    | none => simp
    | some e => simp
  · simp [multipleMessages, Exc.mk]

/-- … and for unary calls over gRPC and gRPC-Web. -/
theorem C33_client_unary_single_message (c : Client Req Res) (sc : StatusCodec) (http : HttpClient) (sink : Sink)
    (cs : Circumstances) (req : Req) (m : MethodInfo) (user : UserHeaders) (t : Option Int) (g : Bool) (hp : c.proto ≠ .connect) :
    let stream := c.bidi sc http.stream sink cs (c.context m (if g then pys! "GET" else pys! "POST") user t false) [req] none
    let call := (c.executeUnary sc http sink cs req m user t g).2
    (∀ r, call = .ok r ↔ stream.messages = [r] ∧ stream.exc = none) ∧
    (stream.messages.length > 1 ∨ (stream.messages = [] ∧ stream.exc = none) →
      ∃ msg, call = .error (.connect { code := .unimplemented, message := msg })) ∧
    (∀ e, stream.messages.length ≤ 1 → stream.exc = some e → call = .error e) := by
  intro stream call
  have hc : call = consumeSingle stream := by
    simp only [call, stream]
    unfold Client.executeUnary
    cases h : c.proto with
    | connect => exact absurd h hp
    | grpc => rfl
    | grpcWeb => rfl
  rw [hc]
  unfold consumeSingle
  rcases stream.messages with _ | ⟨a, _ | ⟨b, l⟩⟩
  · dsimp only
    cases stream.exc with
    | none => simp [zeroMessages, Exc.mk]
    | some e => simp
  · dsimp only
    cases stream.exc with
    | none => simp
    | some e => simp
  · simp [multipleMessages, Exc.mk]

/-- two messages in a Connect response to a client-streaming call -/
example : ((demoClient .sync .connect).executeClientStream protobufStatus (always default
    (okStream (pys! "application/connect+raw") [[0, 0, 0, 0, 1, 7], [0, 0, 0, 0, 1, 8, 2, 0, 0, 0, 2, 123, 125]] [])) none calm
    [[1], [2]] none demoMethod .none none).2 = .error multipleMessages := by
  decide +kernel

/-! ### C46 -/

/-- no complete envelope of the body is a gRPC-Web trailer block -/
def NoTrailerBlock (chunks : List Bytes) : Prop :=
  ∀ fs rest, Splits chunks.flatten fs rest → ∀ f ∈ fs, f.flags &&& 128 = 0

theorem web_feed_trailers (c : ReaderCfg Res ClientSub) (hh : c.handleEnd = grpcWebEndHook) (chunks : List Bytes)
    (h : NoTrailerBlock chunks) (sub : ClientSub) :
    (feedAll c (.init sub) chunks).2.2.sub.trailers = sub.trailers := by
  obtain ⟨fs, rest, hs⟩ := splits_exists chunks.flatten
  have hne := frameRun_no_end c (fun s => s.trailers = sub.trailers) fs (by
    intro f hf s d hI
    rw [hh]
    unfold grpcWebEndHook
    dsimp only
    rw [if_pos (h fs rest hs f hf)]
    exact ⟨hI, rfl⟩) sub rfl
  have hr := feedAll_splits c (.init sub) (by intro n hn; cases hn) chunks (fs := fs) (rest := rest)
    (by simpa [ReaderState.init] using hs) (fun _ => incomplete_of_lt_five (by simp [ReaderState.init]))
    (fun he => absurd he hne.1)
  rw [hr.2.2]
  exact hne.2

/-- `handle_response_complete` raises unless there is a status. -/
theorem grpcComplete_missing (sc : StatusCodec) (s : ClientSub) (rh tr : HTTPHeaders)
    (h1 : tr.get (pys! "grpc-status") = none) (h2 : rh.get (pys! "grpc-status") = none) :
    (grpcComplete sc s rh tr none).2 ≠ none := by
  unfold grpcComplete
  rw [h1]
  dsimp only
  split
  · exact fun h => by cases h
  · rw [h2]; exact fun h => by cases h

/-- The response carries no gRPC status anywhere the client looks: not in the headers, and not in the HTTP trailers (gRPC) or in
a complete trailer block of the body (gRPC-Web). -/
def NoStatus (p : Proto) (resp : StreamResponse) : Prop :=
  resp.headers.get (pys! "grpc-status") = none ∧
  match p with
  | .connect => False
  | .grpc => resp.trailers.get (pys! "grpc-status") = none
  | .grpcWeb => NoTrailerBlock resp.chunks

theorem bidi_noStatus (c : Client Req Res) (sc : StatusCodec) (http : HttpRequest → Except Exc StreamResponse)
    (hh : ∀ r resp, http r = .ok resp → NoStatus c.proto resp) (sink : Sink) (cs : Circumstances)
    (ctx : RequestContext) (reqs : List Req) (srcErr : Option Exc) :
    (c.bidi sc http sink cs ctx reqs srcErr).exc ≠ none := by
  unfold Client.bidi
  dsimp only
  generalize hrq : ({ method := _, url := _, headers := _, timeoutMs := _, body := _, bodyErr := _ } : HttpRequest) = rq
  have hleave : ∀ x ex, leaveWith c.flavor cs (some x) ex ≠ none := by
    intro x ex
    unfold leaveWith
    dsimp only
    cases ex <;> (dsimp only; split; · split <;> exact fun h => by cases h
                  exact fun h => by cases h)
  cases hr : http rq with
  | error x =>
    dsimp only
    cases hl : leaveWith c.flavor cs (some x) none with
    | none => exact absurd hl (hleave x none)
    | some y => exact fun h => by cases h
  | ok resp =>
    dsimp only
    obtain ⟨hns, hns2⟩ := hh _ _ hr
    have hin : (c.inside sc sink resp cs).exc ≠ none := by
      unfold Client.inside
      dsimp only
      split
      · split
        · exact fun h => by cases h
        · split
          · exact fun h => by cases h
          · rename_i comp _
            unfold Client.readBody
            dsimp only
            repeat' split
            all_goals first | exact (fun h => by cases h) | skip
            cases hp : c.proto with
            | connect => rw [hp] at hns2; exact hns2.elim
            | grpc => rw [hp] at hns2; exact grpcComplete_missing sc _ _ _ hns2 hns
            | grpcWeb =>
              rw [hp] at hns2
              have ht := web_feed_trailers (c.reader comp) (by unfold Client.reader; rw [hp]; rfl) resp.chunks hns2
                (ClientSub.init (handleResponseHeaders sink resp.headers))
              refine grpcComplete_missing sc _ _ _ ?_ hns
              rw [ht]; rfl
      · repeat' split
        all_goals exact fun h => by cases h
    obtain ⟨x, hx⟩ := Option.ne_none_iff_exists'.1 hin
    rw [hx]
    cases hl : leaveWith c.flavor cs (some x) resp.exitErr with
    | none => exact absurd hl (hleave x _)
    | some y => exact fun h => by cases h

/-- **C46** (partial: gRPC and gRPC-Web). If a response carries no gRPC status, wherever its body ends, no call
succeeds: streams raise after the delivered messages, unary and client-streaming calls raise.
For Connect the claim is false, see `C46_violation_connect`. -/
theorem C46_missing_status_partial (c : Client Req Res) (sc : StatusCodec) (http : HttpClient)
    (hh : ∀ r resp, http.stream r = .ok resp → NoStatus c.proto resp) (hp : c.proto ≠ .connect) (sink : Sink)
    (cs : Circumstances) (req : Req) (reqs : List Req) (srcErr : Option Exc) (m : MethodInfo) (user : UserHeaders)
    (t : Option Int) (g : Bool) :
    (c.executeServerStream sc http sink cs req m user t).exc ≠ none ∧
    (c.executeBidiStream sc http sink cs reqs srcErr m user t).exc ≠ none ∧
    (∀ r, (c.executeClientStream sc http sink cs reqs srcErr m user t).2 ≠ .ok r) ∧
    (∀ r, (c.executeUnary sc http sink cs req m user t g).2 ≠ .ok r) := by
  refine ⟨bidi_noStatus c sc _ hh _ _ _ _ _, bidi_noStatus c sc _ hh _ _ _ _ _, fun r h => ?_, fun r h => ?_⟩
  · exact bidi_noStatus c sc _ hh _ _ _ _ _
      (((C33_client_single_message c sc http sink cs reqs srcErr m user t).1 r).1 h).2
  · exact bidi_noStatus c sc _ hh _ _ _ _ _
      (((C33_client_unary_single_message c sc http sink cs req m user t g hp).1 r).1 h).2

/-- hypotheses met: a gRPC-Web body cut inside its trailer block -/
example : NoStatus .grpcWeb (okStream (pys! "application/grpc-web+raw") [[0, 0, 0, 0, 1, 7], [128, 0, 0, 0, 15, 103]] []) := by
  refine ⟨by decide +kernel, ?_⟩
  intro fs rest h f hf
  have h' : Splits ([[0, 0, 0, 0, 1, 7], [128, 0, 0, 0, 15, 103]] : List Bytes).flatten [⟨0, [7]⟩] [128, 0, 0, 0, 15, 103] :=
    ⟨rfl, by intro f hf; simp only [List.mem_singleton] at hf; subst hf; unfold Frame.Ok; decide,
      incomplete_iff_short.2 (by decide)⟩
  obtain ⟨rfl, _⟩ := splits_unique h h'
  simp only [List.mem_singleton] at hf
  subst hf; decide

/-- C46 fails for Connect: a response that stops after a message, or inside one, without the end-of-stream message, ends
like a complete one; what was received of the cut message is dropped. -/
theorem C46_violation_connect (f : Flavor) :
    ((demoClient f .connect).executeServerStream protobufStatus (always default
      (okStream (pys! "application/connect+raw") [[0, 0, 0, 0, 1, 7], [0, 0, 0, 0, 9, 1]] [])) none calm [1]
      demoMethod .none none).messages = [[7]] ∧
    ((demoClient f .connect).executeServerStream protobufStatus (always default
      (okStream (pys! "application/connect+raw") [[0, 0, 0, 0, 1, 7], [0, 0, 0, 0, 9, 1]] [])) none calm [1]
      demoMethod .none none).exc = none := by
  cases f <;> decide +kernel

/-! ### C51 -/

theorem mapStreamReset_code (b : Bool) (k : ResetCode) (m : Str) :
    (∃ r, mapStreamReset b (.other (.streamError k) m) = some r ∧ r.code = codeOfReset b k) ∨
    (mapStreamReset b (.other (.streamError k) m) = none ∧ codeOfReset b k = .unavailable) := by
  cases k <;> first | exact .inl ⟨_, rfl, rfl⟩ | exact .inr ⟨rfl, rfl⟩

theorem errorOfTrailers_code (sc : StatusCodec) (t : HTTPHeaders) (hg : GoodDetails sc t) (st : Str)
    (e : ConnectErr) (x : Exc) (h : errorOfTrailers sc t st (some e) = some x) :
    ∃ ce, x = .connect ce ∧ ce.code = e.code := by
  unfold errorOfTrailers at h
  split at h
  · cases h
  · cases hd : HTTPHeaders.get t (pys! "grpc-status-details-bin") with
    | none => rw [hd] at h; cases h; exact ⟨_, rfl, rfl⟩
    | some d =>
      rw [hd] at h
      dsimp only at h
      by_cases he : d.isEmpty = true
      · rw [if_pos he] at h; cases h; exact ⟨_, rfl, rfl⟩
      · rw [if_neg he] at h
        obtain ⟨b, s, hb, hs⟩ := hg d hd (by simpa using he)
        rw [hb] at h
        dsimp only at h
        rw [hs] at h
        cases h; exact ⟨_, rfl, rfl⟩

theorem grpcComplete_code (sc : StatusCodec) (s : ClientSub) (rh tr : HTTPHeaders) (hr : GoodDetails sc rh)
    (ht : GoodDetails sc tr) (e : ConnectErr) (x : Exc) (h : (grpcComplete sc s rh tr (some e)).2 = some x) :
    ∃ ce, x = .connect ce ∧ ce.code = e.code := by
  unfold grpcComplete at h
  split at h
  · exact errorOfTrailers_code sc tr ht _ e x h
  · split at h
    · cases h; exact ⟨_, rfl, rfl⟩
    · split at h
      · cases h; exact ⟨_, rfl, rfl⟩
      · exact errorOfTrailers_code sc rh hr _ e x h

/-- The statuses in headers and trailers that the client may look at when the stream is reset can be decoded. -/
def GoodStatuses (p : Proto) (sc : StatusCodec) (resp : StreamResponse) : Prop :=
  match p with
  | .connect => True
  | .grpc => GoodDetails sc resp.headers ∧ GoodDetails sc resp.trailers
  | .grpcWeb => GoodDetails sc resp.headers

/-- The flags mark a data envelope. -/
def DataFlags (p : Proto) (fl : UInt8) : Prop :=
  match p with
  | .connect => fl &&& 2 = 0
  | .grpc => True
  | .grpcWeb => fl &&& 128 = 0

theorem endHook_data (p : Proto) (s : ClientSub) (fl : UInt8) (d : Bytes) (h : DataFlags p fl) :
    (p.endHook s fl d).2 = .ok false ∧ (p.endHook s fl d).1.trailers = s.trailers := by
  cases p with
  | connect => change (connectEndHook s fl d).2 = _ ∧ _; unfold Proto.endHook connectEndHook; dsimp only; rw [if_pos (show fl &&& 2 = 0 from h)]; exact ⟨rfl, rfl⟩
  | grpc => exact ⟨rfl, rfl⟩
  | grpcWeb =>
    change (grpcWebEndHook s fl d).2 = _ ∧ (grpcWebEndHook s fl d).1.trailers = _
    unfold grpcWebEndHook; dsimp only; rw [if_pos (show fl &&& 128 = 0 from h)]; exact ⟨rfl, rfl⟩

theorem mapReset_code (c : Client Req Res) (sc : StatusCodec) (sink : Sink) (b : Bool) (reader : Option ClientSub)
    (resp : Option StreamResponse) (k : ResetCode) (m : Str)
    (hg : ∀ r, resp = some r → GoodStatuses c.proto sc r)
    (ht : ∀ s, reader = some s → s.trailers = []) :
    ∃ ce, (c.mapReset sc sink b reader resp (.other (.streamError k) m)).2 = .connect ce ∧ ce.code = codeOfReset b k := by
  unfold Client.mapReset
  rcases mapStreamReset_code b k m with ⟨rst, hm, hk⟩ | ⟨hm, hk⟩
  · rw [hm]
    dsimp only
    cases reader with
    | none => exact ⟨_, rfl, hk⟩
    | some sub =>
      cases resp with
      | none => exact ⟨_, rfl, hk⟩
      | some r =>
        dsimp only
        have hg := hg r rfl
        have hnil : GoodDetails sc sub.trailers := by
          rw [ht sub rfl]; intro d hd; cases hd
        have hx : ∀ x, (c.proto.complete sc sub ⟨r.status, r.headers, r.trailers⟩ (some rst)).2 = some x →
            ∃ ce, x = .connect ce ∧ ce.code = rst.code := by
          intro x hx
          unfold Proto.complete at hx
          cases hp : c.proto with
          | connect => rw [hp] at hx; cases hx
          | grpc => rw [hp] at hx hg; exact grpcComplete_code sc sub _ _ hg.1 hg.2 rst x hx
          | grpcWeb => rw [hp] at hx hg; exact grpcComplete_code sc sub _ _ hg hnil rst x hx
        generalize c.proto.complete sc sub ⟨r.status, r.headers, r.trailers⟩ (some rst) = q at hx
        obtain ⟨q1, q2⟩ := q
        cases q2 with
        | none => exact ⟨_, rfl, hk⟩
        | some x =>
          obtain ⟨ce, rfl, hce⟩ := hx x rfl
          exact ⟨ce, rfl, hce.trans hk⟩
  · rw [hm]; exact ⟨_, rfl, hk.symm⟩

/-- A response whose headers the client accepts: status 200, the content type of the call, no encoding it does not know; `comp` is the
compression of the stream. -/
structure Opened (c : Client Req Res) (resp : StreamResponse) (comp : Compression) : Prop where
  status : resp.status = 200
  type : c.proto.validateStream c.codec.name (resp.headers.getD (pys! "content-type") []) = none
  encoding : c.proto.responseCompression resp.headers c.comps true = .ok comp

/-- **C51**. An HTTP/2 stream reset is reported with the code the protocol prescribes: (1) when it happens while the
request is being sent; (2) when it happens after any messages `ms` of the response, in the middle of an envelope or between
two (`rest`): these are delivered first. The code does not depend on a status in the trailers. `cs.expiredAtReset` tells
that the call's deadline has passed.  (An async call is assumed not to be cancelled by its caller meanwhile.) -/
theorem C51_reset_code (c : Client Req Res) (sc : StatusCodec) (http : HttpRequest → Except Exc StreamResponse) (sink : Sink)
    (cs : Circumstances) (ctx : RequestContext) (reqs : List Req) (srcErr : Option Exc) (k : ResetCode) (msg : Str) :
    ((∀ r, http r = .error (.other (.streamError k) msg)) →
      ∃ ce, (c.bidi sc http sink cs ctx reqs srcErr).exc = some (.connect ce) ∧ ce.code = codeOfReset cs.expiredAtReset k) ∧
    (∀ resp comp fs rest ms, (∀ r, http r = .ok resp) → Opened c resp comp → GoodStatuses c.proto sc resp →
      Splits resp.chunks.flatten fs rest → (∀ f ∈ fs, DataFlags c.proto f.flags) →
      fs.map (policyOf (c.reader comp)).message = ms.map .ok →
      resp.bodyErr = some (.other (.streamError k) msg) → resp.exitErr = none → cs.cancelAfter = none →
      (c.bidi sc http sink cs ctx reqs srcErr).messages = ms ∧
      ∃ ce, (c.bidi sc http sink cs ctx reqs srcErr).exc = some (.connect ce) ∧
        ce.code = codeOfReset cs.expiredAtReset k) := by
  refine ⟨fun h => ?_, fun resp comp fs rest ms h ho hg hsp hdf hms hb hx hcut => ?_⟩
  · unfold Client.bidi
    dsimp only
    rw [h]
    obtain ⟨ce, h1, h2⟩ := mapReset_code c sc sink cs.expiredAtReset none none k msg (fun _ h => by cases h) (fun _ h => by cases h)
    have hl : leaveWith c.flavor cs (some (.other (.streamError k) msg)) none = some (.other (.streamError k) msg) := by
      unfold leaveWith; cases c.flavor <;> rfl
    dsimp only
    rw [hl]
    exact ⟨ce, congrArg some h1, h2⟩
  · have hpass : ∀ f ∈ fs, TreatsAsData (c.reader comp) f.flags := fun f hf s d => (endHook_data c.proto s f.flags d (hdf f hf)).1
    have hr := reader_delivers (c.reader comp) (ClientSub.init (handleResponseHeaders sink resp.headers)) resp.chunks hsp hpass
    rw [deliver_all _ fs ms hms] at hr
    have hne := frameRun_no_end (c.reader comp) (fun s => s.trailers = []) fs (by
      intro f hf s d hI
      have := endHook_data c.proto s f.flags d (hdf f hf)
      exact ⟨this.2.trans hI, this.1⟩) (ClientSub.init (handleResponseHeaders sink resp.headers)) rfl
    have hfs := feedAll_splits (c.reader comp) (.init (ClientSub.init (handleResponseHeaders sink resp.headers)))
      (by intro n hn; cases hn) resp.chunks (fs := fs) (rest := rest)
      (by simpa [ReaderState.init] using hsp) (fun _ => incomplete_of_lt_five (by simp [ReaderState.init]))
      (fun he => absurd he hne.1)
    have htr := hfs.2.2 ▸ hne.2
    have hin : c.inside sc sink resp cs =
        { messages := ms, exc := some (.other (.streamError k) msg), fromFeed := true
          reader := some (feedAll (c.reader comp) (ReaderState.init (ClientSub.init (handleResponseHeaders sink resp.headers))) resp.chunks).2.2.sub
          sink := (feedAll (c.reader comp) (ReaderState.init (ClientSub.init (handleResponseHeaders sink resp.headers))) resp.chunks).2.2.sub.sink } := by
      unfold Client.inside
      dsimp only
      rw [if_pos ho.status, ho.type]
      dsimp only
      rw [ho.encoding]
      dsimp only
      unfold Client.readBody
      dsimp only
      have hc : ∀ n, cancelPoint c.flavor cs.cancelAfter n = none := by
        intro n; rw [hcut]; unfold cancelPoint; cases c.flavor <;> rfl
      rw [hc]
      dsimp only
      rw [hr.2]
      dsimp only
      rw [hb]
      dsimp only
      rw [hr.1]
    unfold Client.bidi
    dsimp only
    rw [h]
    dsimp only
    have hl : leaveWith c.flavor cs (some (.other (.streamError k) msg)) none = some (.other (.streamError k) msg) := by
      unfold leaveWith; cases c.flavor <;> rfl
    rw [hin, hx]
    dsimp only
    rw [hl]
    dsimp only
    refine ⟨rfl, ?_⟩
    obtain ⟨ce, h1, h2⟩ := mapReset_code c sc (feedAll (c.reader comp) (ReaderState.init (ClientSub.init (handleResponseHeaders sink resp.headers))) resp.chunks).2.2.sub.sink
      cs.expiredAtReset (some (feedAll (c.reader comp) (ReaderState.init (ClientSub.init (handleResponseHeaders sink resp.headers))) resp.chunks).2.2.sub) (some resp) k msg
      (fun r h => by cases h; exact hg) (fun s h => by cases h; exact htr)
    refine ⟨ce, ?_, h2⟩
    cases c.flavor <;> exact congrArg some h1

/-- **C51**, message and details: a status in the gRPC trailers that come with the reset contributes its message and details. -/
theorem C51_reset_trailers_message (sc : StatusCodec) (sub : ClientSub) (rh tr : HTTPHeaders) (rst : ConnectErr)
    (st : Str) (h1 : tr.get (pys! "grpc-status") = some st) (h2 : st ≠ pys! "0") :
    ((∀ d, tr.get (pys! "grpc-status-details-bin") = some d → d = []) →
      ((Proto.grpc).complete sc sub ⟨200, rh, tr⟩ (some rst)).2 =
        some (.connect { code := rst.code, message := unquote (tr.getD (pys! "grpc-message") []) })) ∧
    (∀ d b status, tr.get (pys! "grpc-status-details-bin") = some d → d ≠ [] → b64decode (d ++ pys! "===") = some b →
      sc.fromBinary b = .ok status →
      ((Proto.grpc).complete sc sub ⟨200, rh, tr⟩ (some rst)).2 =
        some (.connect { code := rst.code, message := status.message,
                         details := status.details.map fun p => { typeUrl := p.1, value := p.2 } })) := by
  refine ⟨fun hd => ?_, fun d b status hd hne hb hs => ?_⟩
  · unfold Proto.complete grpcComplete
    dsimp only
    rw [h1]
    dsimp only
    unfold errorOfTrailers
    rw [if_neg h2]
    cases hg : tr.get (pys! "grpc-status-details-bin") with
    | none => rfl
    | some d => cases hd d hg; rfl
  · unfold Proto.complete grpcComplete
    dsimp only
    rw [h1]
    dsimp only
    unfold errorOfTrailers
    rw [if_neg h2, hd]
    dsimp only
    rw [if_neg (by simpa using hne), hb]
    dsimp only
    rw [hs]
    rfl

/-- a gRPC stream cancelled after one message and a half, once the deadline has passed; its trailers name another code -/
example : ((demoClient .async .grpc).executeServerStream protobufStatus (always default
    (resetStream (pys! "application/grpc+raw") [[0, 0, 0, 0, 1, 7, 0, 0]] .cancel
      [(pys! "grpc-status", pys! "5"), (pys! "grpc-message", pys! "a%20b")])) none { calm with expiredAtReset := true } [1]
    demoMethod .none none).exc = some (.connect { code := .deadlineExceeded, message := pys! "a b" }) := by
  decide +kernel
example : Opened (demoClient .async .grpc) (resetStream (pys! "application/grpc+raw") [[0, 0, 0, 0, 1, 7, 0, 0]] .cancel
      [(pys! "grpc-status", pys! "5"), (pys! "grpc-message", pys! "a%20b")]) .identity :=
  ⟨rfl, by decide +kernel, by rfl⟩

/-! ### C05 (client part) -/

/-- The message was decoded from at most `n` bytes. -/
def SmallMessage (c : Client Req Res) (n : Int) (m : Res) : Prop :=
  ∃ d : Bytes, (d.length : Int) ≤ n ∧ c.resCodec.decode d = .ok m

theorem bidi_bounded (c : Client Req Res) (n : Int) (hmax : c.readMax = some n) (sc : StatusCodec)
    (http : HttpRequest → Except Exc StreamResponse) (sink : Sink) (cs : Circumstances) (ctx : RequestContext)
    (reqs : List Req) (srcErr : Option Exc) :
    ∀ m ∈ (c.bidi sc http sink cs ctx reqs srcErr).messages, SmallMessage c n m := by
  intro m hm
  unfold Client.bidi at hm
  dsimp only at hm
  generalize hrq : ({ method := _, url := _, headers := _, timeoutMs := _, body := _, bodyErr := _ } : HttpRequest) = rq at hm
  cases hr : http rq with
  | error x =>
    rw [hr] at hm
    dsimp only at hm
    split at hm <;> cases hm
  | ok resp =>
    rw [hr] at hm
    dsimp only at hm
    have hin : m ∈ (c.inside sc sink resp cs).messages := by
      split at hm <;> exact hm
    unfold Client.inside at hin
    dsimp only at hin
    split at hin
    · split at hin
      · cases hin
      · split at hin
        · cases hin
        · rename_i comp _
          have hb := C05_stream_messages_bounded (c.reader comp) n hmax
            (ClientSub.init (handleResponseHeaders sink resp.headers)) resp.chunks
          unfold Client.readBody at hin
          dsimp only at hin
          repeat' split at hin
          all_goals first
            | exact hb m hin
            | exact hb m (List.mem_of_mem_take hin)
    · repeat' split at hin
      all_goals cases hin

/-- **C05, clients**: with `read_max_bytes = n`, every message a client hands to its caller was decoded from at
most `n` (decompressed) bytes: messages of streams, and the results of client-streaming and unary calls of all protocols. -/
theorem C05_client_messages_bounded (c : Client Req Res) (n : Int) (hmax : c.readMax = some n) (sc : StatusCodec)
    (http : HttpClient) (sink : Sink) (cs : Circumstances) (req : Req) (reqs : List Req) (srcErr : Option Exc) (m : MethodInfo)
    (user : UserHeaders) (t : Option Int) (g : Bool) :
    (∀ x ∈ (c.executeServerStream sc http sink cs req m user t).messages, SmallMessage c n x) ∧
    (∀ x ∈ (c.executeBidiStream sc http sink cs reqs srcErr m user t).messages, SmallMessage c n x) ∧
    (∀ x, (c.executeClientStream sc http sink cs reqs srcErr m user t).2 = .ok x → SmallMessage c n x) ∧
    (∀ x, (c.executeUnary sc http sink cs req m user t g).2 = .ok x → SmallMessage c n x) := by
  refine ⟨bidi_bounded c n hmax sc _ _ _ _ _ _, bidi_bounded c n hmax sc _ _ _ _ _ _, fun x h => ?_, fun x h => ?_⟩
  · have := (((C33_client_single_message c sc http sink cs reqs srcErr m user t).1 x).1 h).1
    exact bidi_bounded c n hmax sc _ _ _ _ _ _ x (by
      show x ∈ (c.executeBidiStream sc http sink cs reqs srcErr m user t).messages
      rw [this]; exact .head _)
  · by_cases hp : c.proto = .connect
    · unfold Client.executeUnary at h
      dsimp only at h
      rw [hp] at h
      dsimp only at h
      rcases connectUnary_cases c http.full sink (c.context m (if g then pys! "GET" else pys! "POST") user t false) req with
        ⟨e, h1, h2⟩ | ⟨data, h1, ⟨e, h2, h3⟩ | ⟨resp, h2, h3⟩⟩
      · rw [h2] at h; cases h
      · rw [h3] at h; cases h
      · rw [h3] at h
        dsimp only at h
        split at h
        · rename_i hx
          cases h
          have := (unaryResponse_ok c sink resp x).1 hx
          exact ⟨resp.content, this.1.size n hmax, this.2⟩
        · cases h
    · have := (((C33_client_unary_single_message c sc http sink cs req m user t g hp).1 x).1 h).1
      exact bidi_bounded c n hmax sc _ _ _ _ _ _ x (by rw [this]; exact .head _)

/-- **C05, clients**, error: an otherwise acceptable Connect unary response that is larger than the limit is RESOURCE_EXHAUSTED. -/
theorem C05_client_unary_oversize (c : Client Req Res) (hc : c.proto = .connect) (n : Int) (hmax : c.readMax = some n)
    (sc : StatusCodec) (http : HttpClient) (sink : Sink) (cs : Circumstances) (req : Req)
    (henc : ∃ data, c.codec.encode req = .ok data) (m : MethodInfo) (user : UserHeaders) (t : Option Int) (g : Bool)
    (resp : FullResponse) (hresp : ∀ rq, http.full rq = .ok resp) (hst : resp.status = 200)
    (htype : mediaType (resp.headers.getD (pys! "content-type") []) = pys! "application/" ++ c.codec.name)
    (hcomp : resp.headers.get (pys! "content-encoding") = none) (hbig : n < resp.content.length) :
    ∃ msg, (c.executeUnary sc http sink cs req m user t g).2 =
      .error (.connect { code := .resourceExhausted, message := msg }) := by
  have hun : (c.unaryResponse sink resp).2 = .error (tooLarge n) := by
    unfold Client.unaryResponse
    have hv := (connectValidate_ok c.codec.name (resp.headers.getD (pys! "content-type") [])).2 htype
    rw [hst, hv]
    dsimp only
    unfold Proto.responseCompression
    have hh : Proto.requestEncodingHeader .connect false = pys! "content-encoding" := rfl
    rw [hh, hcomp]
    dsimp only
    rw [if_pos rfl, hmax]
    dsimp only
    rw [if_pos (by omega)]
  obtain ⟨data, hdata⟩ := henc
  unfold Client.executeUnary
  dsimp only
  rw [hc]
  dsimp only
  rcases connectUnary_cases c http.full sink (c.context m (if g then pys! "GET" else pys! "POST") user t false) req with
    ⟨e, h1, h2⟩ | ⟨data, h1, ⟨e, h2, h3⟩ | ⟨r, h2, h3⟩⟩
  · rw [hdata] at h1; cases h1
  · rw [hresp] at h2; cases h2
  · rw [hresp] at h2
    cases h2
    rw [h3, hun]
    exact ⟨_, rfl⟩

/-- a limit of two bytes and a response of three -/
example : ({ demoClient .async .connect with readMax := some 2 }.executeUnary protobufStatus (always (okFull [1, 2, 3]) default)
    none calm [7] demoMethod .none none false).2 = .error (tooLarge 2) := by
  decide +kernel

end Props
