import Verif.Spec.Transport
import Verif.Props.UnaryResponse
import Verif.Props.Client
/-
Lemmas for the end-to-end properties: what arrives of a request, and what the client makes of a response.
-/
namespace Conn
open Py Spec Props

variable {Req Res : Type}

instance (n : Str) : Decidable (Forwarded n) := by unfold Forwarded; infer_instance

/-! ### CGI variables -/

theorem upperChar_cases (c : Char) :
    upperChar c = c ∧ ¬ (97 ≤ c.toNat ∧ c.toNat ≤ 122) ∨ (97 ≤ c.toNat ∧ c.toNat ≤ 122 ∧ (upperChar c).toNat = c.toNat - 32) := by
  unfold upperChar
  by_cases h : 'a' ≤ c ∧ c ≤ 'z'
  · rw [if_pos h]
    have h1 : 97 ≤ c.toNat := h.1
    have h2 : c.toNat ≤ 122 := h.2
    exact .inr ⟨h1, h2, ofNat_toNat' (by omega)⟩
  · rw [if_neg h]; exact .inl ⟨rfl, fun h' => h ⟨h'.1, h'.2⟩⟩

theorem upperChar_ne_underscore (c : Char) (h : c ≠ '_') : upperChar c ≠ '_' := by
  rcases upperChar_cases c with ⟨h1, _⟩ | ⟨h1, h2, h3⟩
  · rw [h1]; exact h
  · intro e
    rw [e] at h3
    have : ('_' : Char).toNat = 95 := rfl
    omega

theorem lowerChar_upperChar (c : Char) : lowerChar (upperChar c) = lowerChar c := by
  rcases upperChar_cases c with ⟨h1, _⟩ | ⟨h1, h2, h3⟩
  · rw [h1]
  · have hc : lowerChar c = c := by
      unfold lowerChar
      rw [if_neg]
      rintro ⟨_, h⟩
      have : c.toNat ≤ 90 := h
      omega
    rw [hc]
    unfold lowerChar
    rw [if_pos]
    · rw [h3, show c.toNat - 32 + 32 = c.toNat by omega]
      exact Char.ofNat_toNat c
    · refine ⟨?_, ?_⟩
      · show 65 ≤ (upperChar c).toNat
        omega
      · show (upperChar c).toNat ≤ 90
        omega

/-- the variable of a header stands for that header -/
theorem headerOfVar_cgiVar {n : Str} (h : '_' ∉ n) : headerOfVar (cgiVar n) = some (lower n) := by
  unfold cgiVar
  split
  · rename_i e
    rw [e]
    rfl
  · unfold headerOfVar
    rw [if_neg (by intro e; cases e), if_neg (by intro e; cases e), if_pos (List.prefix_append _ _)]
    rw [show (5 : Nat) = (pys! "HTTP_").length from rfl, List.drop_left, List.map_map]
    unfold lower
    rw [List.map_map]
    congr 1
    apply List.map_congr_left
    intro c hc
    have hc' : c ≠ '_' := fun e => h (e ▸ hc)
    simp only [Function.comp]
    by_cases e : c = '-'
    · subst e; rfl
    · rw [if_neg e, if_neg (upperChar_ne_underscore c hc'), lowerChar_upperChar]

theorem values_none {f : Str → Option Str} {x : Str} : ∀ {vars : List (Str × Str)},
    x ∉ vars.filterMap (fun p => f p.1) → (vars.filter fun p => f p.1 = some x).map (·.2) = []
  | [], _ => rfl
  | p :: vars, h => by
    rw [List.filterMap_cons] at h
    rw [List.filter_cons]
    cases hf : f p.1 with
    | none =>
      rw [hf] at h
      simpa using values_none h
    | some y =>
      rw [hf] at h
      simp only [List.mem_cons, not_or] at h
      rw [if_neg (by simpa using fun e => h.1 e.symm)]
      exact values_none h.2

theorem values_one {f : Str → Option Str} {k x v : Str} : ∀ {vars : List (Str × Str)},
    (vars.filterMap fun p => f p.1).Nodup → f k = some x → Dict.get? vars k = some v →
    (vars.filter fun p => f p.1 = some x).map (·.2) = [v]
  | [], _, _, h => by cases h
  | (k', v') :: vars, hd, hf, h => by
    rw [List.filterMap_cons] at hd
    rw [List.filter_cons]
    by_cases e : k' = k
    · subst e
      have hv : v' = v := by
        simp only [Dict.get?, if_true] at h
        exact Option.some.inj h
      simp only [hf] at hd
      rw [if_pos (by simpa using hf), List.map_cons, values_none (List.nodup_cons.1 hd).1, hv]
    · have h' : Dict.get? vars k = some v := by
        simp only [Dict.get?, if_neg e] at h
        exact h
      have hm : x ∈ vars.filterMap fun p => f p.1 :=
        List.mem_filterMap.2 ⟨_, Dict.get?_some_mem h', hf⟩
      have hne : f k' ≠ some x := by
        intro hx
        rw [hx] at hd
        exact (List.nodup_cons.1 hd).1 hm
      rw [if_neg (by simpa using hne)]
      refine values_one ?_ hf h'
      cases hx : f k' with
      | none => rw [hx] at hd; exact hd
      | some y => rw [hx] at hd; exact (List.nodup_cons.1 hd).2

/-! ### the fields of a request, as the server sees them -/

/-- what the server needs to know about the fields -/
structure Arrived (fields : HTTPHeaders) (h : Headers) : Prop where
  one : ∀ n v, Forwarded n → fieldValues fields n = [v] → h.getall n = [v]
  unset : ∀ n ∈ protocolNames, fieldValues fields n = [] → h.getall n = []

theorem wsgi_arrived {address : Str} {rq : HttpRequest} {env : Environ} (h : WsgiSees address rq env) :
    Arrived rq.headers (wsgiHeaders env.vars) where
  one n v hf hv := by
    rw [wsgiHeaders_getall _ h.distinct]
    have hg := h.field n hf (by rw [hv]; simp)
    rw [hv] at hg
    exact values_one h.distinct (headerOfVar_cgiVar hf.2) hg
  unset n hn hv := by rw [wsgiHeaders_getall _ h.distinct]; exact h.unset n hn hv

theorem asgiHeaders_encoded (fields : List (Str × Str)) : ∀ (h : Headers), h.Inv →
    ∃ h', asgiHeaders (fields.map fun p => (utf8Encode p.1, utf8Encode p.2)) h = .ok h' ∧
      ∀ n, h'.getall n = h.getall n ++ fieldValues fields n := by
  intro h hi
  have hex : ∀ (l : List (Str × Str)) (h : Headers),
      ∃ h', asgiHeaders (l.map fun p => (utf8Encode p.1, utf8Encode p.2)) h = .ok h' := by
    intro l
    induction l with
    | nil => exact fun h => ⟨h, rfl⟩
    | cons p l ih =>
      intro h
      rw [List.map_cons]
      unfold asgiHeaders
      rw [utf8Decode_encode, utf8Decode_encode]
      exact ih _
  obtain ⟨h', hh⟩ := hex fields h
  obtain ⟨fs, h1, h2⟩ := asgiHeaders_ok _ h h' hi hh
  refine ⟨h', hh, ?_⟩
  have : fs = fields := by
    rw [List.map_map] at h1
    simp only [Function.comp_def, utf8Decode_encode] at h1
    refine ((List.map_inj_right ?_).1 h1).symm
    rintro ⟨a, b⟩ ⟨c, d⟩ e
    simp only [Prod.mk.injEq, Option.some.injEq] at e
    rw [e.1, e.2]
  rw [this] at h2
  exact h2

theorem asgi_arrived {address : Str} {rq : HttpRequest} {scope : Scope} {env : Env} (h : AsgiSees address rq scope env) :
    ∃ headers, asgiHeaders scope.headers Headers.empty = .ok headers ∧ Arrived rq.headers headers ∧
      ∀ n, Forwarded n → fieldValues rq.headers n ≠ [] → headers.getall n = fieldValues rq.headers n := by
  obtain ⟨fields, h1, h2, h3⟩ := h.fields
  obtain ⟨headers, h4, h5⟩ := asgiHeaders_encoded fields Headers.empty Headers.inv_empty
  have h6 : ∀ n, headers.getall n = fieldValues fields n := fun n => h5 n
  refine ⟨headers, by rw [h1]; exact h4, ⟨?_, ?_⟩, ?_⟩
  · intro n v hf hv
    rw [h6, h2 n hf (by rw [hv]; simp), hv]
  · intro n hn hv
    rw [h6, h3 n hn hv]
  · intro n hf hv
    rw [h6, h2 n hf hv]

/-! ### plain names -/

theorem plainChar {c : Char} (h : ('a' ≤ c ∧ c ≤ 'z') ∨ ('0' ≤ c ∧ c ≤ '9') ∨ c = '-' ∨ c = '/') :
    isSpace c = false ∧ lowerChar c = c ∧ c ≠ ',' ∧ c ≠ ';' ∧ c ≠ '_' := by
  have hn : (97 ≤ c.toNat ∧ c.toNat ≤ 122) ∨ (48 ≤ c.toNat ∧ c.toNat ≤ 57) ∨ c.toNat = 45 ∨ c.toNat = 47 := by
    rcases h with h | h | rfl | rfl
    · exact .inl ⟨h.1, h.2⟩
    · exact .inr (.inl ⟨h.1, h.2⟩)
    · exact .inr (.inr (.inl rfl))
    · exact .inr (.inr (.inr rfl))
  refine ⟨?_, ?_, ?_, ?_, ?_⟩
  · unfold isSpace
    simp only [Bool.or_eq_false_iff, Bool.and_eq_false_iff, decide_eq_false_iff_not, beq_eq_false_iff_ne]
    omega
  · unfold lowerChar
    rw [if_neg]
    rintro ⟨h1, h2⟩
    have h1 : 65 ≤ c.toNat := h1
    have h2 : c.toNat ≤ 90 := h2
    omega
  all_goals
    rintro rfl
    revert hn
    decide

theorem plainName_lower {n : Str} (h : PlainName n) : lower n = n := by
  unfold lower
  conv => rhs; rw [← List.map_id n]
  apply List.map_congr_left
  intro c hc
  have := h.2 c hc
  refine (plainChar ?_).2.1
  rcases this with h | h | h
  · exact .inl h
  · exact .inr (.inl h)
  · exact .inr (.inr (.inl h))

theorem plain_mediaType {v : Str} (h : ∀ c ∈ v, ('a' ≤ c ∧ c ≤ 'z') ∨ ('0' ≤ c ∧ c ≤ '9') ∨ c = '-' ∨ c = '/') :
    mediaType v = v := by
  unfold mediaType
  rw [takeWhile_self v (fun c hc => by simpa using (plainChar (h c hc)).2.2.2.1),
    strip_no_space v (fun c hc => (plainChar (h c hc)).1)]
  unfold lower
  conv => rhs; rw [← List.map_id v]
  exact List.map_congr_left fun c hc => (plainChar (h c hc)).2.1

theorem plain_type {n : Str} (h : PlainName n) : mediaType (pys! "application/" ++ n) = pys! "application/" ++ n := by
  refine plain_mediaType fun c hc => ?_
  rcases List.mem_append.1 hc with hc | hc
  · have : ∀ c ∈ pys! "application/", ('a' ≤ c ∧ c ≤ 'z') ∨ ('0' ≤ c ∧ c ≤ '9') ∨ c = '-' ∨ c = '/' := by decide
    exact this c hc
  · rcases h.2 c hc with h | h | h
    · exact .inl h
    · exact .inr (.inl h)
    · exact .inr (.inr (.inl h))

theorem plainName_entry {n : Str} (h : PlainName n) : AcceptEntry.Ok ⟨[], n, []⟩ := by
  have hp : ∀ c ∈ n, isSpace c = false ∧ c ≠ ',' := by
    intro c hc
    have := h.2 c hc
    have := plainChar (c := c) (by
      rcases this with h | h | h
      · exact .inl h
      · exact .inr (.inl h)
      · exact .inr (.inr (.inl h)))
    exact ⟨this.1, this.2.2.1⟩
  exact ⟨fun c hc => absurd hc (by simp), fun c hc => absurd hc (by simp), fun hc => (hp _ hc).2 rfl,
    fun c hc => (hp c (List.mem_of_mem_head? hc)).1, fun c hc => (hp c (List.mem_of_mem_getLast? hc)).1⟩

/-! ### the compression of the response -/

/-- the compression negotiated from a list of plain names is one of them that the server knows, or identity -/
theorem negotiated {names : List Str} (hn : ∀ n ∈ names, PlainName n) (hne : names ≠ []) (comps : Dict Str Compression) :
    negotiateCompression (join (pys! ",") names) comps = .identity ∨
    ∃ n ∈ names, Dict.get? comps n = some (negotiateCompression (join (pys! ",") names) comps) := by
  have hok : ∀ e ∈ names.map (fun n => (⟨[], n, []⟩ : AcceptEntry)), e.Ok := by
    intro e he
    obtain ⟨n, h1, rfl⟩ := List.mem_map.1 he
    exact plainName_entry (hn n h1)
  have heq : negotiateCompression (join (pys! ",") names) comps =
      ((names.map (fun n => (⟨[], n, []⟩ : AcceptEntry))).findSome? fun e => comps.get? e.name).getD .identity := by
    unfold negotiateCompression
    rw [show pys! "," = [','] from rfl, ← acceptText_names, split_acceptText _ (by simpa using hne) hok,
      negotiateFrom_entries comps _ hok]
  rw [heq, List.findSome?_map]
  cases hf : names.findSome? ((fun e : AcceptEntry => comps.get? e.name) ∘ fun n => ⟨[], n, []⟩) with
  | none => exact .inl rfl
  | some k =>
    obtain ⟨n, h1, h2⟩ := List.exists_of_findSome?_eq_some hf
    exact .inr ⟨n, h1, h2⟩

/-! ### the request of a unary Connect call -/

theorem fieldValues_dropped (h : HTTPHeaders) (k n : Str) (hlow : ∀ p ∈ h, lower p.1 = p.1) (e : lower n = lower k) :
    fieldValues (h.drop' k) n = [] := by
  unfold fieldValues HTTPHeaders.drop'
  rw [List.filter_filter, List.map_eq_nil_iff, List.filter_eq_nil_iff]
  intro p hp hc
  simp only [Bool.and_eq_true, decide_eq_true_eq, bne_iff_ne, ne_eq] at hc
  exact hc.2 (by rw [← hlow p hp, hc.1, e])

theorem prepareGetParams_headers (name : Str) (data : Bytes) (h : HTTPHeaders) (hlow : ∀ p ∈ h, lower p.1 = p.1) (enc : Str)
    (he : h.get (pys! "content-encoding") = some enc) :
    prepareGetParams name data h = ([(pys! "connect", pys! "v1"), (pys! "base64", pys! "1"), (pys! "compression", enc),
      (pys! "encoding", name), (pys! "message", urlsafeB64encode data)], h.drop' (pys! "content-encoding")) := by
  unfold prepareGetParams
  rw [he]
  rfl

theorem http_get_eq (h : HTTPHeaders) (hlow : ∀ p ∈ h, lower p.1 = p.1) (k : Str) : h.get k = (fieldValues h k).head? := by
  unfold HTTPHeaders.get fieldValues
  induction h with
  | nil => rfl
  | cons p h ih =>
    have hp := hlow p (by simp)
    have ih := ih fun q hq => hlow q (by simp [hq])
    rw [List.filter_cons]
    by_cases e : p.1 = lower k
    · simp [Dict.get?, e, Headers.lower_idem]
    · rw [if_neg (by rw [hp]; simpa using e)]
      rw [← ih]
      simp [Dict.get?, e]

theorem callTimeout_eq (t d : Option Int) : callTimeout t d = pickTimeout t d := by
  unfold callTimeout pickTimeout
  cases t with
  | none => rfl
  | some ms =>
    by_cases h : ms = 0
    · subst h; rfl
    · rw [if_neg (by intro e; exact h (Option.some.inj e))]
      exact (if_neg h).symm

/-- the fields of the request that matter to the server -/
structure RequestFields (c : Client Req Res) (user : UserHeaders) (t : Option Int) (h : Headers) : Prop where
  version : h.getall (pys! "connect-protocol-version") = [['1']]
  accept : h.getall (pys! "accept-encoding") = [c.acceptHeader]
  encoding : h.getall (pys! "content-encoding") = [c.send.name]
  type : h.getall (pys! "content-type") = [pys! "application/" ++ c.codec.name]
  timeout : h.getall (pys! "connect-timeout-ms") = match pickTimeout t c.timeoutMs with
    | some ms => [intStr ms]
    | none => given user (pys! "connect-timeout-ms")

theorem context_fields (c : Client Req Res) (hc : c.proto = .connect) (m : MethodInfo) (hm : Str) (user : UserHeaders)
    (t : Option Int) : RequestFields c user t (c.context m hm user t false).requestHeaders := by
  have he : (c.context m hm user t false).requestHeaders =
      connectClientHeaders c.userAgent user (pickTimeout t c.timeoutMs) c.codec.name false c.acceptHeader (some c.send) := by
    unfold Client.context
    rw [hc]
    rfl
  rw [he]
  constructor
  · rw [connectClientHeaders_getall]; rfl
  · rw [connectClientHeaders_getall]; rfl
  · rw [connectClientHeaders_getall]; rfl
  · rw [connectClientHeaders_getall]; rfl
  · rw [connectClientHeaders_getall]
    cases pickTimeout t c.timeoutMs <;> rfl

theorem unaryRequest_post (c : Client Req Res) (m : MethodInfo) (user : UserHeaders) (t : Option Int) (raw : Bytes) :
    c.unaryRequest (c.context m (pys! "POST") user t false) raw =
      ⟨pys! "POST", c.address ++ methodPath m, (c.context m (pys! "POST") user t false).requestHeaders.allitems,
        (c.context m (pys! "POST") user t false).timeoutMs, [raw], none⟩ := by
  unfold Client.unaryRequest
  rw [if_neg (show (c.context m (pys! "POST") user t false).httpMethod ≠ pys! "GET" from by
    show pys! "POST" ≠ pys! "GET"
    decide)]
  congr 1
  show c.url m = _
  unfold Client.url methodPath
  simp [List.append_assoc]

theorem unaryRequest_get (c : Client Req Res) (hc : c.proto = .connect) (m : MethodInfo) (user : UserHeaders) (t : Option Int)
    (raw : Bytes) :
    c.unaryRequest (c.context m (pys! "GET") user t false) raw =
      ⟨pys! "GET", c.address ++ methodPath m ++ ['?'] ++ urlencode [(pys! "connect", pys! "v1"), (pys! "base64", pys! "1"),
          (pys! "compression", c.send.name), (pys! "encoding", c.codec.name), (pys! "message", urlsafeB64encode raw)],
        ((HTTPHeaders.drop' (c.context m (pys! "GET") user t false).requestHeaders.allitems (pys! "content-encoding")).drop'
          (pys! "content-type")), (c.context m (pys! "GET") user t false).timeoutMs, [], none⟩ := by
  have hi := context_inv c m (pys! "GET") user t false
  have hlow := Headers.allitems_low hi
  have hf := context_fields c hc m (pys! "GET") user t
  have henc : HTTPHeaders.get (c.context m (pys! "GET") user t false).requestHeaders.allitems (pys! "content-encoding") =
      some c.send.name := by
    rw [http_get_eq _ hlow, fieldValues_allitems hi, hf.encoding]
    rfl
  unfold Client.unaryRequest
  rw [if_pos (show (c.context m (pys! "GET") user t false).httpMethod = pys! "GET" from rfl),
    prepareGetParams_headers _ _ _ hlow _ henc]
  dsimp only
  congr 1
  show c.url m ++ _ ++ _ = _
  unfold Client.url methodPath
  simp [List.append_assoc]

theorem getall_one {h : Headers} {k v : Str} (e : h.getall k = [v]) : h.get k = some v ∧ ∀ d, h.getD k d = v := by
  refine ⟨by rw [Headers.get_eq, e]; rfl, fun d => ?_⟩
  rw [Headers.getD_eq, e]
  rfl

theorem getall_nil {h : Headers} {k : Str} (e : h.getall k = []) : h.get k = none ∧ ∀ d, h.getD k d = d := by
  refine ⟨by rw [Headers.get_eq, e]; rfl, fun d => ?_⟩
  rw [Headers.getD_eq, e]
  rfl

/-- the protocol headers arrive in order -/
theorem arrived_ready {c : Client Req Res} {user : UserHeaders} {t : Option Int} (ht : TimeoutFits c user t) {hs h : Headers}
    (hf : RequestFields c user t hs) {fields : HTTPHeaders} (ha : Arrived fields h)
    (hv : ∀ n ∈ [pys! "connect-protocol-version", pys! "accept-encoding", pys! "connect-timeout-ms"],
      fieldValues fields n = hs.getall n) :
    ConnectHeaders h ∧ (∀ d, h.getD (pys! "accept-encoding") d = c.acceptHeader) ∧
    (h.get (pys! "connect-timeout-ms")).bind parseInt = pickTimeout t c.timeoutMs := by
  have h1 := ha.one (pys! "connect-protocol-version") ['1'] (by decide +kernel) (by rw [hv _ (by simp), hf.version])
  have h2 := ha.one (pys! "accept-encoding") c.acceptHeader (by decide +kernel) (by rw [hv _ (by simp), hf.accept])
  have h3 := hf.timeout
  unfold TimeoutFits at ht
  rw [callTimeout_eq] at ht
  cases hp : pickTimeout t c.timeoutMs with
  | some ms =>
    rw [hp] at h3 ht
    have h3 := ha.one (pys! "connect-timeout-ms") (intStr ms) (by decide +kernel) (by rw [hv _ (by simp), h3])
    refine ⟨⟨?_, ?_⟩, (getall_one h2).2, ?_⟩
    · intro v hv
      rw [(getall_one h1).1] at hv
      exact (Option.some.inj hv).symm
    · intro v hv
      rw [(getall_one h3).1] at hv
      cases hv
      exact .inr ⟨ht, ms, parseInt_intStr ms⟩
    · rw [(getall_one h3).1]
      exact parseInt_intStr ms
  | none =>
    rw [hp] at h3 ht
    have h3 := ha.unset (pys! "connect-timeout-ms") (by decide) (by rw [hv _ (by simp), h3]; exact ht)
    refine ⟨⟨?_, ?_⟩, (getall_one h2).2, ?_⟩
    · intro v hv
      rw [(getall_one h1).1] at hv
      exact (Option.some.inj hv).symm
    · intro v hv
      rw [(getall_nil h3).1] at hv
      cases hv
    · rw [(getall_nil h3).1]
      rfl

theorem connectType_plain {n : Str} (hg : ¬ pys! "grpc" <+: n) : ConnectType (pys! "application/" ++ n) := by
  have key : ∀ x, pys! "application/grpc" ++ x = pys! "application/" ++ n → False := by
    intro x e
    have e2 : pys! "application/" ++ (pys! "grpc" ++ x) = pys! "application/" ++ n := e
    exact hg ⟨x, List.append_cancel_left e2⟩
  refine ⟨?_, ?_⟩
  · rintro (h | ⟨x, h⟩)
    · exact key [] h.symm
    · exact key (['+'] ++ x) (by rw [← h]; rfl)
  · rintro (h | ⟨x, h⟩)
    · exact key (pys! "-web") h.symm
    · exact key (pys! "-web+" ++ x) (by rw [← h]; rfl)

/-! ### the server accepts the request -/

/-- the HTTP method of the call -/
abbrev verb (useGet : Bool) : Str := if useGet then pys! "GET" else pys! "POST"

/-- the request of the call -/
abbrev theRequest (c : Client Req Res) (m : MethodInfo) (user : UserHeaders) (t : Option Int) (useGet : Bool) (data : Bytes) :
    HttpRequest :=
  c.unaryRequest (c.context m (verb useGet) user t false) (c.send.compress data)

theorem rooted_methodPath (m : MethodInfo) : rooted (methodPath m) = methodPath m := by
  unfold rooted methodPath
  rfl

theorem theRequest_fields (c : Client Req Res) (m : MethodInfo) (user : UserHeaders) (t : Option Int) (useGet : Bool)
    (data : Bytes) : ∀ n ∈ [pys! "connect-protocol-version", pys! "accept-encoding", pys! "connect-timeout-ms"],
      fieldValues (theRequest c m user t useGet data).headers n =
        (c.context m (verb useGet) user t false).requestHeaders.getall n := by
  intro n hn
  refine unaryRequest_fields c _ (context_inv c m _ user t false) _ n ?_ ?_
  all_goals
    revert n
    decide +kernel

/-- the query parameters of a GET request, as a server reads them -/
abbrev theParams (c : Client Req Res) (raw : Bytes) : Dict Str (List Str) :=
  [(pys! "connect", [pys! "v1"]), (pys! "base64", [pys! "1"]), (pys! "compression", [c.send.name]),
    (pys! "encoding", [c.codec.name]), (pys! "message", [urlsafeB64encode raw])]

theorem getParams (c : Client Req Res) (raw : Bytes) :
    parseQs (urlencode [(pys! "connect", pys! "v1"), (pys! "base64", pys! "1"), (pys! "compression", c.send.name),
      (pys! "encoding", c.codec.name), (pys! "message", urlsafeB64encode raw)]) = theParams c raw := by
  rw [parseQs_urlencode _ (by simp) (by simp [Dict.keys])]
  rfl

theorem getParams_message (c : Client Req Res) (raw : Bytes) : MessageParam (theParams c raw) raw :=
  ⟨_, ⟨[], rfl⟩, .inl ⟨⟨[], rfl⟩, urlsafeB64decode_encode raw⟩⟩

section
variable {c : Client Req Res} {app : App Req Res} {codec : ServerCodec Req Res} {m ms : MethodInfo}
  {f : Req → RequestContext → Call Res} {req : Req} {user : UserHeaders} {t : Option Int} {useGet : Bool} {data : Bytes}

theorem wsgi_carries (hs : UnaryCall c app codec m ms f req user t useGet) (hd : c.codec.encode req = .ok data)
    {env : Environ} (h : WsgiSees c.address (theRequest c m user t useGet data) env) :
    WsgiConnectUnary app env (methodPath m) ms f (verb useGet) ∧ WsgiCarries app env ms (verb useGet) codec req ∧
    (∀ d, (wsgiHeaders env.vars).getD (pys! "accept-encoding") d = c.acceptHeader) ∧
    ((wsgiHeaders env.vars).get (pys! "connect-timeout-ms")).bind parseInt = pickTimeout t c.timeoutMs := by
  obtain ⟨data', hd', hlim⟩ := hs.message
  have : data' = data := by rw [hd] at hd'; cases hd'; rfl
  subst this
  have hdec := hs.codec.request req data' hd
  have hf := context_fields c hs.connect m (verb useGet) user t
  have ha := wsgi_arrived h
  obtain ⟨h1, h2, h3⟩ := arrived_ready hs.timeout hf ha (theRequest_fields c m user t useGet data')
  obtain ⟨k, hk1, hk2⟩ := hs.comps.send
  cases useGet with
  | false =>
    have hrq : theRequest c m user t false data' = _ := unaryRequest_post c m user t (c.send.compress data')
    have hi := context_inv c m (pys! "POST") user t false
    have hval : ∀ n, fieldValues (theRequest c m user t false data').headers n =
        (c.context m (pys! "POST") user t false).requestHeaders.getall n := by
      intro n
      rw [hrq]
      exact fieldValues_allitems hi n
    have hct := (getall_one (ha.one (pys! "content-type") _ (by decide +kernel) (by rw [hval]; exact hf.type))).2 []
    have henc : (c.context m (pys! "POST") user t false).requestHeaders.getall (pys! "content-encoding") = [c.send.name] :=
      hf.encoding
    have hce := h.field (pys! "content-encoding") (by decide +kernel) (by rw [hval, henc]; simp)
    rw [hval, henc] at hce
    have hpath := h.path (methodPath m) hs.path (by rw [hrq])
    have hm := h.method
    have hbody := h.body
    have hlen := h.length
    rw [hrq] at hm hbody hlen
    dsimp only at hm hbody hlen
    rw [List.flatten_cons, List.flatten_nil, List.append_nil] at hbody hlen
    refine ⟨⟨?_, hm, ?_⟩, ⟨h1, .inl ⟨rfl, c.codec.name, c.send.compress data', data', ?_, hs.codec.found, ?_, ?_,
      hlim rfl, hdec⟩⟩, h2, h3⟩
    · have := WsgiTarget.direct hpath (by rw [rooted_methodPath]; exact hs.endpoint)
      rwa [rooted_methodPath] at this
    · rw [hct]; exact connectType_plain hs.codec.notGrpc
    · rw [hct]; exact .inl (plain_type hs.codec.plain)
    · rcases hlen with hl | hl
      · rw [← hbody]; exact .whole hl
      · have := WsgiBody.declared hl (by rw [hbody]; exact Nat.le_refl _)
        rwa [hbody, List.take_length] at this
    · have hw : wsgiEncoding env = c.send.name := by
        unfold wsgiEncoding
        rw [show pys! "HTTP_CONTENT_ENCODING" = cgiVar (pys! "content-encoding") by decide +kernel, hce]
        exact plainName_lower hs.comps.sendName
      rw [hw]
      by_cases e : c.send.name = pys! "identity"
      · refine .inl ⟨e, ?_⟩
        rw [e, hs.comps.serverIdentity] at hk1
        cases hk1
        exact (Except.ok.inj (hk2 data')).symm
      · exact .inr ⟨e, k, hk1, hk2 data'⟩
  | true =>
    have hrq : theRequest c m user t true data' = _ := unaryRequest_get c hs.connect m user t (c.send.compress data')
    have hi := context_inv c m (pys! "GET") user t false
    have hlow := Headers.allitems_low hi
    have hct := (getall_nil (ha.unset (pys! "content-type") (by decide) (by
      rw [hrq]
      exact fieldValues_dropped _ _ _ (fun p hp => hlow p (mem_drop hp)) rfl))).2 []
    obtain ⟨hp, hq⟩ := h.query (methodPath m) _ hs.path (by rw [hrq])
    have hm := h.method
    rw [hrq] at hm
    have hparams : wsgiParams env = theParams c (c.send.compress data') := by
      unfold wsgiParams
      rw [hq]
      exact getParams c (c.send.compress data')
    refine ⟨⟨?_, hm, ?_⟩, ⟨h1, .inr ⟨rfl, hs.get rfl, ?_, c.send.compress data', data', ?_, ?_, hdec⟩⟩, h2, h3⟩
    · have := WsgiTarget.direct hp (by rw [rooted_methodPath]; exact hs.endpoint)
      rwa [rooted_methodPath] at this
    · rw [hct]; exact (negotiate_connect []).1 (by decide +kernel)
    · rw [hparams]; exact ⟨c.codec.name, .inl ⟨[], rfl⟩, hs.codec.found⟩
    · rw [hparams]; exact getParams_message c _
    · rw [hparams]; exact .inr ⟨c.send.name, k, ⟨[], rfl⟩, hk1, hk2 data'⟩

theorem asgi_carries (hs : UnaryCall c app codec m ms f req user t useGet) (hd : c.codec.encode req = .ok data)
    {scope : Scope} {env : Env} (h : AsgiSees c.address (theRequest c m user t useGet data) scope env)
    (hroot : scope.rootPath = [] ∨ Dict.get? app.endpoints (scope.rootPath ++ methodPath m) = none) :
    scope.method = verb useGet ∧
    ∃ headers, asgiHeaders scope.headers Headers.empty = .ok headers ∧ AsgiConnectUnary app scope headers (methodPath m) ms f ∧
    AsgiCarries app scope env headers ms codec req ∧
    (∀ d, headers.getD (pys! "accept-encoding") d = c.acceptHeader) ∧
    (headers.get (pys! "connect-timeout-ms")).bind parseInt = pickTimeout t c.timeoutMs := by
  obtain ⟨data', hd', hlim⟩ := hs.message
  have : data' = data := by rw [hd] at hd'; cases hd'; rfl
  subst this
  have hdec := hs.codec.request req data' hd
  have hf := context_fields c hs.connect m (verb useGet) user t
  obtain ⟨headers, hh, ha, _⟩ := asgi_arrived h
  obtain ⟨h1, h2, h3⟩ := arrived_ready hs.timeout hf ha (theRequest_fields c m user t useGet data')
  obtain ⟨k, hk1, hk2⟩ := hs.comps.send
  have htarget : scope.path = scope.rootPath ++ methodPath m → AsgiTarget app scope (methodPath m) ⟨ms, .unary f⟩ := by
    intro hp
    by_cases e : scope.rootPath = []
    · rw [e, List.nil_append] at hp
      have := AsgiTarget.direct (app := app) (scope := scope) (by rw [hp]; exact hs.endpoint)
      rwa [hp] at this
    · rcases hroot with hr | hr
      · exact absurd hr e
      · exact .mounted (by rw [hp]; exact hr) e hp hs.endpoint
  have hun : AsgiUncompressed app c.send.name (c.send.compress data') data' := by
    refine ⟨k, hk1, ?_⟩
    by_cases e : c.send.compress data' = []
    · exact .inl ⟨e, hs.comps.nonempty data' e⟩
    · exact .inr ⟨e, hk2 data'⟩
  cases useGet with
  | false =>
    have hrq : theRequest c m user t false data' = _ := unaryRequest_post c m user t (c.send.compress data')
    have hi := context_inv c m (pys! "POST") user t false
    have hval : ∀ n, fieldValues (theRequest c m user t false data').headers n =
        (c.context m (pys! "POST") user t false).requestHeaders.getall n := by
      intro n
      rw [hrq]
      exact fieldValues_allitems hi n
    have hct := (getall_one (ha.one (pys! "content-type") _ (by decide +kernel) (by rw [hval]; exact hf.type))).2 []
    have hce := (getall_one (ha.one (pys! "content-encoding") _ (by decide +kernel) (by rw [hval]; exact hf.encoding))).2
      (pys! "identity")
    have hpath := h.path (methodPath m) hs.path (by rw [hrq])
    have hm := h.method
    have hbody := h.body
    rw [hrq] at hm hbody
    dsimp only at hm hbody
    rw [List.flatten_cons, List.flatten_nil, List.append_nil] at hbody
    refine ⟨hm, headers, hh, ⟨htarget hpath, hh, ?_⟩, ⟨h1, .inl ⟨hm, c.codec.name, c.send.compress data', data', ?_,
      hs.codec.found, hbody, ?_, hlim rfl, hdec⟩⟩, h2, h3⟩
    · rw [hct]; exact connectType_plain hs.codec.notGrpc
    · rw [hct]; exact .inl (plain_type hs.codec.plain)
    · rw [hce, plainName_lower hs.comps.sendName]; exact hun
  | true =>
    have hrq : theRequest c m user t true data' = _ := unaryRequest_get c hs.connect m user t (c.send.compress data')
    have hi := context_inv c m (pys! "GET") user t false
    have hlow := Headers.allitems_low hi
    have hct := (getall_nil (ha.unset (pys! "content-type") (by decide) (by
      rw [hrq]
      exact fieldValues_dropped _ _ _ (fun p hp => hlow p (mem_drop hp)) rfl))).2 []
    obtain ⟨hp, hq⟩ := h.query (methodPath m) _ hs.path (by rw [hrq])
    have hm := h.method
    rw [hrq] at hm
    refine ⟨hm, headers, hh, ⟨htarget hp, hh, ?_⟩, ⟨h1, .inr ⟨hm, hs.get rfl, _, by rw [hq]; exact utf8Decode_encode _, ?_,
      c.send.compress data', data', c.send.name, ?_, ?_, hun, hdec⟩⟩, h2, h3⟩
    · rw [hct]; exact (negotiate_connect []).1 (by decide +kernel)
    · rw [getParams]; exact ⟨c.codec.name, .inl ⟨[], rfl⟩, hs.codec.found⟩
    · rw [getParams]; exact getParams_message c _
    · rw [getParams]; exact .inl ⟨[], rfl⟩

/-! ### the client reads the response -/

theorem fieldValues_cons (k v : Str) (l : List (Str × Str)) (n : Str) :
    fieldValues ((k, v) :: l) n = if lower k = lower n then v :: fieldValues l n else fieldValues l n := by
  unfold fieldValues
  rw [List.filter_cons]
  by_cases e : lower k = lower n <;> simp [e]

theorem connectHttpStatus_ne (c : Code) : ((connectHttpStatus c : Nat) : Int) ≠ 200 := by cases c <;> decide

/-- the response of a server that knows the client's compressions -/
theorem client_reads {comp : Compression} {run : Call Res} {r : Response} (hcodec : SameCodec c app codec)
    (hcomps : Compressions c app) (hcomp : comp = negotiateCompression c.acceptHeader app.comps) (hreg : Regular c codec run)
    (ha : Answers codec comp run r) {undo : Undo} (hundo : Undoes undo c app) {resp : FullResponse} (hr : Received undo r resp)
    (sink : Sink) :
    (c.unaryResponse sink resp).1 = handleResponseHeaders sink resp.headers ∧
    ((∃ x data, run.result = .ok x ∧ codec.res.encode x = .ok data ∧ (c.unaryResponse sink resp).2 = .ok x) ∨
     ∃ e e', Fails codec run e ∧ (report e' = report (errorOf e) ∧ AsRead (errorOf e) e') ∧
      (c.unaryResponse sink resp).2 = .error (.connect e')) := by
  have hidk : pys! "identity" ∈ Dict.keys c.comps := by
    by_cases h : pys! "identity" ∈ Dict.keys c.comps
    · exact h
    · have := (dict_get?_none c.comps (pys! "identity")).2 h
      rw [hcomps.clientIdentity] at this
      cases this
  have hct : resp.headers.get (pys! "content-type") = (fieldValues r.fields (pys! "content-type")).head? := by
    rw [http_get_eq _ hr.lower, hr.field _ (by decide +kernel) (by decide +kernel)]
  cases ha with
  | success hrun he =>
    rename_i x data
    have hne : Dict.keys c.comps ≠ [] := by intro e; rw [e] at hidk; cases hidk
    have hneg := negotiated hcomps.names hne app.comps
    rw [show negotiateCompression (join (pys! ",") (Dict.keys c.comps)) app.comps = comp from hcomp.symm] at hneg
    -- the name of the compression is one the client knows
    have hname : comp.name ∈ Dict.keys c.comps ∧
        ((comp.name = pys! "identity" ∧ ∀ b, comp.compress b = b) ∨
         (comp.name ≠ pys! "identity" ∧ Dict.get? app.comps comp.name = some comp)) := by
      rcases hneg with hneg | ⟨n, hn, hg⟩
      · rw [hneg]; exact ⟨hidk, .inl ⟨rfl, fun _ => rfl⟩⟩
      · have hnm := hcomps.server n comp hg
        rw [hnm]
        refine ⟨hn, ?_⟩
        by_cases e : n = pys! "identity"
        · rw [e, hcomps.serverIdentity] at hg
          cases hg
          exact .inl ⟨e, fun _ => rfl⟩
        · exact .inr ⟨e, hg⟩
    have henc : fieldValues ([(pys! "content-type", pys! "application/" ++ codec.name),
        (pys! "content-encoding", comp.name), (pys! "vary", pys! "Accept-Encoding")] ++ metadataFields (Spec.metadataOf run.steps))
          (pys! "content-encoding") = [comp.name] := by
      rw [List.cons_append, fieldValues_cons, if_neg (by decide +kernel), List.cons_append, fieldValues_cons,
        if_pos (by decide +kernel), List.cons_append, fieldValues_cons, if_neg (by decide +kernel), List.nil_append,
        hreg.encoding]
    have hcontent : resp.content = data := by
      rcases hr.encoded comp.name henc with ⟨h1, h2⟩ | ⟨h1, h2⟩
      · rcases hname.2 with ⟨_, h3⟩ | ⟨h3, _⟩
        · rw [h2]; exact h3 data
        · exact absurd h1 h3
      · rcases hname.2 with ⟨h3, _⟩ | ⟨_, h3⟩
        · exact absurd h3 h1
        · have := hundo comp.name comp hname.1 h3 h1 data
          rw [this] at h2
          exact (Option.some.inj h2).symm
    have hv : connectValidateResponse c.codec.name resp.status (resp.headers.getD (pys! "content-type") []) = none := by
      rw [hr.status]
      refine (connectValidate_ok _ _).2 ?_
      have : resp.headers.getD (pys! "content-type") [] = pys! "application/" ++ codec.name := by
        unfold HTTPHeaders.getD
        rw [hct, List.cons_append, fieldValues_cons, if_pos (by decide +kernel)]
        rfl
      rw [this, hcodec.name]
      exact plain_type hcodec.plain
    obtain ⟨k, hk⟩ := (responseCompression_ok .connect resp.headers c.comps false).2 (by
      intro enc he
      have he : resp.headers.get (pys! "content-encoding") = some enc := he
      rw [http_get_eq _ hr.lower] at he
      rcases hr.encoding with h1 | h1
      · rw [h1] at he; cases he
      · rw [h1, henc] at he
        cases he
        exact .inr hname.1)
    unfold Client.unaryResponse
    rw [hv]
    dsimp only
    rw [hk]
    dsimp only
    rw [if_pos (show resp.status = 200 from hr.status), hcontent]
    have hdec := hcodec.response x data he
    cases hm : c.readMax with
    | none => exact ⟨rfl, .inl ⟨x, data, hrun, he, hdec⟩⟩
    | some n =>
      dsimp only
      have := hreg.limit x data hrun he n hm
      rw [if_neg (by omega)]
      exact ⟨rfl, .inl ⟨x, data, hrun, he, hdec⟩⟩
  | failure hf hh hresp hm =>
    rename_i e
    obtain ⟨ct, hct1, hfields⟩ := hm
    obtain ⟨hst, _, hbody⟩ := hresp
    obtain ⟨e', hfrom, hrep⟩ := fromResponse_body hbody r.status
    have henc : fieldValues r.fields (pys! "content-encoding") = [] := by
      rw [hfields, fieldValues_cons, if_neg (by rw [hct1]; decide +kernel)]
      exact hreg.encoding
    have hst' : resp.status ≠ 200 := by rw [hr.status, hst]; exact connectHttpStatus_ne _
    have hv : connectValidateResponse c.codec.name resp.status (resp.headers.getD (pys! "content-type") []) = none := by
      have : resp.headers.getD (pys! "content-type") [] = pys! "application/json" := by
        unfold HTTPHeaders.getD
        rw [hct, hfields, fieldValues_cons, if_pos (by rw [hct1]; decide +kernel)]
        rfl
      unfold connectValidateResponse
      dsimp only
      rw [if_pos hst', this, if_pos (by decide +kernel)]
    obtain ⟨k, hk⟩ := (responseCompression_ok .connect resp.headers c.comps false).2 (by
      intro enc he
      have he : resp.headers.get (pys! "content-encoding") = some enc := he
      rw [http_get_eq _ hr.lower] at he
      rcases hr.encoding with h1 | h1
      · rw [h1] at he; cases he
      · rw [h1, henc] at he; cases he)
    unfold Client.unaryResponse
    rw [hv]
    dsimp only
    rw [hk]
    dsimp only
    rw [if_neg hst', hr.status, hr.plain henc, hfrom]
    exact ⟨rfl, .inr ⟨e, e', hf, hrep, rfl⟩⟩
  | http hf => exact absurd rfl ((hreg.exceptions _ hf).2.2 _ _)

end

/-! ### response metadata -/

theorem sortFields_getall (l : HTTPHeaders) (hlow : ∀ p ∈ l, lower p.1 = p.1) : ∀ (hs ts : Headers), hs.Inv → ts.Inv →
    (∀ n, ¬ pys! "trailer-" <+: lower n → (sortFields (hs, ts) l).1.getall n = hs.getall n ++ fieldValues l n) ∧
    (∀ n, (sortFields (hs, ts) l).2.getall n = ts.getall n ++ fieldValues l (pys! "trailer-" ++ n)) := by
  induction l with
  | nil =>
    intro hs ts _ _
    refine ⟨fun n _ => ?_, fun n => ?_⟩ <;> simp [sortFields, fieldValues]
  | cons p l ih =>
    intro hs ts h1 h2
    obtain ⟨k, v⟩ := p
    have hk : lower k = k := hlow (k, v) (by simp)
    have ih := ih fun q hq => hlow q (by simp [hq])
    unfold sortFields
    by_cases e : startsWith (pys! "trailer-") k = true
    · rw [if_pos e]
      have e' : pys! "trailer-" <+: k := List.isPrefixOf_iff_prefix.1 e
      obtain ⟨r, hr⟩ := e'
      obtain ⟨i1, i2⟩ := ih hs (ts.add (k.drop (pys! "trailer-").length) v) h1 (Headers.inv_add h2 _ _)
      refine ⟨fun n hn => ?_, fun n => ?_⟩
      · rw [i1 n hn, fieldValues_cons, if_neg]
        intro e2
        rw [hk] at e2
        exact hn ⟨r, by rw [hr]; exact e2⟩
      · rw [i2 n, Headers.getall_add h2, fieldValues_cons]
        have hd : k.drop (pys! "trailer-").length = r := by rw [← hr]; exact List.drop_left
        have hiff : lower r = lower n ↔ lower k = lower (pys! "trailer-" ++ n) := by
          rw [← hr]
          unfold lower
          rw [List.map_append, List.map_append]
          exact (List.append_right_inj _).symm
        rw [hd]
        by_cases e2 : lower r = lower n
        · rw [if_pos e2, if_pos (hiff.1 e2)]; simp
        · rw [if_neg e2, if_neg (fun e3 => e2 (hiff.2 e3))]
    · rw [if_neg e]
      obtain ⟨i1, i2⟩ := ih (hs.add k v) ts (Headers.inv_add h1 _ _) h2
      refine ⟨fun n hn => ?_, fun n => ?_⟩
      · rw [i1 n hn, Headers.getall_add h1, fieldValues_cons]
        by_cases e2 : lower k = lower n
        · rw [if_pos e2, if_pos e2]; simp
        · rw [if_neg e2, if_neg e2]
      · rw [i2 n, fieldValues_cons, if_neg]
        intro e2
        rw [hk] at e2
        exact e (List.isPrefixOf_iff_prefix.2 ⟨lower n, by rw [e2]; unfold lower; rw [List.map_append]; rfl⟩)

theorem getall_of_falsy {h : Headers} (e : h.truthy = false) (k : Str) : h.getall k = [] := by
  have : h.store = [] := by
    unfold Headers.truthy Headers.len at e
    cases hs : h.store with
    | nil => rfl
    | cons p l => rw [hs] at e; cases e
  unfold Headers.getall
  rw [this]
  rfl

theorem fieldValues_append (a b : List (Str × Str)) (n : Str) : fieldValues (a ++ b) n = fieldValues a n ++ fieldValues b n := by
  unfold fieldValues
  rw [List.filter_append, List.map_append]

theorem fieldValues_none {l : List (Str × Str)} {n : Str} (h : ∀ p ∈ l, lower p.1 ≠ lower n) : fieldValues l n = [] := by
  unfold fieldValues
  rw [List.map_eq_nil_iff, List.filter_eq_nil_iff]
  intro p hp e
  exact h p hp (by simpa using e)

theorem lower_append (a b : Str) : lower (a ++ b) = lower a ++ lower b := List.map_append

theorem fieldValues_trailers (l : List (Str × Str)) (n : Str) :
    fieldValues (l.map fun p => (pys! "trailer-" ++ p.1, p.2)) (pys! "trailer-" ++ n) = fieldValues l n := by
  induction l with
  | nil => rfl
  | cons p l ih =>
    obtain ⟨k, v⟩ := p
    rw [List.map_cons, fieldValues_cons, fieldValues_cons, ih]
    have : lower (pys! "trailer-" ++ k) = lower (pys! "trailer-" ++ n) ↔ lower k = lower n := by
      rw [lower_append, lower_append]
      exact List.append_right_inj _
    by_cases e : lower k = lower n
    · rw [if_pos e, if_pos (this.2 e)]
    · rw [if_neg e, if_neg (fun h => e (this.1 h))]

/-- a fresh metadata object tells what the handler set -/
theorem told {undo : Undo} {r : Response} {resp : FullResponse} (hr : Received undo r resp) {pre : List (Str × Str)} {m : Meta}
    (hf : r.fields = pre ++ metadataFields m)
    (hpre : ∀ p ∈ pre, lower p.1 ∈ [pys! "content-type", pys! "content-encoding", pys! "vary"]) :
    ∃ rm, handleResponseHeaders (some RespMeta.new) resp.headers = some rm ∧ Told m rm := by
  obtain ⟨h1, h2⟩ := sortFields_getall resp.headers hr.lower Headers.empty Headers.empty Headers.inv_empty Headers.inv_empty
  have e1 : ∀ n, Headers.empty.getall n = [] := fun n => getall_of_falsy rfl n
  refine ⟨_, rfl, ?_, ?_⟩
  · intro n hn
    have hv : fieldValues resp.headers n = fieldValues m.headers.allitems n := by
      rw [hr.field n hn.1 (fun e => hn.2.1 (by rw [e]; simp)), hf, fieldValues_append, fieldValues_none, List.nil_append]
      · unfold metadataFields
        rw [fieldValues_append, fieldValues_none (l := List.map _ _), List.append_nil]
        intro p hp
        obtain ⟨q, _, rfl⟩ := List.mem_map.1 hp
        intro e
        refine hn.2.2 ⟨lower q.1, ?_⟩
        rw [← e, lower_append]
        rfl
      · intro p hp e
        exact hn.2.1 (e ▸ hpre p hp)
    have hg := h1 n hn.2.2
    rw [e1, List.nil_append, hv] at hg
    unfold RespMeta.getHeaders
    dsimp only
    cases ht : (sortFields (Headers.empty, Headers.empty) resp.headers).1.truthy with
    | true => rw [if_pos rfl]; exact hg
    | false =>
      rw [if_neg (by decide), ← hg, getall_of_falsy ht]
      exact e1 n
  · intro hno n
    have hnt : lower (pys! "trailer-" ++ n) ∉ transportNames := by
      rw [lower_append]
      intro hc
      have : ∀ x ∈ transportNames, ¬ pys! "trailer-" <+: x := by decide +kernel
      exact this _ hc ⟨lower n, rfl⟩
    have hne : lower (pys! "trailer-" ++ n) ≠ pys! "content-encoding" := by
      rw [lower_append]
      intro e
      cases e
    have hv : fieldValues resp.headers (pys! "trailer-" ++ n) = fieldValues m.trailers.allitems n := by
      rw [hr.field _ hnt hne, hf, fieldValues_append, fieldValues_none, List.nil_append]
      · unfold metadataFields
        rw [fieldValues_append, fieldValues_none, List.nil_append, fieldValues_trailers]
        intro p hp e
        refine hno p hp ⟨lower n, ?_⟩
        rw [e, lower_append]
        rfl
      · intro p hp e
        have h3 := hpre p hp
        rw [e, lower_append] at h3
        simp only [List.mem_cons, List.not_mem_nil, or_false] at h3
        rcases h3 with h3 | h3 | h3 <;> cases h3
    have hg := h2 n
    rw [e1, List.nil_append, hv] at hg
    unfold RespMeta.getTrailers
    dsimp only
    cases ht : (sortFields (Headers.empty, Headers.empty) resp.headers).2.truthy with
    | true => rw [if_pos rfl]; exact hg
    | false =>
      rw [if_neg (by decide), ← hg, getall_of_falsy ht]
      exact e1 n

theorem answers_fields {codec : ServerCodec Req Res} {comp : Compression} {run : Call Res} {r : Response}
    (h : Answers codec comp run r) (hno : ∀ s hs, ¬ Fails codec run (.http s hs)) :
    ∃ pre, r.fields = pre ++ metadataFields (Spec.metadataOf run.steps) ∧
      ∀ p ∈ pre, lower p.1 ∈ [pys! "content-type", pys! "content-encoding", pys! "vary"] := by
  cases h with
  | success hrun he =>
    refine ⟨_, rfl, ?_⟩
    intro p hp
    simp only [List.mem_cons, List.not_mem_nil, or_false] at hp
    rcases hp with rfl | rfl | rfl
    · exact List.mem_cons_self
    · exact List.mem_cons_of_mem _ List.mem_cons_self
    · exact List.mem_cons_of_mem _ (List.mem_cons_of_mem _ List.mem_cons_self)
  | failure hf hh hresp hm =>
    obtain ⟨ct, h1, h2⟩ := hm
    refine ⟨[(ct, pys! "application/json")], h2, ?_⟩
    intro p hp
    rw [List.mem_singleton] at hp
    rw [hp, h1]
    exact List.mem_cons_self
  | http hf => exact absurd hf (hno _ _)

/-! ### the caller's headers -/

theorem timeoutTold_pick (t d : Option Int) : TimeoutTold t d (pickTimeout t d) := by
  refine ⟨?_, ?_⟩
  · rintro ms rfl h
    exact pickTimeout_some ms h d
  · rintro (rfl | rfl) <;> rfl

theorem context_user (c : Client Req Res) (hc : c.proto = .connect) (m : MethodInfo) (hm : Str) (user : UserHeaders)
    (t : Option Int) (stream : Bool) (n : Str) (h1 : lower n ∉ protocolNames) (h2 : lower n ≠ pys! "accept-encoding")
    (h3 : given user n ≠ []) : (c.context m hm user t stream).requestHeaders.getall n = given user n := by
  have he : (c.context m hm user t stream).requestHeaders =
      connectClientHeaders c.userAgent user (pickTimeout t c.timeoutMs) c.codec.name stream c.acceptHeader (some c.send) := by
    unfold Client.context
    rw [hc]
    rfl
  have hne : ∀ x : Str, x ∈ protocolNames → lower x = x → ¬ lower x = lower n := by
    intro x hx e1 e
    exact h1 (by rw [← e, e1]; exact hx)
  rw [he, connectClientHeaders_getall, if_neg, if_neg, if_neg, if_neg, if_neg, if_neg h3]
  · split <;> rfl
  · exact hne _ (by decide +kernel) (by decide +kernel)
  · cases stream
    · intro e; exact h2 (by rw [← e]; decide +kernel)
    · exact hne _ (by decide +kernel) (by decide +kernel)
  · cases stream
    · exact hne _ (by decide +kernel) (by decide +kernel)
    · exact hne _ (by decide +kernel) (by decide +kernel)
  · exact hne _ (by decide +kernel) (by decide +kernel)
  · intro e; exact hne _ (by decide +kernel) (by decide +kernel) e.1

theorem theRequest_user {c : Client Req Res} (hc : c.proto = .connect) (m : MethodInfo) (user : UserHeaders)
    (t : Option Int) (useGet : Bool) (data : Bytes) (n : Str) (h1 : lower n ∉ protocolNames) (h2 : lower n ≠ pys! "accept-encoding")
    (h3 : given user n ≠ []) :
    fieldValues (theRequest c m user t useGet data).headers n = given user n := by
  rw [unaryRequest_fields c _ (context_inv c m _ user t false) _ n, context_user c hc m _ user t false n h1 h2 h3]
  · intro e; exact h1 (by rw [e]; decide +kernel)
  · intro e; exact h1 (by rw [e]; decide +kernel)

theorem wsgi_passes {address : Str} {rq : HttpRequest} {env : Environ} (h : WsgiSees address rq env) {user : UserHeaders}
    (hu : ∀ n, lower n ∉ protocolNames → lower n ≠ pys! "accept-encoding" → given user n ≠ [] →
      fieldValues rq.headers n = given user n) : Passes user joined (wsgiHeaders env.vars) := by
  intro n hf h1 h2 h3
  have hv := hu n h1 h2 h3
  have hg := h.field n hf (by rw [hv]; exact h3)
  rw [hv] at hg
  rw [wsgiHeaders_getall _ h.distinct]
  exact values_one h.distinct (headerOfVar_cgiVar hf.2) hg

theorem asgi_passes {rq : HttpRequest} {headers : Headers} {user : UserHeaders}
    (h : ∀ n, Forwarded n → fieldValues rq.headers n ≠ [] → headers.getall n = fieldValues rq.headers n)
    (hu : ∀ n, lower n ∉ protocolNames → lower n ≠ pys! "accept-encoding" → given user n ≠ [] →
      fieldValues rq.headers n = given user n) : Passes user id headers := by
  intro n hf h1 h2 h3
  have hv := hu n h1 h2 h3
  rw [h n hf (by rw [hv]; exact h3), hv]
  rfl

theorem theRequest_addressed {c : Client Req Res} (hc : c.proto = .connect) (m : MethodInfo) (user : UserHeaders) (t : Option Int)
    (useGet : Bool) (data : Bytes) : Addressed c.address (theRequest c m user t useGet data) (methodPath m) := by
  cases useGet with
  | false => exact .inl (congrArg HttpRequest.url (unaryRequest_post c m user t (c.send.compress data)))
  | true => exact .inr ⟨_, congrArg HttpRequest.url (unaryRequest_get c hc m user t (c.send.compress data))⟩

/-- a Connect unary call sends one request only -/
theorem executeUnary_sends {c : Client Req Res} (hc : c.proto = .connect) (sc : StatusCodec) (sink : Sink) (cs : Circumstances)
    {req : Req} {data : Bytes} (hd : c.codec.encode req = .ok data) (m : MethodInfo) (user : UserHeaders) (t : Option Int)
    (useGet : Bool) :
    SendsOnly (· = theRequest c m user t useGet data) fun http => c.executeUnary sc http sink cs req m user t useGet := by
  intro h h' hh
  have := (hh _ rfl).1
  unfold Client.executeUnary
  dsimp only
  rw [hc]
  dsimp only
  unfold Client.connectUnary
  rw [hd]
  dsimp only
  have e : c.unaryRequest (c.context m (if useGet = true then pys! "GET" else pys! "POST") user t false) (c.send.compress data) =
      theRequest c m user t useGet data := by
    cases useGet <;> rfl
  rw [e, this]

theorem executeUnary_result {c : Client Req Res} (hc : c.proto = .connect) (sc : StatusCodec) (sink : Sink) (cs : Circumstances)
    {req : Req} {data : Bytes} (hd : c.codec.encode req = .ok data) (m : MethodInfo) (user : UserHeaders) (t : Option Int)
    (useGet : Bool) {http : HttpClient} {resp : FullResponse} (hr : http.full (theRequest c m user t useGet data) = .ok resp) :
    c.executeUnary sc http sink cs req m user t useGet = ((c.unaryResponse sink resp).1,
      match (c.unaryResponse sink resp).2 with
      | .ok m => .ok m
      | .error e => .error (mapUnaryExc c.flavor e)) := by
  unfold Client.executeUnary
  dsimp only
  rw [hc]
  dsimp only
  unfold Client.connectUnary
  rw [hd]
  dsimp only
  have e : c.unaryRequest (c.context m (if useGet = true then pys! "GET" else pys! "POST") user t false) (c.send.compress data) =
      theRequest c m user t useGet data := by
    cases useGet <;> rfl
  rw [e, hr]
  dsimp only
  generalize c.unaryResponse sink resp = r
  obtain ⟨s, r⟩ := r
  cases r <;> rfl

end Conn
