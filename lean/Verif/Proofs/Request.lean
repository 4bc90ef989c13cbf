import Verif.Spec.Request
import Verif.Proofs.StreamTransport
import Verif.Proofs.Conforming
/-
Requests in the published formats arrive at the server.
-/
namespace Conn
open Py Spec Props

variable {Req Res : Type}

/-! ### queries -/

theorem queryText_chars {res : List Char} {t : Str} {b : Bytes} (h : QueryText res t b) :
    ∀ c ∈ t, c.toNat < 128 ∧ (c ∉ res ∨ c = '+' ∨ c = '%' ∨ ∃ n, HexDigit c n) := by
  induction h with
  | nil => simp
  | plain h hr _ ih =>
    intro c hc
    rcases List.mem_cons.1 hc with rfl | hc
    · exact ⟨by omega, .inl hr⟩
    · exact ih c hc
  | blank _ ih =>
    intro c hc
    rcases List.mem_cons.1 hc with rfl | hc
    · exact ⟨by decide, .inr (.inl rfl)⟩
    · exact ih c hc
  | @escaped x y h l _ _ hx hy _ ih =>
    intro c hc
    simp only [List.mem_cons] at hc
    rcases hc with rfl | rfl | rfl | hc
    · exact ⟨by decide, .inr (.inr (.inl rfl))⟩
    · exact ⟨(hexVal_digit hx).2.2, .inr (.inr (.inr ⟨h, hx⟩))⟩
    · exact ⟨(hexVal_digit hy).2.2, .inr (.inr (.inr ⟨l, hy⟩))⟩
    · exact ih c hc

theorem hexDigit_not {c : Char} {n : Nat} (h : HexDigit c n) : c ≠ '&' ∧ c ≠ '=' ∧ c ≠ '+' ∧ c ≠ '%' := by
  refine ⟨?_, ?_, ?_, ?_⟩ <;>
  · rintro rfl
    rcases h with ⟨h1, h2, _⟩ | ⟨h1, h2, _⟩ | ⟨h1, h2, _⟩ <;> revert h1 h2 <;> decide

theorem queryText_no {res : List Char} {t : Str} {b : Bytes} (h : QueryText res t b) {d : Char} (hd : d ∈ res)
    (h1 : d ≠ '+') (h2 : d ≠ '%') (h3 : ∀ n, ¬ HexDigit d n) : ∀ c ∈ t, c ≠ d := by
  intro c hc e
  subst e
  rcases (queryText_chars h c hc).2 with h | h | h | ⟨n, h⟩
  · exact h hd
  · exact h1 h
  · exact h2 h
  · exact h3 n h

theorem queryText_bytes {res : List Char} (hp : '%' ∈ res) (hq : '+' ∈ res) {t : Str} {b : Bytes} (h : QueryText res t b) :
    unquoteToBytes (asBytes (t.map fun c => if c = '+' then ' ' else c)) = b := by
  induction h with
  | nil => rfl
  | @plain c s b h hr _ ih =>
    have h1 : c ≠ '+' := by rintro rfl; exact hr hq
    have h2 : c ≠ '%' := by rintro rfl; exact hr hp
    rw [List.map_cons, if_neg h1]
    show unquoteToBytes (UInt8.ofNat c.toNat :: asBytes _) = _
    rw [unquoteToBytes_ne, ih]
    rw [ofNat_byte _ (by omega)]
    intro e
    apply h2
    apply Char.toNat_inj.1
    exact e
  | blank _ ih =>
    rw [List.map_cons, if_pos rfl]
    show unquoteToBytes (UInt8.ofNat ' '.toNat :: asBytes _) = _
    rw [unquoteToBytes_ne _ (by decide), ih]
    rfl
  | @escaped x y h l s b hx hy _ ih =>
    obtain ⟨hx1, hx2, hx3⟩ := hexVal_digit hx
    obtain ⟨hy1, hy2, hy3⟩ := hexVal_digit hy
    rw [List.map_cons, List.map_cons, List.map_cons, if_neg (by decide), if_neg (hexDigit_not hx).2.2.1, if_neg (hexDigit_not hy).2.2.1]
    show unquoteToBytes (UInt8.ofNat '%'.toNat :: UInt8.ofNat x.toNat :: UInt8.ofNat y.toNat :: asBytes _) = _
    rw [unquoteToBytes, if_pos (by decide), ofNat_byte _ (by omega), ofNat_byte _ (by omega), hx1, hy1]
    dsimp only
    rw [ih, Nat.mul_comm]

theorem unquotePlus_queryText {res : List Char} (hp : '%' ∈ res) (hq : '+' ∈ res) {t : Str} {b : Bytes} (h : QueryText res t b) :
    unquotePlus t = utf8DecodeReplace b := by
  unfold unquotePlus unquote
  rw [unquoteAux_ascii, List.nil_append]
  · rw [queryText_bytes hp hq h]
  · intro c hc
    rw [List.mem_map] at hc
    obtain ⟨d, hd, rfl⟩ := hc
    split
    · decide
    · exact (queryText_chars h d hd).1

theorem not_hex_amp (n : Nat) : ¬ HexDigit '&' n := fun h => (hexDigit_not h).1 rfl
theorem not_hex_eq (n : Nat) : ¬ HexDigit '=' n := fun h => (hexDigit_not h).2.1 rfl

/-- one parameter -/
theorem parse_parameter {name n v : Str} {value : Bytes} (hn : QueryText ['%', '+', '&', '#', '='] n (utf8Encode name))
    (hv : QueryText ['%', '+', '&', '#'] v value) :
    (∀ c ∈ n ++ ['='] ++ v, c ≠ '&') ∧ (n ++ ['='] ++ v).isEmpty = false ∧
    unquotePlus (partitionEq (n ++ ['='] ++ v)).1 = name ∧
    unquotePlus (partitionEq (n ++ ['='] ++ v)).2 = utf8DecodeReplace value := by
  have h1 := queryText_no hn (d := '=') (by decide) (by decide) (by decide) not_hex_eq
  rw [takeWhile_sep _ _ h1]
  refine ⟨?_, by simp, ?_, ?_⟩
  · intro c hc
    simp only [List.mem_append, List.mem_singleton] at hc
    rcases hc with (hc | rfl) | hc
    · exact queryText_no hn (d := '&') (by decide) (by decide) (by decide) not_hex_amp c hc
    · decide
    · exact queryText_no hv (d := '&') (by decide) (by decide) (by decide) not_hex_amp c hc
  · rw [unquotePlus_queryText (by decide) (by decide) hn, utf8DecodeReplace_encode]
  · rw [unquotePlus_queryText (by decide) (by decide) hv]

theorem parseQsl_query {params : List (Str × Bytes)} {q : Str} (h : Query params q) :
    parseQsl q = params.map fun p => (p.1, utf8DecodeReplace p.2) := by
  induction h with
  | one hn hv =>
    obtain ⟨h1, h2, h3, h4⟩ := parse_parameter hn hv
    unfold parseQsl
    rw [split_no_sep _ _ h1, List.filterMap_cons, h2, if_neg (by decide), h3, h4]
    rfl
  | more hn hv _ ih =>
    obtain ⟨h1, h2, h3, h4⟩ := parse_parameter hn hv
    unfold parseQsl at ih ⊢
    rw [List.append_assoc, List.singleton_append, split_append_sep _ _ _ h1, List.filterMap_cons, h2, if_neg (by decide), h3, h4, ih]
    rfl

theorem parseQs_get (l : List (Str × Str)) (k : Str) : ∀ (d : Dict Str (List Str)),
    Dict.get? (l.foldl (fun (d : Dict Str (List Str)) kv => d.set kv.1 ((d.get? kv.1).getD [] ++ [kv.2])) d) k =
      if (l.filter fun p => p.1 = k) = [] then Dict.get? d k
      else some ((Dict.get? d k).getD [] ++ (l.filter fun p => p.1 = k).map (·.2)) := by
  induction l with
  | nil => intro d; simp
  | cons kv r ih =>
    intro d
    rw [List.foldl_cons, ih]
    by_cases e : kv.1 = k
    · subst e
      rw [Dict.get?_set, if_pos rfl, List.filter_cons_of_pos (by simp)]
      split
      · rename_i h; rw [if_neg (by simp), h]; rfl
      · rw [if_neg (by simp)]; simp [List.append_assoc]
    · rw [Dict.get?_set, if_neg e, List.filter_cons_of_neg (by simpa using e)]

/-- the values of a parameter as the server reads them -/
theorem query_get {params : List (Str × Bytes)} {q : Str} (h : Query params q) (k : Str) :
    Dict.get? (parseQs q) k = if parameter params k = [] then none else some ((parameter params k).map utf8DecodeReplace) := by
  unfold parseQs
  rw [parseQsl_query h, parseQs_get]
  have e : ((params.map fun p => (p.1, utf8DecodeReplace p.2)).filter fun p => p.1 = k) =
      (params.filter fun p => p.1 = k).map fun p => (p.1, utf8DecodeReplace p.2) := by
    rw [List.filter_map]
    rfl
  rw [e]
  unfold parameter
  by_cases hk : (params.filter fun p => p.1 = k) = []
  · rw [hk]; simp [Dict.get?]
  · rw [if_neg (by simpa using hk), if_neg (by simpa using hk)]
    simp [Dict.get?, List.map_map, Function.comp_def]

theorem query_none {params : List (Str × Bytes)} {q : Str} (h : Query params q) {k : Str} (hk : parameter params k = []) (v : Str) :
    ¬ Param (parseQs q) k v := by
  rintro ⟨vs, e⟩
  rw [query_get h, if_pos hk] at e
  cases e

theorem query_one {params : List (Str × Bytes)} {q : Str} (h : Query params q) {k s : Str} (hk : parameter params k = [utf8Encode s]) :
    Param (parseQs q) k s := by
  refine ⟨[], ?_⟩
  rw [query_get h, hk, if_neg (by simp)]
  simp [utf8DecodeReplace_encode]

theorem urlBase64_decode {s : Str} {b : Bytes} (h : UrlBase64 s b) : urlsafeB64decode (s ++ pys! "===") = some b := by
  obtain ⟨t, ht, rfl⟩ := h
  have hc : ∀ c ∈ t, IsB64 c := by
    intro c hc
    obtain ⟨k, e⟩ := ht
    exact b64encode_chars b c (by rw [← e]; exact List.mem_append_left _ hc)
  unfold urlsafeB64decode
  rw [← b64decode_base64 ht]
  congr 1
  rw [List.map_append, List.map_map]
  congr 1
  conv => rhs; rw [← List.map_id t]
  refine List.map_congr_left fun c h => ?_
  exact urlsafe_undo c (hc c h)

theorem query_message {params : List (Str × Bytes)} {q : Str} (h : Query params q) {raw : Bytes} (hm : QueryMessage params raw)
    (ht : TextMessage params) : MessageParam (parseQs q) raw := by
  rcases hm with ⟨h1, h2⟩ | ⟨h1, s, h2, h3⟩
  · obtain ⟨s, rfl⟩ := ht h1 raw h2
    exact ⟨s, query_one h h2, .inr ⟨query_none h h1 _, rfl⟩⟩
  · exact ⟨s, query_one h h2, .inl ⟨query_one (s := ['1']) h h1, urlBase64_decode h3⟩⟩

/-! ### content types -/

theorem strip_prefix {p y : Str} (hp : ∀ c ∈ p, isSpace c = false) (hne : p ≠ []) : p <+: strip (p ++ y) := by
  have h1 : lstripBy isSpace (p ++ y) = p ++ y := by
    unfold lstripBy
    cases p with
    | nil => exact absurd rfl hne
    | cons c r => rw [List.cons_append, List.dropWhile_cons, if_neg (by rw [hp c (by simp)]; decide)]
  unfold strip
  rw [h1]
  unfold rstripBy
  rw [List.reverse_append, List.dropWhile_append]
  have h2 : List.dropWhile isSpace p.reverse = p.reverse :=
    dropWhile_none _ fun c hc => hp c (List.mem_reverse.1 hc)
  split
  · rw [h2, List.reverse_reverse]; exact List.prefix_refl p
  · rw [List.reverse_append, List.reverse_reverse]; exact List.prefix_append ..

theorem mediaType_grpc {ct : Str} (h : pys! "application/grpc" <+: ct) : pys! "application/grpc" <+: mediaType ct := by
  obtain ⟨y, rfl⟩ := h
  unfold mediaType
  have h1 : (pys! "application/grpc" ++ y).takeWhile (· != ';') = pys! "application/grpc" ++ y.takeWhile (· != ';') := by
    rw [List.takeWhile_append_of_pos (by decide)]
  rw [h1]
  obtain ⟨z, hz⟩ := strip_prefix (p := pys! "application/grpc") (y := y.takeWhile (· != ';')) (by decide) (by decide)
  rw [← hz, lower_append]
  exact List.prefix_append ..

theorem grpc_prefix {ct : Str} (h : ¬ ConnectType ct) : pys! "application/grpc" <+: ct := by
  by_cases h1 : GrpcType ct
  · rcases h1 with rfl | ⟨y, rfl⟩
    · exact List.prefix_refl _
    · exact ⟨['+'] ++ y, rfl⟩
  · by_cases h2 : GrpcWebType ct
    · rcases h2 with rfl | ⟨y, rfl⟩
      · exact ⟨pys! "-web", rfl⟩
      · exact ⟨pys! "-web+" ++ y, rfl⟩
    · exact absurd ⟨h1, h2⟩ h

theorem connectType_media {ct n : Str} (h : mediaType ct = pys! "application/" ++ n) (hg : ¬ pys! "grpc" <+: n) : ConnectType ct := by
  refine Classical.byContradiction fun hn => ?_
  have h1 := mediaType_grpc (grpc_prefix hn)
  rw [h] at h1
  obtain ⟨z, hz⟩ := h1
  exact hg ⟨z, List.append_cancel_left (as := pys! "application/") hz⟩

theorem requestType_speaks {p : Proto} {n ct : Str} (h : RequestType p n ct) : Speaks p ct ∧ StreamCodecName p ct n := by
  cases p with
  | connect =>
    have h : mediaType ct = pys! "application/" ++ (pys! "connect+" ++ n) := h
    refine ⟨connectType_media h ?_, .inl h⟩
    rintro ⟨z, hz⟩
    cases hz
  | grpc =>
    rcases h with rfl | ⟨rfl, rfl⟩
    · exact ⟨.inr ⟨n, rfl⟩, .inl rfl⟩
    · exact ⟨.inl rfl, .inr ⟨by decide, rfl⟩⟩
  | grpcWeb =>
    rcases h with rfl | ⟨rfl, rfl⟩
    · exact ⟨.inr ⟨n, rfl⟩, .inl rfl⟩
    · exact ⟨.inl rfl, .inr ⟨by decide, rfl⟩⟩

theorem speaks_connect {p : Proto} {ct : Str} (h : Speaks p ct) : ConnectType ct ↔ p = .connect := by
  cases p with
  | connect => exact ⟨fun _ => rfl, fun _ => h⟩
  | grpc => exact ⟨fun hc => absurd h hc.1, fun e => by cases e⟩
  | grpcWeb => exact ⟨fun hc => absurd h hc.2, fun e => by cases e⟩

/-! ### protocol headers -/

theorem forwarded_timeout (p : Proto) : Forwarded (timeoutName p) ∧ timeoutName p ∈ protocolNames := by
  cases p <;> decide +kernel

theorem isDigit_ne_nil {ds : Str} (h : 1 ≤ ds.length) : ds ≠ [] := by rintro rfl; simp at h

/-- the protocol headers of a request in the published format are in order, and its timeout is understood -/
theorem announced_ready {p : Proto} {fields : HTTPHeaders} {h : Headers} {told : Option Int} (ha : Arrived fields h)
    (hv : p = .connect → fieldValues fields (pys! "connect-protocol-version") = [] ∨
      fieldValues fields (pys! "connect-protocol-version") = [['1']]) (ht : Announced fields p told)
    {ct : Str} (hct : h.getD (pys! "content-type") [] = ct) (hs : Speaks p ct) :
    HeadersReady p h ∧ ∀ told', timeoutOf h told' → told' = told := by
  have hver : p = .connect → ∀ v, h.get (pys! "connect-protocol-version") = some v → v = ['1'] := by
    intro hp v e
    rcases hv hp with h1 | h1
    · rw [(getall_nil (ha.unset _ (by decide) h1)).1] at e; cases e
    · rw [(getall_one (ha.one _ _ (by decide +kernel) h1)).1] at e; exact (Option.some.inj e).symm
  cases ht with
  | none h0 =>
    have h1 := (getall_nil (ha.unset _ (forwarded_timeout p).2 h0)).1
    refine ⟨?_, ?_⟩
    · cases p with
      | connect => exact ⟨hver rfl, fun v e => by rw [show pys! "connect-timeout-ms" = timeoutName .connect from rfl, h1] at e; cases e⟩
      | grpc => exact fun v e => by rw [show pys! "grpc-timeout" = timeoutName .grpc from rfl, h1] at e; cases e
      | grpcWeb => exact fun v e => by rw [show pys! "grpc-timeout" = timeoutName .grpcWeb from rfl, h1] at e; cases e
    · intro told' hto
      have hto' := hto
      unfold timeoutOf at hto'
      rw [hct] at hto'
      cases p with
      | connect => rw [hto'.1 hs, show pys! "connect-timeout-ms" = timeoutName .connect from rfl, h1]; rfl
      | grpc =>
        rw [hto'.2 (by rw [speaks_connect hs]; decide), show pys! "grpc-timeout" = timeoutName .grpc from rfl, h1]; rfl
      | grpcWeb =>
        rw [hto'.2 (by rw [speaks_connect hs]; decide), show pys! "grpc-timeout" = timeoutName .grpcWeb from rfl, h1]; rfl
  | @connect ds h0 hd h1 h10 =>
    have h2 := (getall_one (ha.one _ _ (forwarded_timeout .connect).1 h0)).1
    have h2 : h.get (pys! "connect-timeout-ms") = some ds := h2
    have h3 := parseInt_digits ds hd (isDigit_ne_nil h1)
    refine ⟨⟨hver rfl, fun v e => ?_⟩, ?_⟩
    · rw [h2] at e; cases e; exact .inr ⟨h10, _, h3⟩
    · intro told' hto
      rw [hto.1 (by rw [hct]; exact hs), h2]
      exact h3
  | @grpc _ ds u k hp h0 hd h1 h8 hu =>
    have h2 := (getall_one (ha.one _ _ (forwarded_timeout p).1 h0)).1
    have h2 : h.get (pys! "grpc-timeout") = some (ds ++ [u]) := by cases p <;> first | exact absurd rfl hp | exact h2
    have h3 := C11_parse_exact ds u k hd h1 h8 hu
    refine ⟨?_, ?_⟩
    · have : ∀ v, h.get (pys! "grpc-timeout") = some v → v = [] ∨ ∃ n, parseTimeout v = .ok n := by
        intro v e; rw [h2] at e; cases e; exact .inr ⟨_, h3⟩
      cases p with
      | connect => exact absurd rfl hp
      | grpc => exact this
      | grpcWeb => exact this
    · intro told' hto
      rw [hto.2 (by rw [hct, speaks_connect hs]; exact hp), h2]
      show (parseTimeout _).toOption = _
      rw [h3]
      rfl

/-! ### unary requests -/

section
variable {app : App Req Res} {codec : ServerCodec Req Res} {address path : Str} {rq : HttpRequest} {req : Req} {told : Option Int}
  {ms : MethodInfo} {f : Req → RequestContext → Call Res}

/-- a request by GET has a text message, and is to a method without side effects -/
def Readable (ms : MethodInfo) (app : App Req Res) (codec : ServerCodec Req Res) (address path : Str) (rq : HttpRequest) (req : Req) : Prop :=
  Posted app codec address path rq req ∨
    ∃ params, Queried app codec address path params rq req ∧ TextMessage params ∧ ms.idempotency = .noSideEffects

theorem rooted_plain {p : Str} (h : PlainPath p) : rooted p = p := by
  obtain ⟨⟨r, rfl⟩, _⟩ := h
  rfl

theorem asgi_target {scope : Scope} {handler : Handler Req Res} (hep : Dict.get? app.endpoints path = some ⟨ms, handler⟩)
    (hroot : scope.rootPath = [] ∨ Dict.get? app.endpoints (scope.rootPath ++ path) = none)
    (hp : scope.path = scope.rootPath ++ path) : AsgiTarget app scope path ⟨ms, handler⟩ := by
  by_cases e : scope.rootPath = []
  · rw [e, List.nil_append] at hp
    have := AsgiTarget.direct (app := app) (scope := scope) (by rw [hp]; exact hep)
    rwa [hp] at this
  · rcases hroot with hr | hr
    · exact absurd hr e
    · exact .mounted (by rw [hp]; exact hr) e hp hep

theorem asgi_undone (hu : UsualCompressions app) {n : Str} {k : Compression} {raw data : Bytes} (hk : Dict.get? app.comps n = some k)
    (hd : k.decompress raw = .ok data) : AsgiUncompressed app n raw data := by
  refine ⟨k, hk, ?_⟩
  by_cases e : raw = []
  · subst e; exact .inl ⟨rfl, hu.empty n k data hk hd⟩
  · exact .inr ⟨e, hd⟩

theorem content_encoding_var : decide (headerOfVar (pys! "HTTP_CONTENT_ENCODING") = some (lower (pys! "content-encoding"))) = true := by
  decide +kernel

theorem wsgi_conforming (hu : UsualCompressions app) (hver : Version rq) (hto : Announced rq.headers .connect told)
    (hr : Readable ms app codec address path rq req) (hpath : PlainPath path)
    (hep : Dict.get? app.endpoints path = some ⟨ms, .unary f⟩) {env : Environ} (h : WsgiSees address rq env) :
    WsgiConnectUnary app env path ms f rq.method ∧ WsgiCarries app env ms rq.method codec req ∧
    ∀ told', timeoutOf (wsgiHeaders env.vars) told' → told' = told := by
  have ha := wsgi_arrived h
  rcases hr with ⟨hm, hurl, ⟨ct, name, h1, h2, h3, h4⟩, data, h5, h6, h7⟩ | ⟨params, ⟨hm, h1, ⟨q, h2, h3⟩, ⟨name, h4, h5⟩, raw, data, h6, h7, h8⟩, htext, hsafe⟩
  · have hct := (getall_one (ha.one (pys! "content-type") _ (by decide +kernel) h1)).2 []
    obtain ⟨g1, g2⟩ := announced_ready (p := .connect) ha (fun _ => hver) hto hct (connectType_media h2 h3)
    have hp := h.path path hpath hurl
    refine ⟨⟨?_, h.method, by rw [hct]; exact connectType_media h2 h3⟩, ⟨g1, .inl ⟨hm, name, rq.body.flatten, data, ?_, h4, ?_, ?_, h6, h7⟩⟩, g2⟩
    · have := WsgiTarget.direct hp (by rw [rooted_plain hpath]; exact hep)
      rwa [rooted_plain hpath] at this
    · rw [hct]; exact .inl h2
    · rcases h.length with hl | hl
      · rw [← h.body]; exact .whole hl
      · have := WsgiBody.declared hl (by rw [h.body]; exact Nat.le_refl _)
        rwa [h.body, List.take_length] at this
    · rcases h5 with ⟨h5, rfl⟩ | ⟨v, k, h5, h9, h10⟩
      · refine .inl ⟨?_, rfl⟩
        have := h.unset (pys! "content-encoding") (by decide) h5
        unfold wsgiEncoding
        cases e : Dict.get? env.vars (pys! "HTTP_CONTENT_ENCODING") with
        | none => rfl
        | some v =>
          exfalso
          have hmem := Dict.get?_some_mem e
          have : (v : Str) ∈ wsgiValues env.vars (pys! "content-encoding") := by
            unfold wsgiValues
            refine List.mem_map.2 ⟨(_, v), List.mem_filter.2 ⟨hmem, ?_⟩, rfl⟩
            exact content_encoding_var
          rw [‹wsgiValues _ _ = []›] at this
          cases this
      · have hce := h.field (pys! "content-encoding") (by decide +kernel) (by rw [h5]; simp)
        rw [h5] at hce
        have hw : wsgiEncoding env = lower v := by
          unfold wsgiEncoding
          rw [show pys! "HTTP_CONTENT_ENCODING" = cgiVar (pys! "content-encoding") by decide +kernel, hce]
          rfl
        rw [hw]
        by_cases e : lower v = pys! "identity"
        · refine .inl ⟨e, ?_⟩
          rw [e, hu.identity] at h9
          cases h9
          exact (Except.ok.inj h10).symm
        · exact .inr ⟨e, k, h9, h10⟩
  · have hct := (getall_nil (ha.unset (pys! "content-type") (by decide) h1)).2 []
    have hcon : ConnectType [] := (negotiate_connect []).1 (by decide +kernel)
    obtain ⟨g1, g2⟩ := announced_ready (p := .connect) ha (fun _ => hver) hto hct hcon
    obtain ⟨hp, hq⟩ := h.query path q hpath h2
    have hparams : wsgiParams env = parseQs q := by unfold wsgiParams; rw [hq]; rfl
    refine ⟨⟨?_, h.method, by rw [hct]; exact hcon⟩, ⟨g1, .inr ⟨hm, hsafe, ?_, raw, data, ?_, ?_, h8⟩⟩, g2⟩
    · have := WsgiTarget.direct hp (by rw [rooted_plain hpath]; exact hep)
      rwa [rooted_plain hpath] at this
    · rw [hparams]; exact ⟨name, .inl (query_one h3 h4), h5⟩
    · rw [hparams]; exact query_message h3 h6 htext
    · rw [hparams]
      rcases h7 with ⟨h7, rfl⟩ | ⟨n, k, h7, h9, h10⟩
      · exact .inl ⟨query_none h3 h7, rfl⟩
      · exact .inr ⟨n, k, query_one h3 h7, h9, h10⟩

theorem asgi_conforming (hu : UsualCompressions app) (hver : Version rq) (hto : Announced rq.headers .connect told)
    (hr : Readable ms app codec address path rq req) (hpath : PlainPath path)
    (hep : Dict.get? app.endpoints path = some ⟨ms, .unary f⟩) {scope : Scope} {env : Env} (h : AsgiSees address rq scope env)
    (hroot : scope.rootPath = [] ∨ Dict.get? app.endpoints (scope.rootPath ++ path) = none) :
    ∃ headers, AsgiConnectUnary app scope headers path ms f ∧ AsgiCarries app scope env headers ms codec req ∧
      (∀ told', timeoutOf headers told' → told' = told) ∧
      ∀ n, Forwarded n → fieldValues rq.headers n ≠ [] → headers.getall n = fieldValues rq.headers n := by
  obtain ⟨headers, hh, ha, hv⟩ := asgi_arrived h
  refine ⟨headers, ?_⟩
  rcases hr with ⟨hm, hurl, ⟨ct, name, h1, h2, h3, h4⟩, data, h5, h6, h7⟩ | ⟨params, ⟨hm, h1, ⟨q, h2, h3⟩, ⟨name, h4, h5⟩, raw, data, h6, h7, h8⟩, htext, hsafe⟩
  · have hct := (getall_one (ha.one (pys! "content-type") _ (by decide +kernel) h1)).2 []
    obtain ⟨g1, g2⟩ := announced_ready (p := .connect) ha (fun _ => hver) hto hct (connectType_media h2 h3)
    have hp := h.path path hpath hurl
    refine ⟨⟨asgi_target hep hroot hp, hh, by rw [hct]; exact connectType_media h2 h3⟩,
      ⟨g1, .inl ⟨by rw [h.method, hm], name, rq.body.flatten, data, ?_, h4, h.body, ?_, h6, h7⟩⟩, g2, hv⟩
    · rw [hct]; exact .inl h2
    · rcases h5 with ⟨h5, rfl⟩ | ⟨v, k, h5, h9, h10⟩
      · rw [(getall_nil (ha.unset _ (by decide) h5)).2]
        exact asgi_undone hu hu.identity rfl
      · rw [(getall_one (ha.one _ _ (by decide +kernel) h5)).2]
        exact asgi_undone hu h9 h10
  · have hct := (getall_nil (ha.unset (pys! "content-type") (by decide) h1)).2 []
    have hcon : ConnectType [] := (negotiate_connect []).1 (by decide +kernel)
    obtain ⟨g1, g2⟩ := announced_ready (p := .connect) ha (fun _ => hver) hto hct hcon
    obtain ⟨hp, hq⟩ := h.query path q hpath h2
    rcases h7 with ⟨h7, rfl⟩ | ⟨n, k, h7, h9, h10⟩
    · exact ⟨⟨asgi_target hep hroot hp, hh, by rw [hct]; exact hcon⟩,
        ⟨g1, .inr ⟨by rw [h.method, hm], hsafe, q, by rw [hq]; exact utf8Decode_encode _, ⟨name, .inl (query_one h3 h4), h5⟩, _, _,
          pys! "identity", query_message h3 h6 htext, .inr ⟨rfl, query_none h3 h7⟩, asgi_undone hu hu.identity rfl, h8⟩⟩, g2, hv⟩
    · exact ⟨⟨asgi_target hep hroot hp, hh, by rw [hct]; exact hcon⟩,
        ⟨g1, .inr ⟨by rw [h.method, hm], hsafe, q, by rw [hq]; exact utf8Decode_encode _, ⟨name, .inl (query_one h3 h4), h5⟩, raw, data,
          n, query_message h3 h6 htext, .inl (query_one h3 h7), asgi_undone hu h9 h10, h8⟩⟩, g2, hv⟩

/-! ### streams -/

theorem encoding_forwarded (p : Proto) : Forwarded (encodingHeader p) ∧ encodingHeader p ∈ protocolNames := by
  cases p <;> decide +kernel

theorem request_named (hu : Dict.get? app.comps (pys! "identity") = some .identity) {p : Proto} {fields : HTTPHeaders} {h : Headers} (ha : Arrived fields h) {k : Compression}
    (hn : Named app.comps fields (encodingHeader p) k) : RequestCompression app p h k := by
  rcases hn with ⟨h1, rfl⟩ | ⟨n, h1, _, h2⟩
  · left; rw [(getall_nil (ha.unset _ (encoding_forwarded p).2 h1)).2]; exact hu
  · left; rw [(getall_one (ha.one _ _ (encoding_forwarded p).1 h1)).2]; exact h2

variable {p : Proto} {reqs : List Req} {handler : Handler Req Res}

theorem splits_frames {fs : List Frame} (h : ∀ f ∈ fs, f.Ok) : Splits (fs.flatMap Frame.bytes) fs [] :=
  ⟨by rw [List.append_nil], h, incomplete_of_lt_five (by decide)⟩

theorem wsgi_conforming_stream (hu : Dict.get? app.comps (pys! "identity") = some .identity) (hr : StreamedRequest app codec address path p rq reqs told)
    (hpath : PlainPath path) (hep : Dict.get? app.endpoints path = some ⟨ms, handler⟩) (hkind : p = .connect → handler.isUnary = false)
    {env : Environ} (h : WsgiSees address rq env) (htr : p = .grpc → env.sendTrailers = true) {resComp : Compression}
    (hres : ResponseCompression app p (wsgiHeaders env.vars) resComp) :
    ∃ k, WsgiStreamed app env path ⟨ms, handler⟩ p codec k resComp ∧ WsgiMessages app env codec k ⟨reqs, none⟩ ∧
      ∀ told', timeoutOf (wsgiHeaders env.vars) told' → told' = told := by
  have ha := wsgi_arrived h
  obtain ⟨ct, name, h1, h2, h3⟩ := hr.type
  obtain ⟨k, fs, h4, h5, h6, h7⟩ := hr.body
  obtain ⟨h8, h9⟩ := requestType_speaks h2
  have hct := (getall_one (ha.one (pys! "content-type") _ (by decide +kernel) h1)).2 []
  obtain ⟨g1, g2⟩ := announced_ready ha hr.version hr.timeout hct h8
  have hp := h.path path hpath hr.url
  refine ⟨k, ⟨⟨?_, ⟨_, h.method, .inl hr.method⟩, by rw [hct]; exact h8, htr, g1, hkind⟩, ⟨name, by rw [hct]; exact h9, h3⟩,
    request_named hu ha h4, hres⟩, ?_, g2⟩
  · have := WsgiTarget.direct hp (by rw [rooted_plain hpath]; exact hep)
    rwa [rooted_plain hpath] at this
  · refine ⟨fs, [], ?_, (deliver_all _ fs reqs h7).symm⟩
    rw [h.body, h6]
    exact splits_frames fun f hf => (h5 f hf).1

theorem asgi_conforming_stream (hu : Dict.get? app.comps (pys! "identity") = some .identity) (hr : StreamedRequest app codec address path p rq reqs told)
    (hpath : PlainPath path) (hep : Dict.get? app.endpoints path = some ⟨ms, handler⟩) (hkind : p = .connect → handler.isUnary = false)
    {scope : Scope} {env : Env} (h : AsgiSees address rq scope env) (htr : p = .grpc → scope.trailers = true)
    (hroot : scope.rootPath = [] ∨ Dict.get? app.endpoints (scope.rootPath ++ path) = none) :
    ∃ headers, asgiHeaders scope.headers Headers.empty = .ok headers ∧
      (∀ n, Forwarded n → fieldValues rq.headers n ≠ [] → headers.getall n = fieldValues rq.headers n) ∧
      (∀ told', timeoutOf headers told' → told' = told) ∧
      ∃ k, (∀ resComp, ResponseCompression app p headers resComp → AsgiStreamed app scope headers path ⟨ms, handler⟩ p codec k resComp) ∧
        ∀ s, AsgiMessages app env codec k s → s = ⟨reqs, none⟩ := by
  obtain ⟨headers, hh, ha, hv⟩ := asgi_arrived h
  obtain ⟨ct, name, h1, h2, h3⟩ := hr.type
  obtain ⟨k, fs, h4, h5, h6, h7⟩ := hr.body
  obtain ⟨h8, h9⟩ := requestType_speaks h2
  have hct := (getall_one (ha.one (pys! "content-type") _ (by decide +kernel) h1)).2 []
  obtain ⟨g1, g2⟩ := announced_ready ha hr.version hr.timeout hct h8
  have hp := h.path path hpath hr.url
  have hm : scope.method = pys! "POST" := by rw [h.method, hr.method]
  refine ⟨headers, hh, hv, g2, k, ?_, ?_⟩
  · intro resComp hres
    exact ⟨⟨asgi_target hep hroot hp, hh, .inl hm, by rw [hct]; exact h8, htr, g1, hkind⟩,
      ⟨name, .inl ⟨by rw [hm]; decide, by rw [hct]; exact h9⟩, h3⟩, request_named hu ha h4, hres⟩
  · rintro ⟨sm, se⟩ ⟨bytes, e, fs', rest, h10, h11, h12, h13⟩
    obtain ⟨e1, e2⟩ := arrives_unique h.body h10
    subst e1
    subst e2
    have hsp := splits_frames fun f hf => (h5 f hf).1
    rw [← h6] at hsp
    obtain ⟨e3, _⟩ := splits_unique hsp h11
    subst e3
    rw [deliver_all _ fs reqs h7] at h12 h13
    cases h12
    cases h13
    rfl

end

end Conn
