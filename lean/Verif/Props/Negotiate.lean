import Verif.Proofs.Negotiate
import Verif.Proofs.HeaderOps
/-
C24–C28: compression negotiation, content types and codecs.
-/
namespace Props
open Conn Py Spec

/-! ### C24 -/

/-- C24.  For every server configuration and every accept list, the compression applied to the response is the first
entry of the list the server supports, and identity when it supports none of them. -/
theorem C24_first_supported (gzip : Compression) (cfg : Option (List Compression)) (es : List AcceptEntry)
    (hne : es ≠ []) (hok : ∀ e ∈ es, e.Ok) :
    negotiateCompression (acceptText es) (resolveCompressions gzip cfg) =
      (es.findSome? fun e => available gzip cfg e.name).getD .identity := by
  unfold negotiateCompression
  rw [split_acceptText es hne hok, negotiateFrom_entries _ _ hok]
  simp only [resolve_get?]

/-- Every text is the text of an accept list, so C24 covers every header value a client can send. -/
theorem C24_every_header (s : List Char) : ∃ es, es ≠ [] ∧ (∀ e ∈ es, e.Ok) ∧ s = acceptText es := by
  have tw : ∀ (l : List Char) c, c ∈ l.takeWhile isSpace → isSpace c = true := by
    intro l
    induction l with
    | nil => intro c h; cases h
    | cons x l ih =>
      intro c h
      rw [List.takeWhile_cons] at h
      split at h
      · rcases List.mem_cons.1 h with rfl | h
        · assumption
        · exact ih c h
      · cases h
  -- one entry
  have one : ∀ p : List Char, ',' ∉ p → ∃ e : AcceptEntry, e.Ok ∧ p = e.lead ++ e.name ++ e.trail := by
    intro p hp
    refine ⟨⟨p.takeWhile isSpace, strip p, ((p.dropWhile isSpace).reverse.takeWhile isSpace).reverse⟩, ?_, ?_⟩
    · have hsub : ∀ c ∈ strip p, c ∈ p := by
        intro c hc
        unfold strip rstripBy lstripBy at hc
        have h1 := (List.dropWhile_sublist isSpace).subset (List.mem_reverse.1 hc)
        exact (List.dropWhile_sublist isSpace).subset (List.mem_reverse.1 h1)
      refine ⟨?_, ?_, fun h => hp (hsub _ h), ?_, ?_⟩
      · intro c hc; exact tw _ _ hc
      · intro c hc; exact tw _ _ (List.mem_reverse.1 hc)
      · intro c hc
        cases hd : p.dropWhile isSpace with
        | nil => unfold strip rstripBy lstripBy at hc; rw [hd] at hc; cases hc
        | cons x xs =>
          have hx : isSpace x = false := by
            have h0 : (p.dropWhile isSpace).head? = some x := by rw [hd]; rfl
            have := List.head?_dropWhile_not isSpace p
            rw [h0] at this; simpa using this
          have hs : strip p = x :: ((xs.reverse.dropWhile isSpace).reverse) := by
            unfold strip rstripBy lstripBy
            rw [hd, List.reverse_cons, List.dropWhile_append]
            split
            · rename_i he
              have he : xs.reverse.dropWhile isSpace = [] := by simpa using he
              rw [he, List.dropWhile_cons, if_neg (by simp [hx])]; rfl
            · simp
          rw [hs] at hc
          simp only [List.head?_cons, Option.some.injEq] at hc
          rw [← hc]; exact hx
      · intro c hc
        unfold strip rstripBy lstripBy at hc
        rw [List.getLast?_reverse] at hc
        have := List.head?_dropWhile_not isSpace (p.dropWhile isSpace).reverse
        rw [hc] at this; simpa using this
    · dsimp only
      unfold strip rstripBy lstripBy
      rw [List.append_assoc, ← List.reverse_append, List.takeWhile_append_dropWhile, List.reverse_reverse,
        List.takeWhile_append_dropWhile]
  have many : ∀ ps : List (List Char), ps ≠ [] → (∀ p ∈ ps, ',' ∉ p) →
      ∃ es, es ≠ [] ∧ (∀ e ∈ es, AcceptEntry.Ok e) ∧ join [','] ps = acceptText es := by
    intro ps
    induction ps with
    | nil => intro h; exact absurd rfl h
    | cons p ps ih =>
      intro _ hc
      obtain ⟨e, he, hpe⟩ := one p (hc p (by simp))
      cases ps with
      | nil => exact ⟨[e], by simp, by simpa using he, by rw [join, acceptText, hpe]⟩
      | cons q qs =>
        obtain ⟨es, hne, hok, ht⟩ := ih (by simp) (fun p hp => hc p (by simp [hp]))
        cases es with
        | nil => exact absurd rfl hne
        | cons e' es =>
          refine ⟨e :: e' :: es, by simp, ?_, ?_⟩
          · intro x hx
            rcases List.mem_cons.1 hx with rfl | hx
            · exact he
            · exact hok x hx
          · rw [join, acceptText, ht, hpe]
  obtain ⟨es, h1, h2, h3⟩ := many (split ',' s) (by
    cases s with
    | nil => simp [split]
    | cons x xs =>
      rw [split]
      split
      · simp
      · split <;> simp) (split_pieces_no_sep ',' s)
  exact ⟨es, h1, h2, by rw [← h3, join_split]⟩

/-- a concrete case: `"br , gzip,identity"` against the default configuration gives gzip -/
example (gzip : Compression) : negotiateCompression (pys! "br , gzip,identity") (resolveCompressions gzip none) = gzip :=
  C24_first_supported gzip none
    [⟨[], pys! "br", [' ']⟩, ⟨[' '], pys! "gzip", []⟩, ⟨[], pys! "identity", []⟩] (by simp)
    (by
      have k : ∀ l n t : List Char, (l.all isSpace && t.all isSpace && !n.contains ',' &&
          (n.head?.all fun c => !isSpace c) && (n.getLast?.all fun c => !isSpace c)) = true → AcceptEntry.Ok ⟨l, n, t⟩ := by
        intro l n t h
        simp only [Bool.and_eq_true, List.all_eq_true, Bool.not_eq_true', List.contains_eq_mem,
          decide_eq_false_iff_not, Option.all_eq_true] at h
        exact ⟨h.1.1.1.1, h.1.1.1.2, h.1.1.2, h.1.2, h.2⟩
      intro e he
      simp only [List.mem_cons, List.not_mem_nil, or_false] at he
      rcases he with rfl | rfl | rfl <;> exact k _ _ _ (by decide))

/-! ### C25 -/

/-- The names a client puts in its accept list are those of its configuration. -/
theorem keys_available (gzip : Compression) (cfg : Option (List Compression)) (n : List Char) :
    n ∈ Dict.keys (resolveCompressions gzip cfg) ↔ (available gzip cfg n).isSome = true := by
  rw [← resolve_get?]
  have h : ∀ (d : Dict Str Compression), n ∈ d.keys ↔ (d.get? n).isSome = true := by
    intro d
    induction d with
    | nil => simp [Dict.get?, Dict.keys]
    | cons p d ih =>
      obtain ⟨k, v⟩ := p
      simp only [Dict.keys, List.map_cons, List.mem_cons, Dict.get?] at ih ⊢
      by_cases hk : k = n
      · simp [hk]
      · rw [if_neg hk, ← ih]
        constructor
        · rintro (h | h)
          · exact absurd h.symm hk
          · exact h
        · exact Or.inr
  exact h _

theorem acceptText_names (ns : List (List Char)) :
    acceptText (ns.map fun n => ⟨[], n, []⟩) = join [','] ns := by
  induction ns with
  | nil => rfl
  | cons n ns ih =>
    cases ns with
    | nil => simp [acceptText, join]
    | cons m ms => simp only [List.map_cons, acceptText, join] at ih ⊢; rw [ih]; simp

theorem resolve_ne_nil (gzip : Compression) (cfg : Option (List Compression)) :
    Dict.keys (resolveCompressions gzip cfg) ≠ [] := by
  have : pys! "identity" ∈ Dict.keys (resolveCompressions gzip cfg) := by
    rw [keys_available, available_identity]; rfl
  intro h; rw [h] at this; cases this

/-- C25.  `client` and `server` are any two compression configurations whose client names can be written in an accept
list, `p` any protocol.  The encoding the server announces for its response (the name of the compression it chose from
the client's accept list) is accepted by the client and resolves there to a compression of that name. -/
theorem C25_client_resolves (gzip gzip' : Compression) (hg : gzip.name = pys! "gzip") (hg' : gzip'.name = pys! "gzip")
    (client server : Option (List Compression)) (htok : ∀ n, (available gzip client n).isSome = true → TokenLike n)
    (p : Proto) (stream : Bool) :
    let accept := join [','] (Dict.keys (resolveCompressions gzip client))
    let chosen := negotiateCompression accept (resolveCompressions gzip' server)
    ∃ c, p.responseCompression [(p.requestEncodingHeader stream, chosen.name)] (resolveCompressions gzip client) stream
        = .ok c ∧ c.name = chosen.name ∧ available gzip client chosen.name = some c := by
  intro accept chosen
  have hch : (available gzip client chosen.name).isSome = true ∧ chosen.name ≠ [] := by
    have hacc : accept = acceptText ((Dict.keys (resolveCompressions gzip client)).map fun n => ⟨[], n, []⟩) :=
      (acceptText_names _).symm
    have hok : ∀ e ∈ (Dict.keys (resolveCompressions gzip client)).map (fun n => (⟨[], n, []⟩ : AcceptEntry)), e.Ok := by
      intro e he
      obtain ⟨n, hn, rfl⟩ := List.mem_map.1 he
      have := htok n ((keys_available _ _ _).1 hn)
      exact ⟨by simp, by simp, this.2.1, this.2.2.1, this.2.2.2⟩
    have hc : chosen = (((Dict.keys (resolveCompressions gzip client)).map fun n => (⟨[], n, []⟩ : AcceptEntry)).findSome?
        (fun e => available gzip' server e.name)).getD .identity := by
      show negotiateCompression accept _ = _
      rw [hacc, C24_first_supported gzip' server _ (by simpa using resolve_ne_nil gzip client) hok]
    rw [List.findSome?_map] at hc
    cases hf : (Dict.keys (resolveCompressions gzip client)).findSome?
        ((fun e : AcceptEntry => available gzip' server e.name) ∘ fun n => ⟨[], n, []⟩) with
    | none =>
      rw [hf] at hc
      rw [hc]
      show (available gzip client (pys! "identity")).isSome = true ∧ _
      rw [available_identity]
      exact ⟨rfl, by decide⟩
    | some c =>
      rw [hf] at hc
      obtain ⟨n, hn, hnc⟩ := List.exists_of_findSome?_eq_some hf
      have hname : chosen.name = n := by rw [hc]; exact available_name hg' hnc
      rw [hname]
      have := (keys_available _ _ _).1 hn
      exact ⟨this, (htok n this).1⟩
  obtain ⟨h1, h2⟩ := hch
  obtain ⟨c, hc⟩ := Option.isSome_iff_exists.1 h1
  refine ⟨c, ?_, available_name hg hc, hc⟩
  unfold Proto.responseCompression HTTPHeaders.get
  have : Dict.get? ([(p.requestEncodingHeader stream, chosen.name)] : List (Str × Str))
      (lower (p.requestEncodingHeader stream)) = some chosen.name := by
    have hl : lower (p.requestEncodingHeader stream) = p.requestEncodingHeader stream := by
      cases p <;> cases stream <;> decide
    rw [hl]; simp [Dict.get?]
  rw [this]
  dsimp only
  rw [if_neg (by simpa using h2), resolve_get?, hc]

/-- the hypothesis holds for the default configuration -/
example (gzip : Compression) : ∀ n, (available gzip none n).isSome = true → TokenLike n := by
  intro n h
  unfold available at h
  split at h
  · rename_i e; subst e; refine ⟨by decide, by decide, ?_, ?_⟩ <;> (intro c hc; cases hc; decide)
  · dsimp only at h
    split at h
    · rename_i e; subst e; refine ⟨by decide, by decide, ?_, ?_⟩ <;> (intro c hc; cases hc; decide)
    · cases h

/-! ### C27 -/

theorem isPrefixOf_iff (p s : Str) : startsWith p s = true ↔ ∃ r, s = p ++ r := by
  unfold startsWith
  rw [List.isPrefixOf_iff_prefix]
  constructor
  · rintro ⟨r, h⟩; exact ⟨r, h.symm⟩
  · rintro ⟨r, h⟩; exact ⟨r, h.symm⟩

/-- the gRPC content types -/
def IsGrpc (ct : List Char) : Prop := ct = pys! "application/grpc" ∨ ∃ r, ct = pys! "application/grpc+" ++ r
/-- the gRPC-Web content types -/
def IsGrpcWeb (ct : List Char) : Prop := ct = pys! "application/grpc-web" ∨ ∃ r, ct = pys! "application/grpc-web+" ++ r

theorem not_both (ct : List Char) : ¬ (IsGrpc ct ∧ IsGrpcWeb ct) := by
  rintro ⟨h | ⟨r, h⟩, h' | ⟨r', h'⟩⟩ <;> subst h <;> simp at h'

/-- C27.  The content type decides the protocol: for every content type exactly the stated protocol is used. -/
theorem C27_content_type_decides (ct : List Char) :
    (negotiateServerProtocol ct = .grpc ↔ IsGrpc ct) ∧
    (negotiateServerProtocol ct = .grpcWeb ↔ IsGrpcWeb ct) ∧
    (negotiateServerProtocol ct = .connect ↔ ¬ IsGrpc ct ∧ ¬ IsGrpcWeb ct) := by
  have h1 : (ct = pys! "application/grpc" ∨ startsWith (pys! "application/grpc+") ct = true) ↔ IsGrpc ct := by
    unfold IsGrpc; rw [isPrefixOf_iff]
  have h2 : (ct = pys! "application/grpc-web" ∨ startsWith (pys! "application/grpc-web+") ct = true) ↔ IsGrpcWeb ct := by
    unfold IsGrpcWeb; rw [isPrefixOf_iff]
  have hb := not_both ct
  unfold negotiateServerProtocol
  by_cases e1 : IsGrpc ct
  · rw [if_pos (h1.2 e1)]
    have : ¬ IsGrpcWeb ct := fun h => hb ⟨e1, h⟩
    simp [e1, this]
  · rw [if_neg (fun h => e1 (h1.1 h))]
    by_cases e2 : IsGrpcWeb ct
    · rw [if_pos (h2.2 e2)]; simp [e1, e2]
    · rw [if_neg (fun h => e2 (h2.1 h))]; simp [e1, e2]

/-- The content type header of the request a client sends. -/
theorem client_content_type (p : Proto) (ua : Str) (user : UserHeaders) (t : Option Int) (codec : Str) (stream : Bool)
    (accept : Str) (send : Option Compression) :
    (p.clientHeaders ua user t codec stream accept send).getD (pys! "content-type") [] =
      p.requestContentType stream codec := by
  rw [Headers.getD_eq]
  cases p
  · show ((Headers.getall (connectClientHeaders ua user t codec stream accept send) _).head?).getD [] = _
    rw [connectClientHeaders_getall, if_neg (by rintro ⟨h, _⟩; revert h; decide), if_pos rfl]; rfl
  · show ((Headers.getall (grpcClientHeaders .grpc ua user t codec stream accept send) _).head?).getD [] = _
    rw [grpcClientHeaders_getall, if_neg (by rintro ⟨h, _⟩; revert h; decide), if_pos rfl]; rfl
  · show ((Headers.getall (grpcClientHeaders .grpcWeb ua user t codec stream accept send) _).head?).getD [] = _
    rw [grpcClientHeaders_getall, if_neg (by rintro ⟨h, _⟩; revert h; decide), if_pos rfl]; rfl

/-- C27 (second half), partial: the request a client of protocol `p` sends is served with `p`, whatever headers, codec
and compression are used, except for unary Connect calls with a codec whose name is `grpc` or `grpc-web` or begins with
`grpc+` or `grpc-web+`: see `C27_violation_codec_name`. -/
theorem C27_client_protocol_partial (p : Proto) (ua : Str) (user : UserHeaders) (t : Option Int) (codec : Str)
    (stream : Bool) (accept : Str) (send : Option Compression)
    (h : p = .connect → stream = false → ∀ w ∈ [pys! "grpc", pys! "grpc-web"],
      codec ≠ w ∧ ¬ (w ++ ['+']) <+: codec) :
    negotiateServerProtocol
      ((p.clientHeaders ua user t codec stream accept send).getD (pys! "content-type") []) = p := by
  rw [client_content_type]
  obtain ⟨h1, h2, h3⟩ := C27_content_type_decides (p.requestContentType stream codec)
  cases p with
  | grpc => rw [h1]; exact .inr ⟨codec, rfl⟩
  | grpcWeb => rw [h2]; exact .inr ⟨codec, rfl⟩
  | connect =>
    rw [h3]
    cases stream with
    | true => constructor <;> (rintro (h | ⟨r, h⟩) <;> simp [Proto.requestContentType] at h)
    | false =>
      have hh := h rfl rfl
      have a := hh (pys! "grpc") (by simp)
      have b := hh (pys! "grpc-web") (by simp)
      constructor
      · rintro (h | ⟨r, h⟩)
        · simp [Proto.requestContentType] at h; exact a.1 h
        · simp [Proto.requestContentType] at h; exact a.2 ⟨r, by simp [h]⟩
      · rintro (h | ⟨r, h⟩)
        · simp [Proto.requestContentType] at h; exact b.1 h
        · simp [Proto.requestContentType] at h; exact b.2 ⟨r, by simp [h]⟩

/-- The default codecs meet the condition. -/
example : ∀ codec ∈ [pys! "proto", pys! "json"], ∀ w ∈ [pys! "grpc", pys! "grpc-web"],
    codec ≠ w ∧ ¬ (w ++ ['+']) <+: codec := by decide

/-- The second half of C27 fails for a unary Connect call with a custom codec named `grpc`. -/
theorem C27_violation_codec_name : ∃ (codec : Str), negotiateServerProtocol
    ((Proto.clientHeaders .connect [] .none none codec false [] none).getD (pys! "content-type") []) ≠ .connect :=
  ⟨pys! "grpc", by rw [client_content_type]; decide⟩

/-! ### C28 -/

/-- C28, gRPC and gRPC-Web: the server extracts exactly the client's codec name, for every name. -/
theorem C28_grpc_codec (p : Proto) (hp : p ≠ .connect) (ua : Str) (user : UserHeaders) (t : Option Int) (codec : Str)
    (stream : Bool) (accept : Str) (send : Option Compression) :
    p.codecNameFromContentType
      ((p.clientHeaders ua user t codec stream accept send).getD (pys! "content-type") []) stream = codec := by
  rw [client_content_type]
  cases p with
  | connect => exact absurd rfl hp
  | grpc =>
    unfold Proto.codecNameFromContentType Proto.requestContentType
    dsimp only
    rw [if_pos ((isPrefixOf_iff _ _).2 ⟨codec, rfl⟩)]; rfl
  | grpcWeb =>
    unfold Proto.codecNameFromContentType Proto.requestContentType
    dsimp only
    rw [if_pos ((isPrefixOf_iff _ _).2 ⟨codec, rfl⟩)]; rfl

/-- Two texts that differ at most in ASCII letter case. -/
def SameIgnoringCase (a b : List Char) : Prop := a.map Char.toLower = b.map Char.toLower

theorem lowerChar_eq_toLower (c : Char) : lowerChar c = c.toLower := by
  unfold lowerChar
  by_cases h : 'A' ≤ c ∧ c ≤ 'Z'
  · rw [if_pos h]
    have h1 : 65 ≤ c.toNat := h.1
    have h2 : c.toNat ≤ 90 := h.2
    have hc : c = Char.ofNat c.toNat := (Char.ofNat_toNat c).symm
    generalize c.toNat = n at *
    subst hc
    have : ∀ m : Fin 91, 65 ≤ m.val → Char.ofNat (m.val + 32) = (Char.ofNat m.val).toLower := by decide
    exact this ⟨n, by omega⟩ h1
  · rw [if_neg h]
    unfold Char.toLower
    split
    · rename_i hh
      exfalso; apply h
      constructor
      · exact hh.1
      · exact hh.2
    · rfl

theorem lower_eq_toLower (s : Str) : lower s = s.map Char.toLower := by
  unfold lower; congr 1; funext c; exact lowerChar_eq_toLower c

/-- C28, Connect: a content type that is `application/` (for streams `application/connect+`) followed by the codec's name,
in any letter case, with blanks around it and any media-type parameters behind a semicolon, gives that codec's name.
Codec names are lower case, without semicolon, not empty and without blanks at the ends. -/
theorem C28_connect_codec (stream : Bool) (codec : List Char) (hlow : lower codec = codec) (hne : codec ≠ [])
    (hsemi : ';' ∉ codec) (hlast : ∀ c, codec.getLast? = some c → isSpace c = false)
    (ct lead trail params : List Char)
    (hct : SameIgnoringCase ct ((if stream then pys! "application/connect+" else pys! "application/") ++ codec))
    (hlead : ∀ c ∈ lead, isSpace c = true) (htrail : ∀ c ∈ trail, isSpace c = true)
    (hparams : params = [] ∨ params.head? = some ';') :
    Proto.codecNameFromContentType .connect (lead ++ ct ++ trail ++ params) stream = codec := by
  have hl : lower ct = (if stream then pys! "application/connect+" else pys! "application/") ++ codec := by
    rw [lower_eq_toLower, hct, ← lower_eq_toLower]
    unfold lower at hlow ⊢
    rw [List.map_append, hlow]
    cases stream <;> rfl
  generalize hpre : (if stream then pys! "application/connect+" else pys! "application/" : List Char) = pre at *
  have hp0 : pre ≠ [] ∧ ';' ∉ pre ∧ pre.head? = some 'a' := by
    rw [← hpre]; cases stream <;> decide
  -- characters of `ct` against those of its lower-case form
  have hspace : ∀ c, isSpace (lowerChar c) = isSpace c := by
    intro c
    unfold lowerChar
    split
    · rename_i h
      have h1 : 65 ≤ c.toNat := h.1
      have h2 : c.toNat ≤ 90 := h.2
      have hc : c = Char.ofNat c.toNat := (Char.ofNat_toNat c).symm
      generalize c.toNat = n at *
      subst hc
      have : ∀ m : Fin 91, 65 ≤ m.val → isSpace (Char.ofNat (m.val + 32)) = isSpace (Char.ofNat m.val) := by decide
      have h3 : (Char.ofNat n).toNat = n := by
        have : ∀ m : Fin 91, (Char.ofNat m.val).toNat = m.val := by decide
        exact this ⟨n, by omega⟩
      simpa [h3] using this ⟨n, by omega⟩ h1
    · rfl
  have hmap : ct.map lowerChar = pre ++ codec := hl
  have hsemict : ∀ c ∈ ct, c ≠ ';' := by
    rintro c hc rfl
    have : lowerChar ';' ∈ ct.map lowerChar := List.mem_map_of_mem hc
    rw [hmap, show lowerChar ';' = ';' from rfl, List.mem_append] at this
    rcases this with h | h
    · exact hp0.2.1 h
    · exact hsemi h
  have hfirst : ∀ c, ct.head? = some c → isSpace c = false := by
    intro c hc
    have : (ct.map lowerChar).head? = some (lowerChar c) := by rw [List.head?_map, hc]; rfl
    rw [hmap, List.head?_append, hp0.2.2] at this
    simp only [Option.some_or, Option.some.injEq] at this
    rw [← hspace, ← this]; rfl
  have hlastct : ∀ c, ct.getLast? = some c → isSpace c = false := by
    intro c hc
    have : (ct.map lowerChar).getLast? = some (lowerChar c) := by rw [List.getLast?_map, hc]; rfl
    rw [hmap, List.getLast?_append] at this
    cases hcl : codec.getLast? with
    | none => rw [List.getLast?_eq_none_iff] at hcl; exact absurd hcl hne
    | some x =>
      rw [hcl] at this
      simp only [Option.some_or, Option.some.injEq] at this
      rw [← hspace, ← this]; exact hlast x hcl
  have hnorm : normalizeContentType (lead ++ ct ++ trail ++ params) = pre ++ codec := by
    unfold normalizeContentType
    have hpart : partitionFst ';' (lead ++ ct ++ trail ++ params) = lead ++ ct ++ trail := by
      unfold partitionFst
      have hns : ∀ c ∈ lead ++ ct ++ trail, (c != ';') = true := by
        intro c hc
        have hsp : isSpace ';' = false := by decide
        simp only [List.mem_append] at hc
        rw [bne_iff_ne]
        rcases hc with (hc | hc) | hc
        · rintro rfl; have := hlead _ hc; rw [hsp] at this; cases this
        · exact hsemict c hc
        · rintro rfl; have := htrail _ hc; rw [hsp] at this; cases this
      rw [List.takeWhile_append_of_pos hns]
      rcases hparams with h | h
      · rw [h]; simp
      · cases params with
        | nil => cases h
        | cons x r => cases h; rw [List.takeWhile_cons]; simp
    rw [hpart, strip_padded _ _ _ hlead htrail hfirst hlastct, hl]
  show connectCodecName _ stream = codec
  unfold connectCodecName
  rw [hnorm]
  dsimp only
  rw [hpre, if_pos ((isPrefixOf_iff _ _).2 ⟨codec, rfl⟩), List.drop_left]

/-- C28, Connect, for the request a client sends. -/
theorem C28_connect_client_codec (ua : Str) (user : UserHeaders) (t : Option Int) (codec : Str) (stream : Bool)
    (accept : Str) (send : Option Compression) (hlow : lower codec = codec) (hne : codec ≠ []) (hsemi : ';' ∉ codec)
    (hlast : ∀ c, codec.getLast? = some c → isSpace c = false) :
    Proto.codecNameFromContentType .connect
      ((Proto.clientHeaders .connect ua user t codec stream accept send).getD (pys! "content-type") []) stream
      = codec := by
  rw [client_content_type]
  have := C28_connect_codec stream codec hlow hne hsemi hlast (Proto.requestContentType .connect stream codec) [] [] []
    rfl (by simp) (by simp) (.inl rfl)
  simpa using this

/-- `Application/JSON ; charset=utf-8` names the codec `json` -/
example : Proto.codecNameFromContentType .connect (pys! "Application/JSON ; charset=utf-8") false = pys! "json" :=
  C28_connect_codec false (pys! "json") rfl (by decide) (by decide) (by intro c h; cases h; decide)
    (pys! "Application/JSON") [] [' '] (pys! "; charset=utf-8") (by unfold SameIgnoringCase; decide) (by simp)
    (by decide) (.inr rfl)

end Props
