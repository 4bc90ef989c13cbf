import Verif.Model.EndStream
import Verif.Spec.Errors
import Verif.Spec.Protocol
import Verif.Proofs.HeaderOps
import Verif.Proofs.Json
import Verif.Proofs.Url
import Verif.Proofs.Base64
import Verif.Proofs.Int
import Verif.Proofs.Negotiate
/-
Lemmas for error fidelity.
-/
namespace Conn
open Py Spec

/-! ### the JSON form of an error -/

theorem typeName_eq (d : ErrorDetail) : d.typeName = typeNameOf d.typeUrl := by
  unfold ErrorDetail.typeName typeNameOf
  dsimp only
  by_cases h : pys! "type.googleapis.com/" <+: d.typeUrl
  · rw [if_pos h, if_pos]; unfold startsWith; exact List.isPrefixOf_iff_prefix.2 h
  · rw [if_neg h, if_neg]; unfold startsWith; exact fun h' => h (List.isPrefixOf_iff_prefix.1 h')

theorem typeNameOf_url (t : Str) : typeNameOf (pys! "type.googleapis.com/" ++ t) = t := by
  unfold typeNameOf
  dsimp only
  rw [if_pos ⟨t, rfl⟩, List.drop_left]

theorem detailToJson_wf (d : ErrorDetail) (h : ∀ j, d.debug = some j → j.WF) : (ConnectErr.detailToJson d).WF := by
  unfold ConnectErr.detailToJson
  dsimp only
  cases hd : d.debug with
  | none => simp [Json.WF, Json.WFMembers]
  | some j => simp [Json.WF, Json.WFMembers, h j hd]

theorem wfElems_iff (l : List Json) : Json.WFElems l ↔ ∀ j ∈ l, j.WF := by
  induction l with
  | nil => simp [Json.WFElems]
  | cons j l ih => simp [Json.WFElems, ih]

theorem wfMembers_iff (l : List (Str × Json)) : Json.WFMembers l ↔ ∀ p ∈ l, p.2.WF := by
  induction l with
  | nil => simp [Json.WFMembers]
  | cons p l ih => obtain ⟨k, v⟩ := p; simp [Json.WFMembers, ih]

theorem toDict_wf (e : ConnectErr) (h : DebugOk e) : e.toDict.WF := by
  unfold ConnectErr.toDict
  dsimp only
  by_cases hd : e.details.isEmpty = true
  · rw [if_pos hd]; simp [Json.WF, Json.WFMembers]
  · rw [if_neg hd]
    simp only [Json.WF, Json.WFMembers, List.cons_append, List.nil_append, List.map_cons, List.map_nil, wfElems_iff]
    refine ⟨by decide, trivial, trivial, ?_, trivial⟩
    intro j hj
    obtain ⟨d, hdm, rfl⟩ := List.mem_map.1 hj
    exact detailToJson_wf d (h d hdm)

theorem detailOfJson_toJson (d : ErrorDetail) :
    ConnectErr.detailOfJson (ConnectErr.detailToJson d) =
      .ok (some { typeUrl := pys! "type.googleapis.com/" ++ d.typeName, value := d.value }) := by
  have key : ∀ tl : List (Str × Json), ConnectErr.detailOfJson (.obj ((pys! "type", .str d.typeName) ::
      (pys! "value", .str (rstripChar '=' (b64encode d.value))) :: tl)) =
      .ok (some { typeUrl := pys! "type.googleapis.com/" ++ d.typeName, value := d.value }) := by
    intro tl
    have h1 : Dict.get? ((pys! "type", Json.str d.typeName) ::
        (pys! "value", .str (rstripChar '=' (b64encode d.value))) :: tl) (pys! "type") = some (.str d.typeName) := rfl
    have h2 : Dict.get? ((pys! "type", Json.str d.typeName) ::
        (pys! "value", .str (rstripChar '=' (b64encode d.value))) :: tl) (pys! "value") =
          some (.str (rstripChar '=' (b64encode d.value))) := rfl
    unfold ConnectErr.detailOfJson
    dsimp only
    rw [h1, h2]
    dsimp only
    rw [b64decode_unpadded]
  unfold ConnectErr.detailToJson
  dsimp only
  cases d.debug with
  | none => exact key []
  | some j => exact key [(pys! "debug", j)]

theorem detailsOfList_toJson (ds : List ErrorDetail) :
    ConnectErr.detailsOfList (ds.map ConnectErr.detailToJson) =
      .ok (ds.map fun d => { typeUrl := pys! "type.googleapis.com/" ++ d.typeName, value := d.value }) := by
  induction ds with
  | nil => rfl
  | cons d ds ih => rw [List.map_cons, ConnectErr.detailsOfList, detailOfJson_toJson, ih]; rfl

/-- reading an error object back -/
theorem fromDict_toDict (e : ConnectErr) (status : Int) (u : Code) : ∃ m e', e.toDict = .obj m ∧ m ≠ [] ∧
    ConnectErr.fromDict m status u = .ok e' ∧ report e' = report e ∧ AsRead e e' := by
  have hcode : ∀ tl : List (Str × Json), ConnectErr.codeOfDict ((pys! "code", .str e.code.value) :: tl) status u = e.code := by
    intro tl
    unfold ConnectErr.codeOfDict
    have : Dict.get? ((pys! "code", Json.str e.code.value) :: tl) (pys! "code") = some (.str e.code.value) := rfl
    rw [this]
    cases e.code <;> rfl
  have hmsg : ∀ tl : List (Str × Json), ConnectErr.messageOfDict ((pys! "code", .str e.code.value) ::
      (pys! "message", .str e.message) :: tl) = e.message := by
    intro tl
    unfold ConnectErr.messageOfDict
    have : Dict.get? ((pys! "code", Json.str e.code.value) :: (pys! "message", .str e.message) :: tl) (pys! "message")
      = some (.str e.message) := rfl
    rw [this]
  unfold ConnectErr.toDict
  dsimp only
  by_cases hd : e.details.isEmpty = true
  · refine ⟨_, ⟨e.code, e.message, []⟩, by rw [if_pos hd], by simp, ?_, ?_, fun _ h => by cases h⟩
    · unfold ConnectErr.fromDict
      rw [hcode, hmsg]
      rfl
    · have : e.details = [] := by simpa using hd
      simp [report, this]
  · refine ⟨_, ⟨e.code, e.message, e.details.map fun d =>
      { typeUrl := pys! "type.googleapis.com/" ++ d.typeName, value := d.value }⟩, by rw [if_neg hd], by simp, ?_, ?_, ?_⟩
    · unfold ConnectErr.fromDict
      rw [List.cons_append, List.cons_append, hcode, hmsg, List.nil_append]
      have : Dict.get? [(pys! "code", Json.str e.code.value), (pys! "message", .str e.message),
        (pys! "details", .arr (e.details.map ConnectErr.detailToJson))] (pys! "details") =
          some (.arr (e.details.map ConnectErr.detailToJson)) := rfl
      rw [this]
      unfold ConnectErr.detailsOfJson
      have ht : (Json.arr (e.details.map ConnectErr.detailToJson)).truthy = true := by
        cases hh : e.details with
        | nil => rw [hh] at hd; exact absurd rfl hd
        | cons d ds => rfl
      dsimp only
      rw [if_pos ht, detailsOfList_toJson]
    · simp only [report, List.map_map]
      congr 2
      apply List.map_congr_left
      intro d _
      simp only [Function.comp, typeName_eq]
      rw [typeNameOf_url]
    · intro x hx
      obtain ⟨d, hd, rfl⟩ := List.mem_map.1 hx
      exact ⟨rfl, d, hd, rfl, .inr (by simp only [typeName_eq])⟩

/-- the body of an error response, read back -/
theorem fromResponse_toJsonBytes (e : ConnectErr) (h : DebugOk e) (status : Int) :
    ∃ e', ConnectErr.fromResponse status e.toJsonBytes = .ok e' ∧ report e' = report e ∧ AsRead e e' := by
  obtain ⟨m, e', h1, _, h2, h3⟩ := fromDict_toDict e status .unavailable
  refine ⟨e', ?_, h3⟩
  unfold ConnectErr.fromResponse ConnectErr.toJsonBytes
  rw [loadsBytes_dumps _ (toDict_wf e h), h1]
  exact h2

/-! ### the trailers of gRPC -/

/-- first value of a name in a list of fields with lower-case names -/
theorem get_allitems {h : Headers} (hi : Headers.Inv h) (k : Str) :
    HTTPHeaders.get h.allitems k = (h.getall k).head? := by
  rw [← Headers.getall_allitems hi, List.head?_map, List.head?_filter]
  unfold HTTPHeaders.get
  have hlow := Headers.allitems_low hi
  generalize h.allitems = l at hlow
  induction l with
  | nil => rfl
  | cons p l ih =>
    obtain ⟨n, v⟩ := p
    have hn : lower n = n := hlow (n, v) (by simp)
    rw [Dict.get?, List.find?_cons]
    by_cases e : n = lower k
    · rw [if_pos e]; simp [e, Headers.lower_idem]
    · rw [if_neg e]
      simp only [hn, e, decide_false]
      exact ih (fun p hp => hlow p (by simp [hp]))

theorem inv_grpcTrailers (sc : StatusCodec) (user : Headers) (error : Option ConnectErr) :
    Headers.Inv (grpcTrailers sc user error) := by
  have h0 := Headers.inv_ofPairs user.allitems
  unfold grpcTrailers
  cases error with
  | none => exact Headers.inv_setItem h0 _ _
  | some e =>
    dsimp only
    have h1 := Headers.inv_setItem h0 (pys! "grpc-status") e.code.grpcStatus
    have h2 : Headers.Inv (if e.message.isEmpty = true then
        (Headers.ofPairs user.allitems).setItem (pys! "grpc-status") e.code.grpcStatus
        else ((Headers.ofPairs user.allitems).setItem (pys! "grpc-status") e.code.grpcStatus).setItem (pys! "grpc-message")
          (quote e.message)) := by
      split
      · exact h1
      · exact Headers.inv_setItem h1 _ _
    split
    · exact h2
    · exact Headers.inv_setItem h2 _ _

/-- value by value: what the trailers of an RPC that failed with `e` hold -/
theorem grpcTrailers_getall (sc : StatusCodec) (user : Headers) (hu : Headers.Inv user) (e : ConnectErr) (k : Str) :
    (grpcTrailers sc user (some e)).getall k =
      if lower (pys! "grpc-status-details-bin") = lower k ∧ e.details ≠ [] then
        [rstripChar '=' (b64encode (sc.toBinary e.toStatus))]
      else if lower (pys! "grpc-message") = lower k ∧ e.message ≠ [] then [quote e.message]
      else if lower (pys! "grpc-status") = lower k then [e.code.grpcStatus]
      else user.getall k := by
  have h0 := Headers.inv_ofPairs user.allitems
  have h1 := Headers.inv_setItem h0 (pys! "grpc-status") e.code.grpcStatus
  have e1 : ∀ {α} (l : List α), (l.isEmpty = true) ↔ l = [] := fun l => by simp
  unfold grpcTrailers
  dsimp only
  by_cases hd : e.details = []
  · have nd : ¬ (lower (pys! "grpc-status-details-bin") = lower k ∧ e.details ≠ []) := fun h => h.2 hd
    rw [if_pos ((e1 _).2 hd), if_neg nd]
    by_cases hm : e.message = []
    · have nm : ¬ (lower (pys! "grpc-message") = lower k ∧ e.message ≠ []) := fun h => h.2 hm
      rw [if_pos ((e1 _).2 hm), if_neg nm, Headers.getall_setItem h0, Headers.getall_copy hu]
    · rw [if_neg (fun h => hm ((e1 _).1 h)), Headers.getall_setItem h1, Headers.getall_setItem h0, Headers.getall_copy hu]
      simp [hm]
  · rw [if_neg (fun h => hd ((e1 _).1 h))]
    by_cases hm : e.message = []
    · rw [if_pos ((e1 _).2 hm), Headers.getall_setItem h1, Headers.getall_setItem h0, Headers.getall_copy hu]
      simp [hm, hd]
    · rw [if_neg (fun h => hm ((e1 _).1 h)), Headers.getall_setItem (Headers.inv_setItem h1 _ _),
        Headers.getall_setItem h1, Headers.getall_setItem h0, Headers.getall_copy hu]
      simp [hm, hd]

theorem grpcTrailers_ok_getall (sc : StatusCodec) (user : Headers) (hu : Headers.Inv user) (k : Str) :
    (grpcTrailers sc user none).getall k =
      if lower (pys! "grpc-status") = lower k then [pys! "0"] else user.getall k := by
  unfold grpcTrailers
  dsimp only
  rw [Headers.getall_setItem (Headers.inv_ofPairs _), Headers.getall_copy hu]

theorem grpcStatus_ne_zero (c : Code) : c.grpcStatus ≠ pys! "0" := by cases c <;> decide

theorem codeOfGrpcStatus_roundtrip (c : Code) : codeOfGrpcStatus c.grpcStatus = c := by cases c <;> decide +kernel

theorem toStatus_code (e : ConnectErr) : codeOfGrpcStatus (intStr e.toStatus.code) = e.code := by
  have : e.toStatus.code = Int.ofNat (grpcNumber e.code) := by
    unfold ConnectErr.toStatus
    dsimp only
    cases e.code <;> decide +kernel
  rw [this]
  cases e.code <;> decide +kernel

theorem b64_unpadded_ne_nil {b : Bytes} (h : b ≠ []) : (rstripChar '=' (b64encode b)).isEmpty = false := by
  cases hh : rstripChar '=' (b64encode b) with
  | nil =>
    exfalso
    have := b64decode_unpadded b
    rw [hh] at this
    have h0 : b64decode ([] ++ pys! "===") = some [] := by decide +kernel
    rw [h0] at this
    exact h (by simpa using this.symm)
  | cons c r => rfl

/-- The error read from fields that carry a status other than 0, in terms of the three protocol fields. -/
theorem errorOfTrailers_get (sc : StatusCodec) (hsc : sc.Lawful) (t : HTTPHeaders) (e : ConnectErr)
    (hok : e.toStatus.Ok)
    (hmsg : e.details = [] → t.get (pys! "grpc-message") = if e.message = [] then none else some (quote e.message))
    (hdet : t.get (pys! "grpc-status-details-bin") =
      if e.details = [] then none else some (rstripChar '=' (b64encode (sc.toBinary e.toStatus)))) :
    ∃ e', errorOfTrailers sc t e.code.grpcStatus none = some (.connect e') ∧ e'.code = e.code ∧
      e'.message = e.message ∧ (e'.details.map (fun d => (d.typeUrl, d.value)) = e.details.map fun d => (d.typeUrl, d.value)) ∧ Bare e' := by
  unfold errorOfTrailers
  rw [if_neg (grpcStatus_ne_zero _), hdet]
  by_cases hd : e.details = []
  · rw [if_pos hd]
    dsimp only
    refine ⟨_, rfl, ?_, ?_, ?_, fun _ h => by cases h⟩
    · exact codeOfGrpcStatus_roundtrip _
    · show unquote (HTTPHeaders.getD t (pys! "grpc-message") []) = e.message
      unfold HTTPHeaders.getD
      rw [hmsg hd]
      by_cases hm : e.message = []
      · rw [if_pos hm, hm]; rfl
      · rw [if_neg hm]; exact unquote_quote _
    · rw [hd]
  · rw [if_neg hd]
    dsimp only
    have hne : e.toStatus.details ≠ [] := by
      unfold ConnectErr.toStatus; simpa using hd
    have hb : sc.toBinary e.toStatus ≠ [] := by
      intro h0
      have h1 := hsc.roundtrip _ hok
      rw [h0, hsc.empty] at h1
      exact hne (congrArg Status.details (Except.ok.inj h1)).symm
    rw [b64_unpadded_ne_nil hb, if_neg (by simp), b64decode_unpadded]
    dsimp only
    rw [hsc.roundtrip _ hok]
    dsimp only
    refine ⟨_, rfl, ?_, rfl, ?_, ?_⟩
    · exact toStatus_code e
    · simp only [ConnectErr.toStatus, List.map_map]
      rfl
    · intro x hx
      obtain ⟨d, _, rfl⟩ := List.mem_map.1 hx
      rfl

/-! ### the trailer block of gRPC-Web -/

theorem byte_of_encodeChar (c : Char) (b : UInt8) (hb : b ∈ utf8EncodeChar c) (h : b.toNat < 128) :
    c.toNat = b.toNat := by
  have hv := char_valid c
  unfold utf8EncodeChar at hb
  generalize c.toNat = n at *
  dsimp only at hb
  split at hb
  · simp only [List.mem_singleton] at hb
    subst hb; rw [ofNat_byte _ (by omega)]
  · split at hb
    · simp only [List.mem_cons, List.not_mem_nil, or_false] at hb
      rcases hb with rfl | rfl <;> rw [ofNat_byte _ (by omega)] at h <;> omega
    · split at hb
      · simp only [List.mem_cons, List.not_mem_nil, or_false] at hb
        rcases hb with rfl | rfl | rfl <;> rw [ofNat_byte _ (by omega)] at h <;> omega
      · simp only [List.mem_cons, List.not_mem_nil, or_false] at hb
        rcases hb with rfl | rfl | rfl | rfl <;> rw [ofNat_byte _ (by omega)] at h <;> omega

/-- an ASCII byte of the encoding stands for that character -/
theorem mem_utf8Encode_ascii {s : Str} {b : UInt8} (hb : b ∈ utf8Encode s) (h : b.toNat < 128) :
    Char.ofNat b.toNat ∈ s := by
  unfold utf8Encode at hb
  rw [List.mem_flatMap] at hb
  obtain ⟨c, hc, hb⟩ := hb
  have := byte_of_encodeChar c b hb h
  rw [← this, Char.ofNat_toNat]; exact hc

/-- the lines of a trailer block -/
def lineBytes (p : Str × Str) : Bytes := utf8Encode p.1 ++ [58, 32] ++ utf8Encode p.2

theorem splitCRLF_line : ∀ (l rest : Bytes), (13 : UInt8) ∉ l → splitCRLF (l ++ 13 :: 10 :: rest) = l :: splitCRLF rest
  | [], rest, _ => by
    rw [List.nil_append, splitCRLF, if_pos ⟨rfl, rfl⟩]
  | [b], rest, h => by
    have hb : b ≠ 13 := by simpa using Ne.symm (by simpa using h : (13 : UInt8) ≠ b)
    rw [List.singleton_append, splitCRLF, if_neg (fun hh => hb hh.1), splitCRLF, if_pos ⟨rfl, rfl⟩]
  | b :: c :: l, rest, h => by
    have hb : b ≠ 13 := by rintro rfl; exact h (by simp)
    have ih := splitCRLF_line (c :: l) rest (by intro hm; exact h (by simp at hm ⊢; exact .inr hm))
    rw [List.cons_append] at ih
    rw [List.cons_append, List.cons_append, splitCRLF, if_neg (fun hh => hb hh.1), ih]

theorem splitCRLF_lines (ls : List Bytes) (h : ∀ l ∈ ls, (13 : UInt8) ∉ l) :
    splitCRLF (ls.flatMap fun l => l ++ [13, 10]) = ls ++ [[]] := by
  induction ls with
  | nil => rfl
  | cons l ls ih =>
    rw [List.flatMap_cons, List.append_assoc]
    show splitCRLF (l ++ 13 :: 10 :: (ls.flatMap fun l => l ++ [13, 10])) = _
    rw [splitCRLF_line l _ (h l (by simp)), ih (fun x hx => h x (by simp [hx]))]; rfl

theorem utf8Encode_trailerBlock (items : List (Str × Str)) :
    utf8Encode (trailerBlock items) = (items.map lineBytes).flatMap fun l => l ++ [13, 10] := by
  induction items with
  | nil => rfl
  | cons p items ih =>
    unfold trailerBlock at ih ⊢
    rw [List.flatMap_cons, utf8Encode_append, ih, List.map_cons, List.flatMap_cons]
    congr 1
    unfold lineBytes
    rw [utf8Encode_append, utf8Encode_append, utf8Encode_append]
    rfl

theorem parseTrailerLine_line (p : Str × Str) (hn : LegalName p.1) (hv : LegalValue p.2) :
    parseTrailerLine (lineBytes p) = some p := by
  have hk : (58 : UInt8) ∉ utf8Encode p.1 := by
    intro hm
    exact hn.colon (mem_utf8Encode_ascii hm (by decide))
  have e1 : (lineBytes p).takeWhile (· != 58) = utf8Encode p.1 := by
    unfold lineBytes
    rw [List.append_assoc, List.takeWhile_append_of_pos (by
      intro b hb; simp only [bne_iff_ne]; rintro rfl; exact hk hb)]
    simp
  have e2 : (lineBytes p).dropWhile (· != 58) = 58 :: 32 :: utf8Encode p.2 := by
    unfold lineBytes
    rw [List.append_assoc, List.dropWhile_append_of_pos (by
      intro b hb; simp only [bne_iff_ne]; rintro rfl; exact hk hb)]
    simp
  unfold parseTrailerLine
  rw [if_pos (by unfold lineBytes; simp), e1, e2, utf8Decode_encode]
  have e3 : ((58 : UInt8) :: 32 :: utf8Encode p.2).drop 1 = utf8Encode (' ' :: p.2) := rfl
  rw [e3, utf8Decode_encode]
  dsimp only
  have s1 : strip p.1 = p.1 := strip_of_ends _ hn.first hn.last
  have s2 : strip (' ' :: p.2) = p.2 := by
    have := strip_padded [' '] p.2 [] (by decide) (by simp) hv.first hv.last
    simpa using this
  rw [s1, s2]

theorem lineBytes_ne_nil (p : Str × Str) : (lineBytes p).isEmpty = false := by
  unfold lineBytes
  cases utf8Encode p.1 <;> simp

theorem lineBytes_no_cr (p : Str × Str) (hn : LegalName p.1) (hv : LegalValue p.2) : (13 : UInt8) ∉ lineBytes p := by
  unfold lineBytes
  intro hm
  simp only [List.mem_append, List.mem_cons, List.not_mem_nil, or_false] at hm
  rcases hm with (hm | hm) | hm
  · exact hn.cr (mem_utf8Encode_ascii hm (by decide))
  · revert hm; decide
  · exact hv.cr (mem_utf8Encode_ascii hm (by decide))

theorem addTrailerLines_lines (items : List (Str × Str)) (h : LegalFields items) (hlow : ∀ p ∈ items, lower p.1 = p.1) :
    ∀ t : HTTPHeaders, addTrailerLines t (items.map lineBytes ++ [[]]) = (t ++ items, false) := by
  induction items with
  | nil => intro t; simp [addTrailerLines]
  | cons p items ih =>
    intro t
    obtain ⟨hn, hv⟩ := h p (by simp)
    rw [List.map_cons, List.cons_append, addTrailerLines, lineBytes_ne_nil, if_neg (by simp),
      parseTrailerLine_line p hn hv]
    obtain ⟨k, v⟩ := p
    dsimp only
    rw [ih (fun p hp => h p (by simp [hp])) (fun p hp => hlow p (by simp [hp]))]
    unfold HTTPHeaders.add
    have : lower k = k := hlow (k, v) (by simp)
    rw [this]; simp

/-- The trailer block is read back field by field. -/
theorem trailerBlock_roundtrip (items : List (Str × Str)) (h : LegalFields items)
    (hlow : ∀ p ∈ items, lower p.1 = p.1) :
    addTrailerLines [] (splitCRLF (utf8Encode (trailerBlock items))) = (items, false) := by
  rw [utf8Encode_trailerBlock, splitCRLF_lines]
  · simpa using addTrailerLines_lines items h hlow []
  · intro l hl
    obtain ⟨p, hp, rfl⟩ := List.mem_map.1 hl
    exact lineBytes_no_cr p (h p hp).1 (h p hp).2

end Conn
