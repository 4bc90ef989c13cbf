import Verif.Spec.Detail
import Verif.Props.Relay
/-
C96: the details of an error can be read as the messages that were attached to it.
-/
namespace Props
open Conn Py Spec

variable {Req Res : Type}

theorem afterSlash_append {a b : Str} (hb : '/' ∉ b) : afterSlash (a ++ '/' :: b) = b := by
  unfold afterSlash
  rw [List.reverse_append, List.reverse_cons, List.append_assoc, List.takeWhile_append_of_pos]
  · simp
  · intro x hx
    rw [List.mem_reverse] at hx
    have : x ≠ '/' := fun h => hb (h ▸ hx)
    simpa using this

theorem afterSlash_self {b : Str} (hb : '/' ∉ b) : afterSlash b = b := by
  unfold afterSlash
  have h : ∀ l : Str, (∀ x ∈ l, x ≠ '/') → l.takeWhile (· ≠ '/') = l := by
    intro l
    induction l with
    | nil => intro _; rfl
    | cons x l ih =>
      intro h
      rw [List.takeWhile_cons, if_pos (by simpa using h x (.head _)), ih fun y hy => h y (.tail _ hy)]
  rw [h _ (fun x hx hs => by rw [List.mem_reverse] at hx; exact hb (hs ▸ hx)), List.reverse_reverse]

theorem afterSlash_typeName {url b : Str} (h : typeNameOf url = b) (hb : '/' ∉ b) : afterSlash url = b := by
  unfold typeNameOf at h
  dsimp only at h
  by_cases hp : pys! "type.googleapis.com/" <+: url
  · rw [if_pos hp] at h
    obtain ⟨t, rfl⟩ := hp
    rw [List.drop_left] at h
    subst h
    rw [show pys! "type.googleapis.com/" ++ t = pys! "type.googleapis.com" ++ '/' :: t from rfl]
    exact afterSlash_append hb
  · rw [if_neg hp] at h
    subst h
    exact afterSlash_self hb

theorem detailObj_typeName {L : Protobuf} (d : DetailObj L) : d.typeName = typeNameOf d.any.typeUrl := by
  unfold DetailObj.typeName typeNameOf startsWith
  dsimp only
  by_cases h : pys! "type.googleapis.com/" <+: d.any.typeUrl
  · rw [if_pos h, if_pos (List.isPrefixOf_iff_prefix.2 h)]
  · rw [if_neg h, if_neg (fun h' => h (List.isPrefixOf_iff_prefix.1 h'))]

theorem attaches_any {L : Protobuf} {m : L.Msg} {a : DetailArg L} (h : Attaches L m a) : a.toDetail.any = .pack L m := by
  cases h <;> rfl

theorem packed_reads {L : Protobuf} (hL : LawfulProtobuf L) {m : L.Msg} {url : Str} {b : Bytes} (hu : typeNameOf url = L.fullName (L.descOf m))
    (hb : b = L.toBinary m) : ReadsAs (.ofAny L ⟨url, b⟩) m := by
  subst hb
  have hname : (DetailObj.ofAny L ⟨url, L.toBinary m⟩).typeName = L.fullName (L.descOf m) := by rw [detailObj_typeName]; exact hu
  have hslash : afterSlash url = L.fullName (L.descOf m) := afterSlash_typeName hu (hL.name _)
  have hown : AnyMsg.unpack L ⟨url, L.toBinary m⟩ (L.descOf m) = .ok (some m) := by
    unfold AnyMsg.unpack
    rw [if_pos hslash]
    dsimp only
    rw [hL.binary m]
  refine ⟨hname, rfl, hown, ?_, ?_, ?_, rfl⟩
  · intro desc hd
    show AnyMsg.unpack L ⟨url, L.toBinary m⟩ desc = _
    unfold AnyMsg.unpack
    rw [if_neg (by rw [hslash]; exact fun h => hd h.symm)]
  · intro find hf
    unfold DetailObj.value
    rw [hname]
    show (match find _ with | none => _ | some desc => _) = _
    rw [hf]
    exact hown
  · intro find hf
    unfold DetailObj.value
    rw [hname]
    show (match find _ with | none => _ | some desc => _) = _
    rw [hf]

/-- **C96**: an error made with messages attached to it, in any of the ways, is what a caller gets (up to what C16–C19, C58, C59 and C95 say a caller gets of
an error: code, message, and type name and bytes of the details): then the caller can read each of the messages, at its place, and no others. -/
theorem C96_partial (L : Protobuf) (hL : LawfulProtobuf L) (code : Code) (message : List Char) (args : List (DetailArg L)) (ms : List L.Msg)
    (ha : List.Forall₂ (Attaches L) ms args) (e : ConnectErr) (he : report e = report (.ofArgs code message args)) :
    e.code = code ∧ e.message = message ∧ List.Forall₂ ReadsAs (e.detailObjs L) ms := by
  refine ⟨congrArg Prod.fst he, congrArg (fun x => x.2.1) he, ?_⟩
  have h := congrArg (fun x => x.2.2) he
  change e.details.map (fun d => (typeNameOf d.typeUrl, d.value)) = (args.map fun a => a.toDetail.toError).map (fun d => (typeNameOf d.typeUrl, d.value)) at h
  unfold ConnectErr.detailObjs
  clear he
  generalize e.details = ds at *
  induction ha generalizing ds with
  | nil =>
    cases ds with
    | nil => exact .nil
    | cons d ds => cases h
  | cons h1 _ ih =>
    cases ds with
    | nil => cases h
    | cons d ds =>
      rw [List.map_cons, List.map_cons, List.map_cons] at h
      obtain ⟨h2, h3⟩ := List.cons.inj h
      refine .cons ?_ (ih ds h3)
      obtain ⟨h4, h5⟩ := Prod.mk.inj h2
      have h6 := attaches_any h1
      unfold DetailObj.toError at h4 h5
      dsimp only at h4 h5
      rw [h6] at h4 h5
      refine packed_reads hL ?_ h5
      rw [h4]
      exact typeNameOf_url _

/-- **C96, over the network**: the error of the handler at the end of a chain of services (of any length, with any protocols: see C95) carries messages; the
first caller can read them all. -/
theorem C96_chain (L : Protobuf) (hL : LawfulProtobuf L) (sc : StatusCodec) (req : Req) (origin f : Req → RequestContext → Call Res)
    (horigin : ∀ ctx, Sendable (origin req ctx)) (hc : Chain sc req origin (fun _ => True) f) (hop : Hop Req Res) (hs : hop.Serves sc req f)
    (hr : hop.Carries sc req origin f) (code : Code) (message : List Char) (args : List (DetailArg L)) (ms : List L.Msg)
    (ha : List.Forall₂ (Attaches L) ms args) (hraise : ∀ ctx, (origin req ctx).result = .error (.connect (.ofArgs code message args)))
    (ctx : RequestContext) :
    ∃ e, hop.outcome sc req ctx = .error (.connect e) ∧ e.code = code ∧ e.message = message ∧ List.Forall₂ ReadsAs (e.detailObjs L) ms := by
  obtain ⟨ctx', h⟩ := C95_unary sc req origin f horigin hc hop hs hr ctx
  rw [hraise ctx'] at h
  obtain ⟨e, h1, h2⟩ := h
  exact ⟨e, h1, C96_partial L hL code message args ms ha e h2⟩

/-- C96 is false for an `Any` whose type URL has another prefix than the conventional one (which protobuf allows): the caller can read the message by its
type, but not with a registry, however many types the registry has (names of types have no slash). -/
theorem C96_violation_registry (L : Protobuf) (hL : LawfulProtobuf L) (m : L.Msg) (code : Code) (message : List Char) (pre : List Char)
    (hpre : ¬ pys! "type.googleapis.com/" <+: pre ++ '/' :: L.fullName (L.descOf m)) (e : ConnectErr)
    (he : report e = report (.ofArgs code message [(.any ⟨pre ++ '/' :: L.fullName (L.descOf m), L.toBinary m⟩ : DetailArg L)])) :
    ∃ d, e.detailObjs L = [d] ∧ d.value (.desc (L.descOf m)) = .ok (some m) ∧
      ∀ find : List Char → Option L.Desc, (∀ n, '/' ∈ n → find n = none) → d.value (.registry find) = .ok none := by
  have h := congrArg (fun x => x.2.2) he
  change e.details.map (fun d => (typeNameOf d.typeUrl, d.value)) = [(typeNameOf (pre ++ '/' :: L.fullName (L.descOf m)), L.toBinary m)] at h
  have hself : typeNameOf (pre ++ '/' :: L.fullName (L.descOf m)) = pre ++ '/' :: L.fullName (L.descOf m) := by
    unfold typeNameOf
    dsimp only
    rw [if_neg hpre]
  rw [hself] at h
  unfold ConnectErr.detailObjs
  cases hd : e.details with
  | nil => rw [hd] at h; cases h
  | cons d ds =>
    rw [hd] at h
    rw [List.map_cons] at h
    obtain ⟨h1, h2⟩ := List.cons.inj h
    obtain ⟨h3, h4⟩ := Prod.mk.inj h1
    cases ds with
    | cons _ _ => cases h2
    | nil =>
      refine ⟨_, rfl, ?_, ?_⟩
      · show AnyMsg.unpack L ⟨d.typeUrl, d.value⟩ (L.descOf m) = _
        have hslash : afterSlash d.typeUrl = L.fullName (L.descOf m) := by
          by_cases hp : pys! "type.googleapis.com/" <+: d.typeUrl
          · unfold typeNameOf at h3
            dsimp only at h3
            rw [if_pos hp] at h3
            obtain ⟨t, ht⟩ := hp
            rw [← ht, List.drop_left] at h3
            rw [← ht, h3, ← List.append_assoc]
            exact afterSlash_append (hL.name _)
          · unfold typeNameOf at h3
            dsimp only at h3
            rw [if_neg hp] at h3
            rw [h3]
            exact afterSlash_append (hL.name _)
        unfold AnyMsg.unpack
        rw [if_pos hslash]
        dsimp only
        rw [h4, hL.binary m]
      · intro find hf
        unfold DetailObj.value
        rw [detailObj_typeName]
        show (match find (typeNameOf d.typeUrl) with | none => _ | some desc => _) = _
        rw [h3, hf _ (List.mem_append_right _ (.head _))]

/-- C96 is false of the details of an error where it was made: a detail that was made from a message is read as that message whatever type is asked for. -/
theorem C96_violation_type (L : Protobuf) (m : L.Msg) (arg : ValueArg L) : (DetailObj.ofMessage L m).value arg = .ok (some m) := rfl

/-! ### the hypotheses are met -/

/-- a library with two types of messages, whose binary form is a list of bytes -/
def demoProtobuf : Protobuf where
  Desc := Bool
  Msg := Bool × Bytes
  fullName d := if d then pys! "a.B" else pys! "c.D"
  descOf := Prod.fst
  toBinary := Prod.snd
  fromBinary d b := .ok (d, b)
  toJson m := if m.1 then none else some (.obj [])

theorem demoProtobuf_lawful : LawfulProtobuf demoProtobuf := ⟨fun _ => rfl, fun d => by cases d <;> decide +kernel⟩

def demoArgs : List (DetailArg demoProtobuf) :=
  [.any (.pack demoProtobuf (true, [1, 2, 255])), .message (false, []), .detail (.ofMessage demoProtobuf (true, []))]

def demoMessages : List demoProtobuf.Msg := [(true, [1, 2, 255]), (false, []), (true, [])]

example : List.Forall₂ (Attaches demoProtobuf) demoMessages demoArgs ∧
    (ConnectErr.ofArgs .failedPrecondition (pys! "no") demoArgs).details.map (·.typeUrl) =
      [pys! "type.googleapis.com/a.B", pys! "type.googleapis.com/c.D", pys! "type.googleapis.com/a.B"] :=
  ⟨.cons .packed (.cons .message (.cons .detail .nil)), by decide +kernel⟩

/-- the handler raises an error with these messages -/
def demoRaises (_ : Bytes) (_ : RequestContext) : Call Bytes := ⟨[], .error (.connect (.ofArgs .failedPrecondition (pys! "no") demoArgs))⟩

/-- A call by gRPC of a handler that raises such an error: all hypotheses of C96 are met, and the caller reads the three messages. -/
example : ∃ hop : Hop Bytes Bytes, hop.client.proto = .grpc ∧ ∀ ctx, ∃ e, hop.outcome protobufStatus [4, 5] ctx = .error (.connect e) ∧
    List.Forall₂ ReadsAs (e.detailObjs demoProtobuf) demoMessages := by
  have hpath : PlainPath (methodPath echoInfo) := ⟨⟨_, rfl⟩, by decide +kernel⟩
  obtain ⟨http, hn⟩ := overAsgi_exists (relayHop .grpc demoRaises ⟨fun _ => .error .cancelled, fun _ => .error .cancelled⟩) protobufStatus hpath
    (fun _ b => ⟨b.reverse, rfl⟩)
  refine ⟨relayHop .grpc demoRaises http, rfl, fun ctx => ?_⟩
  have hsend : ∀ ctx, Sendable (demoRaises [4, 5] ctx) := by
    intro ctx
    refine ⟨⟨rfl, ⟨[], rfl⟩, by show ∀ n ∈ grpcReserved, Headers.empty.getall n = []; decide +kernel⟩, ?_⟩
    intro e he
    cases he
    have hds : (ConnectErr.ofArgs .failedPrecondition (pys! "no") demoArgs).details = [⟨pys! "type.googleapis.com/a.B", [1, 2, 255], none⟩,
      ⟨pys! "type.googleapis.com/c.D", [], some (.obj [])⟩, ⟨pys! "type.googleapis.com/a.B", [], none⟩] := rfl
    refine ⟨rfl, (fun s hs h => by cases h), ?_, by decide +kernel, ?_⟩
    · intro d hd j hj
      change d ∈ (ConnectErr.ofArgs .failedPrecondition (pys! "no") demoArgs).details at hd
      rw [hds] at hd
      simp only [List.mem_cons, List.not_mem_nil, or_false] at hd
      rcases hd with rfl | rfl | rfl <;> cases hj
      exact demoError_debug ⟨pys! "c.D", [], some (.obj [])⟩ (.tail _ (.head _)) _ rfl
    · intro d hd
      change d ∈ (ConnectErr.ofArgs .failedPrecondition (pys! "no") demoArgs).details at hd
      rw [hds] at hd
      simp only [List.mem_cons, List.not_mem_nil, or_false] at hd
      rcases hd with rfl | rfl | rfl <;> exact ⟨by decide +kernel, by decide +kernel⟩
  obtain ⟨e, h1, _, _, h2⟩ := C96_chain demoProtobuf demoProtobuf_lawful protobufStatus [4, 5] demoRaises demoRaises hsend .origin
    (relayHop .grpc demoRaises http) (relay_serves .grpc demoRaises http (.inr hn)) ⟨(fun _ _ h => by cases h), (fun h => by cases h)⟩
    .failedPrecondition (pys! "no") demoArgs demoMessages (.cons .packed (.cons .message (.cons .detail .nil))) (fun _ => rfl) ctx
  exact ⟨e, h1, h2⟩

/-- a prefix as in the violation, and a registry that has all types -/
example : ¬ pys! "type.googleapis.com/" <+: pys! "example.com" ++ '/' :: demoProtobuf.fullName (demoProtobuf.descOf (true, [])) ∧
    ∃ find : List Char → Option demoProtobuf.Desc, (∀ d, find (demoProtobuf.fullName d) = some d) ∧ ∀ n, '/' ∈ n → find n = none := by
  refine ⟨by decide +kernel, fun n => if n = pys! "a.B" then some true else if n = pys! "c.D" then some false else none, ?_, ?_⟩
  · intro d; cases d <;> rfl
  · intro n hn
    dsimp only
    rw [if_neg (by rintro rfl; revert hn; decide +kernel), if_neg (by rintro rfl; revert hn; decide +kernel)]

/-- another type than that of the message -/
example : (DetailObj.ofMessage demoProtobuf (true, [])).value (.desc false) = .ok (some (true, [])) ∧ demoProtobuf.descOf (true, []) ≠ false :=
  ⟨rfl, fun h => by cases h⟩

end Props
