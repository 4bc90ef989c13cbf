import Verif.Spec.Codecs
import Verif.Props.EndToEnd
import Verif.Props.StreamEndToEnd
import Verif.Props.Codings
import Verif.Props.Client
/-
C100: clients and servers left at their defaults understand each other.
-/
namespace Props
open Conn Py Spec

variable {Reg Reg' Req Res : Type}

/-- the codec object for a format -/
def codecFor : WireFormat Reg → ProtoCodec Reg
  | .binary => .binary
  | .json r => .json (pys! "json") r

theorem chosen_eq {R : Registries Reg} {o : Option (ProtoCodec Reg)} {f : WireFormat Reg} (h : Chosen R o f) : clientCodec o = codecFor f := by
  cases h with
  | unset => rfl
  | binary => rfl
  | json => rfl
  | registry h => simp [clientCodec, protoJsonCodec, newJsonCodec, codecFor, h]
  | emptyRegistry h => simp [clientCodec, protoJsonCodec, newJsonCodec, codecFor, h]

theorem offered_eq {R : Registries Reg} {o : Option (List (ProtoCodec Reg))} {fs : List (WireFormat Reg)} (h : Offered R o fs) :
    serverCodecs R o = fs.map codecFor ∧ (fs.map WireFormat.name).Nodup := by
  cases h with
  | unset => exact ⟨rfl, by show [pys! "proto", pys! "json"].Nodup; decide⟩
  | one h =>
    have h : _ = codecFor _ := chosen_eq h
    exact ⟨by simp only [serverCodecs, List.map]; rw [← h]; rfl, by simp⟩
  | two h h' hn =>
    have h : _ = codecFor _ := chosen_eq h
    have h' : _ = codecFor _ := chosen_eq h'
    exact ⟨by simp only [serverCodecs, List.map]; rw [← h, ← h']; rfl, by simpa using hn⟩

theorem codecFor_name (f : WireFormat Reg) : (codecFor f).name = f.name := by cases f <;> rfl

theorem speaks_codecFor (f : WireFormat Reg) (req : MessageClass Reg Req) (res : MessageClass Reg Res) :
    SpeaksFormat f req res ((codecFor f).onServer req res) where
  name := codecFor_name f
  reads b := by cases f <;> rfl
  writes m b := by
    cases f with
    | binary => exact Iff.rfl
    | json r =>
      show (match res.toJson r m with | .ok text => Except.ok (utf8Encode text) | .error e => .error e) = .ok b ↔ _
      cases h : res.toJson r m with
      | error e =>
        constructor
        · intro h
          cases h
        · rintro ⟨t, ht, _⟩
          have := h.symm.trans ht
          cases this
      | ok t =>
        constructor
        · intro hb
          cases hb
          exact ⟨t, h, rfl⟩
        · rintro ⟨t', ht, hb⟩
          have := h.symm.trans ht
          cases this
          rw [hb]

/-- What one side writes in its format, the other side reads in its own. -/
theorem passes_decode {M : Type} {w : MessageClass Reg M} {r : MessageClass Reg' M} {f : WireFormat Reg} {f' : WireFormat Reg'} (h : Carries w r f f')
    {m : M} {b : Bytes} (he : (codecFor f).encode w m = .ok b) : (codecFor f').decode r b = .ok m := by
  cases h with
  | binary h => exact h m b he
  | @json reg reg' h =>
    have he : (match w.toJson reg m with | .ok text => Except.ok (utf8Encode text) | .error e => .error e) = .ok b := he
    cases ht : w.toJson reg m with
    | error e => rw [ht] at he; cases he
    | ok t =>
      rw [ht] at he
      cases he
      exact h m t ht

theorem format_plain (f : WireFormat Reg) : PlainName f.name ∧ ¬ pys! "grpc" <+: f.name := by
  cases f
  · show PlainName (pys! "proto") ∧ ¬ pys! "grpc" <+: pys! "proto"
    decide +kernel
  · show PlainName (pys! "json") ∧ ¬ pys! "grpc" <+: pys! "json"
    decide +kernel

theorem get?_ofList_nodup {V : Type} {l : List (Str × V)} {n : Str} {v : V} (hn : (l.map (·.1)).Nodup) (h : (n, v) ∈ l) :
    Dict.get? (Dict.ofList l) n = some v := by
  unfold Dict.ofList
  rw [get?_ofList_aux]
  have hf : l.filter (fun p => p.1 = n) = [(n, v)] := by
    induction l with
    | nil => cases h
    | cons a l ih =>
      rw [List.map_cons, List.nodup_cons] at hn
      rcases List.mem_cons.1 h with rfl | h
      · rw [List.filter_cons_of_pos (by simp), List.filter_eq_nil_iff.2]
        intro p hp
        have : p.1 ≠ n := fun hc => hn.1 (List.mem_map.2 ⟨p, hp, hc⟩)
        simpa using this
      · rw [List.filter_cons_of_neg, ih hn.2 h]
        have : a.1 ≠ n := fun hc => hn.1 (List.mem_map.2 ⟨(n, v), h, hc.symm⟩)
        simpa using this
  rw [hf]
  rfl

/-- The server finds the codec of each format it offers. -/
theorem offered_found {R : Registries Reg} {o : Option (List (ProtoCodec Reg))} {fs : List (WireFormat Reg)} (h : Offered R o fs)
    (req : MessageClass Reg Req) (res : MessageClass Reg Res) {f : WireFormat Reg} (hf : f ∈ fs) :
    Dict.get? (Dict.ofList (((serverCodecs R o).map (·.onServer req res)).map fun c => (c.name, c))) f.name =
      some ((codecFor f).onServer req res) := by
  obtain ⟨he, hn⟩ := offered_eq h
  refine get?_ofList_nodup ?_ ?_
  · rw [he]
    simp only [List.map_map]
    have : ((fun x : Str × ServerCodec Req Res => x.1) ∘ ((fun c : ServerCodec Req Res => (c.name, c)) ∘
        ((fun k : ProtoCodec Reg => k.onServer req res) ∘ codecFor))) = WireFormat.name := by
      funext f
      exact codecFor_name f
    rw [this]
    exact hn
  · rw [he]
    refine List.mem_map.2 ⟨(codecFor f).onServer req res, List.mem_map.2 ⟨codecFor f, List.mem_map.2 ⟨f, hf, rfl⟩, rfl⟩, ?_⟩
    show ((codecFor f).name, _) = _
    rw [codecFor_name]

theorem gzip_name (g : Format) : (gzipCompression g).name = pys! "gzip" := rfl

theorem plain_defaults (g : Format) (n : Str) (h : (available (gzipCompression g) none n).isSome = true) : PlainName n := by
  have h1 : n ∈ Dict.keys (resolveCompressions (gzipCompression g) none) := (keys_available ..).2 h
  have h2 : Dict.keys (resolveCompressions (gzipCompression g) none) = [pys! "gzip", pys! "identity"] := rfl
  rw [h2] at h1
  have h3 : ∀ n ∈ [pys! "gzip", pys! "identity"], PlainName n := by decide +kernel
  exact h3 n h1

/-- **C100, codecs**: a client and a server, each with its protobuf library, when the client chooses a format and the server offers one of the
same name, and messages pass between the two libraries in that format: they have the same codec, in the sense of C58 and C59, and the
codec the server uses reads and writes that format. Every other setting of the two may be anything. -/
theorem C100_codecs (RC : Registries Reg) (RS : Registries Reg') (creq : MessageClass Reg Req) (cres : MessageClass Reg Res)
    (sreq : MessageClass Reg' Req) (sres : MessageClass Reg' Res) (g g' : Format) (fl : Flavor) (address : Str) (p : Proto)
    (timeoutMs readMax readMax' : Option Int) (ua path : Str) (endpoints : Dict Str (Endpoint Req Res))
    (choice : Option (ProtoCodec Reg)) (offer : Option (List (ProtoCodec Reg'))) (f : WireFormat Reg) (f' : WireFormat Reg') (fs : List (WireFormat Reg'))
    (hc : Chosen RC choice f) (ho : Offered RS offer fs) (hf : f' ∈ fs) (hq : Carries creq sreq f f') (hr : Carries sres cres f' f) :
    ∃ codec, SpeaksFormat f' sreq sres codec ∧
      SameCodec (protoClient creq cres g fl address choice p timeoutMs readMax ua) (protoApp RS sreq sres g' endpoints path readMax' offer) codec := by
  have hname : f.name = f'.name := by cases hq <;> rfl
  have hcn : (protoClient creq cres g fl address choice p timeoutMs readMax ua).codec.name = f.name := by
    show (clientCodec choice).name = _
    rw [chosen_eq hc, codecFor_name]
  refine ⟨(codecFor f').onServer sreq sres, speaks_codecFor f' sreq sres, ?_, ?_, ?_, ?_, ?_, ?_⟩
  · rw [hcn, hname]
    exact offered_found ho sreq sres hf
  · rw [hcn, hname]
    exact codecFor_name f'
  · rw [hcn]
    exact (format_plain f).1
  · rw [hcn]
    exact (format_plain f).2
  · intro m b he
    have he : (clientCodec choice).encode creq m = .ok b := he
    rw [chosen_eq hc] at he
    exact passes_decode hq he
  · intro m b he
    show (clientCodec choice).decode cres b = .ok m
    rw [chosen_eq hc]
    exact passes_decode hr he

/-- **C100, defaults**: so do clients and servers of one protobuf library that are left at their defaults, whether the client chooses binary (or nothing)
or JSON: the server offers both. Their compressions, too, agree as C58 and C59 ask. -/
theorem C100_defaults (R : Registries Reg) (req : MessageClass Reg Req) (res : MessageClass Reg Res) (g : Format) (hg : Sensible g) (fl : Flavor) (address : Str)
    (p : Proto) (timeoutMs readMax readMax' : Option Int) (ua path : Str) (endpoints : Dict Str (Endpoint Req Res))
    (hb : BinaryReads req req ∧ BinaryReads res res) (hj : JsonReads req R.dflt req R.dflt ∧ JsonReads res R.dflt res R.dflt) :
    ∀ choice ∈ [none, some protoBinaryCodec, some (protoJsonCodec R none)],
    let c := protoClient req res g fl address choice p timeoutMs readMax ua
    let app := protoApp R req res g endpoints path readMax' none
    (∃ codec, SameCodec c app codec) ∧ Compressions c app ∧ StreamCompressions c app := by
  intro choice hch c app
  have hround := (C92_round_trip g hg (gzipCompression g) (by simp)).2
  have hne := (C92_round_trip g hg (gzipCompression g) (by simp)).1
  refine ⟨?_, ?_, ?_⟩
  · have key : ∀ f, Chosen R choice f → f ∈ [WireFormat.binary, .json R.dflt] → Carries req req f f → Carries res res f f → ∃ codec, SameCodec c app codec := by
      intro f hc hf hq hr
      obtain ⟨codec, _, h⟩ := C100_codecs R R req res req res g g fl address p timeoutMs readMax readMax' ua path endpoints choice none f f _ hc .unset hf hq hr
      exact ⟨codec, h⟩
    simp only [List.mem_cons, List.not_mem_nil, or_false] at hch
    rcases hch with rfl | rfl | rfl
    · exact key _ .unset (by simp) (.binary hb.1) (.binary hb.2)
    · exact key _ .binary (by simp) (.binary hb.1) (.binary hb.2)
    · exact key _ .json (by simp) (.json hj.1) (.json hj.2)
  · refine C58_configured _ _ _ _ _ _ _ rfl _ _ _ _ _ _ _ _ _ _ (plain_defaults g) ?_
    intro k hk
    cases hk
    exact ⟨by show PlainName (pys! "gzip"); decide +kernel, fun b h => absurd h (write_ne_nil hg b), gzipCompression g, rfl, hround⟩
  · refine C59_configured _ _ _ _ _ _ _ rfl _ _ _ _ _ _ _ _ _ _ (plain_defaults g) ?_ ?_
    · intro k hk
      cases hk
      exact ⟨gzipCompression g, rfl, fun _ => ⟨hne, hround⟩⟩
    · intro n k k' h h' hk
      rw [h] at h'
      cases h'
      refine ⟨hk, ?_⟩
      have hm : k = gzipCompression g ∨ k = .identity := by
        have h : Dict.get? (resolveCompressions (gzipCompression g) none) n = some k := by rw [resolve_get?]; exact h
        have hin := get?_mem h
        have : (n, k) ∈ [(pys! "gzip", gzipCompression g), (pys! "identity", Compression.identity)] := hin
        simp only [List.mem_cons, Prod.mk.injEq, List.not_mem_nil, or_false] at this
        rcases this with ⟨_, h⟩ | ⟨_, h⟩
        · exact .inl h
        · exact .inr h
      rcases hm with rfl | rfl
      · exact hround
      · exact absurd rfl hk

/-- **C100, calls**: what C58 and C59 ask of a call holds of every call between a client and a server left at their defaults, provided that the
method is served at a plain path, the messages can be written and respect the server's limit, and the timeout can be announced. -/
theorem C100_calls (R : Registries Reg) (req : MessageClass Reg Req) (res : MessageClass Reg Res) (g : Format) (hg : Sensible g) (fl : Flavor) (address : Str)
    (p : Proto) (timeoutMs readMax readMax' : Option Int) (ua path : Str) (endpoints : Dict Str (Endpoint Req Res))
    (hb : BinaryReads req req ∧ BinaryReads res res) (hj : JsonReads req R.dflt req R.dflt ∧ JsonReads res R.dflt res R.dflt)
    (m ms : MethodInfo) (handler : Handler Req Res) (hp : PlainPath (methodPath m)) (he : Dict.get? endpoints (methodPath m) = some ⟨ms, handler⟩)
    (user : UserHeaders) (t : Option Int) :
    ∀ choice ∈ [none, some protoBinaryCodec, some (protoJsonCodec R none)],
    let c := protoClient req res g fl address choice p timeoutMs readMax ua
    let app := protoApp R req res g endpoints path readMax' none
    ∃ codec,
      (∀ f q useGet, p = .connect → handler = .unary f → (useGet = true → ms.idempotency = .noSideEffects) → TimeoutFits c user t →
        (∃ data, c.codec.encode q = .ok data ∧ ∀ n, readMax' = some n → (data.length : Int) ≤ n) →
        UnaryCall c app codec m ms f q user t useGet) ∧
      (∀ qs, (p = .connect → handler.isUnary = false) → StreamTimeoutFits c user t →
        (∀ q ∈ qs, ∃ data, c.codec.encode q = .ok data ∧ (g.write data).length < 2 ^ 32 ∧ ∀ n, readMax' = some n → (data.length : Int) ≤ n) →
        StreamCall c app codec m ms handler qs user t) := by
  intro choice hch c app
  obtain ⟨⟨codec, hs⟩, hc, hsc⟩ := C100_defaults R req res g hg fl address p timeoutMs readMax readMax' ua path endpoints hb hj choice hch
  refine ⟨codec, ?_, ?_⟩
  · intro f q useGet hpc hf hget ht hm
    subst hf
    obtain ⟨data, hd, hl⟩ := hm
    exact ⟨hpc, hs, hc, hp, he, hget, ⟨data, hd, fun _ n hn => hl n hn⟩, ht⟩
  · intro qs hk ht hm
    refine ⟨hs, hsc, hp, he, hk, fun q hq => ?_, ht⟩
    obtain ⟨data, hd, hlen, hl⟩ := hm q hq
    exact ⟨data, hd, hlen, fun n hn => hl n hn⟩

/-- **C100, registries**: a JSON codec made with a registry uses that one, and no other, to write and to read, unless it is false. -/
theorem C100_registry {M : Type} (R : Registries Reg) (r : Reg) (cls : MessageClass Reg M) :
    let used := if R.truthy r then r else R.dflt
    let k := (protoJsonCodec R (some r)).at cls
    k.name = pys! "json" ∧ (∀ b, k.decode b = cls.fromJson used b) ∧
      (∀ m b, k.encode m = .ok b ↔ ∃ t, cls.toJson used m = .ok t ∧ b = utf8Encode t) ∧ ∀ m e, k.encode m = .error e ↔ cls.toJson used m = .error e := by
  intro used k
  have hk : protoJsonCodec R (some r) = codecFor (.json used) := by
    cases h : R.truthy r <;> simp [protoJsonCodec, newJsonCodec, codecFor, h, used]
  have hs := speaks_codecFor (.json used) cls cls
  rw [← hk] at hs
  refine ⟨?_, hs.reads, hs.writes, ?_⟩
  · show (protoJsonCodec R (some r)).name = _
    rw [hk]
    rfl
  · intro m e
    show (protoJsonCodec R (some r)).encode cls m = _ ↔ _
    rw [hk]
    show (match cls.toJson used m with | .ok text => Except.ok (utf8Encode text) | .error e => .error e) = .error e ↔ _
    cases h : cls.toJson used m with
    | error e' =>
      constructor
      · intro h; cases h; rfl
      · intro h; cases h; rfl
    | ok t =>
      constructor
      · intro h; cases h
      · intro h; cases h

/-! ### the hypotheses are met -/

/-- a message class with one boolean field, in an `Any`: JSON needs a registry that knows the type 7 for it -/
def flagClass : MessageClass (List Nat) Bool where
  toBinary m := .ok (if m then [8, 1] else [])
  fromBinary b := if b = [8, 1] then .ok true else if b = [] then .ok false else .error (.other .valueError (pys! "bad wire type"))
  toJson r m := if m then if 7 ∈ r then .ok (pys! "{\"v\": true}") else .error (.other .typeError (pys! "unknown type")) else .ok (pys! "{}")
  fromJson r b := if b = utf8Encode (pys! "{}") then .ok false
    else if b = utf8Encode (pys! "{\"v\": true}") ∧ 7 ∈ r then .ok true else .error (.other .valueError (pys! "cannot parse"))

/-- the same class in another library, which finds all types by itself -/
def flagGoogle : MessageClass Unit Bool where
  toBinary := flagClass.toBinary
  fromBinary := flagClass.fromBinary
  toJson _ m := flagClass.toJson [7] m
  fromJson _ b := flagClass.fromJson [7] b

def flagRegistries : Registries (List Nat) := ⟨[1, 7], fun r => !r.isEmpty⟩

theorem flag_binary : BinaryReads flagClass flagClass := by
  intro m b h
  cases m <;> cases h <;> rfl

theorem flag_json (r r' : List Nat) (h' : 7 ∈ r') : JsonReads flagClass r flagClass r' := by
  intro m t h
  cases m with
  | false =>
    cases h
    simp [flagClass]
  | true =>
    have h : (if 7 ∈ r then Except.ok (pys! "{\"v\": true}") else Except.error (Exc.other .typeError (pys! "unknown type"))) = Except.ok t := h
    by_cases hr : 7 ∈ r
    · rw [if_pos hr] at h
      cases h
      show (if utf8Encode (pys! "{\"v\": true}") = utf8Encode (pys! "{}") then Except.ok false else
        if utf8Encode (pys! "{\"v\": true}") = utf8Encode (pys! "{\"v\": true}") ∧ 7 ∈ r' then Except.ok true else _) = _
      rw [if_neg (by decide +kernel), if_pos ⟨rfl, h'⟩]
    · rw [if_neg hr] at h
      cases h

/-- C100, codecs: a client of the one library that chooses JSON with its own registry, and a server of the other, offering both formats; by a registry without
types the client gets the default one. -/
example : Chosen flagRegistries (some (protoJsonCodec flagRegistries (some [7, 9]))) (.json [7, 9]) ∧
    Chosen flagRegistries (some (protoJsonCodec flagRegistries (some []))) (.json [1, 7]) ∧
    Offered (⟨(), fun _ => true⟩ : Registries Unit) none [.binary, .json ()] ∧
    Offered (⟨(), fun _ => true⟩ : Registries Unit) (some [protoJsonCodec ⟨(), fun _ => true⟩ none, protoBinaryCodec]) [.json (), .binary] ∧
    Carries flagClass flagGoogle (.json [7, 9]) (.json ()) ∧ Carries flagGoogle flagClass (.json ()) (.json [7, 9]) :=
  ⟨.registry rfl, .emptyRegistry rfl, .unset, .two .json .binary (by decide), .json fun m t h => flag_json [7, 9] [7] (by decide) m t h,
    .json fun m t h => flag_json [7] [7, 9] (by decide) m t h⟩

/-- C100, defaults and calls -/
example (g : Format) (hg : Sensible g) :
    ∃ codec, UnaryCall
      (protoClient flagClass flagClass g .sync (pys! "http://h") (some (protoJsonCodec flagRegistries none)) .connect (some 5000) none (pys! "ua"))
      (protoApp flagRegistries flagClass flagClass g [(pys! "/a.S/Echo", ⟨echoInfo, .unary fun m _ => ⟨[], .ok m⟩⟩)] (pys! "/a.S") (some 100) none) codec
      echoInfo echoInfo (fun m _ => ⟨[], .ok m⟩) true .none none true := by
  obtain ⟨codec, h, _⟩ := C100_calls flagRegistries flagClass flagClass g hg .sync (pys! "http://h") .connect (some 5000) none (some 100) (pys! "ua") (pys! "/a.S")
    [(pys! "/a.S/Echo", ⟨echoInfo, .unary fun m _ => ⟨[], .ok m⟩⟩)] ⟨flag_binary, flag_binary⟩
    ⟨flag_json _ _ (by decide), flag_json _ _ (by decide)⟩ echoInfo echoInfo (.unary fun m _ => ⟨[], .ok m⟩) ⟨⟨_, rfl⟩, by decide +kernel⟩ rfl .none none
    (some (protoJsonCodec flagRegistries none)) (by simp)
  refine ⟨codec, h _ true true rfl rfl (fun _ => rfl) ?_ ⟨utf8Encode (pys! "{\"v\": true}"), rfl, ?_⟩⟩
  · show (intStr 5000).length ≤ 10
    decide +kernel
  · intro n hn
    cases hn
    decide +kernel

/-- C100, registries: a client whose registry lacks the type cannot read what the server wrote with the default registry -/
example : ((protoJsonCodec flagRegistries (some [9])).at flagClass).decode (utf8Encode (pys! "{\"v\": true}")) =
      .error (.other .valueError (pys! "cannot parse")) ∧
    ((protoJsonCodec flagRegistries (some [])).at flagClass).decode (utf8Encode (pys! "{\"v\": true}")) = .ok true :=
  ⟨rfl, rfl⟩

end Props
