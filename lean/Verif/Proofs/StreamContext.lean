import Verif.Spec.StreamContext
import Verif.Proofs.Iteration
import Verif.Proofs.RespContext
/-
Lemmas for C83: the generator of a stream only adds recordings to the active object; everything else does not depend on it.
-/
namespace Props
open Conn Py Spec

/-- what an active object (if there is one) makes of recordings -/
def keeps (rs : List Recording) (x : Sink) : Sink := rs.foldl (fun s r => s.map (keep r)) x

theorem keeps_nil (x : Sink) : keeps [] x = x := rfl

theorem keeps_append (a b : List Recording) (x : Sink) : keeps (a ++ b) x = keeps b (keeps a x) := List.foldl_append ..

theorem keeps_headers (f : HTTPHeaders) (x : Sink) : handleResponseHeaders x f = keeps [.headers f] x := by
  cases x <;> rfl

theorem keeps_trailers (f : HTTPHeaders) (x : Sink) : handleResponseTrailers x f = keeps [.trailers f] x := by
  cases x <;> rfl

theorem addMetadata_listed : ∀ (m : List (Str × Json)) (t : Headers), (∀ p ∈ m, (∃ s, p.2 = .str s) ∨ (∃ l, p.2 = .arr l) ∨ ∃ o, p.2 = .obj o) →
    ∃ t', addMetadata t m = (t', false)
  | [], t, _ => ⟨t, rfl⟩
  | (k, v) :: m, t, h => by
    have hv := h (k, v) (by simp)
    have : ∃ t', addMetadataEntry t k v = some t' := by
      rcases hv with ⟨s, hs⟩ | ⟨l, hl⟩ | ⟨o, ho⟩
      · dsimp only at hs; subst hs; exact ⟨_, rfl⟩
      · dsimp only at hl; subst hl; exact ⟨_, rfl⟩
      · dsimp only at ho; subst ho; exact ⟨_, rfl⟩
    obtain ⟨t1, e1⟩ := this
    obtain ⟨t2, e2⟩ := addMetadata_listed m t1 (fun p hp => h p (by simp [hp]))
    exact ⟨t2, by rw [addMetadata, e1]; exact e2⟩

theorem keeps_metadata {md : Json} (h : Listed md) (x : Sink) : handleMetadataJson x md = (keeps [.metadata md] x, none) := by
  obtain ⟨m, rfl, hm⟩ := h
  cases x with
  | none => rfl
  | some r =>
    obtain ⟨t, e⟩ := addMetadata_listed m r.getTrailers hm
    show _ = (some (keep (.metadata (.obj m)) r), none)
    unfold keep handleMetadataJson
    dsimp only
    rw [e]
    rfl

/-! ### the end of a stream -/

theorem endError_not_false (e : Option Json) : connectEndError e ≠ .ok false := by
  unfold connectEndError
  intro h
  split at h
  · cases h
  · split at h
    · split at h
      · split at h
        · cases h
        · cases h
      · cases h
    · cases h

theorem hook_passive (p : Proto) (flags : UInt8) (d : Bytes)
    (hreg : p = .connect → flags &&& 2 ≠ 0 → ∀ o md, loadsBytes d = some (.obj o) → Dict.get? o (pys! "metadata") = some md → md.truthy = true → Listed md)
    (sub : ClientSub) :
    ∃ (rs : List Recording) (sub' : ClientSub) (res : Except Exc Bool), (∀ x, p.endHook (sub.withSink x) flags d = (sub'.withSink (keeps rs x), res)) ∧
      (∀ r ∈ rs, p = .connect ∧ flags &&& 2 ≠ 0 ∧ ∃ o md, loadsBytes d = some (.obj o) ∧ Dict.get? o (pys! "metadata") = some md ∧ r = .metadata md) ∧
      (res = .ok false → rs = []) := by
  cases p with
  | grpc => exact ⟨[], { sub with readMessage := true }, .ok false, fun x => rfl, by simp, fun _ => rfl⟩
  | grpcWeb =>
    unfold Proto.endHook grpcWebEndHook
    dsimp only
    by_cases h : flags &&& 128 = 0
    · refine ⟨[], { sub with readMessage := true }, .ok false, fun x => ?_, by simp, fun _ => rfl⟩
      rw [if_pos h]; rfl
    · rcases ht : addTrailerLines sub.trailers (splitCRLF d) with ⟨t, b⟩
      cases b with
      | true =>
        refine ⟨[], { sub with trailers := t, readMessage := true }, .error (.other .valueError (pys! "not enough values to unpack")), fun x => ?_, by simp, fun _ => rfl⟩
        rw [if_neg h, show (sub.withSink x).trailers = sub.trailers from rfl, ht]; rfl
      | false =>
        refine ⟨[], { sub with trailers := t, readMessage := true }, .ok true, fun x => ?_, by simp, fun _ => rfl⟩
        rw [if_neg h, show (sub.withSink x).trailers = sub.trailers from rfl, ht]; rfl
  | connect =>
    unfold Proto.endHook connectEndHook
    dsimp only
    by_cases h : flags &&& 2 = 0
    · refine ⟨[], sub, .ok false, fun x => ?_, by simp, fun _ => rfl⟩
      rw [if_pos h]; rfl
    · have key : ∀ (g : Sink → ClientSub × Except Exc Bool) , (∃ (rs : List Recording) (res : Except Exc Bool), (∀ x, g x = (sub.withSink (keeps rs x), res)) ∧
          (∀ r ∈ rs, ∃ o md, loadsBytes d = some (.obj o) ∧ Dict.get? o (pys! "metadata") = some md ∧ r = .metadata md) ∧ (res = .ok false → rs = [])) →
          ∃ (rs : List Recording) (sub' : ClientSub) (res : Except Exc Bool), (∀ x, (if flags &&& 2 = 0 then (sub.withSink x, .ok false) else g x) = (ClientSub.withSink sub' (keeps rs x), res)) ∧
            (∀ r ∈ rs, Proto.connect = .connect ∧ flags &&& 2 ≠ 0 ∧ ∃ o md, loadsBytes d = some (.obj o) ∧ Dict.get? o (pys! "metadata") = some md ∧ r = .metadata md) ∧
            (res = .ok false → rs = []) := by
        rintro g ⟨rs, res, h1, h2, h3⟩
        exact ⟨rs, sub, res, fun x => by rw [if_neg h]; exact h1 x, fun r hr => ⟨rfl, h, h2 r hr⟩, h3⟩
      apply key
      cases hl : loadsBytes d with
      | none => exact ⟨[], _, fun x => rfl, by simp, fun _ => rfl⟩
      | some j =>
        cases j with
        | obj o =>
          dsimp only
          cases hm : Dict.get? o (pys! "metadata") with
          | none => exact ⟨[], _, fun x => rfl, by simp, fun _ => rfl⟩
          | some md =>
            dsimp only
            by_cases ht : md.truthy = true
            · have hL := hreg rfl h o md hl hm ht
              refine ⟨[.metadata md], connectEndError (Dict.get? o (pys! "error")), fun x => ?_, ?_, fun e => absurd e (endError_not_false _)⟩
              · rw [if_pos ht, keeps_metadata hL]
                rfl
              · intro r hr
                simp only [List.mem_singleton] at hr
                exact ⟨o, md, rfl, hm, hr⟩
            · exact ⟨[], _, fun x => by rw [if_neg ht]; rfl, by simp, fun _ => rfl⟩
        | _ => exact ⟨[], _, fun x => rfl, by simp, fun _ => rfl⟩

/-- of trailers, as `TrailersOf` says for protocols other than Connect -/
theorem complete_passive (p : Proto) (sc : StatusCodec) (sub : ClientSub) (resp : HTTPResponse) (e : Option ConnectErr) :
    ∃ (rs : List Recording) (res : Option Exc), (∀ x, p.complete sc (sub.withSink x) resp e = (keeps rs x, res)) ∧
      ∀ r ∈ rs, p ≠ .connect ∧ (p = .grpc → r = .trailers resp.trailers ∨ r = .trailers resp.headers) ∧ ∃ f, r = .trailers f := by
  have key : ∀ (t : HTTPHeaders), ∃ (rs : List Recording) (res : Option Exc), (∀ x, grpcComplete sc (sub.withSink x) resp.headers t e = (keeps rs x, res)) ∧
      ∀ r ∈ rs, r = .trailers t ∨ r = .trailers resp.headers := by
    intro t
    unfold grpcComplete
    cases t.get (pys! "grpc-status") with
    | some st => exact ⟨[.trailers t], _, fun x => by dsimp only; rw [keeps_trailers]; rfl, by simp⟩
    | none =>
      dsimp only
      by_cases hr : sub.readMessage = true
      · exact ⟨[], _, fun x => by rw [if_pos (show (sub.withSink x).readMessage = true from hr)]; rfl, by simp⟩
      · cases resp.headers.get (pys! "grpc-status") with
        | none =>
          exact ⟨[.trailers resp.headers], _, fun x => by rw [if_neg (show ¬ (sub.withSink x).readMessage = true from hr), keeps_trailers]; rfl, by simp⟩
        | some st =>
          exact ⟨[.trailers resp.headers], _, fun x => by rw [if_neg (show ¬ (sub.withSink x).readMessage = true from hr)]; dsimp only; rw [keeps_trailers]; rfl, by simp⟩
  cases p with
  | connect => exact ⟨[], none, fun x => rfl, by simp⟩
  | grpc =>
    obtain ⟨rs, res, h1, h2⟩ := key resp.trailers
    exact ⟨rs, res, h1, fun r hr => ⟨by simp, fun _ => h2 r hr, by rcases h2 r hr with h | h <;> exact ⟨_, h⟩⟩⟩
  | grpcWeb =>
    obtain ⟨rs, res, h1, h2⟩ := key sub.trailers
    exact ⟨rs, res, h1, fun r hr => ⟨by simp, (fun h => by cases h), by rcases h2 r hr with h | h <;> exact ⟨_, h⟩⟩⟩

/-! ### the reader -/

def atSink {M : Type} : Pulled M ClientSub → Sink → Pulled M ClientSub
  | .message m s, x => .message m (s.withSink x)
  | .more s, x => .more (s.withSink x)
  | .raised e s, x => .raised e (s.withSink x)

/-- the reader afterwards -/
def pulledState {M : Type} : Pulled M ClientSub → ReaderState ClientSub
  | .message _ s => s
  | .more s => s
  | .raised _ s => s

def isMessage {M : Type} : Pulled M ClientSub → Prop
  | .message _ _ => True
  | _ => False

/-- every envelope of these bytes is one of the response -/
def At (R : Frame → Prop) (bs : Bytes) : Prop := ∀ fs rest, Splits bs fs rest → ∀ f ∈ fs, R f

theorem at_head {R : Frame → Prop} {f : Frame} {t : Bytes} (hf : f.Ok) (h : At R (f.bytes ++ t)) : R f ∧ At R t := by
  have hc : ∀ fs rest, Splits t fs rest → Splits (f.bytes ++ t) (f :: fs) rest := by
    intro fs rest hs
    refine ⟨by rw [List.flatMap_cons, List.append_assoc, ← hs.eq], ?_, hs.inc⟩
    intro g hg
    rcases List.mem_cons.1 hg with rfl | hg
    · exact hf
    · exact hs.ok g hg
  refine ⟨?_, fun fs rest hs g hg => h _ _ (hc fs rest hs) g (by simp [hg])⟩
  obtain ⟨fs, rest, hs⟩ := splits_exists t
  exact h _ _ (hc fs rest hs) f (by simp)

variable {Req Res : Type}

/-- envelopes whose metadata, if any, can be read -/
def Fine (c : ReaderCfg Res ClientSub) (f : Frame) : Prop := ∀ md, EndMetadata (policyOf c) f md → md.truthy = true → Listed md

/-- the metadata of an end message -/
def EndOf (c : ReaderCfg Res ClientSub) (R : Frame → Prop) (r : Recording) : Prop := ∃ f, R f ∧ ∃ md, EndMetadata (policyOf c) f md ∧ r = .metadata md

theorem inflate_of_payload (c : ReaderCfg Res ClientSub) (f : Frame) {d : Bytes} (h : c.payload f.flags f.payload = .ok d) : (policyOf c).inflate f = .ok d := by
  rw [payload_eq] at h
  cases hi : (policyOf c).inflate f with
  | error e => rw [hi] at h; cases h
  | ok d0 =>
    rw [hi] at h
    dsimp only at h
    unfold Policy.checkSize at h
    split at h
    · exact h
    · split at h
      · exact h
      · cases h

theorem readOne_passive (c : Client Req Res) (comp : Compression) (R : Frame → Prop) (hfine : c.proto = .connect → ∀ f, R f → Fine (c.reader comp) f)
    (s : ReaderState ClientSub) {p b1 b2 b3 b4 : UInt8} {t rest : Bytes} (hb : s.buffer = p :: b1 :: b2 :: b3 :: b4 :: t) (hat : At R (s.buffer ++ rest)) :
    ∃ rs P, (∀ x, readOne (c.reader comp) (s.withSink x) p (be32Decode b1 b2 b3 b4) = atSink P (keeps rs x)) ∧
      (∀ r ∈ rs, c.proto = .connect ∧ EndOf (c.reader comp) R r) ∧ (isMessage P → rs = []) ∧
      Consistent (pulledState P) ∧ At R ((pulledState P).buffer ++ rest) := by
  by_cases hl : s.buffer.length < be32Decode b1 b2 b3 b4 + 5
  · refine ⟨[], .more { s with next := some (be32Decode b1 b2 b3 b4) }, fun x => ?_, by simp, fun _ => rfl, ?_, hat⟩
    · unfold readOne
      rw [show (s.withSink x).buffer = s.buffer from rfl, if_pos hl]
      rfl
    · intro n hn
      cases hn
      exact ⟨p, b1, b2, b3, b4, t, hb, rfl⟩
  · have hle : be32Decode b1 b2 b3 b4 ≤ t.length := by rw [hb] at hl; simp at hl; omega
    obtain ⟨hok, heq⟩ := complete_of_length (p := p) hle
    have hpay : (s.buffer.drop 5).take (be32Decode b1 b2 b3 b4) = t.take (be32Decode b1 b2 b3 b4) := by rw [hb]; rfl
    have hdrop : s.buffer.drop (5 + be32Decode b1 b2 b3 b4) = t.drop (be32Decode b1 b2 b3 b4) := by
      rw [hb, ← List.drop_drop]; rfl
    obtain ⟨hR, hat'⟩ := at_head (t := t.drop (be32Decode b1 b2 b3 b4) ++ rest) hok (by rw [← List.append_assoc, ← heq, ← hb]; exact hat)
    have hcons : ∀ (sub : ClientSub), Consistent (⟨t.drop (be32Decode b1 b2 b3 b4), none, sub⟩ : ReaderState ClientSub) := fun sub n hn => by cases hn
    unfold readOne
    dsimp only
    cases hp : (c.reader comp).payload p (t.take (be32Decode b1 b2 b3 b4)) with
    | error e =>
      refine ⟨[], .raised e ⟨t.drop (be32Decode b1 b2 b3 b4), none, s.sub⟩, fun x => ?_, by simp, fun _ => rfl, hcons _, hat'⟩
      rw [show (s.withSink x).buffer = s.buffer from rfl, if_neg hl, hpay, hp, hdrop]
      rfl
    | ok d =>
      have hinf := inflate_of_payload (c.reader comp) ⟨p, t.take (be32Decode b1 b2 b3 b4)⟩ hp
      obtain ⟨rs, sub', res, h1, h2, h3⟩ := hook_passive c.proto p d
        (fun hc hfl o md ho hmd htr => hfine hc _ hR md ⟨hfl, d, o, hinf, ho, hmd⟩ htr) s.sub
      have h2' : ∀ r ∈ rs, c.proto = .connect ∧ EndOf (c.reader comp) R r := by
        intro r hr
        obtain ⟨hc, hfl, o, md, ho, hmd, e⟩ := h2 r hr
        exact ⟨hc, _, hR, md, ⟨hfl, d, o, hinf, ho, hmd⟩, e⟩
      have h1' : ∀ x, (c.reader comp).handleEnd (s.withSink x).sub p d = (sub'.withSink (keeps rs x), res) := h1
      cases res with
      | error e =>
        refine ⟨rs, .raised e ⟨t.drop (be32Decode b1 b2 b3 b4), none, sub'⟩, fun x => ?_, h2', (fun h => h.elim), hcons _, hat'⟩
        rw [show (s.withSink x).buffer = s.buffer from rfl, if_neg hl, hpay, hp, hdrop]
        dsimp only
        rw [h1']
        rfl
      | ok b =>
        cases b with
        | true =>
          refine ⟨rs, .more ⟨t.drop (be32Decode b1 b2 b3 b4), none, sub'⟩, fun x => ?_, h2', (fun h => h.elim), hcons _, hat'⟩
          rw [show (s.withSink x).buffer = s.buffer from rfl, if_neg hl, hpay, hp, hdrop]
          dsimp only
          rw [h1']
          rfl
        | false =>
          have hrs := h3 rfl
          cases hd : (c.reader comp).codec.decode d with
          | error e =>
            refine ⟨rs, .raised e ⟨t.drop (be32Decode b1 b2 b3 b4), none, sub'⟩, fun x => ?_, h2', (fun h => h.elim), hcons _, hat'⟩
            rw [show (s.withSink x).buffer = s.buffer from rfl, if_neg hl, hpay, hp, hdrop]
            dsimp only
            rw [h1']
            dsimp only
            rw [hd]
            rfl
          | ok m =>
            refine ⟨rs, .message m ⟨t.drop (be32Decode b1 b2 b3 b4), none, sub'⟩, fun x => ?_, h2', (fun _ => hrs), hcons _, hat'⟩
            rw [show (s.withSink x).buffer = s.buffer from rfl, if_neg hl, hpay, hp, hdrop]
            dsimp only
            rw [h1']
            dsimp only
            rw [hd]
            rfl

theorem readNext_passive (c : Client Req Res) (comp : Compression) (R : Frame → Prop) (hfine : c.proto = .connect → ∀ f, R f → Fine (c.reader comp) f)
    (s : ReaderState ClientSub) (hs : Consistent s) {rest : Bytes} (hat : At R (s.buffer ++ rest)) :
    ∃ rs P, (∀ x, readNext (c.reader comp) (s.withSink x) = atSink P (keeps rs x)) ∧
      (∀ r ∈ rs, c.proto = .connect ∧ EndOf (c.reader comp) R r) ∧ (isMessage P → rs = []) ∧
      Consistent (pulledState P) ∧ At R ((pulledState P).buffer ++ rest) := by
  cases hb : s.buffer with
  | nil =>
    refine ⟨[], .more s, fun x => ?_, by simp, fun _ => rfl, hs, hat⟩
    unfold readNext
    rw [show (s.withSink x).buffer = s.buffer from rfl, hb]
    rfl
  | cons pre t =>
    cases hn : s.next with
    | some n =>
      obtain ⟨p, b1, b2, b3, b4, t', h1, h2⟩ := hs n hn
      obtain ⟨rs, P, h⟩ := readOne_passive c comp R hfine s h1 hat
      refine ⟨rs, P, fun x => ?_, h.2⟩
      rw [← h.1 x]
      unfold readNext
      rw [show (s.withSink x).buffer = s.buffer from rfl, show (s.withSink x).next = s.next from rfl, h1, hn, h2]
    | none =>
      have short : (∀ b1 b2 b3 b4 t', t ≠ b1 :: b2 :: b3 :: b4 :: t') → ∃ rs P, (∀ x, readNext (c.reader comp) (s.withSink x) = atSink P (keeps rs x)) ∧
          (∀ r ∈ rs, c.proto = .connect ∧ EndOf (c.reader comp) R r) ∧ (isMessage P → rs = []) ∧
          Consistent (pulledState P) ∧ At R ((pulledState P).buffer ++ rest) := by
        intro hne
        refine ⟨[], .more s, fun x => ?_, by simp, fun _ => rfl, hs, hat⟩
        unfold readNext
        rw [show (s.withSink x).buffer = s.buffer from rfl, show (s.withSink x).next = s.next from rfl, hb, hn]
        dsimp only
        split
        · exact absurd rfl (hne _ _ _ _ _)
        · rfl
      match t, hb, short with
      | b1 :: b2 :: b3 :: b4 :: t', hb, _ =>
        obtain ⟨rs, P, h⟩ := readOne_passive c comp R hfine s hb hat
        refine ⟨rs, P, fun x => ?_, h.2⟩
        rw [← h.1 x]
        unfold readNext
        rw [show (s.withSink x).buffer = s.buffer from rfl, show (s.withSink x).next = s.next from rfl, hb, hn]
      | [], _, short => exact short (by simp)
      | [_], _, short => exact short (by simp)
      | [_, _], _, short => exact short (by simp)
      | [_, _, _], _, short => exact short (by simp)

/-! ### the generator -/

/-- the frames of a response -/
def FrameOf (resp : StreamResponse) (f : Frame) : Prop := ∃ fs rest, Splits resp.chunks.flatten fs rest ∧ f ∈ fs

/-- what a stream records after the headers -/
def Trailing (k : StreamCall Req Res) (resp : StreamResponse) (rs : List Recording) : Prop := ∀ r ∈ rs, TrailersOf k resp r

theorem trailing_append {k : StreamCall Req Res} {resp : StreamResponse} {a b : List Recording} (ha : Trailing k resp a) (hb : Trailing k resp b) :
    Trailing k resp (a ++ b) := fun r hr => (List.mem_append.1 hr).elim (ha r) (hb r)

theorem trailing_complete {k : StreamCall Req Res} {resp : StreamResponse} {rs : List Recording}
    (h : ∀ r ∈ rs, k.c.proto ≠ .connect ∧ (k.c.proto = .grpc → r = .trailers resp.trailers ∨ r = .trailers resp.headers) ∧ ∃ f, r = .trailers f) :
    Trailing k resp rs := by
  intro r hr
  obtain ⟨h1, h2, h3⟩ := h r hr
  unfold TrailersOf
  cases hp : k.c.proto with
  | connect => exact absurd hp h1
  | grpc => exact h2 hp
  | grpcWeb => exact h3

theorem trailing_ends {k : StreamCall Req Res} {resp : StreamResponse} {comp : Compression} {rs : List Recording}
    (hcomp : k.c.proto.responseCompression resp.headers k.c.comps true = .ok comp)
    (h : ∀ r ∈ rs, k.c.proto = .connect ∧ EndOf (k.c.reader comp) (FrameOf resp) r) : Trailing k resp rs := by
  intro r hr
  obtain ⟨hc, f, ⟨fs, rest, hs, hf⟩, md, h1, h2⟩ := h r hr
  unfold TrailersOf
  rw [hc] at hcomp ⊢
  exact ⟨comp, fs, rest, hcomp, hs, f, hf, md, h1, h2⟩

/-- `mapStreamExc` -/
theorem mapExc_passive (k : StreamCall Req Res) (resp : StreamResponse) (se : Option Exc) (reader : Option ClientSub) (e : Exc) :
    ∃ (rs : List Recording) (e' : Exc), (∀ x, k.c.mapStreamExc k.sc x k.cs se (reader.map fun s => s.withSink x) (some resp) e = (keeps rs x, e')) ∧ Trailing k resp rs := by
  have none_case : ∀ e', (∀ x, k.c.mapStreamExc k.sc x k.cs se (reader.map fun s => s.withSink x) (some resp) e = (x, e')) →
      ∃ (rs : List Recording) (e' : Exc), (∀ x, k.c.mapStreamExc k.sc x k.cs se (reader.map fun s => s.withSink x) (some resp) e = (keeps rs x, e')) ∧ Trailing k resp rs :=
    fun e' h => ⟨[], e', h, fun r hr => by cases hr⟩
  have reset_case : (∀ x, k.c.mapStreamExc k.sc x k.cs se (reader.map fun s => s.withSink x) (some resp) e =
      ((se.map fun se => (x, se)).getD (k.c.mapReset k.sc x k.cs.expiredAtReset (reader.map fun s => s.withSink x) (some resp) e))) →
      ∃ (rs : List Recording) (e' : Exc), (∀ x, k.c.mapStreamExc k.sc x k.cs se (reader.map fun s => s.withSink x) (some resp) e = (keeps rs x, e')) ∧ Trailing k resp rs := by
    intro h
    cases se with
    | some se => exact none_case se h
    | none =>
      dsimp only [Option.map_none, Option.getD_none] at h
      unfold Client.mapReset at h
      cases hm : mapStreamReset k.cs.expiredAtReset e with
      | none => rw [hm] at h; exact none_case _ h
      | some rst =>
        rw [hm] at h
        cases reader with
        | none => exact none_case _ h
        | some sub =>
          obtain ⟨rs, res, h1, h2⟩ := complete_passive k.c.proto k.sc sub ⟨resp.status, resp.headers, resp.trailers⟩ (some rst)
          dsimp only [Option.map_some] at h
          cases res with
          | none =>
            refine ⟨rs, .connect rst, fun x => ?_, trailing_complete h2⟩
            exact (h x).trans (by rw [h1 x])
          | some e2 =>
            refine ⟨rs, e2, fun x => ?_, trailing_complete h2⟩
            exact (h x).trans (by rw [h1 x])
  cases e with
  | connect ce => exact none_case _ fun x => rfl
  | cancelled =>
    cases hf : k.c.flavor with
    | sync => exact none_case .cancelled fun x => by unfold Client.mapStreamExc; dsimp only; rw [hf]
    | async => exact none_case (.mk .canceled (pys! "Request was cancelled")) fun x => by unfold Client.mapStreamExc; dsimp only; rw [hf]
  | http a b => exact reset_case fun x => by cases se <;> rfl
  | other cls msg =>
    cases cls with
    | timeoutError => exact none_case _ fun x => rfl
    | _ => exact reset_case fun x => by cases se <;> rfl

theorem leave_passive (k : StreamCall Req Res) (resp : StreamResponse) (log : List Effect) (reader : Option ClientSub) (fromFeed : Bool) (e : Option Exc) :
    ∃ (rs : List Recording) (g : Got Res), (∀ x, k.leave resp x log (reader.map fun s => s.withSink x) fromFeed e = (⟨.over, keeps rs x, log ++ [.released]⟩, g)) ∧
      Trailing k resp rs ∧ ∀ m, g ≠ .message m := by
  have hsame : ∃ se, ∀ x rd, k.leave resp x log rd fromFeed e = (match leaveWith k.c.flavor k.cs e resp.exitErr with
      | none => (⟨.over, x, log ++ [.released]⟩, .stop)
      | some e => (⟨.over, (k.c.mapStreamExc k.sc x k.cs se rd (some resp) e).1, log ++ [.released]⟩, .raised (k.c.mapStreamExc k.sc x k.cs se rd (some resp) e).2)) :=
    ⟨_, fun x rd => rfl⟩
  obtain ⟨se, hse⟩ := hsame
  cases hl : leaveWith k.c.flavor k.cs e resp.exitErr with
  | none =>
    refine ⟨[], .stop, fun x => ?_, (fun r hr => by cases hr), (fun m h => by cases h)⟩
    rw [hse, hl]; rfl
  | some e1 =>
    obtain ⟨rs, e', h1, h2⟩ := mapExc_passive k resp se reader e1
    refine ⟨rs, .raised e', fun x => ?_, h2, (fun m h => by cases h)⟩
    rw [hse, hl]
    dsimp only
    rw [h1 x]

theorem atEnd_passive (k : StreamCall Req Res) (resp : StreamResponse) (log : List Effect) (sub : ClientSub) :
    ∃ (rs : List Recording) (g : Got Res), (∀ x, k.atEnd resp log (sub.withSink x) = (⟨.over, keeps rs x, log ++ [.released]⟩, g)) ∧ Trailing k resp rs ∧
      ∀ m, g ≠ .message m := by
  unfold StreamCall.atEnd
  cases resp.bodyErr with
  | some e => exact leave_passive k resp log (some sub) true (some e)
  | none =>
    dsimp only
    by_cases h : k.c.flavor = .sync ∧ k.cs.expiredAtEnd
    · obtain ⟨rs, g, h1, h2⟩ := leave_passive k resp log (some sub) false (some (.other .timeoutError []))
      exact ⟨rs, g, fun x => by rw [if_pos h]; exact h1 x, h2⟩
    · obtain ⟨rs, res, h1, h2⟩ := complete_passive k.c.proto k.sc sub ⟨resp.status, resp.headers, resp.trailers⟩ none
      obtain ⟨rs', g, h1', h2', h3⟩ := leave_passive k resp log (some sub) false res
      refine ⟨rs ++ rs', g, fun x => ?_, trailing_append (trailing_complete h2) h2', h3⟩
      rw [if_neg h, h1 x, keeps_append]
      exact h1' (keeps rs x)

/-- where the generator is suspended, everything is as the readers need it -/
def Placed (k : StreamCall Req Res) (i : Iteration) : Prop :=
  match i.phase with
  | .paused resp comp s rest => k.http k.request = .ok resp ∧ k.c.proto.responseCompression resp.headers k.c.comps true = .ok comp ∧ Consistent s ∧
      At (FrameOf resp) (s.buffer ++ rest.flatten)
  | _ => True

/-- a use of the stream, seen from outside: recordings `rs`, whatever the active object -/
structure Use1 (k : StreamCall Req Res) (resp : StreamResponse) (F : Sink → Iteration × Got Res) (rs : List Recording) (i : Iteration) (g : Got Res) : Prop where
  eq : ∀ x, F x = (i.withSink (keeps rs x), g)
  trailing : Trailing k resp rs
  placed : Placed k i
  message : ∀ m, g = .message m → k.c.proto ≠ .connect → rs = []
  phase : i.phase = .over ∨ i.phase ≠ .fresh ∧ ∃ m, g = .message m

theorem chunks_passive (k : StreamCall Req Res) (resp : StreamResponse) (hh : k.http k.request = .ok resp) (comp : Compression)
    (hcomp : k.c.proto.responseCompression resp.headers k.c.comps true = .ok comp) (hends : ReadableEnds k.c resp) :
    ∀ (rest : List Bytes) (s : ReaderState ClientSub) (log : List Effect), Consistent s → At (FrameOf resp) (s.buffer ++ rest.flatten) →
      ∃ rs i g, Use1 k resp (fun x => k.chunks resp comp (s.withSink x) rest log) rs i g
  | [], s, log, hs, hat => by
    obtain ⟨rs, g, h1, h2, h3⟩ := atEnd_passive k resp log s.sub
    exact ⟨rs, ⟨.over, none, log ++ [.released]⟩, g, fun x => by unfold StreamCall.chunks; exact h1 x, h2, trivial, fun m h => absurd h (h3 m), .inl rfl⟩
  | b :: rest, s, log, hs, hat => by
    have hfine : k.c.proto = .connect → ∀ f, FrameOf resp f → Fine (k.c.reader comp) f :=
      fun hc f ⟨fs, r, hsp, hf⟩ md hmd ht => hends hc comp hcomp fs r hsp f hf md hmd ht
    have hs1 : Consistent ({ s with buffer := s.buffer ++ b } : ReaderState ClientSub) := by
      intro n hn
      obtain ⟨p, b1, b2, b3, b4, t, hb, hn'⟩ := hs n hn
      exact ⟨p, b1, b2, b3, b4, t ++ b, by simp [hb], hn'⟩
    obtain ⟨rs, P, h1, h2, h3, h4, h5⟩ := readNext_passive k.c comp (FrameOf resp) hfine { s with buffer := s.buffer ++ b } hs1 (rest := rest.flatten)
      (by rw [List.append_assoc]; rw [List.flatten_cons] at hat; exact hat)
    have h1' : ∀ x, readNext (k.c.reader comp) { (s.withSink x) with buffer := (s.withSink x).buffer ++ b } = atSink P (keeps rs x) := h1
    have ht := trailing_ends hcomp h2
    cases P with
    | message m s' =>
      refine ⟨rs, ⟨.paused resp comp s' rest, none, log ++ [.chunk b]⟩, .message m, fun x => ?_, ht, ⟨hh, hcomp, h4, h5⟩, fun _ _ _ => h3 trivial, .inr ⟨(fun h => by cases h), m, rfl⟩⟩
      unfold StreamCall.chunks
      rw [h1' x]
      rfl
    | raised e s' =>
      obtain ⟨rs', g, h1'', h2'', h3''⟩ := leave_passive k resp (log ++ [.chunk b]) (some s'.sub) true (some e)
      refine ⟨rs ++ rs', ⟨.over, none, log ++ [.chunk b] ++ [.released]⟩, g, fun x => ?_, trailing_append ht h2'', trivial, fun m h => absurd h (h3'' m), .inl rfl⟩
      unfold StreamCall.chunks
      rw [h1' x, keeps_append]
      exact h1'' (keeps rs x)
    | more s' =>
      obtain ⟨rs', i, g, h⟩ := chunks_passive k resp hh comp hcomp hends rest s' (log ++ [.chunk b]) h4 h5
      refine ⟨rs ++ rs', i, g, fun x => ?_, trailing_append ht h.trailing, h.placed, ?_, h.phase⟩
      · unfold StreamCall.chunks
        rw [h1' x, keeps_append]
        exact h.eq (keeps rs x)
      · intro m hm hc
        rw [h.message m hm hc, List.append_nil]
        exact List.eq_nil_iff_forall_not_mem.2 fun r hr => hc (h2 r hr).1

theorem resume_passive (k : StreamCall Req Res) (resp : StreamResponse) (hh : k.http k.request = .ok resp) (comp : Compression)
    (hcomp : k.c.proto.responseCompression resp.headers k.c.comps true = .ok comp) (hends : ReadableEnds k.c resp) (rest : List Bytes)
    (s : ReaderState ClientSub) (log : List Effect) (hs : Consistent s) (hat : At (FrameOf resp) (s.buffer ++ rest.flatten)) :
    ∃ rs i g, Use1 k resp (fun x => k.resume resp comp (s.withSink x) rest log) rs i g := by
  have hfine : k.c.proto = .connect → ∀ f, FrameOf resp f → Fine (k.c.reader comp) f :=
    fun hc f ⟨fs, r, hsp, hf⟩ md hmd ht => hends hc comp hcomp fs r hsp f hf md hmd ht
  obtain ⟨rs, P, h1, h2, h3, h4, h5⟩ := readNext_passive k.c comp (FrameOf resp) hfine s hs hat
  have ht := trailing_ends hcomp h2
  cases P with
  | message m s' =>
    refine ⟨rs, ⟨.paused resp comp s' rest, none, log⟩, .message m, fun x => ?_, ht, ⟨hh, hcomp, h4, h5⟩, fun _ _ _ => h3 trivial, .inr ⟨(fun h => by cases h), m, rfl⟩⟩
    unfold StreamCall.resume
    rw [h1 x]
    rfl
  | raised e s' =>
    obtain ⟨rs', g, h1'', h2'', h3''⟩ := leave_passive k resp log (some s'.sub) true (some e)
    refine ⟨rs ++ rs', ⟨.over, none, log ++ [.released]⟩, g, fun x => ?_, trailing_append ht h2'', trivial, fun m h => absurd h (h3'' m), .inl rfl⟩
    unfold StreamCall.resume
    rw [h1 x, keeps_append]
    exact h1'' (keeps rs x)
  | more s' =>
    obtain ⟨rs', i, g, h⟩ := chunks_passive k resp hh comp hcomp hends rest s' log h4 h5
    refine ⟨rs ++ rs', i, g, fun x => ?_, trailing_append ht h.trailing, h.placed, ?_, h.phase⟩
    · unfold StreamCall.resume
      rw [h1 x, keeps_append]
      exact h.eq (keeps rs x)
    · intro m hm hc
      rw [h.message m hm hc, List.append_nil]
      exact List.eq_nil_iff_forall_not_mem.2 fun r hr => hc (h2 r hr).1

theorem begin_passive (k : StreamCall Req Res) (resp : StreamResponse) (hh : k.http k.request = .ok resp) (hends : ReadableEnds k.c resp) (log : List Effect) :
    ∃ (rs : List Recording) (i : Iteration) (g : Got Res),
      ((∀ x, k.begin x resp log = (i.withSink (keeps (.headers resp.headers :: rs) x), g)) ∧ Trailing k resp rs ∧ Placed k i ∧
        (∀ m, g = .message m → k.c.proto ≠ .connect → rs = []) ∧ (i.phase = .over ∨ i.phase ≠ .fresh ∧ ∃ m, g = .message m)) := by
  have fail : ∀ (log : List Effect) (e : Exc), ∃ (rs : List Recording) (i : Iteration) (g : Got Res),
      (∀ x, k.leave resp (keeps [.headers resp.headers] x) log none false (some e) = (i.withSink (keeps (.headers resp.headers :: rs) x), g)) ∧ Trailing k resp rs ∧ Placed k i ∧
        (∀ m, g = .message m → k.c.proto ≠ .connect → rs = []) ∧ (i.phase = .over ∨ i.phase ≠ .fresh ∧ ∃ m, g = .message m) := by
    intro log e
    obtain ⟨rs, g, h1, h2, h3⟩ := leave_passive k resp log none false (some e)
    exact ⟨rs, ⟨.over, none, log ++ [.released]⟩, g, fun x => h1 _, h2, trivial, fun m h => absurd h (h3 m), .inl rfl⟩
  unfold StreamCall.begin
  dsimp only
  simp only [keeps_headers]
  by_cases hst : resp.status = 200
  · simp only [if_pos hst]
    cases k.c.proto.validateStream k.c.codec.name (resp.headers.getD (pys! "content-type") []) with
    | some e => obtain ⟨rs, i, g, h⟩ := fail log e; exact ⟨rs, i, g, h⟩
    | none =>
      dsimp only
      cases hcomp : k.c.proto.responseCompression resp.headers k.c.comps true with
      | error e => obtain ⟨rs, i, g, h⟩ := fail log e; exact ⟨rs, i, g, h⟩
      | ok comp =>
        obtain ⟨rs, i, g, h⟩ := chunks_passive k resp hh comp hcomp hends resp.chunks (.init (.init none)) log (fun n hn => by cases hn)
          (fun fs rest hs f hf => ⟨fs, rest, by simpa [ReaderState.init] using hs, hf⟩)
        exact ⟨rs, i, g, ⟨fun x => h.eq (keeps [.headers resp.headers] x), h.trailing, h.placed, h.message, h.phase⟩⟩
  · simp only [if_neg hst]
    cases resp.bodyErr with
    | some e => obtain ⟨rs, i, g, h⟩ := fail (log ++ resp.chunks.map .chunk) e; exact ⟨rs, i, g, h⟩
    | none =>
      dsimp only
      cases ConnectErr.fromResponse resp.status resp.chunks.flatten with
      | error e => obtain ⟨rs, i, g, h⟩ := fail (log ++ resp.chunks.map .chunk) e; exact ⟨rs, i, g, h⟩
      | ok e => obtain ⟨rs, i, g, h⟩ := fail (log ++ resp.chunks.map .chunk) (.connect e); exact ⟨rs, i, g, h⟩

/-! ### uses of the stream -/

theorem withSink_withSink (i : Iteration) (x y : Sink) : (i.withSink x).withSink y = i.withSink y := by
  obtain ⟨p, s, l⟩ := i
  cases p <;> rfl

theorem withSink_sink (i : Iteration) (x : Sink) : (i.withSink x).sink = x := rfl

/-- what a use records, by where the generator is -/
def RecordedAt (k : StreamCall Req Res) (i : Iteration) (u : Use) (rs : List Recording) : Prop :=
  match i.phase, u with
  | .over, _ => rs = []
  | .fresh, .close => rs = []
  | .fresh, .next _ => match k.http k.request with
    | .error _ => rs = []
    | .ok resp => ∃ rs', rs = .headers resp.headers :: rs' ∧ Trailing k resp rs'
  | .paused resp _ _ _, _ => Trailing k resp rs

structure Passive (k : StreamCall Req Res) (i : Iteration) (u : Use) (rs : List Recording) (i' : Iteration) (r : Reply Res) : Prop where
  eq : ∀ x, k.reply u (i.withSink x) = (i'.withSink (keeps rs x), r)
  placed : Placed k i'
  recorded : RecordedAt k i u rs
  message : ∀ m, r = .got (.message m) → k.c.proto ≠ .connect → ∀ q ∈ rs, ∃ f, q = .headers f
  phase : i'.phase = .over ∨ i'.phase ≠ .fresh ∧ ∃ m, r = .got (.message m)

theorem next_passive (k : StreamCall Req Res) (hends : ∀ resp, k.http k.request = .ok resp → ReadableEnds k.c resp) (i : Iteration) (hi : Placed k i) (b : Bool) :
    ∃ (rs : List Recording) (i' : Iteration) (r : Reply Res), Passive k i (.next b) rs i' r := by
  obtain ⟨ph, sk, log⟩ := i
  cases ph with
  | over =>
    exact ⟨[], ⟨.over, none, log⟩, .got .stop, fun x => rfl, trivial, rfl, (fun m h => by cases h), .inl rfl⟩
  | fresh =>
    cases hh : k.http k.request with
    | error e =>
      have same : ∀ x, k.c.mapStreamExc k.sc x k.cs none none none = fun e => (x, (k.c.mapStreamExc k.sc none k.cs none none none e).2) := by
        intro x
        funext e
        cases e with
        | connect ce => rfl
        | cancelled => unfold Client.mapStreamExc; cases k.c.flavor <;> rfl
        | http a b => unfold Client.mapStreamExc Client.mapReset; dsimp only; cases mapStreamReset k.cs.expiredAtReset (.http a b) <;> rfl
        | other cls msg =>
          cases cls with
          | timeoutError => rfl
          | _ => unfold Client.mapStreamExc Client.mapReset; dsimp only; cases mapStreamReset k.cs.expiredAtReset (.other _ msg) <;> rfl
      cases hl : leaveWith k.c.flavor k.cs (some e) none with
      | none =>
        refine ⟨[], ⟨.over, none, log ++ [.sent k.request]⟩, .got .stop, fun x => ?_, trivial, ?_, (fun m h => by cases h), .inl rfl⟩
        · show (_, _) = _
          unfold StreamCall.next Iteration.withSink GenPhase.withSink
          dsimp only
          rw [hh]; dsimp only
          rw [hl]; rfl
        · unfold RecordedAt; dsimp only; rw [hh]
      | some e1 =>
        refine ⟨[], ⟨.over, none, log ++ [.sent k.request]⟩, .got (.raised (k.c.mapStreamExc k.sc none k.cs none none none e1).2), fun x => ?_, trivial, ?_, (fun m h => by cases h), .inl rfl⟩
        · show (_, _) = _
          unfold StreamCall.next Iteration.withSink GenPhase.withSink
          dsimp only
          rw [hh]; dsimp only
          rw [hl]; dsimp only
          rw [same x]; rfl
        · unfold RecordedAt; dsimp only; rw [hh]
    | ok resp =>
      obtain ⟨rs, i', g, h1, h2, h3, h4, h5⟩ := begin_passive k resp hh (hends resp hh) (log ++ [.sent k.request] ++ [.opened])
      refine ⟨.headers resp.headers :: rs, i', .got g, fun x => ?_, h3, ?_, ?_, ?_⟩
      · show (_, _) = _
        unfold StreamCall.next Iteration.withSink GenPhase.withSink
        dsimp only
        rw [hh]; dsimp only
        rw [h1 x]; rfl
      · unfold RecordedAt; dsimp only; rw [hh]; exact ⟨rs, rfl, h2⟩
      · intro m hm hc q hq
        rw [h4 m (by cases hm; rfl) hc] at hq
        exact ⟨resp.headers, by simpa using hq⟩
      · rcases h5 with h | ⟨h, m, rfl⟩
        · exact .inl h
        · exact .inr ⟨h, m, rfl⟩
  | paused resp comp s rest =>
    obtain ⟨p1, p2, p3, p4⟩ := hi
    by_cases hb : k.c.flavor = .async ∧ b
    · obtain ⟨rs, g, h1, h2, h3⟩ := leave_passive k resp log (some s.sub) false (some .cancelled)
      refine ⟨rs, ⟨.over, none, log ++ [.released]⟩, .got g, fun x => ?_, trivial, h2, (fun m h => absurd (by cases h; rfl) (h3 m)), .inl rfl⟩
      show (_, _) = _
      unfold StreamCall.next Iteration.withSink GenPhase.withSink
      dsimp only
      rw [if_pos hb]
      have h1x : k.leave resp x log (some (s.sub.withSink x)) false (some .cancelled) = _ := h1 x
      show ((k.leave resp x log (some (s.sub.withSink x)) false (some .cancelled)).1, Reply.got (k.leave resp x log (some (s.sub.withSink x)) false (some .cancelled)).2) = _
      rw [h1x]
    · obtain ⟨rs, i', g, h⟩ := resume_passive k resp p1 comp p2 (hends resp p1) rest s log p3 p4
      refine ⟨rs, i', .got g, fun x => ?_, h.placed, h.trailing, ?_, ?_⟩
      · show (_, _) = _
        unfold StreamCall.next Iteration.withSink GenPhase.withSink
        dsimp only
        rw [if_neg hb]
        have hx : k.resume resp comp (s.withSink x) rest log = _ := h.eq x
        rw [hx]; rfl
      · intro m hm hc q hq
        rw [h.message m (by cases hm; rfl) hc] at hq
        cases hq
      · rcases h.phase with h | ⟨h', m, rfl⟩
        · exact .inl h
        · exact .inr ⟨h', m, rfl⟩

theorem close_passive (k : StreamCall Req Res) (i : Iteration) (hi : Placed k i) :
    ∃ (rs : List Recording) (i' : Iteration) (r : Reply Res), Passive k i .close rs i' r := by
  obtain ⟨ph, sk, log⟩ := i
  cases ph with
  | over => exact ⟨[], ⟨.over, none, log⟩, .closed none, fun x => rfl, trivial, rfl, (fun m h => by cases h), .inl rfl⟩
  | fresh => exact ⟨[], ⟨.over, none, log⟩, .closed none, fun x => rfl, trivial, rfl, (fun m h => by cases h), .inl rfl⟩
  | paused resp comp s rest =>
    cases he : resp.exitErr with
    | none =>
      refine ⟨[], ⟨.over, none, log ++ [.released]⟩, .closed none, fun x => ?_, trivial, (fun r hr => by cases hr), (fun m h => by cases h), .inl rfl⟩
      show (_, _) = _
      unfold StreamCall.close Iteration.withSink GenPhase.withSink
      dsimp only
      rw [he]; rfl
    | some e0 =>
      obtain ⟨rs, g, h1, h2, h3⟩ := leave_passive k resp log (some s.sub) false none
      have hx : ∀ x, k.close (Iteration.withSink ⟨.paused resp comp s rest, sk, log⟩ x) = (match ((⟨.over, keeps rs x, log ++ [.released]⟩, g) : Iteration × Got Res) with
          | (i, .raised e) => (i, some e)
          | (i, _) => (i, none)) := by
        intro x
        unfold StreamCall.close Iteration.withSink GenPhase.withSink
        dsimp only
        rw [he]
        have h1x : k.leave resp (s.withSink x).sub.sink log (some (s.withSink x).sub) false none = _ := h1 x
        dsimp only
        rw [h1x]
        cases g <;> rfl
      cases g with
      | message m => exact absurd rfl (h3 m)
      | stop =>
        refine ⟨rs, ⟨.over, none, log ++ [.released]⟩, .closed none, fun x => ?_, trivial, h2, (fun m h => by cases h), .inl rfl⟩
        show (_, _) = _
        rw [hx x]; rfl
      | raised e =>
        refine ⟨rs, ⟨.over, none, log ++ [.released]⟩, .closed (some e), fun x => ?_, trivial, h2, (fun m h => by cases h), .inl rfl⟩
        show (_, _) = _
        rw [hx x]; rfl

theorem reply_passive (k : StreamCall Req Res) (hends : ∀ resp, k.http k.request = .ok resp → ReadableEnds k.c resp) (i : Iteration) (hi : Placed k i) (u : Use) :
    ∃ (rs : List Recording) (i' : Iteration) (r : Reply Res), Passive k i u rs i' r := by
  cases u with
  | next b => exact next_passive k hends i hi b
  | close => exact close_passive k i hi

/-! ### the contexts -/

theorem keeps_some (rs : List Recording) : ∀ a, ∃ m, keeps rs (some a) = some m := by
  induction rs with
  | nil => exact fun a => ⟨a, rfl⟩
  | cons r rs ih => exact fun a => ih (keep r a)

theorem put_keeps (c : Nat) : ∀ (rs : List Recording) (w : CtxWorld), w.put c (keeps rs (w.active c)) = w.run (rs.map (.record c))
  | [], w => by
    show w.put c (w.active c) = w
    unfold CtxWorld.put CtxWorld.active
    cases hv : w.var c with
    | none => rfl
    | some i =>
      show { w with content := setAt w.content i (w.content i) } = w
      have : setAt w.content i (w.content i) = w.content := by
        funext j; unfold setAt; by_cases h : j = i
        · rw [if_pos h, h]
        · rw [if_neg h]
      rw [this]
  | r :: rs, w => by
    have ih := put_keeps c rs (w.record c r)
    show w.put c (keeps rs ((w.active c).map (keep r))) = (w.record c r).run (rs.map (.record c))
    rw [← ih]
    unfold CtxWorld.put CtxWorld.active
    cases hv : w.var c with
    | none => unfold CtxWorld.record; rw [hv]; dsimp only; rw [hv]
    | some i =>
      have hrec : w.record c r = { w with content := setAt w.content i (keep r (w.content i)) } := by
        unfold CtxWorld.record; rw [hv]; cases r <;> rfl
      rw [hrec]
      dsimp only
      rw [hv]
      dsimp only [Option.map_some]
      have hat : setAt w.content i (keep r (w.content i)) i = keep r (w.content i) := by unfold setAt; rw [if_pos rfl]
      rw [hat]
      obtain ⟨m, hm⟩ := keeps_some rs (keep r (w.content i))
      rw [hm]
      dsimp only
      congr 1
      funext j; unfold setAt; by_cases h : j = i
      · rw [if_pos h, if_pos h]
      · rw [if_neg h, if_neg h, if_neg h]

theorem run_append : ∀ (a b : List CtxOp) (w : CtxWorld), w.run (a ++ b) = (w.run a).run b
  | [], _, _ => rfl
  | o :: a, b, w => run_append a b (w.step o)

/-- the replies and recordings of a stream in some state, whatever happens around its uses -/
structure Whole (k : StreamCall Req Res) (i : Iteration) (us : List Use) (rss : List (List Recording)) : Prop where
  run : ∀ ops w y, usesOf ops = us → (k.reading (w, i.withSink y) ops).2 = repliesTo k (i.withSink none) us ∧
    (k.reading (w, i.withSink y) ops).1.1 = w.run (recording ops rss)
  length : rss.length = us.length
  over : i.phase = .over → ∀ rs ∈ rss, rs = []
  paused : ∀ resp comp s rest, i.phase = .paused resp comp s rest → ∀ rs ∈ rss, Trailing k resp rs
  head : ∀ u us', us = u :: us' → ∃ rs rss', rss = rs :: rss' ∧ RecordedAt k i u rs ∧ ∃ i' r, Passive k i u rs i' r ∧ (∀ resp, k.http k.request = .ok resp → ∀ rs ∈ rss', Trailing k resp rs) ∧
    (i'.phase = .over → ∀ rs ∈ rss', rs = [])
  ended : ∀ (j j' : Nat) r rs, (repliesTo k (i.withSink none) us)[j]? = some r → (∀ m, r ≠ .got (.message m)) → j < j' → rss[j']? = some rs → rs = []
  message : ∀ (j : Nat) m rs, (repliesTo k (i.withSink none) us)[j]? = some (.got (.message m)) → k.c.proto ≠ .connect → rss[j]? = some rs → ∀ q ∈ rs, ∃ f, q = .headers f

theorem reading_others (k : StreamCall Req Res) (rss : List (List Recording)) (i : Iteration) : ∀ ops w, usesOf ops = [] →
    (k.reading (w, i) ops).2 = [] ∧ (k.reading (w, i) ops).1.1 = w.run (recording ops rss)
  | [], w, _ => ⟨rfl, rfl⟩
  | .other o :: os, w, h => reading_others k rss i os (w.step o) h
  | .use c u :: os, w, h => by cases h

theorem reading_whole (k : StreamCall Req Res) (hends : ∀ resp, k.http k.request = .ok resp → ReadableEnds k.c resp) :
    ∀ (us : List Use) (i : Iteration), Placed k i → ∃ rss, Whole k i us rss
  | [], i, hi => ⟨[], fun ops w y h => reading_others k [] _ ops w h, rfl, (fun _ _ h => by cases h), (fun _ _ _ _ _ _ h => by cases h), (fun _ _ h => by cases h),
      (fun _ _ _ _ h => by simp [repliesTo] at h), (fun _ _ _ h => by simp [repliesTo] at h)⟩
  | u :: us, i, hi => by
    obtain ⟨rs, i', r, hp⟩ := reply_passive k hends i hi u
    obtain ⟨rss, hw⟩ := reading_whole k hends us i' hp.placed
    have hrep : repliesTo k (i.withSink none) (u :: us) = r :: repliesTo k (i'.withSink none) us := by
      show (k.reply u (i.withSink none)).2 :: repliesTo k (k.reply u (i.withSink none)).1 us = _
      rw [hp.eq none]
      have : keeps rs none = none := by clear hp; induction rs with
        | nil => rfl
        | cons q rs ih => exact ih
      rw [this]
    have htail : ∀ resp, k.http k.request = .ok resp → ∀ rs ∈ rss, Trailing k resp rs := by
      intro resp hh rs hrs
      rcases hp.phase with h | ⟨h, _⟩
      · rw [hw.over h rs hrs]; exact fun r hr => by cases hr
      · cases hph : i'.phase with
        | fresh => exact absurd hph h
        | over => rw [hw.over hph rs hrs]; exact fun r hr => by cases hr
        | paused resp' comp s rest =>
          have hpl := hp.placed
          unfold Placed at hpl
          rw [hph] at hpl
          have : resp' = resp := by have := hpl.1.symm.trans hh; cases this; rfl
          subst this
          exact hw.paused resp' comp s rest hph rs hrs
    refine ⟨rs :: rss, ?_, by rw [List.length_cons, List.length_cons, hw.length], ?_, ?_, ?_, ?_, ?_⟩
    · intro ops
      induction ops with
      | nil => intro w y h; cases h
      | cons o os ih =>
        cases o with
        | other o => intro w y h; exact ih (w.step o) y h
        | use c u' =>
          intro w y h
          have hu : u' = u ∧ usesOf os = us := by
            have h' : u' :: usesOf os = u :: us := h
            injection h' with h1 h2; exact ⟨h1, h2⟩
          obtain ⟨rfl, hus⟩ := hu
          have hstep : k.readStep (w, i.withSink y) (.use c u') = ((w.run (rs.map (.record c)), i'.withSink (keeps rs (w.active c))), some r) := by
            unfold StreamCall.readStep
            dsimp only
            rw [withSink_withSink, hp.eq (w.active c)]
            dsimp only
            rw [withSink_sink, put_keeps]
          unfold StreamCall.reading
          dsimp only
          rw [hstep]
          dsimp only
          obtain ⟨e1, e2⟩ := hw.run os (w.run (rs.map (.record c))) (keeps rs (w.active c)) hus
          refine ⟨?_, ?_⟩
          · rw [e1, hrep]; rfl
          · rw [e2]
            show _ = w.run (rs.map (.record c) ++ recording os rss)
            rw [run_append]
    · intro hov rs' hrs'
      have hrec := hp.recorded
      unfold RecordedAt at hrec
      rw [hov] at hrec
      have hi'over : i'.phase = .over := by
        have h := hp.eq none
        have hw' : (k.reply u (i.withSink none)).1.phase = .over := by
          obtain ⟨ph, sk, l⟩ := i
          dsimp only at hov
          subst hov
          cases u <;> rfl
        rw [h] at hw'
        revert hw'
        unfold Iteration.withSink GenPhase.withSink
        dsimp only
        cases i'.phase <;> intro h <;> first | rfl | cases h
      rcases List.mem_cons.1 hrs' with h | h
      · rw [h]; exact hrec
      · exact hw.over hi'over rs' h
    · intro resp comp s rest hph rs' hrs'
      have hpl := hi
      unfold Placed at hpl
      rw [hph] at hpl
      rcases List.mem_cons.1 hrs' with h | h
      · subst h
        have hrec := hp.recorded
        unfold RecordedAt at hrec
        rw [hph] at hrec
        exact hrec
      · exact htail resp hpl.1 rs' h
    · intro u0 us0 h
      injection h with h1 h2
      subst h1
      exact ⟨rs, rss, rfl, hp.recorded, i', r, hp, htail, hw.over⟩
    · intro j j' r0 rs0 h1 h2 h3 h4
      rw [hrep] at h1
      cases j' with
      | zero => omega
      | succ j' =>
        rw [List.getElem?_cons_succ] at h4
        cases j with
        | zero =>
          rw [List.getElem?_cons_zero] at h1
          injection h1 with h1
          subst h1
          have hov : i'.phase = .over := by
            rcases hp.phase with h | ⟨_, m, hm⟩
            · exact h
            · exact absurd hm (h2 m)
          exact hw.over hov rs0 (List.mem_of_getElem? h4)
        | succ j =>
          rw [List.getElem?_cons_succ] at h1
          exact hw.ended j j' r0 rs0 h1 h2 (by omega) h4
    · intro j m rs0 h1 hc h4
      rw [hrep] at h1
      cases j with
      | zero =>
        rw [List.getElem?_cons_zero] at h1 h4
        injection h1 with h1
        injection h4 with h4
        subst h4
        exact hp.message m h1 hc
      | succ j =>
        rw [List.getElem?_cons_succ] at h1 h4
        exact hw.message j m rs0 h1 hc h4

/-! ### whole calls -/

theorem yields_unique {k : StreamCall Req Res} {p : Iteration × Got Res} {ms ms' : List Res} {j j' : Iteration} {e e' : Option Exc} (h : Yields k p ms j e)
    (h' : Yields k p ms' j' e') : ms = ms' ∧ e = e' := by
  induction h generalizing ms' j' e' with
  | stop i => cases h'; exact ⟨rfl, rfl⟩
  | raised i e => cases h'; exact ⟨rfl, rfl⟩
  | message h ih =>
    cases h' with
    | message h' =>
      obtain ⟨h1, h2⟩ := ih h'
      exact ⟨by rw [h1], h2⟩

theorem yields_passive (k : StreamCall Req Res) (hends : ∀ resp, k.http k.request = .ok resp → ReadableEnds k.c resp) {p : Iteration × Got Res} {ms : List Res}
    {j : Iteration} {e : Option Exc} (h : Yields k p ms j e) : ∀ (i : Iteration) (x y : Sink) (g : Got Res), Placed k i → p = (i.withSink x, g) →
    ∃ j', Yields k (i.withSink y, g) ms j' e := by
  induction h with
  | stop i0 => intro i x y g hi hp; injection hp with h1 h2; subst h2; exact ⟨_, .stop _⟩
  | raised i0 e0 => intro i x y g hi hp; injection hp with h1 h2; subst h2; exact ⟨_, .raised _ _⟩
  | @message i0 i1 m ms e h ih =>
    intro i x y g hi hp
    injection hp with h1 h2
    subst h2 h1
    obtain ⟨rs, i', r, hpas⟩ := next_passive k hends i hi false
    have hx : ((k.next false (i.withSink x)).1, Reply.got (k.next false (i.withSink x)).2) = (i'.withSink (keeps rs x), r) := hpas.eq x
    have hy : ((k.next false (i.withSink y)).1, Reply.got (k.next false (i.withSink y)).2) = (i'.withSink (keeps rs y), r) := hpas.eq y
    injection hx with hx1 hx2
    injection hy with hy1 hy2
    rw [← hx2] at hy2
    injection hy2 with hy2
    obtain ⟨j', h'⟩ := ih i' (keeps rs x) (keeps rs y) (k.next false (i.withSink x)).2 hpas.placed (by rw [← hx1])
    refine ⟨j', .message ?_⟩
    rw [← hy1, ← hy2] at h'
    exact h'

theorem bidi_passive (k : StreamCall Req Res) (hends : ∀ resp, k.http k.request = .ok resp → ReadableEnds k.c resp) (hc : k.cs.cancelAfter = none) (x y : Sink) :
    (k.c.bidi k.sc k.http x k.cs k.ctx k.reqs k.srcErr).messages = (k.c.bidi k.sc k.http y k.cs k.ctx k.reqs k.srcErr).messages ∧
    (k.c.bidi k.sc k.http x k.cs k.ctx k.reqs k.srcErr).exc = (k.c.bidi k.sc k.http y k.cs k.ctx k.reqs k.srcErr).exc := by
  obtain ⟨i1, h1, _⟩ := call_yields k hc x
  obtain ⟨i2, h2, _⟩ := call_yields k hc y
  obtain ⟨rs, i', r, hpas⟩ := next_passive k hends (.start none) trivial false
  have hx : ((k.next false (.start x)).1, Reply.got (k.next false (.start x)).2) = (i'.withSink (keeps rs x), r) := hpas.eq x
  have hy : ((k.next false (.start y)).1, Reply.got (k.next false (.start y)).2) = (i'.withSink (keeps rs y), r) := hpas.eq y
  injection hx with hx1 hx2
  injection hy with hy1 hy2
  rw [← hx2] at hy2
  injection hy2 with hy2
  obtain ⟨j', h'⟩ := yields_passive k hends h1 i' (keeps rs x) (keeps rs y) (k.next false (.start x)).2 hpas.placed (by rw [← hx1])
  rw [← hy1, ← hy2] at h'
  exact yields_unique h' h2

theorem unaryResponse_passive (c : Client Req Res) (x y : Sink) (resp : FullResponse) : (c.unaryResponse x resp).2 = (c.unaryResponse y resp).2 := by
  unfold Client.unaryResponse
  cases connectValidateResponse c.codec.name resp.status (resp.headers.getD (pys! "content-type") []) with
  | some e => rfl
  | none =>
    dsimp only
    cases Proto.responseCompression .connect resp.headers c.comps false with
    | error e => rfl
    | ok comp =>
      dsimp only
      by_cases hs : resp.status = 200
      · rw [if_pos hs, if_pos hs]
        cases c.readMax with
        | none => rfl
        | some n =>
          dsimp only
          by_cases hn : (resp.content.length : Int) > n
          · rw [if_pos hn, if_pos hn]
          · rw [if_neg hn, if_neg hn]
      · rw [if_neg hs, if_neg hs]
        cases ConnectErr.fromResponse resp.status resp.content with
        | error e => rfl
        | ok e => rfl

theorem connectUnary_passive (c : Client Req Res) (http : HttpRequest → Except Exc FullResponse) (x y : Sink) (ctx : RequestContext) (req : Req) :
    (c.connectUnary http x ctx req).2 = (c.connectUnary http y ctx req).2 := by
  unfold Client.connectUnary
  cases c.codec.encode req with
  | error e => rfl
  | ok data =>
    dsimp only
    cases http (c.unaryRequest ctx (c.send.compress data)) with
    | error e => rfl
    | ok resp =>
      dsimp only
      have h := unaryResponse_passive c x y resp
      rcases hx : c.unaryResponse x resp with ⟨s1, r1⟩
      rcases hy : c.unaryResponse y resp with ⟨s2, r2⟩
      rw [hx, hy] at h
      dsimp only at h
      subst h
      cases r1 <;> rfl

end Props
