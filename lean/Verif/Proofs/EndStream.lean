import Verif.Proofs.Errors
import Verif.Props.Headers
import Verif.Props.Envelope
/-
Lemmas on end-of-stream messages.
-/
namespace Conn
open Py Spec Props

/-! ### the `metadata` member -/

theorem appendExtra_eq_append (d : Dict Str (List Str)) (hn : d.keys.Nodup) (k v : Str) (hk : foldCase k = k) :
    Headers.appendExtra d k v = Multimap.append d k v := by
  unfold Headers.appendExtra Multimap.append
  by_cases hm : k ∈ d.keys
  · have hm' : Multimap.present d k := by unfold Multimap.present; rw [hk]; exact hm
    rw [if_pos hm', hk]
    obtain ⟨l, hl⟩ := Option.isSome_iff_exists.1 ((Dict.get?_isSome_iff d k).2 hm)
    rw [hl]
    dsimp only
    rw [Dict.set_of_mem hn hm]
    apply List.map_congr_left
    intro e he
    by_cases ek : e.1 = k
    · rw [if_pos ek, if_pos ek]
      obtain ⟨a, b⟩ := e
      dsimp only at ek
      subst ek
      have := Dict.get?_of_mem hn he
      rw [hl] at this
      cases this; rfl
    · rw [if_neg ek, if_neg ek]
  · have hm' : ¬ Multimap.present d k := by unfold Multimap.present; rw [hk]; exact hm
    rw [if_neg hm', hk, (Dict.get?_eq_none_iff d k).2 hm]
    exact Dict.set_of_not_mem hm _

theorem foldl_appendExtra (l : List (Str × Str)) (hl : ∀ p ∈ l, foldCase p.1 = p.1) :
    ∀ d : Dict Str (List Str), d.keys.Nodup →
    l.foldl (fun d p => Headers.appendExtra d p.1 p.2) d = l.foldl (fun m p => Multimap.append m p.1 p.2) d := by
  induction l with
  | nil => intro d _; rfl
  | cons p l ih =>
    intro d hd
    rw [List.foldl_cons, List.foldl_cons, ← appendExtra_eq_append d hd _ _ (hl p (by simp))]
    exact ih (fun p hp => hl p (by simp [hp])) _ (Headers.appendExtra_nodup hd _ _)

theorem abs_wf {h : Headers} (hi : h.Inv) :
    ((Headers.abs h).map (·.1)).Nodup ∧ ∀ e ∈ Headers.abs h, foldCase e.1 = e.1 ∧ e.2 ≠ [] := by
  have hk : (Headers.abs h).map (·.1) = h.store.keys := by
    unfold Headers.abs; rw [List.map_map]; rfl
  refine ⟨hk ▸ hi.nodup, ?_⟩
  intro e he
  refine ⟨hi.low _ (hk ▸ List.mem_map_of_mem he), ?_⟩
  unfold Headers.abs at he
  obtain ⟨p, _, rfl⟩ := List.mem_map.1 he
  simp

theorem rebuild_abs {h : Headers} (hi : h.Inv) :
    h.allitems.foldl (fun m p => Multimap.append m p.1 p.2) [] = Headers.abs h := by
  rw [← Headers.pairs_abs]
  have := rebuild (Headers.abs h) [] (by simpa using (abs_wf hi).1) (abs_wf hi).2
  simpa using this

theorem metadataOf_allitems {h : Headers} (hi : h.Inv) : metadataOf h.allitems = Headers.abs h := by
  unfold metadataOf
  rw [foldl_appendExtra _ _ [] (by simp), rebuild_abs hi]
  intro p hp
  rw [← Headers.lower_eq_foldCase]
  exact Headers.allitems_low hi p hp

/-- the JSON form of a multimap -/
def jsonMetadata (m : Multimap) : List (Str × Json) := m.map fun p => (p.1, .arr (p.2.map .str))

theorem addMetadata_json (m : Multimap) (t : Headers) :
    addMetadata t (jsonMetadata m) = (m.pairs.foldl (fun t p => t.add p.1 p.2) t, false) := by
  induction m generalizing t with
  | nil => rfl
  | cons e m ih =>
    obtain ⟨k, vs⟩ := e
    have hv : ∀ t : Headers, (vs.map Json.str).foldl (fun t v => t.add k (jsonText v)) t =
        (vs.map fun v => (k, v)).foldl (fun t p => t.add p.1 p.2) t := by
      intro t
      rw [List.foldl_map, List.foldl_map]; rfl
    show addMetadata t ((k, .arr (vs.map .str)) :: jsonMetadata m) = _
    rw [addMetadata]
    show (match (some ((vs.map Json.str).foldl (fun t v => t.add k (jsonText v)) t) : Option Headers) with
      | none => (t, true)
      | some t' => addMetadata t' (jsonMetadata m)) = _
    dsimp only
    rw [ih, hv]
    simp [Multimap.pairs, List.foldl_append]

/-- adding all pairs of a header object to an empty one rebuilds it -/
theorem foldl_add_allitems {h : Headers} (hi : h.Inv) :
    (h.allitems.foldl (fun t p => t.add p.1 p.2) Headers.empty).allitems = h.allitems := by
  have hinv : Headers.Inv (h.allitems.foldl (fun t p => t.add p.1 p.2) Headers.empty) :=
    Headers.inv_foldl_add _ Headers.inv_empty
  rw [← Headers.pairs_abs, Headers.abs_ofPairs_from Headers.inv_empty]
  have : Headers.abs Headers.empty = [] := rfl
  rw [this, rebuild_abs hi, Headers.pairs_abs]

theorem truthy_iff_allitems (h : Headers) : h.truthy = true ↔ h.allitems ≠ [] := by
  unfold Headers.truthy Headers.len
  rw [← Headers.pairs_abs]
  unfold Headers.abs Multimap.pairs
  cases h.store with
  | nil => simp
  | cons p r => simp

theorem not_truthy_allitems (h : Headers) : h.truthy = false ↔ h.allitems = [] := by
  rw [← Bool.not_eq_true, truthy_iff_allitems]; exact Decidable.not_not

theorem connectEndJson_wf {t : Headers} (hi : t.Inv) (error : Option ConnectErr)
    (he : ∀ e, error = some e → DebugOk e) : (connectEndJson t error).WF := by
  have hmd : (Json.obj ((metadataOf t.allitems).map fun p => (p.1, .arr (p.2.map .str)))).WF := by
    rw [metadataOf_allitems hi]
    obtain ⟨h1, h2⟩ := abs_wf hi
    simp only [Json.WF, wfMembers_iff]
    refine ⟨?_, ?_⟩
    · rw [List.map_map]; exact h1
    · intro p hp
      obtain ⟨e, _, rfl⟩ := List.mem_map.1 hp
      simp only [Json.WF, wfElems_iff]
      intro j hj
      obtain ⟨s, _, rfl⟩ := List.mem_map.1 hj
      exact trivial
  unfold connectEndJson
  cases error with
  | none =>
    cases t.truthy with
    | true =>
      simp only [if_pos, List.append_nil, Json.WF, Json.WFMembers, and_true]
      exact ⟨by simp, by simpa [Json.WF] using hmd⟩
    | false => simp [Json.WF, Json.WFMembers]
  | some e =>
    have := toDict_wf e (he e rfl)
    cases t.truthy with
    | true =>
      dsimp only
      rw [if_pos rfl]
      show (Json.obj [(pys! "metadata", _), (pys! "error", _)]).WF
      simp only [Json.WF, Json.WFMembers]
      exact ⟨by simp, by simpa [Json.WF] using hmd, this, trivial⟩
    | false =>
      show (Json.obj [(pys! "error", _)]).WF
      simp only [Json.WF, Json.WFMembers]
      exact ⟨by simp, this, trivial⟩

/-- the hook ends the stream with success, or raises the error -/
def EndsAs (error : Option ConnectErr) (r : Except Exc Bool) : Prop :=
  match error with
  | none => r = .ok true
  | some e => ∃ e', r = .error (.connect e') ∧ report e' = report e ∧ AsRead e e'

theorem storeTrailers_add (r : RespMeta) (t : Headers) (hr : r.getTrailers.Inv) (hi : t.Inv) :
    let r' := storeTrailers r (t.allitems.foldl (fun t p => t.add p.1 p.2) r.getTrailers)
    r'.headers = r.headers ∧ (∀ k, r'.getTrailers.getall k = r.getTrailers.getall k ++ t.getall k) ∧
    (r.getTrailers = Headers.empty → r'.getTrailers.allitems = t.allitems) := by
  have hinv := Headers.inv_foldl_add t.allitems hr
  have hall : ∀ k, (t.allitems.foldl (fun t p => t.add p.1 p.2) r.getTrailers).getall k = r.getTrailers.getall k ++ t.getall k := by
    intro k
    rw [Headers.getall_foldl_add t.allitems hr k, Headers.getall_allitems hi]
  intro r'
  show (storeTrailers r _).headers = _ ∧ _
  by_cases htt : (t.allitems.foldl (fun t p => t.add p.1 p.2) r.getTrailers).truthy = true
  · have hr' : r' = { r with trailers := some (t.allitems.foldl (fun t p => t.add p.1 p.2) r.getTrailers) } := by
      show storeTrailers r _ = _
      unfold storeTrailers; rw [if_pos htt]
    refine ⟨by unfold storeTrailers; rw [if_pos htt], ?_, ?_⟩
    · intro k; rw [hr']; exact hall k
    · intro he
      rw [hr']
      show (t.allitems.foldl (fun t p => t.add p.1 p.2) r.getTrailers).allitems = _
      rw [he]; exact foldl_add_allitems hi
  · have hf : (t.allitems.foldl (fun t p => t.add p.1 p.2) r.getTrailers).truthy = false := by simpa using htt
    have hn := (not_truthy_allitems _).1 hf
    have h0 : ∀ k, r.getTrailers.getall k ++ t.getall k = [] := by
      intro k
      rw [← hall k, ← Headers.getall_allitems hinv, hn]; rfl
    have hr' : r' = r := by show storeTrailers r _ = _; unfold storeTrailers; rw [if_neg htt]
    refine ⟨by unfold storeTrailers; rw [if_neg htt], ?_, ?_⟩
    · intro k
      rw [hr', h0 k]
      exact (List.append_eq_nil_iff.1 (h0 k)).1
    · intro he
      rw [hr']
      rw [he, foldl_add_allitems hi] at hn
      rw [he, hn]; rfl

/-- What the client makes of the end message of a Connect stream. -/
theorem connectEndHook_json {t : Headers} (hi : t.Inv) (error : Option ConnectErr)
    (he : ∀ e, error = some e → DebugOk e) (s : ClientSub) (pre : UInt8) (hpre : pre &&& 2 ≠ 0)
    (hfresh : ∀ r, s.sink = some r → r.getTrailers.Inv) :
    ∃ s', (connectEndHook s pre (utf8Encode (dumps (connectEndJson t error)))).1 = s' ∧
      (s.sink = none → s'.sink = none) ∧
      (∀ r, s.sink = some r → ∃ r', s'.sink = some r' ∧ r'.headers = r.headers ∧
        (∀ k, r'.getTrailers.getall k = r.getTrailers.getall k ++ t.getall k) ∧
        (r.getTrailers = Headers.empty → r'.getTrailers.allitems = t.allitems)) ∧
      EndsAs error (connectEndHook s pre (utf8Encode (dumps (connectEndJson t error)))).2 := by
  have herr : ∀ m : List (Str × Json), Dict.get? m (pys! "error") = error.map ConnectErr.toDict →
      EndsAs error (connectEndError (Dict.get? m (pys! "error"))) := by
    intro m hm
    cases error with
    | none => rw [hm]; rfl
    | some e =>
      obtain ⟨m', e', h1, h2, h3, h4⟩ := fromDict_toDict e 500 .unknown
      refine ⟨e', ?_, h4⟩
      rw [hm, Option.map_some, h1]
      unfold connectEndError
      have ht : (Json.obj m').truthy = true := by
        cases m' with
        | nil => exact absurd rfl h2
        | cons p r => rfl
      dsimp only
      rw [if_pos ht, h3]
  have hload := loadsBytes_dumps _ (connectEndJson_wf hi error he)
  unfold connectEndHook
  rw [if_neg hpre, hload]
  cases htr : t.truthy with
  | false =>
    have hall := (not_truthy_allitems t).1 htr
    obtain ⟨m, hm, hmd, hme⟩ : ∃ m, connectEndJson t error = .obj m ∧ Dict.get? m (pys! "metadata") = none ∧
        Dict.get? m (pys! "error") = error.map ConnectErr.toDict := by
      unfold connectEndJson
      rw [htr]
      cases error with
      | none => exact ⟨_, rfl, rfl, rfl⟩
      | some e => exact ⟨_, rfl, rfl, rfl⟩
    rw [hm]
    dsimp only
    rw [hmd]
    dsimp only
    refine ⟨_, rfl, fun h => h, fun r hr => ⟨r, hr, rfl, ?_, ?_⟩, herr m hme⟩
    · intro k
      rw [← Headers.getall_allitems hi, hall]
      simp
    · intro he; rw [he, hall]; rfl
  | true =>
    obtain ⟨m, hm, hmd, hme⟩ : ∃ m, connectEndJson t error = .obj m ∧
        Dict.get? m (pys! "metadata") = some (.obj (jsonMetadata (Headers.abs t))) ∧
        Dict.get? m (pys! "error") = error.map ConnectErr.toDict := by
      unfold connectEndJson
      rw [htr, metadataOf_allitems hi]
      cases error with
      | none => exact ⟨_, rfl, rfl, rfl⟩
      | some e => exact ⟨_, rfl, rfl, rfl⟩
    have hne : (Json.obj (jsonMetadata (Headers.abs t))).truthy = true := by
      have h1 : t.store ≠ [] := by
        intro h0; unfold Headers.truthy Headers.len at htr; rw [h0] at htr; simp at htr
      unfold jsonMetadata Headers.abs
      cases hs : t.store with
      | nil => exact absurd hs h1
      | cons p r => rfl
    rw [hm]
    dsimp only
    rw [hmd]
    dsimp only
    rw [if_pos hne]
    cases hs : s.sink with
    | none =>
      refine ⟨_, rfl, fun _ => rfl, fun r hr => ?_, herr m hme⟩
      cases hr
    | some r =>
      have hh : handleMetadataJson (some r) (.obj (jsonMetadata (Headers.abs t))) =
          (some (storeTrailers r ((Headers.abs t).pairs.foldl (fun t p => t.add p.1 p.2) r.getTrailers)), none) := by
        unfold handleMetadataJson
        dsimp only
        rw [addMetadata_json]
      rw [hh]
      dsimp only
      refine ⟨_, rfl, (fun h => by cases h), fun r' hr' => ?_, herr m hme⟩
      cases hr'
      rw [Headers.pairs_abs]
      exact ⟨_, rfl, storeTrailers_add r t (hfresh r hs) hi⟩

/-! ### a stream followed by its end message -/

variable {M σ : Type}

/-- `n` data envelopes seen by the subclass -/
def passes (f : σ → σ) : Nat → σ → σ
  | 0, s => s
  | n + 1, s => passes f n (f s)

theorem frameRun_data (c : ReaderCfg M σ) (pass : σ → σ) (fl : UInt8) (hdata : ∀ s d, c.handleEnd s fl d = (pass s, .ok false))
    (fs : List Frame) (ms : List M) (hfl : ∀ f ∈ fs, f.flags = fl) (hm : fs.map (policyOf c).message = ms.map .ok) :
    ∀ s, frameRun c s fs = (ms, .done, passes pass fs.length s, []) := by
  induction fs generalizing ms with
  | nil =>
    intro s
    cases ms with
    | nil => rfl
    | cons m ms => simp at hm
  | cons f fs ih =>
    intro s
    cases ms with
    | nil => simp at hm
    | cons m ms =>
      simp only [List.map_cons, List.cons.injEq] at hm
      have ih' := ih ms (fun g hg => hfl g (by simp [hg])) hm.2 (pass s)
      have hf := hfl f (by simp)
      obtain ⟨h1, _⟩ := hm
      unfold Policy.message at h1
      unfold frameRun
      rw [payload_eq]
      cases hi : (policyOf c).inflate f with
      | error e => rw [hi] at h1; cases h1
      | ok d0 =>
        rw [hi] at h1
        dsimp only at h1 ⊢
        cases hc : (policyOf c).checkSize d0 with
        | error e => rw [hc] at h1; cases h1
        | ok d =>
          rw [hc] at h1
          dsimp only at h1 ⊢
          rw [hf, hdata]
          dsimp only
          have : c.codec.decode d = .ok m := h1
          rw [this, ih']
          rfl

theorem payload_end (w : EnvelopeWriter M) (c : ReaderCfg M σ) (ha : Agree w c) (fl : UInt8) (hfl : fl = 2 ∨ fl = 128)
    (d : Bytes) (hmax : ∀ n, c.readMax = some n → (d.length : Int) ≤ n) :
    c.payload (w.pre ||| fl) (w.compress d) = .ok d := by
  have hbit : (w.pre ||| fl) &&& 1 = w.pre &&& 1 := by
    have hp : w.pre = 0 ∨ w.pre = 1 := by
      unfold EnvelopeWriter.pre
      cases w.compression with
      | none => exact .inl rfl
      | some k => cases k.isIdentity <;> simp
    rcases hp with h | h <;> rcases hfl with rfl | rfl <;> rw [h] <;> decide
  unfold ReaderCfg.payload
  rw [hbit]
  have hlim : ∀ x : Except Exc Bytes, x = .ok d → (match x with
      | .error e => Except.error e
      | .ok d => match c.readMax with
        | some n => if (d.length : Int) > n then Except.error (tooLarge n) else Except.ok d
        | none => Except.ok d) = Except.ok d := by
    rintro x rfl
    dsimp only
    cases hm : c.readMax with
    | none => rfl
    | some n => dsimp only; rw [if_neg (by have := hmax n hm; omega)]
  apply hlim
  cases hc : w.compression with
  | none => simp [EnvelopeWriter.pre, EnvelopeWriter.compress, hc]
  | some k =>
    cases k with
    | identity => simp [EnvelopeWriter.pre, EnvelopeWriter.compress, hc, Compression.isIdentity, Compression.compress]
    | custom nm co de =>
      obtain ⟨hk, hl⟩ := ha.comp _ hc (by intro h; cases h)
      simp only [EnvelopeWriter.pre, EnvelopeWriter.compress, hc, Compression.isIdentity]
      rw [if_pos (by simp)]
      have hn : c.compression.isIdentity = false := by
        cases hcc : c.compression with
        | identity => exact absurd hcc hk
        | custom _ _ _ => rfl
      have hl := hl d
      unfold Compression.isIdentity at hn
      simp only [hn]
      simpa using hl

/-- Messages written by `w`, then an end message with payload `d`: the reader delivers the messages, then runs the end
hook on `d`. -/
theorem feedAll_with_end (w : EnvelopeWriter M) (c : ReaderCfg M σ) (ha : Agree w c) (pass : σ → σ)
    (hdata : ∀ s d, c.handleEnd s w.pre d = (pass s, .ok false)) (fl : UInt8) (hfl : fl = 2 ∨ fl = 128) (sub : σ)
    (ms : List M) (bs chunks : List Bytes) (hw : ms.map w.write = bs.map .ok) (d eb : Bytes)
    (hend : packEnvelope (w.pre ||| fl) (w.compress d) = .ok eb) (hcut : chunks.flatten = bs.flatten ++ eb)
    (hmax : ∀ n, c.readMax = some n → ∀ m ∈ ms, ∀ d, w.codec.encode m = .ok d → (d.length : Int) ≤ n)
    (hmaxe : ∀ n, c.readMax = some n → (d.length : Int) ≤ n)
    (hhook : (c.handleEnd (passes pass ms.length sub) (w.pre ||| fl) d).2 ≠ .ok false) :
    (feedAll c (.init sub) chunks).1 = ms ∧
    (feedAll c (.init sub) chunks).2.1 = (match (c.handleEnd (passes pass ms.length sub) (w.pre ||| fl) d).2 with
      | .error e => .raised e
      | .ok _ => .done) ∧
    (feedAll c (.init sub) chunks).2.2.sub = (c.handleEnd (passes pass ms.length sub) (w.pre ||| fl) d).1 := by
  obtain ⟨fs, h1, h2, h3, h4⟩ := writeAll_frames w c ha ms bs hw hmax
  have hlen : fs.length = ms.length := by
    have := congrArg List.length h4
    simpa using this
  have hlt : (w.compress d).length < 4294967296 := by
    unfold packEnvelope at hend
    by_cases e : (w.compress d).length < 4294967296
    · exact e
    · rw [if_neg e] at hend; cases hend
  let g : Frame := ⟨w.pre ||| fl, w.compress d⟩
  have hg : eb = g.bytes := by
    unfold packEnvelope at hend
    rw [if_pos hlt] at hend
    rw [frame_bytes_eq]
    exact (Except.ok.inj hend).symm
  have hs : Splits chunks.flatten (fs ++ [g]) [] := by
    refine ⟨?_, ?_, incomplete_of_lt_five (by simp)⟩
    · rw [hcut, h2, List.append_nil, List.flatMap_append, List.flatMap_def, hg]; simp
    · intro f hf
      rcases List.mem_append.1 hf with hf | hf
      · exact h1 f hf
      · rw [List.mem_singleton] at hf; subst hf; exact hlt
  have hrun : frameRun c sub (fs ++ [g]) = (ms, (match (c.handleEnd (passes pass ms.length sub) (w.pre ||| fl) d).2 with
      | .error e => HStop.raised e
      | .ok _ => .ended), (c.handleEnd (passes pass ms.length sub) (w.pre ||| fl) d).1, []) := by
    rw [frameRun_append, frameRun_data c pass w.pre hdata fs ms h3 h4 sub]
    dsimp only
    rw [hlen]
    have hp := payload_end w c ha fl hfl d hmaxe
    unfold frameRun
    rw [show c.payload g.flags g.payload = .ok d from hp]
    dsimp only
    rcases hh : c.handleEnd (passes pass ms.length sub) (w.pre ||| fl) d with ⟨sub', r⟩
    rw [hh] at hhook
    rcases r with e | b
    · simp
    · cases b with
      | true => simp
      | false => exact absurd rfl hhook
  have hclean : Clean (frameRun c sub (fs ++ [g])) [] := by
    intro _; rw [hrun]; exact ⟨rfl, rfl⟩
  have hr := feedAll_splits c (.init sub) (by intro n hn; cases hn) chunks (fs := fs ++ [g]) (rest := [])
    (by simpa [ReaderState.init] using hs) (fun _ => incomplete_of_lt_five (by simp [ReaderState.init])) hclean
  have hsub : (ReaderState.init sub).sub = sub := rfl
  rw [hsub, hrun] at hr
  refine ⟨hr.1, hr.2.1.trans ?_, hr.2.2⟩
  cases (c.handleEnd (passes pass ms.length sub) (w.pre ||| fl) d).2 <;> rfl

end Conn
