import Verif.Props.EndStream
import Verif.Props.EndToEnd
import Verif.Props.Refusals
import Verif.Props.Lifespan
/-
More of the properties the code breaks, in all cases of a kind: C04 after end messages, C39 for services without endpoints, C48 for metadata objects
that are used again, C58 for long timeouts.
-/
namespace Props
open Conn Py Spec

variable {Req Res M σ Svc T : Type}

/-! ### C04 -/

theorem incomplete_nil : Incomplete [] := incomplete_of_lt_five (by decide)

/-- reading whole frames into an empty buffer -/
theorem feed_frames (c : ReaderCfg M σ) (s : ReaderState σ) (hs : Consistent s) (hb : s.buffer = []) (fs : List Frame) (hok : ∀ f ∈ fs, f.Ok) :
    ∃ nx, feed c s (fs.flatMap Frame.bytes) = ((frameRun c s.sub fs).1, (frameRun c s.sub fs).2.1.toStop,
      ⟨(frameRun c s.sub fs).2.2.2.flatMap Frame.bytes, nx, (frameRun c s.sub fs).2.2.1⟩) ∧
      Consistent (⟨(frameRun c s.sub fs).2.2.2.flatMap Frame.bytes, nx, (frameRun c s.sub fs).2.2.1⟩ : ReaderState σ) := by
  obtain ⟨nx, h1, h2⟩ := readMessages_splits c (bs := fs.flatMap Frame.bytes) (rest := []) ⟨by simp, hok, incomplete_nil⟩ s.sub
  rw [List.append_nil] at h1 h2
  refine ⟨nx, ?_, h2⟩
  rw [feed_consistent c s hs, hb]
  exact h1

/-- **C04 is false of every message after an end message**: if the reader takes the envelope `g` for the end of the stream and would deliver `d`
as the message `m`, then it delivers `m` if `d` comes in a chunk of its own, and nothing if it comes with `g`. -/
theorem C04_violation_all (c : ReaderCfg M σ) (sub sub' sub'' : σ) (g d : Frame) (hg : g.Ok) (hd : d.Ok) (p q : List UInt8) (m : M)
    (hp : c.payload g.flags g.payload = .ok p) (hend : c.handleEnd sub g.flags p = (sub', .ok true))
    (hq : c.payload d.flags d.payload = .ok q) (hdata : c.handleEnd sub' d.flags q = (sub'', .ok false)) (hm : c.codec.decode q = .ok m) :
    (feedAll c (.init sub) [g.bytes ++ d.bytes]).1 = [] ∧ (feedAll c (.init sub) [g.bytes, d.bytes]).1 = [m] := by
  have hcons : Consistent (ReaderState.init sub) := fun n hn => by cases hn
  have r1 : frameRun c sub [g, d] = ([], .ended, sub', [d]) := by simp only [frameRun, hp, hend]
  have r2 : frameRun c sub [g] = ([], .ended, sub', []) := by simp only [frameRun, hp, hend]
  have r3 : frameRun c sub' [d] = ([m], .done, sub'', []) := by simp only [frameRun, hq, hdata, hm]
  constructor
  · obtain ⟨nx, h1, _⟩ := feed_frames c (.init sub) hcons rfl [g, d] (by simp [hg, hd])
    have hsub : (ReaderState.init sub).sub = sub := rfl
    have hb : ([g, d].flatMap Frame.bytes) = g.bytes ++ d.bytes := by simp
    rw [hsub, r1, hb] at h1
    simp only [feedAll, h1]
    rfl
  · obtain ⟨nx, h1, h2⟩ := feed_frames c (.init sub) hcons rfl [g] (by simp [hg])
    have hsub : (ReaderState.init sub).sub = sub := rfl
    have hb : ([g].flatMap Frame.bytes) = g.bytes := by simp
    rw [hsub, r2, hb] at h1
    rw [hsub, r2] at h2
    obtain ⟨nx', h3, _⟩ := feed_frames c ⟨[], nx, sub'⟩ h2 rfl [d] (by simp [hd])
    have hb' : ([d].flatMap Frame.bytes) = d.bytes := by simp
    dsimp only at h3
    rw [r3, hb'] at h3
    simp only [feedAll, h1]
    dsimp only [HStop.toStop]
    rw [show ([].flatMap Frame.bytes : List UInt8) = [] from rfl, h3]
    rfl

/-- Connect: every end message without error, and every data envelope, of a reader without compression. -/
example : connectReader.payload 2 [123, 125] = .ok [123, 125] ∧
    (connectReader.handleEnd (.init none) 2 [123, 125]).2 = .ok true ∧
    (connectReader.handleEnd (connectReader.handleEnd (.init none) 2 [123, 125]).1 0 [7]).2 = .ok false := by
  decide +kernel

/-! ### C39 -/

/-- a request that was refused -/
def isRefused : LifespanEv Svc T → Bool
  | .refused => true
  | _ => false

def isServed : LifespanEv Svc T → Bool
  | .served _ => true
  | _ => false

def Unserving (empty : T → Bool) (st : LifespanState Svc T) : Prop :=
  (∃ g, st.service = .gen g) ∧ ∀ t, st.resolved = some t → empty t = true

theorem complete_unserving {resolve : Svc → Except Exc T} {empty : T → Bool} (hempty : ∀ s t, resolve s = .ok t → empty t = true)
    {st : LifespanState Svc T} (h : Unserving empty st) (s : Svc) :
    Unserving empty (st.complete resolve s).1 ∧ (st.complete resolve s).2.countP isRefused = 0 ∧
      (st.complete resolve s).2.countP isServed = 0 := by
  unfold LifespanState.complete
  cases hr : resolve s with
  | error e => exact ⟨⟨h.1, h.2⟩, rfl, rfl⟩
  | ok t => exact ⟨⟨h.1, fun t' ht => by cases ht; exact hempty s t hr⟩, rfl, rfl⟩

theorem step_unserving {resolve : Svc → Except Exc T} {empty : T → Bool} (hempty : ∀ s t, resolve s = .ok t → empty t = true)
    {st : LifespanState Svc T} (h : Unserving empty st) (i : LifespanIn) :
    Unserving empty (st.step resolve empty i).1 ∧
      (st.step resolve empty i).2.countP isRefused = (if i = .request then 1 else 0) ∧ (st.step resolve empty i).2.countP isServed = 0 := by
  obtain ⟨⟨g, hg⟩, hr⟩ := h
  cases i with
  | message m =>
    rw [if_neg (by intro h; cases h)]
    unfold LifespanState.step
    cases hp : st.phase with
    | idle =>
      cases m with
      | startup =>
        dsimp only
        rw [hg]
        exact ⟨⟨⟨g, rfl⟩, hr⟩, rfl, rfl⟩
      | shutdown =>
        dsimp only
        cases st.iter with
        | true => exact ⟨⟨⟨g, hg⟩, hr⟩, rfl, rfl⟩
        | false => exact ⟨⟨⟨g, hg⟩, hr⟩, rfl, rfl⟩
      | other => exact ⟨⟨⟨g, hg⟩, hr⟩, rfl, rfl⟩
    | starting => exact ⟨⟨⟨g, hg⟩, hr⟩, rfl, rfl⟩
    | closing => exact ⟨⟨⟨g, hg⟩, hr⟩, rfl, rfl⟩
    | over => exact ⟨⟨⟨g, hg⟩, hr⟩, rfl, rfl⟩
  | resume =>
    rw [if_neg (by intro h; cases h)]
    unfold LifespanState.step
    rw [hg]
    cases hp : st.phase with
    | idle => exact ⟨⟨⟨g, hg⟩, hr⟩, rfl, rfl⟩
    | over => exact ⟨⟨⟨g, hg⟩, hr⟩, rfl, rfl⟩
    | starting =>
      dsimp only
      cases hn : g.next with
      | mk r g' =>
        cases r with
        | error e => cases he : e.isException <;> exact ⟨⟨⟨g', rfl⟩, hr⟩, by simp [List.countP_cons, isRefused, he], by simp [List.countP_cons, isServed, he]⟩
        | ok s =>
          obtain ⟨h1, h2, h3⟩ := complete_unserving hempty (st := { st with service := .gen g', phase := .starting }) ⟨⟨g', rfl⟩, hr⟩ s
          exact ⟨h1, by rw [List.countP_cons, h2]; rfl, by rw [List.countP_cons, h3]; rfl⟩
    | closing =>
      dsimp only
      cases hc : g.aclose with
      | none => exact ⟨⟨⟨_, rfl⟩, hr⟩, rfl, rfl⟩
      | some e => cases he : e.isException <;> exact ⟨⟨⟨_, rfl⟩, hr⟩, by simp [List.countP_cons, isRefused, he], by simp [List.countP_cons, isServed, he]⟩
  | request =>
    rw [if_pos rfl]
    unfold LifespanState.step
    rw [hg]
    cases hres : st.resolved with
    | none => exact ⟨⟨⟨g, hg⟩, hr⟩, rfl, rfl⟩
    | some t =>
      dsimp only
      rw [if_pos (hr t hres)]
      exact ⟨⟨⟨g, hg⟩, hr⟩, rfl, rfl⟩

theorem run_unserving {resolve : Svc → Except Exc T} {empty : T → Bool} (hempty : ∀ s t, resolve s = .ok t → empty t = true) :
    ∀ (is : List LifespanIn) {st : LifespanState Svc T}, Unserving empty st →
      (st.run resolve empty is).countP isRefused = is.count .request ∧ (st.run resolve empty is).countP isServed = 0
  | [], _, _ => ⟨rfl, rfl⟩
  | i :: is, st, h => by
    obtain ⟨h1, h2, h3⟩ := step_unserving hempty h i
    obtain ⟨h4, h5⟩ := run_unserving hempty is h1
    unfold LifespanState.run
    dsimp only
    rw [List.countP_append, List.countP_append, h2, h3, h4, h5, List.count_cons]
    constructor
    · cases i with
      | request => simp; omega
      | message m => simp
      | resume => simp
    · rfl

/-- **C39 is false of every service without endpoints that comes from a generator**: whatever the history, each request is refused and none is
served. -/
theorem C39_violation_no_endpoints_all (resolve : Svc → Except Exc T) (empty : T → Bool) (hempty : ∀ s t, resolve s = .ok t → empty t = true)
    (g : SvcGenState Svc) (is : List LifespanIn) :
    ((LifespanState.init (.gen g) : LifespanState Svc T).run resolve empty is).countP isRefused = is.count .request ∧
    ∀ t, .served t ∉ (LifespanState.init (.gen g) : LifespanState Svc T).run resolve empty is := by
  obtain ⟨h1, h2⟩ := run_unserving hempty is (st := (LifespanState.init (.gen g) : LifespanState Svc T)) ⟨⟨g, rfl⟩, fun t ht => by cases ht⟩
  refine ⟨h1, fun t ht => ?_⟩
  have := List.countP_eq_zero.1 h2 _ ht
  exact this rfl

/-! ### C48 -/

theorem sortFields_untrailed : ∀ (fields : HTTPHeaders) (hs ts : Headers), (∀ p ∈ fields, ¬ pys! "trailer-" <+: p.1) →
    (sortFields (hs, ts) fields).2 = ts
  | [], _, _, _ => rfl
  | (k, v) :: r, hs, ts, h => by
    have hk : startsWith (pys! "trailer-") k = false := by
      exact Bool.eq_false_iff.2 fun hp => h (k, v) (by simp) (List.isPrefixOf_iff_prefix.1 hp)
    unfold sortFields
    rw [hk]
    exact sortFields_untrailed r _ _ fun p hp => h p (by simp [hp])

/-- **C48 is false of every metadata object that is used again**: after a unary response without trailers it tells the trailers it told before. -/
theorem C48_violation_stale_trailers_all (r : RespMeta) (fields : HTTPHeaders) (h : ∀ p ∈ fields, ¬ pys! "trailer-" <+: p.1) :
    ∃ r', handleResponseHeaders (some r) fields = some r' ∧ r'.getTrailers = r.getTrailers := by
  refine ⟨_, rfl, ?_⟩
  unfold RespMeta.getTrailers
  dsimp only
  rw [sortFields_untrailed fields _ _ h]
  rfl

/-! ### C58 -/

/-- **C58 is false of every Connect call whose timeout has more than ten digits**, on WSGI: the server refuses it. -/
theorem C58_violation_long_timeout_all (c : Client Req Res) (app : App Req Res) (m : MethodInfo) (ep : Endpoint Req Res) (req : Req)
    (user : UserHeaders) (t : Option Int) (hc : c.proto = .connect) (hgrpc : ¬ pys! "grpc" <+: c.codec.name)
    (hpath : PlainPath (methodPath m)) (hep : Dict.get? app.endpoints (methodPath m) = some ep) (data : List UInt8)
    (hd : c.codec.encode req = .ok data) (ms : Int) (ht : callTimeout t c.timeoutMs = some ms) (hlong : 10 < (intStr ms).length)
    (sc : StatusCodec) (sink : Sink) (cs : Circumstances) :
    ∃ rq, SendsOnly (· = rq) (fun http => c.executeUnary sc http sink cs req m user t false) ∧
    (∀ env, WsgiSees c.address rq env → WsgiRefused (app.wsgi sc env) .invalidArgument) ∧
    ∀ scope env, AsgiSees c.address rq scope env → Reliable env →
      (scope.rootPath = [] ∨ Dict.get? app.endpoints (scope.rootPath ++ methodPath m) = none) →
      AsgiRefused (app.asgi sc scope env) .invalidArgument := by
  refine ⟨theRequest c m user t false data, executeUnary_sends hc sc sink cs hd m user t false, ?_, ?_⟩
  all_goals
    have hf := context_fields c hc m (pys! "POST") user t
    have hrq : theRequest c m user t false data = _ := unaryRequest_post c m user t (c.send.compress data)
    have hi := context_inv c m (pys! "POST") user t false
    have hval : ∀ n, fieldValues (theRequest c m user t false data).headers n =
        (c.context m (pys! "POST") user t false).requestHeaders.getall n := by
      intro n
      rw [hrq]
      exact fieldValues_allitems hi n
    have htm := hf.timeout
    rw [callTimeout_eq] at ht
    rw [ht] at htm
    have hbad : BadTimeout (intStr ms) := ⟨by intro h; rw [h] at hlong; simp at hlong, .inl hlong⟩
  · intro env h
    have ha := wsgi_arrived h
    have hct := (getall_one (ha.one (pys! "content-type") _ (by decide +kernel) (by rw [hval]; exact hf.type))).2 []
    have hto := (getall_one (ha.one (pys! "connect-timeout-ms") (intStr ms) (by decide +kernel) (by rw [hval]; exact htm))).1
    have hpth := h.path (methodPath m) hpath (by rw [hrq])
    have hm := h.method
    rw [hrq] at hm
    have htarget := WsgiTarget.direct hpth (by rw [rooted_methodPath]; exact hep)
    rw [rooted_methodPath] at htarget
    exact C12_wsgi_refused app sc env _ ep htarget _ hm (by rw [hct]; exact connectType_plain hgrpc) (.inl rfl) _ hto hbad
  · intro scope env h hrel hroot
    obtain ⟨headers, hh, ha, _⟩ := asgi_arrived h
    have hct := (getall_one (ha.one (pys! "content-type") _ (by decide +kernel) (by rw [hval]; exact hf.type))).2 []
    have hto := (getall_one (ha.one (pys! "connect-timeout-ms") (intStr ms) (by decide +kernel) (by rw [hval]; exact htm))).1
    have hpth := h.path (methodPath m) hpath (by rw [hrq])
    have hm := h.method
    rw [hrq] at hm
    have htarget : AsgiTarget app scope (methodPath m) ep := by
      by_cases e : scope.rootPath = []
      · rw [e, List.nil_append] at hpth
        have := AsgiTarget.direct (app := app) (scope := scope) (by rw [hpth]; exact hep)
        rwa [hpth] at this
      · rcases hroot with hr | hr
        · exact absurd hr e
        · exact .mounted (by rw [hpth]; exact hr) e hpth hep
    exact (C12_asgi_refused app sc scope env _ ep htarget headers hh (by rw [hct]; exact connectType_plain hgrpc) (.inl hm) _ hto hbad).2 hrel

/-! ### the hypotheses are met -/

/-- C39: two requests, before and after startup. -/
example : ((LifespanState.init (.gen (.fresh (.yields 7 (.raises stopAsyncIteration) none)))).run
      (fun _ : Nat => (.ok [] : Except Exc (List Nat))) List.isEmpty [.request, .message .startup, .resume, .request]).countP isRefused = 2 :=
  (C39_violation_no_endpoints_all (fun _ : Nat => (.ok [] : Except Exc (List Nat))) List.isEmpty
    (fun _ _ h => by cases h; rfl) _ _).1

/-- C48: an object with a trailer, and a response without. -/
example : (∀ p ∈ [(pys! "content-type", pys! "application/proto"), (pys! "x-h", pys! "second")], ¬ pys! "trailer-" <+: p.1) ∧
    (RespMeta.getTrailers ⟨none, some (Headers.ofPairs [(pys! "x-t", pys! "first")])⟩).getall (pys! "x-t") = [pys! "first"] := by
  decide +kernel

/-- C58: four months. -/
example : pairClient.proto = .connect ∧ callTimeout (some 10000000000) pairClient.timeoutMs = some 10000000000 ∧
    10 < (intStr 10000000000).length ∧ ¬ pys! "grpc" <+: pairClient.codec.name ∧
    (Dict.get? pairApp.endpoints (methodPath echoInfo)).isSome = true := by
  decide +kernel

end Props
