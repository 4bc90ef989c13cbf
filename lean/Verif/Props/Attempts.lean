import Verif.Proofs.Attempts
import Verif.Props.Client
import Verif.Props.Routing
/-
C88: unary calls through interceptors that call `call_next` as often as they like.
-/
namespace Props
open Conn Py Spec

section
variable {Req Res : Type}

theorem attempts_all (c : Client Req Res) (rd : Rat → Rat) (sc : StatusCodec) (net : Network) (interceptors : List (Req → Plan Req Res)) (sink : Sink) (now : Rat)
    (req : Req) (method : MethodInfo) (user : UserHeaders) (timeoutMs : Option Int) (useGet : Bool) :
    let ctx := c.context method (if useGet then pys! "GET" else pys! "POST") user timeoutMs false
    let out := c.executeThrough rd sc net interceptors sink now req method user timeoutMs useGet
    ∃ as rss, Tries (fun t => remainingMs rd (endTime rd ctx.timeoutMs now) t) (asOne interceptors req) ctx.requestHeaders now as out.2 ∧
      EachAlone (plainCall c sc ctx) net [] sink as rss out.1.sink ∧
      rss = as.map (fun a => (c.unaryHttp { ctx with requestHeaders := a.headers } a.req).toList) ∧
      out.1.sent = (as.zip rss).flatMap fun x => x.2.map fun r => (r, timeoutSeconds rd (endTime rd ctx.timeoutMs now) x.1.start) := by
  intro ctx out
  obtain ⟨as, rss, h1, h2, h3, h4⟩ := run_follows c rd sc net ctx (endTime rd ctx.timeoutMs now) (asOne interceptors req)
    ⟨ctx, endTime rd ctx.timeoutMs now, now, sink, []⟩ rfl rfl
  have he : out = (asOne interceptors req).run rd (c.attempt rd sc net) ⟨ctx, endTime rd ctx.timeoutMs now, now, sink, []⟩ :=
    executor_run rd (fun _ => c.attempt rd sc net) interceptors req _
  rw [he]
  exact ⟨as, rss, h1, h2, h3, h4⟩

theorem sent_flatten {rd : Rat → Rat} {e : Option Rat} : ∀ (as : List (Attempt Req Res)) (rss : List (List HttpRequest)), as.length = rss.length →
    ((as.zip rss).flatMap fun x => x.2.map fun r => (r, timeoutSeconds rd e x.1.start)).map (·.1) = rss.flatten
  | [], [], _ => rfl
  | a :: as, rs :: rss, h => by
    rw [List.zip_cons_cons, List.flatMap_cons, List.map_append, List.flatten_cons, sent_flatten as rss (Nat.succ.inj h), List.map_map]
    congr 1
    exact List.map_id _

/-- **C88, attempts.** Whatever the interceptors do, the call is a sequence of attempts, one for each time the innermost `call_next` was called: an attempt is a call without interceptors,
of the message passed on and with the headers as they were then; it sends one request of its own (none if the message cannot be encoded), and what it returns or raises is what the interceptor gets. Nothing
else is sent. -/
theorem C88_attempts (c : Client Req Res) (rd : Rat → Rat) (sc : StatusCodec) (net : Network) (interceptors : List (Req → Plan Req Res)) (sink : Sink) (now : Rat)
    (req : Req) (method : MethodInfo) (user : UserHeaders) (timeoutMs : Option Int) (useGet : Bool) :
    let ctx := c.context method (if useGet then pys! "GET" else pys! "POST") user timeoutMs false
    let out := c.executeThrough rd sc net interceptors sink now req method user timeoutMs useGet
    ∃ as rss, Tries (fun t => remainingMs rd (endTime rd ctx.timeoutMs now) t) (asOne interceptors req) ctx.requestHeaders now as out.2 ∧
      EachAlone (fun headers req http sink cs => c.sendUnary sc http sink cs { ctx with requestHeaders := headers } req) net [] sink as rss out.1.sink ∧
      out.1.sent.map (·.1) = rss.flatten := by
  intro ctx out
  obtain ⟨as, rss, h1, h2, h3, h4⟩ := attempts_all c rd sc net interceptors sink now req method user timeoutMs useGet
  refine ⟨as, rss, h1, h2, ?_⟩
  show List.map _ out.1.sent = _
  rw [show out.1.sent = _ from h4]
  exact sent_flatten as rss (by rw [h3, List.length_map])

/-- **C88, one attempt is a plain call.** A client without interceptors makes one attempt; it is the call of the theorems about single calls. -/
theorem C88_plain (c : Client Req Res) (rd : Rat → Rat) (sc : StatusCodec) (net : Network) (sink : Sink) (now : Rat)
    (req : Req) (method : MethodInfo) (user : UserHeaders) (timeoutMs : Option Int) (useGet : Bool) :
    let out := c.executeThrough rd sc net [] sink now req method user timeoutMs useGet
    (out.1.sink, out.2) = c.executeUnary sc (net.http []) sink (net.cs []) req method user timeoutMs useGet := rfl

/-- **C88, the same again.** Interceptors that do not change headers or messages: every attempt sends the request that a call without interceptors would send, and gives what such
a call would give at that moment. -/
theorem C88_again (c : Client Req Res) (rd : Rat → Rat) (sc : StatusCodec) (net : Network) (interceptors : List (Req → Plan Req Res)) (sink : Sink) (now : Rat)
    (req : Req) (method : MethodInfo) (user : UserHeaders) (timeoutMs : Option Int) (useGet : Bool)
    (hp : ∀ p ∈ interceptors, ∀ req, PassesOn req (p req)) :
    let ctx := c.context method (if useGet then pys! "GET" else pys! "POST") user timeoutMs false
    let out := c.executeThrough rd sc net interceptors sink now req method user timeoutMs useGet
    ∃ as rs, Tries (fun t => remainingMs rd (endTime rd ctx.timeoutMs now) t) (asOne interceptors req) ctx.requestHeaders now as out.2 ∧
      EachAlone (fun _ _ http sink cs => c.executeUnary sc http sink cs req method user timeoutMs useGet) net [] sink as (List.replicate as.length rs) out.1.sink ∧
      out.1.sent.map (·.1) = (List.replicate as.length rs).flatten := by
  intro ctx out
  obtain ⟨as, rss, h1, h2, h3, h4⟩ := attempts_all c rd sc net interceptors sink now req method user timeoutMs useGet
  have hall := follows_passes h1 (passes_asOne interceptors hp req)
  have hr : rss = List.replicate as.length (c.unaryHttp ctx req).toList := by
    rw [h3]
    refine List.eq_replicate_iff.2 ⟨List.length_map .., ?_⟩
    intro rs hrs
    obtain ⟨a, ha, rfl⟩ := List.mem_map.1 hrs
    obtain ⟨e1, e2⟩ := hall a ha
    rw [e1, e2]
  refine ⟨as, (c.unaryHttp ctx req).toList, h1, ?_, ?_⟩
  · rw [← hr]
    refine separate_congr h2 fun a ha => ?_
    obtain ⟨e1, e2⟩ := hall a ha
    funext http sink cs
    rw [e1, e2]
    rfl
  · show List.map _ out.1.sent = _
    rw [show out.1.sent = _ from h4, ← hr]
    exact sent_flatten as rss (by rw [h3, List.length_map])

/-- **C88, not called on.** An interceptor that answers itself keeps the call from the network: nothing is sent, nothing is recorded, and its answer is what the caller gets
(unless an interceptor further out replaces it: here, the first in the list). -/
theorem C88_skipped (c : Client Req Res) (rd : Rat → Rat) (sc : StatusCodec) (net : Network) (p : Req → Plan Req Res) (rest : List (Req → Plan Req Res)) (sink : Sink)
    (now : Rat) (req : Req) (method : MethodInfo) (user : UserHeaders) (timeoutMs : Option Int) (useGet : Bool) (r : Except Exc Res) (hp : p req = .result r) :
    let out := c.executeThrough rd sc net (p :: rest) sink now req method user timeoutMs useGet
    out.1.sent = [] ∧ out.1.sink = sink ∧ out.2 = r := by
  intro out
  have he : out = (asOne (p :: rest) req).run rd (c.attempt rd sc net) _ := executor_run rd (fun _ => c.attempt rd sc net) (p :: rest) req _
  have ha : asOne (p :: rest) req = .result r := by
    show Spec.Plan.around (asOne rest) (p req) = _
    rw [hp]
    rfl
  rw [he, ha]
  exact ⟨rfl, rfl, rfl⟩

theorem sent_of {rd : Rat → Rat} {e : Option Rat} {as : List (Attempt Req Res)} {rss : List (List HttpRequest)} {r : HttpRequest} {τ : Option Rat}
    (h : (r, τ) ∈ (as.zip rss).flatMap fun x => x.2.map fun r => (r, timeoutSeconds rd e x.1.start)) :
    ∃ a rs, (a, rs) ∈ as.zip rss ∧ r ∈ rs ∧ τ = timeoutSeconds rd e a.start := by
  obtain ⟨⟨a, rs⟩, hx, hr⟩ := List.mem_flatMap.1 h
  obtain ⟨r', hr', he⟩ := List.mem_map.1 hr
  cases he
  exact ⟨a, rs, hx, hr', rfl⟩

/-- **C88, time.** In exact arithmetic, the timeout that an attempt's request is given (in seconds) is what is then left of the call's: the end is the same for all attempts. Without a timeout, none has one. -/
theorem C88_time (c : Client Req Res) (sc : StatusCodec) (net : Network) (interceptors : List (Req → Plan Req Res)) (sink : Sink) (now : Rat)
    (req : Req) (method : MethodInfo) (user : UserHeaders) (timeoutMs : Option Int) (useGet : Bool) :
    let ctx := c.context method (if useGet then pys! "GET" else pys! "POST") user timeoutMs false
    let out := c.executeThrough id sc net interceptors sink now req method user timeoutMs useGet
    ∃ as, Tries (fun t => ctx.timeoutMs.map fun (T : Int) => (T : Rat) - (t - now) * 1000) (asOne interceptors req) ctx.requestHeaders now as out.2 ∧
      ∀ q ∈ out.1.sent, ∃ a ∈ as, now ≤ a.start ∧ q.2 = ctx.timeoutMs.map fun (T : Int) => (T : Rat) / 1000 - (a.start - now) := by
  intro ctx out
  obtain ⟨as, rss, h1, _, _, h4⟩ := attempts_all c id sc net interceptors sink now req method user timeoutMs useGet
  have hl : (fun t => remainingMs id (endTime id ctx.timeoutMs now) t) = fun t => ctx.timeoutMs.map fun (T : Int) => (T : Rat) - (t - now) * 1000 :=
    funext fun t => C14_remaining_time ctx.timeoutMs now t
  refine ⟨as, hl ▸ h1, ?_⟩
  rintro ⟨r, τ⟩ hq
  rw [show out.1.sent = _ from h4] at hq
  obtain ⟨a, rs, hx, _, hτ⟩ := sent_of hq
  have ha := (List.of_mem_zip hx).1
  refine ⟨a, ha, ((follows_order h1).1 a ha).1, ?_⟩
  rw [hτ]
  unfold timeoutSeconds
  rw [C14_remaining_time]
  cases hT : ctx.timeoutMs with
  | none => rfl
  | some T =>
    show some (((T : Rat) - (a.start - now) * 1000) / 1000) = some _
    congr 1
    grind

theorem pairwise_flatMap {α β : Type} {R : β → β → Prop} {f : α → List β} : ∀ {l : List α}, (∀ a ∈ l, (f a).Pairwise R) →
    (l.Pairwise fun a b => ∀ x ∈ f a, ∀ y ∈ f b, R x y) → (l.flatMap f).Pairwise R
  | [], _, _ => .nil
  | a :: l, h1, h2 => by
    rw [List.flatMap_cons, List.pairwise_append]
    cases h2 with
    | cons h3 h4 =>
      refine ⟨h1 a (List.mem_cons_self ..), pairwise_flatMap (fun b hb => h1 b (List.mem_cons_of_mem _ hb)) h4, ?_⟩
      intro x hx y hy
      obtain ⟨b, hb, hy⟩ := List.mem_flatMap.1 hy
      exact h3 b hb x hx y hy

theorem zip_mapped {α β : Type} (f : α → β) : ∀ l : List α, l.zip (l.map f) = l.map fun a => (a, f a)
  | [] => rfl
  | a :: l => congrArg ((a, f a) :: ·) (zip_mapped f l)

/-- **C88, time, rounded.** With any monotone rounding, no attempt is given more time than one before it. -/
theorem C88_time_shrinks (c : Client Req Res) (rd : Rat → Rat) (hrd : ∀ x y, x ≤ y → rd x ≤ rd y) (sc : StatusCodec) (net : Network)
    (interceptors : List (Req → Plan Req Res)) (sink : Sink) (now : Rat) (req : Req) (method : MethodInfo) (user : UserHeaders) (timeoutMs : Option Int)
    (useGet : Bool) :
    let out := c.executeThrough rd sc net interceptors sink now req method user timeoutMs useGet
    (out.1.sent.map (·.2)).Pairwise fun earlier later => ∀ a b, earlier = some a → later = some b → b ≤ a := by
  intro out
  obtain ⟨as, rss, h1, _, h3, h4⟩ := attempts_all c rd sc net interceptors sink now req method user timeoutMs useGet
  have ho := (follows_order h1).2
  have hb := (follows_order h1).1
  rw [show out.1.sent = _ from h4, List.pairwise_map]
  subst h3
  rw [zip_mapped]
  apply pairwise_flatMap
  · intro x hx
    obtain ⟨a, ha, rfl⟩ := List.mem_map.1 hx
    dsimp only
    cases c.unaryHttp { c.context method (if useGet then pys! "GET" else pys! "POST") user timeoutMs false with requestHeaders := a.headers } a.req with
    | none => exact .nil
    | some r => exact List.pairwise_singleton _ _
  · rw [List.pairwise_map]
    have ho' : as.Pairwise fun a b => a.start ≤ b.start := by
      refine List.Pairwise.imp_of_mem (fun {a b} ha hb' hab => ?_) ho
      have := (hb a ha).2
      grind
    refine ho'.imp fun {a b} hab => ?_
    intro x hx y hy u v hu hv
    obtain ⟨_, _, rfl⟩ := List.mem_map.1 hx
    obtain ⟨_, _, rfl⟩ := List.mem_map.1 hy
    dsimp only at hu hv
    unfold timeoutSeconds at hu hv
    cases hu' : remainingMs rd (endTime rd (c.context method (if useGet then pys! "GET" else pys! "POST") user timeoutMs false).timeoutMs now) a.start with
    | none => rw [hu'] at hu; cases hu
    | some m =>
      cases hv' : remainingMs rd (endTime rd (c.context method (if useGet then pys! "GET" else pys! "POST") user timeoutMs false).timeoutMs now) b.start with
      | none => rw [hv'] at hv; cases hv
      | some n =>
        rw [hu'] at hu
        rw [hv'] at hv
        cases hu
        cases hv
        apply hrd
        have := C14_never_increases rd hrd _ now a.start b.start hab m n hu' hv'
        grind

/-- C88 is false of what the server is told: interceptors that pass the request on, however late, have it announce the whole timeout of the call, at every attempt. -/
theorem C88_violation_announced (c : Client Req Res) (rd : Rat → Rat) (sc : StatusCodec) (net : Network) (interceptors : List (Req → Plan Req Res)) (sink : Sink) (now : Rat)
    (req : Req) (method : MethodInfo) (user : UserHeaders) (t : Int) (h0 : 0 < t) (ht : c.proto = .connect ∨ t < 10 ^ 8) (useGet : Bool)
    (hp : ∀ p ∈ interceptors, ∀ req, PassesOn req (p req)) :
    ∀ q ∈ (c.executeThrough rd sc net interceptors sink now req method user (some t) useGet).1.sent, Announces c.proto t q.1 := by
  rintro ⟨r, τ⟩ hq
  obtain ⟨as, rss, h1, _, h3, h4⟩ := attempts_all c rd sc net interceptors sink now req method user (some t) useGet
  rw [h4] at hq
  obtain ⟨a, rs, hx, hr, _⟩ := sent_of hq
  have hrs := (List.of_mem_zip hx).2
  rw [h3] at hrs
  obtain ⟨a, ha, rfl⟩ := List.mem_map.1 hrs
  obtain ⟨e1, e2⟩ := follows_passes h1 (passes_asOne interceptors hp req) a ha
  rw [e1, e2] at hr
  have hr : r ∈ (c.unaryHttp (c.context method (if useGet then pys! "GET" else pys! "POST") user (some t) false) req).toList := hr
  unfold Client.unaryHttp at hr
  show Announces c.proto t r
  cases hpr : c.proto with
  | connect =>
    rw [hpr] at hr
    dsimp only at hr
    cases he : c.codec.encode req with
    | error e => rw [he] at hr; cases hr
    | ok data =>
      rw [he] at hr
      obtain rfl := List.mem_singleton.1 hr
      rw [← hpr]
      exact announces_unary c method _ user t h0 hpr false _
  | grpc =>
    rw [hpr] at hr
    obtain rfl := List.mem_singleton.1 hr
    rw [← hpr]
    exact announces_stream c method _ user t h0 ht false _ rfl rfl
  | grpcWeb =>
    rw [hpr] at hr
    obtain rfl := List.mem_singleton.1 hr
    rw [← hpr]
    exact announces_stream c method _ user t h0 ht false _ rfl rfl

theorem separate_last {plain : Headers → Req → HttpClient → Sink → Circumstances → Sink × Except Exc Res} {net : Network} : ∀ {as : List (Attempt Req Res)}
    {before : List HttpRequest} {sink sink' : Sink} {rss : List (List HttpRequest)} {a : Attempt Req Res} (_ : EachAlone plain net before sink (as ++ [a]) rss sink'),
    ∃ rss' rs mid, rss = rss' ++ [rs] ∧ EachAlone plain net before sink as rss' mid ∧
      plain a.headers a.req (net.http (before ++ rss'.flatten)) mid (net.cs (before ++ rss'.flatten)) = (sink', a.result)
  | [], _, _, _, _, _, h => by
    cases h with
    | cons hcall _ hrest =>
      cases hrest
      exact ⟨[], _, _, rfl, .nil .., by rw [List.flatten_nil, List.append_nil]; exact hcall⟩
  | b :: as, _, _, _, _, _, h => by
    cases h with
    | cons hcall hsent hrest =>
      obtain ⟨rss', rs, mid, h1, h2, h3⟩ := separate_last hrest
      exact ⟨_ :: rss', rs, mid, by rw [h1]; rfl, .cons hcall hsent h2, by rw [List.flatten_cons, ← List.append_assoc]; exact h3⟩

/-- **C88, what is recorded (partial).** If the last attempt succeeds, and the ones before it left no trailers in the caller's `ResponseMetadata` object, the object shows the headers and trailers of the
last response: what a new object shows after that attempt alone. Missing: earlier attempts with trailers (`C88_violation_trailers`), and a last attempt that fails. -/
theorem C88_metadata_partial (c : Client Req Res) (rd : Rat → Rat) (sc : StatusCodec) (net : Network) (interceptors : List (Req → Plan Req Res)) (sink : Sink) (now : Rat)
    (req : Req) (method : MethodInfo) (user : UserHeaders) (timeoutMs : Option Int) (useGet : Bool) :
    let ctx := c.context method (if useGet then pys! "GET" else pys! "POST") user timeoutMs false
    let out := c.executeThrough rd sc net interceptors sink now req method user timeoutMs useGet
    ∃ as, Tries (fun t => remainingMs rd (endTime rd ctx.timeoutMs now) t) (asOne interceptors req) ctx.requestHeaders now as out.2 ∧
      ∀ (as' : List (Attempt Req Res)) (a : Attempt Req Res) (m : Res), as = as' ++ [a] → a.result = .ok m →
        ∃ rss mid, EachAlone (fun headers req http sink cs => c.sendUnary sc http sink cs { ctx with requestHeaders := headers } req) net [] sink as' rss mid ∧
          ∀ hs, mid = some ⟨hs, none⟩ →
            (out.1.sink, Except.ok m) = c.sendUnary sc (net.http rss.flatten) (some .new) (net.cs rss.flatten) { ctx with requestHeaders := a.headers } a.req := by
  intro ctx out
  obtain ⟨as, rss, h1, h2, h3, h4⟩ := attempts_all c rd sc net interceptors sink now req method user timeoutMs useGet
  refine ⟨as, h1, ?_⟩
  rintro as' a m rfl hm
  obtain ⟨rss', rs, mid, _, h5, h6⟩ := separate_last h2
  refine ⟨rss', mid, h5, ?_⟩
  rintro hs rfl
  rw [List.nil_append, hm] at h6
  have h6 : c.sendUnary sc (net.http rss'.flatten) (some ⟨hs, none⟩) (net.cs rss'.flatten) { ctx with requestHeaders := a.headers } a.req = (out.1.sink, .ok m) := h6
  rw [← h6]
  exact sendUnary_anew c sc _ hs _ _ _ (m := m) (by rw [h6])

/-! ### retrying -/

/-- an interceptor that tries again, up to `n` times, after `d` seconds, when the server is unavailable -/
def retrying (d : Rat) : Nat → Req → Plan Req Res
  | 0, req => .next req .result
  | n + 1, req => .next req fun
    | .error (.connect e) => if e.code = .unavailable then .wait d (retrying d n req) else .result (.error (.connect e))
    | r => .result r

theorem retrying_passes (d : Rat) : ∀ (n : Nat) (req : Req), PassesOn req (retrying (Res := Res) d n req)
  | 0, req => .next fun r => .result r
  | n + 1, req => .next fun r => by
    cases r with
    | ok m => exact .result _
    | error e =>
      cases e with
      | connect e =>
        dsimp only
        split
        · exact .wait (retrying_passes d n req)
        · exact .result _
      | _ => exact .result _

/-- the outcome says that the server is unavailable -/
def Unavailable (r : Except Exc Res) : Prop := ∃ e : ConnectErr, r = .error (.connect e) ∧ e.code = .unavailable

/-- **C88, retrying.** What such an interceptor does by the specification: all attempts but the last found the server unavailable, the last is what the caller gets, there are `n + 1` at most, and if there are fewer the last is not
of this kind. -/
theorem C88_retry (left : Rat → Option Rat) (d : Rat) : ∀ (n : Nat) (req : Req) (h : Headers) (t : Rat) (as : List (Attempt Req Res)) (r : Except Exc Res),
    Tries left (retrying d n req) h t as r →
    ∃ as' a, as = as' ++ [a] ∧ (∀ b ∈ as', Unavailable b.result) ∧ a.result = r ∧ as'.length ≤ n ∧ (as'.length < n → ¬ Unavailable r)
  | 0, req, h, t, as, r, hf => by
    cases hf with
    | next ht hf =>
      cases hf
      exact ⟨[], _, rfl, (fun b hb => by cases hb), rfl, Nat.le_refl _, (fun hl => absurd hl (Nat.lt_irrefl _))⟩
  | n + 1, req, h, t, as, r, hf => by
    cases hf with
    | @next _ _ _ _ t' r1 _ as1 ht hf =>
      have stop : ¬ Unavailable r1 → Tries left (.result r1) h t' as1 r →
          ∃ as' a, (⟨req, h, t, r1, t'⟩ :: as1 : List (Attempt Req Res)) = as' ++ [a] ∧ (∀ b ∈ as', Unavailable b.result) ∧ a.result = r ∧ as'.length ≤ n + 1 ∧
            (as'.length < n + 1 → ¬ Unavailable r) := by
        intro hu hf
        cases hf
        exact ⟨[], _, rfl, (fun b hb => by cases hb), rfl, Nat.zero_le _, fun _ => hu⟩
      cases r1 with
      | ok m => exact stop (by rintro ⟨e, h, _⟩; cases h) hf
      | error e =>
        cases e with
        | connect e =>
          dsimp only at hf
          by_cases hc : e.code = .unavailable
          · rw [if_pos hc] at hf
            cases hf with
            | wait hf =>
              obtain ⟨as', a, h1, h2, h3, h4, h5⟩ := C88_retry left d n req h _ _ r hf
              refine ⟨_ :: as', a, by rw [h1]; rfl, ?_, h3, Nat.succ_le_succ h4, fun hl => h5 (Nat.lt_of_succ_lt_succ hl)⟩
              intro b hb
              rcases List.mem_cons.1 hb with rfl | hb
              · exact ⟨e, rfl, hc⟩
              · exact h2 b hb
          · rw [if_neg hc] at hf
            exact stop (by rintro ⟨e', h, h'⟩; cases h; exact hc h') hf
        | _ => exact stop (by rintro ⟨e, h, _⟩; cases h) hf

end

/-! ### cases -/

/-- a server that is unavailable for the first request; each takes half a second -/
def awaking (first then_ : StreamResponse) (full : FullResponse) : Network where
  http before := if before.isEmpty then ⟨fun _ => .error (.mk .unavailable (pys! "down")), fun _ => .ok first⟩ else ⟨fun _ => .ok full, fun _ => .ok then_⟩
  cs _ := calm
  took _ := 1 / 2

def downGrpc : StreamResponse :=
  ⟨200, [(pys! "content-type", pys! "application/grpc+raw")], [], none, [(pys! "grpc-status", pys! "14"), (pys! "grpc-message", pys! "down")], none⟩
def upGrpc : StreamResponse :=
  ⟨200, [(pys! "content-type", pys! "application/grpc+raw")], [[0, 0, 0, 0, 1, 7]], none, [(pys! "grpc-status", pys! "0")], none⟩

/-- Hypotheses met, and what happens: two attempts, the second after a second and a half; the call returns what the second got. -/
example (f : Flavor) : (∀ p ∈ [retrying (Req := Bytes) (Res := Bytes) 1 3], ∀ req, PassesOn req (p req)) ∧
    (let out := (demoClient f .connect).executeThrough id demoStatus (awaking downGrpc upGrpc (okFull [7])) [retrying 1 3] (some .new) 0 [1] demoMethod (.mapping []) (some 2500) false
     out.2.toOption = some [7] ∧ out.1.sent.map (·.2) = [some (5 / 2), some 1] ∧
       out.1.sent.map (fun q => fieldValues q.1.headers (pys! "connect-timeout-ms")) = [[pys! "2500"], [pys! "2500"]]) := by
  refine ⟨?_, ?_⟩
  · intro p hp req
    obtain rfl := List.mem_singleton.1 hp
    exact retrying_passes 1 3 req
  · cases f <;> decide +kernel

/-- Hypotheses met by the Connect protocol: the first attempt got no response, the second succeeded, and the object shows the headers of its response. -/
example (f : Flavor) :
    let net := awaking downGrpc upGrpc (okFull [7])
    let out := (demoClient f .connect).executeThrough id demoStatus net [retrying 1 3] (some .new) 0 [1] demoMethod (.mapping []) none false
    out.1.sent.length = 2 ∧ out.1.sink.map (fun r => r.getHeaders.getall (pys! "content-type")) = some [pys! "application/raw"] ∧
      out.1.sink = ((demoClient f .connect).executeUnary demoStatus (net.http (out.1.sent.map (·.1))) (some .new) calm [1] demoMethod (.mapping []) none false).1 := by
  cases f <;> decide +kernel

/-- Hypothesis met: an interceptor that answers from a cache. -/
example : ∃ p : Bytes → Plan Bytes Bytes, p [1] = .result (.ok [9]) := ⟨fun _ => .result (.ok [9]), rfl⟩

/-- Hypothesis met: rounding to whole numbers is monotone. -/
example : ∀ x y : Rat, x ≤ y → ((x.floor : Int) : Rat) ≤ (y.floor : Int) := fun x y h => by exact_mod_cast Rat.floor_monotone h

/-- C88 is false of the trailers: by gRPC, after an attempt that failed and one that succeeded, the object holds the trailers of both, and the first status in it is that of the failure. -/
theorem C88_violation_trailers (f : Flavor) :
    let out := (demoClient f .grpc).executeThrough id demoStatus (awaking downGrpc upGrpc default) [retrying 1 3] (some .new) 0 [1] demoMethod (.mapping []) none false
    out.2.toOption = some [7] ∧ out.1.sink.map (fun r => r.getTrailers.getall (pys! "grpc-status")) = some [pys! "14", pys! "0"] ∧
      out.1.sink.map (fun r => r.getTrailers.getall (pys! "grpc-message")) = some [pys! "down"] := by
  cases f <;> decide +kernel

end Props
