import Verif.Proofs.Otel
import Verif.Proofs.Interceptor
import Verif.Props.Protocol
/-
C56 (auto-instrumentation), C57 (tracing never breaks a call) and C67 (the server's span is a child of the client's).
-/
namespace Props
open Conn Py Spec Proofs.Otel

/-! ### C56 -/

section
variable {I : Type} (isOtel : I → Bool) (otel : I)

/-- C56: the constructor sees the user's interceptors in order, with tracing before them unless it is among them. Missing: iterators that can be
iterated only once and have tracing among their items (see `C56_violation_iterator`). -/
theorem C56_instrumented_partial (arg : Option (Iterable I))
    (h : ∀ xs, arg = some (.once xs) → ∀ i ∈ xs, isOtel i = false) :
    Instrumented isOtel otel (argItems arg) (interceptorsSeen (initWrapper isOtel otel arg)) := by
  have key : ∀ xs : List I, ¬ xs.any isOtel = true → ∀ i ∈ xs, isOtel i = false := by
    intro xs hx i hi
    cases hv : isOtel i with
    | false => rfl
    | true => exact absurd (List.any_eq_true.mpr ⟨i, hi, hv⟩) hx
  match arg, h with
  | none, _ => exact .added (fun i hi => by cases hi)
  | some (.coll xs), _ =>
    by_cases hx : xs.any isOtel = true
    · have e : interceptorsSeen (initWrapper isOtel otel (some (.coll xs))) = xs := by
        simp [initWrapper, Iterable.iterate, interceptorsSeen, hx]
      rw [e]
      exact .own (List.any_eq_true.mp hx)
    · have e : interceptorsSeen (initWrapper isOtel otel (some (.coll xs))) = otel :: xs := by
        simp [initWrapper, Iterable.iterate, interceptorsSeen, hx]
      rw [e]
      exact .added (key xs hx)
  | some (.once xs), h =>
    have hn := h xs rfl
    have hx : ¬ xs.any isOtel = true := by
      intro hx
      obtain ⟨i, hi, hv⟩ := List.any_eq_true.mp hx
      rw [hn i hi] at hv
      cases hv
    have e : interceptorsSeen (initWrapper isOtel otel (some (.once xs))) = otel :: xs := by
      simp [initWrapper, Iterable.iterate, interceptorsSeen, hx]
    rw [e]
    exact .added hn

/-- … so that there is exactly one tracing interceptor, if the user passed at most one. -/
theorem C56_exactly_one (ho : isOtel otel = true) (arg : Option (Iterable I))
    (h : ∀ xs, arg = some (.once xs) → ∀ i ∈ xs, isOtel i = false) (h1 : ((argItems arg).filter isOtel).length ≤ 1) :
    ((interceptorsSeen (initWrapper isOtel otel arg)).filter isOtel).length = 1 := by
  have hi := C56_instrumented_partial isOtel otel arg h
  revert hi
  generalize interceptorsSeen (initWrapper isOtel otel arg) = ys
  intro hi
  cases hi with
  | own hex =>
    obtain ⟨i, hm, hv⟩ := hex
    have : 0 < ((argItems arg).filter isOtel).length := List.length_pos_of_mem (List.mem_filter.mpr ⟨hm, hv⟩)
    omega
  | added hn =>
    rw [List.filter_cons_of_pos ho, List.filter_eq_nil_iff.mpr (fun i hm => by rw [hn i hm]; decide)]
    rfl

/-- Instrumenting what is instrumented changes nothing. -/
theorem C56_twice (ho : isOtel otel = true) (otel' : I) (arg : Option (Iterable I))
    (h : ∀ xs, arg = some (.once xs) → ∀ i ∈ xs, isOtel i = false) :
    interceptorsSeen (initWrapper isOtel otel' (initWrapper isOtel otel arg)) = interceptorsSeen (initWrapper isOtel otel arg) := by
  have again : ∀ xs : List I, xs.any isOtel = true → initWrapper isOtel otel' (some (.coll xs)) = some (.coll xs) := by
    intro xs hx; simp [initWrapper, Iterable.iterate, hx]
  have added : ∀ xs : List I, (otel :: xs).any isOtel = true := by intro xs; simp [ho]
  match arg, h with
  | none, _ =>
    have e : initWrapper isOtel otel none = some (.coll [otel]) := by simp [initWrapper]
    rw [e, again _ (added [])]
  | some (.coll xs), _ =>
    by_cases hx : xs.any isOtel = true
    · have e : initWrapper isOtel otel (some (.coll xs)) = some (.coll xs) := by simp [initWrapper, Iterable.iterate, hx]
      rw [e, again _ hx]
    · have e : initWrapper isOtel otel (some (.coll xs)) = some (.coll (otel :: xs)) := by simp [initWrapper, Iterable.iterate, hx]
      rw [e, again _ (added xs)]
  | some (.once xs), h =>
    have hx : ¬ xs.any isOtel = true := by
      intro hx
      obtain ⟨i, hi, hv⟩ := List.any_eq_true.mp hx
      rw [h xs rfl i hi] at hv
      cases hv
    have e : initWrapper isOtel otel (some (.once xs)) = some (.coll (otel :: xs)) := by simp [initWrapper, Iterable.iterate, hx]
    rw [e, again _ (added xs)]

/-- C56 is false of an iterator with tracing among its items: looking for it uses the iterator up, and all interceptors are lost. -/
theorem C56_violation_iterator (xs : List I) (h : ∃ i ∈ xs, isOtel i = true) :
    interceptorsSeen (initWrapper isOtel otel (some (.once xs))) = [] ∧
    ¬ Instrumented isOtel otel (argItems (some (.once xs))) (interceptorsSeen (initWrapper isOtel otel (some (.once xs)))) := by
  have e : interceptorsSeen (initWrapper isOtel otel (some (.once xs))) = [] := by
    simp [initWrapper, Iterable.iterate, interceptorsSeen, List.any_eq_true.mpr h]
  refine ⟨e, ?_⟩
  rw [e]
  intro hi
  obtain ⟨i, hm, _⟩ := h
  generalize hy : ([] : List I) = ys at hi
  cases hi with
  | own _ => rw [show argItems (some (Iterable.once xs)) = xs from rfl] at hy; rw [← hy] at hm; cases hm
  | added _ => cases hy

/-- The interceptor that was added runs around all others, in RPCs of every kind. -/
theorem C56_outermost {F : Kind → Type} {M : Type} (invoker : M → (k : Kind) → F k → F k) (otel : Interceptor F M) (m : M)
    (hm : otel.callbacks = some m) (is : List (Interceptor F M)) (base : (k : Kind) → F k) (k : Kind) :
    clientExecutor invoker (otel :: is) base k = invoker m k (clientExecutor invoker is base k) := by
  unfold clientExecutor
  rw [List.map_cons, applyInterceptors_cons]
  unfold Interceptor.resolve
  rw [hm]

end

/-- interceptors by name; tracing is number 0 -/
example : interceptorsSeen (initWrapper (· == 0) 0 (some (.once [7, 8]))) = [0, 7, 8] ∧
    interceptorsSeen (initWrapper (· == 0) 0 (some (.coll [7, 0, 8]))) = [7, 0, 8] ∧
    interceptorsSeen (initWrapper (· == 0) 0 (none : Option (Iterable Nat))) = [0] ∧
    interceptorsSeen (initWrapper (· == 0) 0 (some (.once [7, 0, 8]))) = [] := by decide

/-! ### C57 -/

section
variable {C E R A S : Type} (o : OtelInterceptor C) (emit : Telemetered C → E) (current : Option C)

/-- C57, RPCs with one response: with tracing the call ends as it does without, and one span and one duration are reported. Missing: addresses that
are not `address:port` (see `C57_violation_host`, `C57_violation_url`). -/
theorem C57_call_partial (f : A → RequestContext → Ran E R) (a : A) (ctx : RequestContext) (hs : Traceable ctx.serverAddress)
    (hc : Traceable ctx.clientAddress) :
    let r := f a (seenContext o current ctx)
    ∃ before after, Traced o emit (parentOf o current ctx) ctx (reported (errOf r.result)) before after ∧
      o.aroundSync (S := S) emit current .unary f a ctx = ⟨before ++ r.effects ++ after, r.result⟩ ∧
      o.aroundAsync (S := S) emit current .unary f a ctx = ⟨before ++ r.effects ++ after, r.result⟩ ∧
      o.aroundSync (A := S) emit current .clientStream f a ctx = ⟨before ++ r.effects ++ after, r.result⟩ ∧
      o.aroundAsync (A := S) emit current .clientStream f a ctx = ⟨before ++ r.effects ++ after, r.result⟩ := by
  intro r
  obtain ⟨before, shared, h1, h2⟩ := onStart_ok o emit current hs hc
  obtain ⟨hn, ht⟩ := h2 ctx (reported (errOf r.result))
  have key : invokeCall (o.callbacks emit current) (fun a ctx => f a (o.touch current ctx)) a ctx =
      ⟨before ++ r.effects ++ (o.onEnd emit shared ctx (reported (errOf r.result))).1, r.result⟩ := by
    unfold invokeCall
    rw [show (o.callbacks emit current).onStart ctx = (before, .ok shared) from h1]
    dsimp only
    rw [touch_eq o current hs, caught_reported]
    show Ran.mk (before ++ r.effects ++ (o.onEnd emit shared ctx (reported (errOf r.result))).1)
      (match (o.onEnd emit shared ctx (reported (errOf r.result))).2 with
        | some x => .error x
        | none => r.result) = _
    rw [hn]
  rw [parent_eq] at ht
  exact ⟨before, _, ht, key, key, key, key⟩

/-- C57, RPCs with a response stream, synchronous: a consumer gets the same messages and exception as without tracing. -/
theorem C57_stream_sync_partial (f : A → RequestContext → Gen E R) (a : A) (ctx : RequestContext) (hs : Traceable ctx.serverAddress)
    (hc : Traceable ctx.clientAddress) (n : Nat) :
    let u := (f a (seenContext o current ctx)).use (n + 1)
    ∃ before after, Traced o emit (parentOf o current ctx) ctx (reported u.exc) before after ∧
      Gen.use (n + 1) (o.aroundSync (S := S) emit current .serverStream f a ctx) = ⟨before ++ u.effects ++ after, u.messages, u.exc, u.later⟩ ∧
      Gen.use (n + 1) (o.aroundSync (A := S) emit current .bidi f a ctx) = ⟨before ++ u.effects ++ after, u.messages, u.exc, u.later⟩ := by
  intro u
  obtain ⟨before, shared, h1, h2⟩ := onStart_ok o emit current hs hc
  obtain ⟨_, ht⟩ := h2 ctx (reported u.exc)
  have key : Gen.use (n + 1) (invokeGenSync (o.callbacks emit current) (fun a ctx => f a (o.touch current ctx)) a ctx) =
      ⟨before ++ u.effects ++ (o.onEnd emit shared ctx (reported u.exc)).1, u.messages, u.exc, u.later⟩ := by
    unfold invokeGenSync
    rw [show (o.callbacks emit current).onStart ctx = (before, .ok shared) from h1]
    dsimp only
    rw [otel_pre_use, otel_sync_use (o.callbacks emit current) ctx shared (fun e => (h2 ctx e).1), touch_eq o current hs, caught_reported]
    dsimp only
    rw [List.append_assoc]
    rfl
  rw [parent_eq] at ht
  exact ⟨before, _, ht, key, key⟩

/-- C57, RPCs with a response stream, asynchronous: … and a consumer that closes the stream early also gets the same messages; tracing is reported
once in either case. (What happens to the inner generator then is C43.) -/
theorem C57_stream_async_partial (f : A → RequestContext → Gen E R) (a : A) (ctx : RequestContext) (hs : Traceable ctx.serverAddress)
    (hc : Traceable ctx.clientAddress) (n : Nat) (g : Gen E R)
    (hg : g = o.aroundAsync (S := S) emit current .serverStream f a ctx ∨ g = o.aroundAsync (A := S) emit current .bidi f a ctx) :
    let u := (f a (seenContext o current ctx)).use (n + 1)
    let v := g.use (n + 1)
    v.messages = u.messages ∧
    (u.messages.length < n + 1 → v.exc = u.exc ∧ v.later = u.later ∧ ∃ before after,
      Traced o emit (parentOf o current ctx) ctx (reported u.exc) before after ∧ v.effects = before ++ u.effects ++ after) ∧
    (u.messages.length = n + 1 → v.exc = none ∧ ∃ before mid after,
      Traced o emit (parentOf o current ctx) ctx none before after ∧ v.effects = before ++ mid ++ after ∧
      mid ++ v.later = u.effects ++ u.later) := by
  intro u
  obtain ⟨before, shared, h1, h2⟩ := onStart_ok o emit current hs hc
  have hgen : g = (aroundAsync (o.callbacks emit current) ctx shared (f a (seenContext o current ctx))).pre before := by
    have : g = invokeGenAsync (o.callbacks emit current) (fun a ctx => f a (o.touch current ctx)) a ctx := by
      rcases hg with h | h <;> exact h
    rw [this]
    unfold invokeGenAsync
    rw [show (o.callbacks emit current).onStart ctx = (before, .ok shared) from h1]
    dsimp only
    rw [touch_eq o current hs]
  obtain ⟨k1, k2, k3⟩ := otel_async_use (o.callbacks emit current) ctx shared (fun e => (h2 ctx e).1) (f a (seenContext o current ctx)) n
  rw [parent_eq] at h2
  rw [hgen, otel_pre_use]
  refine ⟨k1, fun hl => ?_, fun hl => ?_⟩
  · obtain ⟨e1, e2, e3⟩ := k2 hl
    refine ⟨e2, e3, before, _, (h2 ctx (reported u.exc)).2, ?_⟩
    show before ++ _ = _
    rw [e1, caught_reported, List.append_assoc]
    rfl
  · obtain ⟨⟨mid, e1, e2⟩, e3⟩ := k3 hl
    refine ⟨e3, before, mid, _, (h2 ctx none).2, ?_, e2.symm⟩
    show before ++ _ = _
    rw [e1, List.append_assoc]
    rfl

theorem hostPort_traceable {s : List Char} (h : HostPort s) : Traceable (some s) := by
  obtain ⟨a, p, rfl, _, _, hp, hd, _⟩ := h
  exact .inr (.inr ⟨_, a, decimal p, rfl, by simpa using addressPort_digits hp hd⟩)

/-- The addresses of servers that C55 is about can be traced. -/
theorem C57_addresses (host scheme : List Char) (hsch : scheme = pys! "http" ∨ scheme = pys! "https") (h : PlainHost host ∨ HostPort host) :
    Traceable (hostToServerAddress (some host) scheme) ∧ Traceable (urlToServerAddress (scheme ++ pys! "://" ++ host)) := by
  obtain ⟨s, e, hp, _⟩ := C55_server_side_partial host scheme hsch h
  obtain ⟨s', e', hp', _⟩ := C55_client_side_partial host scheme hsch h
  rw [e, e']
  exact ⟨hostPort_traceable hp, hostPort_traceable hp'⟩

/-- C57 is false of every call with an address that is not `address:port`, of the server or of the client: whatever its kind, on clients and on
servers, it fails with a `ValueError` of tracing, without calling what it is around and without a span. -/
theorem C57_violation_untraceable (ctx : RequestContext) (h : ¬ (Traceable ctx.serverAddress ∧ Traceable ctx.clientAddress)) :
    ∃ msg, (∀ (f : A → RequestContext → Ran E R) (a : A),
      o.aroundSync (S := S) emit current .unary f a ctx = ⟨[], .error (.other .valueError msg)⟩ ∧
      o.aroundAsync (S := S) emit current .unary f a ctx = ⟨[], .error (.other .valueError msg)⟩ ∧
      o.aroundSync (A := S) emit current .clientStream f a ctx = ⟨[], .error (.other .valueError msg)⟩ ∧
      o.aroundAsync (A := S) emit current .clientStream f a ctx = ⟨[], .error (.other .valueError msg)⟩) ∧
    (∀ (f : A → RequestContext → Gen E R) (a : A) (n : Nat),
      Gen.use (n + 1) (o.aroundSync (S := S) emit current .serverStream f a ctx) = ⟨[], [], some (.other .valueError msg), []⟩ ∧
      Gen.use (n + 1) (o.aroundAsync (S := S) emit current .serverStream f a ctx) = ⟨[], [], some (.other .valueError msg), []⟩ ∧
      Gen.use (n + 1) (o.aroundSync (A := S) emit current .bidi f a ctx) = ⟨[], [], some (.other .valueError msg), []⟩ ∧
      Gen.use (n + 1) (o.aroundAsync (A := S) emit current .bidi f a ctx) = ⟨[], [], some (.other .valueError msg), []⟩) := by
  obtain ⟨msg, hm⟩ := onStart_not o emit current h
  have hm' : (o.callbacks emit current).onStart ctx = ([], .error (.other .valueError msg)) := hm
  refine ⟨msg, fun f a => ?_, fun f a n => ?_⟩
  · have key : invokeCall (o.callbacks emit current) (fun a ctx => f a (o.touch current ctx)) a ctx = ⟨[], .error (.other .valueError msg)⟩ := by
      unfold invokeCall
      rw [hm']
    exact ⟨key, key, key, key⟩
  · have k1 : invokeGenSync (o.callbacks emit current) (fun a ctx => f a (o.touch current ctx)) a ctx = .fin [] (some (.other .valueError msg)) := by
      unfold invokeGenSync
      rw [hm']
    have k2 : invokeGenAsync (o.callbacks emit current) (fun a ctx => f a (o.touch current ctx)) a ctx = .fin [] (some (.other .valueError msg)) := by
      unfold invokeGenAsync
      rw [hm']
    have u : Gen.use (n + 1) (.fin [] (some (.other .valueError msg)) : Gen E R) = ⟨[], [], some (.other .valueError msg), []⟩ := rfl
    exact ⟨(congrArg _ k1).trans u, (congrArg _ k2).trans u, (congrArg _ k1).trans u, (congrArg _ k2).trans u⟩

/-- Such are, on servers, the Host headers in which something other than an integer follows the last colon, as with an IPv6 address without
port or a port that is not a number, whatever the scheme; and all without a colon, if the scheme is neither HTTP nor HTTPS. -/
theorem C57_violation_host (host scheme : List Char)
    (h : (∃ a p, host = a ++ ':' :: p ∧ ':' ∉ p ∧ ∀ n, ¬ IntText p n) ∨
      (':' ∉ host ∧ host ≠ [] ∧ scheme ≠ pys! "http" ∧ scheme ≠ pys! "https")) :
    ¬ Traceable (hostToServerAddress (some host) scheme) := by
  rcases h with ⟨a, p, rfl, hp, hn⟩ | ⟨hc, hne, h1, h2⟩
  · rw [show hostToServerAddress (some (a ++ ':' :: p)) scheme = some (a ++ ':' :: p) from if_pos (by simp)]
    rintro (h | h | ⟨s, a', n, h, p', rfl, hp', hn'⟩)
    · cases h
    · simp at h
    · injection h with h
      have e := (rsplit1_port hp).symm.trans ((congrArg (rsplit1 ':') h).trans (rsplit1_port hp'))
      injection e with _ e
      injection e with e _
      exact hn n (e ▸ hn')
  · rw [show hostToServerAddress (some host) scheme = some host from by
      unfold hostToServerAddress
      dsimp only
      rw [if_neg hc, if_neg h2, if_neg h1]]
    rintro (h | h | ⟨s, a', n, h, p', rfl, _⟩)
    · cases h
    · exact hne (Option.some.inj h)
    · exact hc (by rw [Option.some.inj h]; simp)

/-- … and on clients the URLs in which something other than an integer follows the last colon, as with a port and a path. -/
theorem C57_violation_url (scheme a p : List Char) (hs : scheme = pys! "http://" ∨ scheme = pys! "https://") (hp : ':' ∉ p)
    (hn : ∀ n, ¬ IntText p n) : ¬ Traceable (urlToServerAddress (scheme ++ a ++ ':' :: p)) := by
  have h := fun sch => C57_violation_host (a ++ ':' :: p) sch (.inl ⟨a, p, rfl, hp, hn⟩)
  rcases hs with rfl | rfl
  · exact h (pys! "http")
  · exact h (pys! "https")

end

/-- a context of a call from an IPv6 client -/
def tracedContext : RequestContext :=
  ⟨⟨pys! "Say", pys! "eliza.v1.ElizaService", .unknown⟩, pys! "POST", Headers.ofPairs [], none, some (pys! "[::1]:8080"), some (pys! "::1:50000")⟩

example : Traceable tracedContext.serverAddress ∧ Traceable tracedContext.clientAddress :=
  ⟨.inr (.inr ⟨pys! "[::1]:8080", pys! "[::1]", 8080, rfl, addressPort_digits (a := pys! "[::1]") (p := pys! "8080") (by decide) (by decide)⟩),
   .inr (.inr ⟨pys! "::1:50000", pys! "::1", 50000, rfl, addressPort_digits (a := pys! "::1") (p := pys! "50000") (by decide) (by decide)⟩)⟩

/-- an IPv6 address without port; a port that is not a number; a port and a path -/
example (p : List Char) (h : p ∈ [pys! "1]", pys! "http", pys! "80/api", []]) : ':' ∉ p ∧ ∀ n, ¬ IntText p n := by
  refine ⟨?_, (parseInt_none p).1 ?_⟩
  · revert p; decide
  · revert p; decide +kernel

/-! ### C67 -/

section
variable {C R A B : Type} (t : Telemetry C) (qc qs : Exc → List Char)

/-- A traced call to a traced server in another process: `current` is the span that is current where the client is called; `arrival` is the
network, `request` and `handler` are what the server gets and does. -/
def tracedCall (current : Option C) (arrival : RequestContext → RequestContext) (request : A → B)
    (handler : B → RequestContext → Ran (Telemetered C) R) (a : A) (ctx : RequestContext) : Ran (Telemetered C) R :=
  (OtelInterceptor.mk t true qc).aroundSync (S := A) id current .unary (fun a c =>
    (OtelInterceptor.mk t false qs).aroundAsync (S := B) id none .unary handler (request a) (arrival c)) a ctx

theorem startedParents_append (xs ys : List (Telemetered C)) : startedParents (xs ++ ys) = startedParents xs ++ startedParents ys :=
  List.filterMap_append

theorem traced_parents {o : OtelInterceptor C} {parent : Option C} {ctx : RequestContext} {error : Option Exc}
    {before after : List (Telemetered C)} (h : Traced o id parent ctx error before after) :
    startedParents before = [parent] ∧ startedParents after = [] := by
  obtain ⟨⟨attrs, rfl, _⟩, ⟨attrs', _, _, hs⟩⟩ := h
  refine ⟨rfl, ?_⟩
  rcases hs with ⟨_, rfl⟩ | ⟨e, sp, _, _, rfl⟩ <;> rfl

/-- The parents of the spans of a traced call: first the client's and then the server's, and both are the caller's. -/
theorem traced_call_parents (ht : Propagates t) (current : Option C) (arrival : RequestContext → RequestContext) (har : TraceArrives t arrival)
    (request : A → B) (handler : B → RequestContext → Ran (Telemetered C) R) (a : A) (ctx : RequestContext)
    (hs : Traceable ctx.serverAddress) (hc : Traceable ctx.clientAddress) (clean : t.extract ctx.requestHeaders = none) :
    ∃ h : Ran (Telemetered C) R, startedParents (tracedCall t qc qs current arrival request handler a ctx).effects =
      current :: current :: startedParents h.effects ∧ ∃ c, h = handler (request a) c := by
  let oc : OtelInterceptor C := ⟨t, true, qc⟩
  let os : OtelInterceptor C := ⟨t, false, qs⟩
  let c := arrival (seenContext oc current ctx)
  obtain ⟨b1, a1, t1, e1, _⟩ := C57_call_partial (S := A) oc id current (fun a c =>
    os.aroundAsync (S := B) id none .unary handler (request a) (arrival c)) a ctx hs hc
  obtain ⟨b2, a2, t2, _, e2, _⟩ := C57_call_partial (S := B) os id none handler (request a) c (har.server _) (har.client _)
  refine ⟨handler (request a) (seenContext os none c), ?_, _, rfl⟩
  show startedParents (oc.aroundSync (S := A) id current .unary _ a ctx).effects = _
  rw [e1]
  dsimp only
  rw [show os.aroundAsync (S := B) id none .unary handler (request a) (arrival (seenContext oc current ctx)) = _ from e2]
  simp only [startedParents_append]
  rw [(traced_parents t1).1, (traced_parents t1).2, (traced_parents t2).1, (traced_parents t2).2]
  have hp : parentOf os none c = current := by
    show t.extract c.requestHeaders = current
    rw [har.headers]
    show t.extract (t.inject current ctx.requestHeaders) = current
    cases current with
    | none => rw [ht.nothing, clean]
    | some x => exact ht.roundTrip x _
  rw [hp, show parentOf oc current ctx = current from rfl]
  simp

/-- C67: if the caller of the client has a span, the span of the server is in its trace: a child of the caller's span, as the client's is.
Missing: it should be a child of the client's span (see `C67_violation_siblings`). -/
theorem C67_same_trace_partial (ht : Propagates t) (caller : C) (arrival : RequestContext → RequestContext) (har : TraceArrives t arrival)
    (request : A → B) (handler : B → RequestContext → Ran (Telemetered C) R) (a : A) (ctx : RequestContext)
    (hs : Traceable ctx.serverAddress) (hc : Traceable ctx.clientAddress) (clean : t.extract ctx.requestHeaders = none) :
    ∃ rest, startedParents (tracedCall t qc qs (some caller) arrival request handler a ctx).effects = some caller :: some caller :: rest := by
  obtain ⟨h, e, _⟩ := traced_call_parents t qc qs ht (some caller) arrival har request handler a ctx hs hc clean
  exact ⟨_, e⟩

/-- C67 is false between processes: the client puts the current span in the headers before it starts its own. Whatever the span of the client is (it
is not the one that is current before), the span of the server is not its child; without a current span the server starts a trace of its own. -/
theorem C67_violation_siblings (ht : Propagates t) (current : Option C) (arrival : RequestContext → RequestContext) (har : TraceArrives t arrival)
    (request : A → B) (handler : B → RequestContext → Ran (Telemetered C) R) (a : A) (ctx : RequestContext)
    (hs : Traceable ctx.serverAddress) (hc : Traceable ctx.clientAddress) (clean : t.extract ctx.requestHeaders = none)
    (clientSpan : C) (fresh : current ≠ some clientSpan) :
    ∃ server rest, startedParents (tracedCall t qc qs current arrival request handler a ctx).effects = current :: server :: rest ∧
      server ≠ some clientSpan ∧ (current = none → server = none) := by
  obtain ⟨h, e, _⟩ := traced_call_parents t qc qs ht current arrival har request handler a ctx hs hc clean
  exact ⟨current, _, e, fresh, id⟩

/-- In one process, where the client's span is current when the server is called, it is the parent. -/
theorem C67_in_process (clientSpan : C) (handler : B → RequestContext → Ran (Telemetered C) R) (b : B) (ctx : RequestContext)
    (hs : Traceable ctx.serverAddress) (hc : Traceable ctx.clientAddress) :
    ∃ rest, startedParents ((OtelInterceptor.mk t false qs).aroundAsync (S := B) id (some clientSpan) .unary handler b ctx).effects =
      some clientSpan :: rest := by
  obtain ⟨b2, a2, t2, _, e2, _⟩ :=
    C57_call_partial (S := B) (OtelInterceptor.mk t false qs) id (some clientSpan) handler b ctx hs hc
  rw [e2]
  simp only [startedParents_append]
  rw [(traced_parents t2).1]
  exact ⟨_, rfl⟩

end

/-- a propagator with the header `traceparent` -/
def demoTelemetry : Telemetry (List Char) :=
  ⟨fun c h => match c with
    | some c => h.setItem (pys! "traceparent") c
    | none => h, fun h => h.getItem (pys! "traceparent")⟩

/-- the server's side of a connection -/
def demoArrival (ctx : RequestContext) : RequestContext :=
  { ctx with serverAddress := some (pys! "[::1]:8080"), clientAddress := some (pys! "::1:50000") }

example : Propagates demoTelemetry ∧ TraceArrives demoTelemetry demoArrival ∧ demoTelemetry.extract tracedContext.requestHeaders = none := by
  refine ⟨⟨fun c h => ?_, fun _ => rfl⟩, ⟨fun _ => rfl, fun _ => ?_, fun _ => ?_⟩, by decide⟩
  · show (h.store.set _ c).get? _ = some c
    rw [Dict.get?_set, if_pos rfl]
  · exact .inr (.inr ⟨pys! "[::1]:8080", pys! "[::1]", 8080, rfl, addressPort_digits (a := pys! "[::1]") (p := pys! "8080") (by decide) (by decide)⟩)
  · exact .inr (.inr ⟨pys! "::1:50000", pys! "::1", 50000, rfl, addressPort_digits (a := pys! "::1") (p := pys! "50000") (by decide) (by decide)⟩)

/-- a call that fails with "not found", observed -/
example : ((OtelInterceptor.mk demoTelemetry false (fun _ => pys! "ConnectError")).aroundSync (R := Nat) (A := Nat) (S := Nat) id none .unary
    (fun _ _ => ⟨[], .error (.connect ⟨.notFound, [], []⟩)⟩) 3 tracedContext).effects.length = 4 := by decide +kernel

end Props
