import Verif.Spec.Otel
import Verif.Proofs.Dict
import Verif.Proofs.IntText
/- Lemmas for tracing (C56, C57, C67). -/
namespace Proofs.Otel
open Conn Py Spec

theorem rsplit1_port {a p : Str} (hp : ':' ∉ p) : rsplit1 ':' (a ++ ':' :: p) = [a, p] := by
  unfold rsplit1
  rw [if_pos (by simp)]
  have hr : (a ++ ':' :: p).reverse = p.reverse ++ ':' :: a.reverse := by simp
  have hall : ∀ c ∈ p.reverse, (c != ':') = true := by
    intro c hc
    have : c ≠ ':' := by rintro rfl; exact hp (List.mem_reverse.mp hc)
    simp [this]
  rw [hr, List.dropWhile_append_of_pos hall, List.takeWhile_append_of_pos hall]
  simp [List.dropWhile, List.takeWhile]

theorem colon_not_digit {p : Str} (h : ∀ c ∈ p, IsDigit c) : ':' ∉ p := by
  intro hm; have := h _ hm; revert this; decide

theorem addressPort_digits {a p : Str} (hne : p ≠ []) (h : ∀ c ∈ p, IsDigit c) : AddressPort (a ++ ':' :: p) a (decimal p) :=
  ⟨p, rfl, colon_not_digit h, (parseInt_iff _ _).1 (parseInt_digits p h hne)⟩

theorem addrPort_of {s a : Str} {n : Int} (h : AddressPort s a n) : addrPort s = .ok (a, n) := by
  obtain ⟨p, rfl, hc, hd⟩ := h
  unfold addrPort
  rw [rsplit1_port hc]
  show (match parseInt p with
    | some n => Except.ok (a, n)
    | none => _) = _
  rw [(parseInt_iff _ _).2 hd]

/-- An address has a part after its last colon, or no colon. -/
theorem lastColon (s : Str) : ':' ∉ s ∨ ∃ a p, s = a ++ ':' :: p ∧ ':' ∉ p := by
  induction s with
  | nil => exact .inl (by simp)
  | cons c s ih =>
    rcases ih with h | ⟨a, p, rfl, hp⟩
    · by_cases hc : c = ':'
      · subst hc; exact .inr ⟨[], s, rfl, h⟩
      · exact .inl (by simp [h, Ne.symm hc])
    · exact .inr ⟨c :: a, p, rfl, hp⟩

/-- Anything else raises `ValueError`. -/
theorem addrPort_not {s : Str} (h : ∀ a n, ¬ AddressPort s a n) : ∃ msg, addrPort s = .error (.other .valueError msg) := by
  rcases lastColon s with hc | ⟨a, p, rfl, hp⟩
  · refine ⟨pys! "not enough values to unpack (expected 2, got 1)", ?_⟩
    unfold addrPort rsplit1
    rw [if_neg hc]
  · unfold addrPort
    rw [rsplit1_port hp]
    dsimp only
    cases hn : parseInt p with
    | some n => exact absurd ⟨p, rfl, hp, (parseInt_iff _ _).1 hn⟩ (h a n)
    | none => exact ⟨_, rfl⟩

theorem addressAttrs_not {ka kp : Str} {ad : Option Str} (h : ¬ Traceable ad) (attrs : Dict Str AttrValue) :
    ∃ msg, addressAttrs ka kp ad attrs = .error (.other .valueError msg) := by
  cases ad with
  | none => exact absurd (.inl rfl) h
  | some s =>
    cases s with
    | nil => exact absurd (.inr (.inl rfl)) h
    | cons c s =>
      obtain ⟨msg, e⟩ := addrPort_not (s := c :: s) (fun a n ha => h (.inr (.inr ⟨_, a, n, rfl, ha⟩)))
      refine ⟨msg, ?_⟩
      unfold addressAttrs
      dsimp only
      rw [e]
      rfl

theorem addressPort_ne {s a : Str} {n : Int} (h : AddressPort s a n) : s.isEmpty = false := by
  obtain ⟨p, rfl, _⟩ := h
  cases a <;> rfl

/-- Traceable addresses never raise, and the attributes that are added are those of the address. -/
theorem addressAttrs_ok {ka kp : Str} (hk : ka ≠ kp) {ad : Option Str} (h : Traceable ad) (attrs : Dict Str AttrValue) :
    ∃ attrs', addressAttrs ka kp ad attrs = .ok attrs' ∧
      (∀ k, k ≠ ka → k ≠ kp → Dict.get? attrs' k = Dict.get? attrs k) ∧
      (∀ s a n, ad = some s → AddressPort s a n → Dict.get? attrs' ka = some (.str a) ∧ Dict.get? attrs' kp = some (.int n)) := by
  rcases h with rfl | rfl | ⟨s, a, n, rfl, hs⟩
  · exact ⟨attrs, rfl, fun _ _ _ => rfl, fun _ _ _ h => nomatch h⟩
  · refine ⟨attrs, rfl, fun _ _ _ => rfl, fun s a n h hs => ?_⟩
    cases h
    exact absurd (addressPort_ne hs) (by decide)
  · refine ⟨(attrs.set ka (.str a)).set kp (.int n), ?_, ?_, ?_⟩
    · unfold addressAttrs
      dsimp only
      rw [addressPort_ne hs, addrPort_of hs]
      rfl
    · intro k h1 h2
      rw [Dict.get?_set, if_neg (Ne.symm h2), Dict.get?_set, if_neg (Ne.symm h1)]
    · intro s' a' n' e hs'
      injection e with e
      subst e
      have hx := addrPort_of hs
      rw [addrPort_of hs'] at hx
      injection hx with hx
      have h1 : a' = a := congrArg Prod.fst hx
      have h2 : n' = n := congrArg Prod.snd hx
      subst h1
      rw [Dict.get?_set, if_neg (Ne.symm hk), Dict.get?_set, if_pos rfl, Dict.get?_set, if_pos rfl, h2]
      exact ⟨rfl, rfl⟩

section
variable {C E R A S : Type} (o : OtelInterceptor C)

theorem sharedAttrs_ok {ctx : RequestContext} (h : Traceable ctx.serverAddress) :
    ∃ shared, sharedAttrs ctx = .ok shared ∧ Describes ctx shared ∧
      Dict.get? shared (pys! "rpc.response.status_code") = none ∧ Dict.get? shared (pys! "error.type") = none := by
  obtain ⟨d, h1, h2, h3⟩ := addressAttrs_ok (ka := pys! "server.address") (kp := pys! "server.port") (by decide) h
    [(pys! "rpc.system.name", .str (pys! "connectrpc")), (pys! "rpc.method", .str (rpcMethod ctx))]
  refine ⟨d, h1, ⟨?_, ?_, h3⟩, ?_, ?_⟩
  · rw [h2 _ (by decide) (by decide)]; rfl
  · rw [h2 _ (by decide) (by decide)]; rfl
  · rw [h2 _ (by decide) (by decide)]; rfl
  · rw [h2 _ (by decide) (by decide)]; rfl

/-- what `on_start` does with traceable addresses, and what `on_end` then does -/
theorem onStart_ok (emit : Telemetered C → E) (current : Option C) {ctx : RequestContext} (hs : Traceable ctx.serverAddress)
    (hc : Traceable ctx.clientAddress) :
    ∃ before shared, o.onStart emit current ctx = (before, .ok shared) ∧
      ∀ ctx' error, (o.onEnd emit shared ctx' error).2 = none ∧
        Traced o emit (o.parent current ctx) ctx error before (o.onEnd emit shared ctx' error).1 := by
  obtain ⟨shared, h1, hd, hn1, hn2⟩ := sharedAttrs_ok hs
  obtain ⟨attrs, h2, h3, h4⟩ := addressAttrs_ok (ka := pys! "client.address") (kp := pys! "client.port") (by decide) hc shared
  refine ⟨[emit (.started (rpcMethod ctx) o.client attrs (o.parent current ctx))], shared, ?_, ?_⟩
  · unfold OtelInterceptor.onStart
    rw [h1]
    dsimp only
    rw [h2]
  · intro ctx' error
    have hda : Describes ctx attrs := by
      refine ⟨?_, ?_, fun s a n e hs => ?_⟩
      · rw [h3 _ (by decide) (by decide)]; exact hd.system
      · rw [h3 _ (by decide) (by decide)]; exact hd.method
      · rw [h3 _ (by decide) (by decide), h3 _ (by decide) (by decide)]; exact hd.server s a n e hs
    cases error with
    | none =>
      exact ⟨rfl, ⟨attrs, rfl, hda, h4⟩, ⟨shared, hd, ⟨hn1, hn2⟩, .inl ⟨rfl, rfl⟩⟩⟩
    | some e =>
      have hst : (match e with
          | .connect c => c.code.value
          | _ => pys! "unknown") = statusOf e := by
        cases e <;> rfl
      refine ⟨rfl, ⟨attrs, rfl, hda, h4⟩,
        ⟨(shared.set (pys! "error.type") (.str (o.qualname e))).set (pys! "rpc.response.status_code") (.str (statusOf e)), ?_, ?_,
          .inr ⟨e, [(pys! "error.type", .str (o.qualname e)), (pys! "rpc.response.status_code", .str (statusOf e))], rfl, ⟨rfl, rfl⟩, ?_⟩⟩⟩
      · refine ⟨?_, ?_, fun s a n he hs => ?_⟩
        · rw [Dict.get?_set, if_neg (by decide), Dict.get?_set, if_neg (by decide)]; exact hd.system
        · rw [Dict.get?_set, if_neg (by decide), Dict.get?_set, if_neg (by decide)]; exact hd.method
        · rw [Dict.get?_set, if_neg (by decide), Dict.get?_set, if_neg (by decide), Dict.get?_set, if_neg (by decide), Dict.get?_set,
            if_neg (by decide)]
          exact hd.server s a n he hs
      · refine ⟨?_, ?_⟩
        · rw [Dict.get?_set, if_pos rfl]; rfl
        · rw [Dict.get?_set, if_neg (by decide), Dict.get?_set, if_pos rfl]; rfl
      · rw [← hst]; rfl

/-- … and with one that is not -/
theorem onStart_not (emit : Telemetered C → E) (current : Option C) {ctx : RequestContext}
    (h : ¬ (Traceable ctx.serverAddress ∧ Traceable ctx.clientAddress)) :
    ∃ msg, o.onStart emit current ctx = ([], .error (.other .valueError msg)) := by
  unfold OtelInterceptor.onStart
  by_cases hs : Traceable ctx.serverAddress
  · obtain ⟨shared, h1, _⟩ := sharedAttrs_ok hs
    obtain ⟨msg, h2⟩ := addressAttrs_not (ka := pys! "client.address") (kp := pys! "client.port") (fun hc => h ⟨hs, hc⟩) shared
    rw [h1]
    dsimp only
    rw [h2]
    exact ⟨msg, rfl⟩
  · obtain ⟨msg, h1⟩ := addressAttrs_not (ka := pys! "server.address") (kp := pys! "server.port") hs
      [(pys! "rpc.system.name", .str (pys! "connectrpc")), (pys! "rpc.method", .str (rpcMethod ctx))]
    rw [show sharedAttrs ctx = _ from h1]
    exact ⟨msg, rfl⟩

/-- the context inside -/
theorem touch_eq (current : Option C) {ctx : RequestContext} (hs : Traceable ctx.serverAddress) :
    o.touch current ctx = seenContext o current ctx := by
  obtain ⟨shared, h, _⟩ := sharedAttrs_ok hs
  unfold OtelInterceptor.touch seenContext
  rw [h]
  cases o.client <;> simp [Except.isOk, Except.toBool]

theorem parent_eq (current : Option C) (ctx : RequestContext) : o.parent current ctx = parentOf o current ctx := by
  unfold OtelInterceptor.parent parentOf
  cases o.client <;> cases current <;> rfl

theorem caught_reported (e : Option Exc) : caughtError e = reported e := by
  unfold caughtError reported
  cases e with
  | none => rfl
  | some e => cases h : e.isException <;> simp [Option.filter, h]

theorem otel_pre_use (n : Nat) (es : List E) (g : Gen E R) :
    (g.pre es).use (n + 1) = ⟨es ++ (g.use (n + 1)).effects, (g.use (n + 1)).messages, (g.use (n + 1)).exc, (g.use (n + 1)).later⟩ := by
  cases g with
  | fin es' o => rfl
  | yield es' m r c =>
    cases n with
    | zero => simp [Gen.pre, Gen.use]
    | succ n => simp [Gen.pre, Gen.use]

theorem otel_sync_use {Tok : Type} (m : MetaCallbacks E Tok) (ctx : RequestContext) (t : Tok)
    (hq : ∀ e, (m.onEnd t ctx e).2 = none) (g : Gen E R) (n : Nat) :
    let u := g.use (n + 1)
    (aroundSync m ctx t g).use (n + 1) = ⟨u.effects ++ (m.onEnd t ctx (caughtError u.exc)).1, u.messages, u.exc, u.later⟩ := by
  induction g generalizing n with
  | fin es o => simp [aroundSync, Gen.use, hq, afterFinally]
  | yield es x r c ih =>
    cases n with
    | zero => simp [aroundSync, Gen.use, hq, afterFinally]
    | succ n =>
      have := ih n
      dsimp only at this
      simp [aroundSync, Gen.use, this]

theorem otel_async_use {Tok : Type} (m : MetaCallbacks E Tok) (ctx : RequestContext) (t : Tok)
    (hq : ∀ e, (m.onEnd t ctx e).2 = none) (g : Gen E R) (n : Nat) :
    let u := g.use (n + 1)
    let v := (aroundAsync m ctx t g).use (n + 1)
    v.messages = u.messages ∧
    (u.messages.length < n + 1 → v.effects = u.effects ++ (m.onEnd t ctx (caughtError u.exc)).1 ∧ v.exc = u.exc ∧ v.later = u.later) ∧
    (u.messages.length = n + 1 → (∃ mid, v.effects = mid ++ (m.onEnd t ctx none).1 ∧ u.effects ++ u.later = mid ++ v.later) ∧
      v.exc = none) := by
  induction g generalizing n with
  | fin es o => simp [aroundAsync, Gen.use, hq, afterFinally]
  | yield es x r c ih =>
    cases n with
    | zero => simp [aroundAsync, Gen.use, hq]
    | succ n =>
      obtain ⟨h1, h2, h3⟩ := ih n
      refine ⟨by simp [aroundAsync, Gen.use, h1], fun hl => ?_, fun hl => ?_⟩
      · have hl' : (r.use (n + 1)).messages.length < n + 1 := by simpa [Gen.use] using hl
        obtain ⟨a, b, d⟩ := h2 hl'
        simp [aroundAsync, Gen.use, a, b, d]
      · have hl' : (r.use (n + 1)).messages.length = n + 1 := by simpa [Gen.use] using hl
        obtain ⟨⟨mid, a, b⟩, d⟩ := h3 hl'
        exact ⟨⟨es ++ mid, by simp [aroundAsync, Gen.use, a], by simp [aroundAsync, Gen.use, b]⟩, by simp [aroundAsync, Gen.use, d]⟩

end

end Proofs.Otel
