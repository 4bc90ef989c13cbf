import Verif.Spec.ClientObserved
import Verif.Props.Otel
/-
Lemmas for C103.
-/
namespace Props
open Conn Py Spec

section
variable {C Req Res : Type}

theorem tracedIn_append (xs ys : List (ClientEvent C)) : tracedIn (xs ++ ys) = tracedIn xs ++ tracedIn ys := List.filterMap_append
theorem untracedIn_append (xs ys : List (ClientEvent C)) : untracedIn (xs ++ ys) = untracedIn xs ++ untracedIn ys := List.filterMap_append

theorem sentEvents_quiet (ns : List Note) : tracedIn (sentEvents (C := C) ns) = [] ∧ untracedIn (sentEvents (C := C) ns) = sentEvents ns := by
  induction ns with
  | nil => exact ⟨rfl, rfl⟩
  | cons n ns ih =>
    cases n with
    | told w c => exact ih
    | sent r => exact ⟨ih.1, congrArg (_ :: ·) ih.2⟩

theorem callStatus_of {e : Option Exc} (h : ∀ x, e = some x → x.isException = true) : CallStatus e ((reported e).map statusOf) := by
  cases e with
  | none => exact .success
  | some x =>
    cases x with
    | connect e => exact .error e
    | http s hs => exact .http s hs
    | other cls msg => exact .other cls msg
    | cancelled => cases h _ rfl

theorem traced_call {o : OtelInterceptor C} {parent : Option C} {ctx : RequestContext} {error : Option Exc} {before after : List (ClientEvent C)}
    (h : Traced o .traced parent ctx error before after) (es : List (ClientEvent C)) (hes : tracedIn es = []) :
    Reports (tracedIn (before ++ es ++ after)) (error.map statusOf) ∧ untracedIn (before ++ es ++ after) = untracedIn es := by
  obtain ⟨⟨attrs, rfl, _⟩, ⟨attrs', _, hd, hs⟩⟩ := h
  rw [tracedIn_append, tracedIn_append, untracedIn_append, untracedIn_append, hes, List.append_nil]
  rcases hs with ⟨rfl, rfl⟩ | ⟨e, sp, rfl, hsp, rfl⟩
  · exact ⟨.success hd.1, List.append_nil _⟩
  · exact ⟨.failure hsp.1 hd.1, List.append_nil _⟩

theorem client_traceable {c : Client Req Res} (ha : TraceableClient c.address) (method : MethodInfo) (hm : Str) (user : UserHeaders) (t : Option Int) (stream : Bool) :
    Traceable (c.context method hm user t stream).serverAddress ∧ Traceable (c.context method hm user t stream).clientAddress := by
  obtain ⟨scheme, host, hs, hh, ha⟩ := ha
  refine ⟨?_, .inl rfl⟩
  show Traceable (urlToServerAddress c.address)
  rw [ha]
  exact (C57_addresses host scheme hs hh).2

theorem seen_client {o : OtelInterceptor C} (ho : o.client = true) (current : Option C) (ctx : RequestContext) : seenContext o current ctx = withSpan o current ctx := if_pos ho

/-- using a stream of responses -/
theorem streamGen_use (last : List (ClientEvent C)) (exc left : Option Exc) (ms : List Res) (n : Nat) :
    (ms.length < n + 1 → (streamGen last exc left ms).use (n + 1) = ⟨last, ms, exc, []⟩) ∧
    (n + 1 ≤ ms.length → (streamGen last exc left ms).use (n + 1) = ⟨[], ms.take (n + 1), left, []⟩) := by
  induction ms generalizing n with
  | nil =>
    refine ⟨fun _ => rfl, fun h => ?_⟩
    cases h
  | cons m ms ih =>
    cases n with
    | zero =>
      refine ⟨fun h => ?_, fun _ => rfl⟩
      simp at h
    | succ n =>
      have e : (streamGen last exc left (m :: ms)).use (n + 1 + 1) =
          ⟨((streamGen last exc left ms).use (n + 1)).effects, m :: ((streamGen last exc left ms).use (n + 1)).messages, ((streamGen last exc left ms).use (n + 1)).exc,
            ((streamGen last exc left ms).use (n + 1)).later⟩ := rfl
      rw [e]
      refine ⟨fun h => ?_, fun h => ?_⟩
      · rw [(ih n).1 (by simpa using h)]
      · rw [(ih n).2 (by simpa using h)]
        rfl

end

end Props
