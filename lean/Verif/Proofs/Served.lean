import Verif.Proofs.Stream
import Verif.Proofs.Alike
import Verif.Proofs.IntText
import Verif.Props.Timeout
import Verif.Spec.Served
/-
Lemmas for C98.
-/
namespace Conn
open Py Spec

variable {Req Res : Type}

/-- The exception is answered with an HTTP error status. -/
def Told (e : Exc) : Prop := ∀ s h, e = .http s h → 400 ≤ s

theorem told_connect (c : ConnectErr) : Told (.connect c) := fun _ _ h => by cases h
theorem told_mk (c : Code) (m : Str) : Told (.mk c m) := fun _ _ h => by cases h
theorem told_other (c : Cls) (m : Str) : Told (.other c m) := fun _ _ h => by cases h
theorem told_http {s : Nat} {h : List (Str × Str)} (hs : 400 ≤ s) : Told (.http s h) := fun _ _ he => by cases he; exact hs
theorem told_internal (e : Exc) : Told (internalUnlessConnect e) := by
  cases e <;> intro _ _ h <;> cases h
theorem told_wrap (c : Code) (m : Str) (e : Exc) : Told (wrapExc c m e) := by
  cases e <;> intro _ _ h <;> cases h

theorem status_error (c : Code) : 400 ≤ c.httpStatus.1 := by cases c <;> decide

theorem errorResponse_status {e : Exc} (h : Told e) (ct : Str) (ctx : Option Meta) : 400 ≤ (errorResponse ct e ctx).1 := by
  unfold errorResponse
  dsimp only
  split
  · exact h _ _ rfl
  · exact status_error _

theorem wsgiFail_failed {app : App Req Res} {sc : StatusCodec} {env : Environ} {e : Exc} (h : Told e) (ctx : Option Meta) :
    WsgiFailed app sc env (wsgiFail [] e ctx) := by
  unfold wsgiFail
  split
  · exact .refused ⟨_, _, (errorResponse (pys! "Content-Type") e ctx).2.2.flatten⟩ ⟨rfl, _, rfl, rfl⟩ (errorResponse_status h _ _)
  · exact .raised e rfl rfl

theorem asgiFail_failed {app : App Req Res} {sc : StatusCodec} {scope : Scope} {env : Env} (hr : Reliable env) {e : Exc} (h : Told e) (ctx : Option Meta) :
    AsgiFailed app sc scope (asgiFail env [] [] e ctx) := by
  cases he : e.isException with
  | true => exact .refused _ (asgiFail_sends hr [] he ctx) (errorResponse_status h _ _)
  | false =>
    unfold asgiFail
    rw [he]
    exact .raised e rfl rfl

theorem told_methodCheck {i : Idempotency} {hm : Str} {e : Exc} (h : connectMethodCheck i hm = some e) : Told e := by
  unfold connectMethodCheck at h
  split at h
  · split at h
    · cases h
    · cases h; exact told_http (by decide)
  · split at h
    · cases h
    · cases h; exact told_http (by decide)

theorem told_parseTimeout {v : Str} {e : Exc} (h : parseTimeout v = .error e) : Told e := by
  unfold parseTimeout at h
  split at h
  · cases h; exact told_other _ _
  · split at h
    · rename_i hl
      cases h
      unfold lookupTimeoutUnit at hl
      repeat' split at hl
      all_goals first | (cases hl; done) | (cases hl; exact told_other _ _)
    · split at h
      · cases h; exact told_other _ _
      · split at h
        · cases h; exact told_other _ _
        · cases h

theorem told_serverContext {p : Proto} {m : MethodInfo} {hm scheme : Str} {h : Headers} {client : Option Str} {e : Exc}
    (he : p.serverContext m hm scheme h client = .error e) : Told e := by
  have hc : ∀ {e}, connectServerContext m hm scheme h client = .error e → Told e := by
    intro e he
    unfold connectServerContext at he
    dsimp only at he
    split at he
    · rename_i hm; cases he; exact told_methodCheck hm
    · split at he
      · cases he; exact told_mk _ _
      · split at he
        · rename_i ht
          cases he
          unfold connectTimeout at ht
          split at ht
          · cases ht
          · split at ht
            · cases ht
            · split at ht
              · cases ht; exact told_mk _ _
              · split at ht
                · cases ht; exact told_mk _ _
                · cases ht
        · cases he
  have hg : ∀ {e}, grpcServerContext m hm scheme h client = .error e → Told e := by
    intro e he
    unfold grpcServerContext at he
    split at he
    · cases he; exact told_http (by decide)
    · split at he
      · rename_i ht
        cases he
        unfold grpcTimeout at ht
        split at ht
        · cases ht
        · split at ht
          · cases ht
          · split at ht
            · rename_i hp; cases ht; exact told_parseTimeout hp
            · cases ht
      · cases he
  cases p with
  | connect => exact hc he
  | grpc => exact hg he
  | grpcWeb => exact hg he

theorem told_item {env : Environ} {k : Str} {e : Exc} (h : env.item k = .error e) : Told e := by
  unfold Environ.item at h
  split at h
  · cases h
  · cases h; exact told_other _ _

theorem told_wsgiRoute {app : App Req Res} {env : Environ} {e : Exc} (h : app.wsgiRoute env = .error e) : Told e := by
  unfold App.wsgiRoute at h
  split at h
  · rename_i hl
    cases h
    unfold App.wsgiLookup at hl
    split at hl
    · rename_i hi; cases hl; exact told_item hi
    · dsimp only at hl
      split at hl
      · cases hl
      · split at hl
        · rename_i hi; cases hl; exact told_item hi
        · split at hl
          · split at hl
            · cases hl
            · cases hl; exact told_http (by decide)
          · cases hl; exact told_http (by decide)
  · split at h
    · rename_i hi; cases h; exact told_item hi
    · dsimp only at h
      split at h
      · cases h; exact told_other _ _
      · split at h
        · rename_i hc; cases h; exact told_serverContext hc
        · cases h

theorem wsgiRoute_proto {app : App Req Res} {env : Environ} {r : Route Req Res} (h : app.wsgiRoute env = .ok r) :
    r.headers = wsgiHeaders env.vars ∧ Speaks r.proto (r.headers.getD (pys! "content-type") []) := by
  unfold App.wsgiRoute at h
  split at h
  · cases h
  · split at h
    · cases h
    · dsimp only at h
      split at h
      · cases h
      · split at h
        · cases h
        · cases h; exact ⟨rfl, (speaks_iff _ _).2 rfl⟩

theorem told_asgiHeaders : ∀ {l : List (Bytes × Bytes)} {h : Headers} {e : Exc}, asgiHeaders l h = .error e → Told e
  | [], _, _, h => by cases h
  | (k, v) :: l, _, _, h => by
    unfold asgiHeaders at h
    split at h
    · exact told_asgiHeaders h
    · cases h; exact told_other _ _

theorem told_asgiRoute {app : App Req Res} {scope : Scope} {e : Exc} (h : app.asgiRoute scope = .error e) : Told e := by
  unfold App.asgiRoute at h
  split at h
  · rename_i hl
    cases h
    unfold App.asgiLookup at hl
    split at hl
    · cases hl
    · split at hl
      · cases hl; exact told_http (by decide)
      · dsimp only at hl
        split at hl
        · cases hl
        · cases hl; exact told_http (by decide)
  · dsimp only at h
    split at h
    · rename_i hh; cases h; exact told_asgiHeaders hh
    · split at h
      · cases h; exact told_other _ _
      · split at h
        · rename_i hc; cases h; exact told_serverContext hc
        · cases h

theorem asgiRoute_proto {app : App Req Res} {scope : Scope} {r : Route Req Res} (h : app.asgiRoute scope = .ok r) :
    asgiHeaders scope.headers Headers.empty = .ok r.headers ∧ Speaks r.proto (r.headers.getD (pys! "content-type") []) := by
  unfold App.asgiRoute at h
  split at h
  · cases h
  · dsimp only at h
    split at h
    · cases h
    · rename_i hh
      split at h
      · cases h
      · split at h
        · cases h
        · cases h; exact ⟨hh, (speaks_iff _ _).2 rfl⟩

theorem told_asgiCodec {app : App Req Res} {scope : Scope} {r : Route Req Res} {e : Exc} (h : app.asgiCodec scope r = .error e) : Told e := by
  unfold App.asgiCodec at h
  split at h
  · rename_i hn
    cases h
    unfold asgiCodecName at hn
    split at hn
    · split at hn
      · cases hn; exact told_other _ _
      · cases hn
    · cases hn
  · split at h
    · cases h; exact told_http (by decide)
    · cases h

theorem asgiCodec_known {app : App Req Res} {scope : Scope} {r : Route Req Res} {params : Dict Str (List Str)} {codec : ServerCodec Req Res}
    (h : app.asgiCodec scope r = .ok (params, codec)) : ∃ n, Dict.get? app.codecs n = some codec := by
  unfold App.asgiCodec at h
  split at h
  · cases h
  · split at h
    · cases h
    · rename_i hc; cases h; exact ⟨_, hc⟩

theorem told_wsgiPost {app : App Req Res} {env : Environ} {h : Headers} {e : Exc} (he : app.wsgiPost env h = .error e) : Told e := by
  unfold App.wsgiPost at he
  split at he
  · cases he; exact told_http (by decide)
  · split at he
    · cases he
    · cases he; exact told_internal _

theorem told_wsgiGet {app : App Req Res} {env : Environ} {e : Exc} (he : app.wsgiGet env = .error e) : Told e := by
  unfold App.wsgiGet at he
  dsimp only at he
  split at he
  · cases he
  · cases he; exact told_internal _

theorem told_checkSize {n : Option Int} {b : Bytes} {e : Exc} (h : checkSize n b = .error e) : Told e := by
  unfold checkSize at h
  repeat' split at h
  all_goals first | (cases h; done) | (cases h; exact told_mk _ _)

theorem told_asgiPost {app : App Req Res} (ho : Spec.Ordinary app) {env : Env} {h : Headers} {codec : ServerCodec Req Res}
    (hc : ∃ n, Dict.get? app.codecs n = some codec) {e : Exc} (he : app.asgiPost env h codec = .error e) : Told e := by
  obtain ⟨n, hc⟩ := hc
  unfold App.asgiPost at he
  split at he
  · rename_i hb
    cases he
    rcases asgiBody_err (r := env.receive) (by rw [hb]) with ⟨c, m, rfl⟩ | ⟨rfl, _⟩
    · exact told_mk _ _
    · exact fun _ _ h => by cases h
  · dsimp only at he
    split at he
    · cases he; exact told_mk _ _
    · rename_i hcomp
      split at he
      · rename_i hd
        cases he
        split at hd
        · cases hd
        · obtain ⟨cls, m, rfl⟩ := ho.decompress _ _ hcomp _ _ hd
          exact told_other _ _
      · split at he
        · rename_i hs; cases he; exact told_checkSize hs
        · obtain ⟨cls, m, rfl⟩ := ho.decode _ _ hc _ _ he
          exact told_other _ _

theorem told_asgiGet {app : App Req Res} (ho : Spec.Ordinary app) {params : Dict Str (List Str)} {codec : ServerCodec Req Res}
    (hc : ∃ n, Dict.get? app.codecs n = some codec) {e : Exc} (he : app.asgiGet params codec = .error e) : Told e := by
  obtain ⟨n, hc⟩ := hc
  unfold App.asgiGet at he
  split at he
  · rename_i hm
    cases he
    unfold asgiGetMessage at hm
    repeat' split at hm
    all_goals first | (cases hm; done) | (cases hm; exact told_mk _ _)
  · dsimp only at he
    split at he
    · cases he; exact told_mk _ _
    · rename_i hcomp
      split at he
      · rename_i hd
        cases he
        split at hd
        · cases hd
        · obtain ⟨cls, m, rfl⟩ := ho.decompress _ _ hcomp _ _ hd
          exact told_other _ _
      · obtain ⟨cls, m, rfl⟩ := ho.decode _ _ hc _ _ he
        exact told_other _ _

theorem wsgiErrorOnly_failed {app : App Req Res} {sc : StatusCodec} {env : Environ} {p : Proto}
    (hp : Speaks p ((wsgiHeaders env.vars).getD (pys! "content-type") [])) (codec : ServerCodec Req Res)
    (hc : ∃ n, Dict.get? app.codecs n = some codec) (comp : Compression) (e : Exc) :
    WsgiFailed app sc env ((⟨p, sc, codec.name, comp, ⟨codec.res, some comp⟩, []⟩ : StreamCfg Req Res).wsgiErrorOnly (.init ⟨[], none⟩) [] e) := by
  unfold StreamCfg.wsgiErrorOnly
  cases he : e.isException with
  | false => exact .raised e rfl rfl
  | true =>
    rw [if_pos rfl]
    cases hend : (⟨codec.res, some comp⟩ : EnvelopeWriter Res).end' p sc Headers.empty (some (ConnectErr.fromException e)) with
    | ok out =>
      dsimp only [HState.init, Meta.empty]
      rw [hend]
      refine .ended p hp codec comp hc e out ?_ ?_ rfl
      · show EnvelopeWriter.end' _ p sc Headers.empty (some (errorOf e)) = _
        rw [errorOf_eq]; exact hend
      · show _ :: wsgiEnd out = _ :: wsgiEnding out
        rw [streamFields_eq]
        cases out <;> rfl
    | error x =>
      obtain ⟨_, m, rfl⟩ := end_error hend
      dsimp only [HState.init, Meta.empty]
      rw [hend]
      exact .restarted _ ⟨_, _, (errorResponse (pys! "Content-Type") (.other .structError m) (some ⟨Headers.empty, Headers.empty⟩)).2.2.flatten⟩ _
        (errorResponse_status (told_other _ _) _ _) rfl rfl rfl

theorem asgiFinish_failed {app : App Req Res} {sc : StatusCodec} {scope : Scope} {env : Env} (hrel : Reliable env) {headers : Headers}
    (hd : asgiHeaders scope.headers Headers.empty = .ok headers) {p : Proto}
    (hp : Speaks p (headers.getD (pys! "content-type") [])) (codec : ServerCodec Req Res)
    (hc : ∃ n, Dict.get? app.codecs n = some codec) (comp : Compression) {e : Exc} (hne : e ≠ .cancelled) (k : Option Nat) :
    AsgiFailed app sc scope ((⟨p, sc, codec.name, comp, ⟨codec.res, some comp⟩, env, k⟩ : AsgiCfg Res).finish []
      (⟨.init ⟨[], none⟩, [], false, some e⟩ : LoopOut Req)) := by
  have h1 : asgiError (some e) = some e := by cases e <;> first | rfl | exact absurd rfl hne
  have h2 : asgiRaised (some e) = reraised (some e) := by cases e <;> first | rfl | exact absurd rfl hne
  unfold AsgiCfg.finish
  dsimp only [HState.init, Meta.empty]
  rw [h1]
  dsimp only [Option.map]
  cases hend : (⟨codec.res, some comp⟩ : EnvelopeWriter Res).end' p sc Headers.empty (some (ConnectErr.fromException e)) with
  | error x => exact .raised x rfl rfl
  | ok out =>
    dsimp only [AsgiCfg.ensureStart]
    rw [if_neg (by decide), send_ok hrel]
    dsimp only
    rw [sendAll_ok hrel]
    refine .ended headers hd p hp codec comp hc e out ?_ ?_ h2
    · show EnvelopeWriter.end' _ p sc Headers.empty (some (errorOf e)) = _
      rw [errorOf_eq]; exact hend
    · rw [streamFields_eq]
      cases out <;> cases p <;> rfl

theorem asgiRequests_err {app : App Req Res} {env : Env} {codec : ServerCodec Req Res} {comp : Compression} :
    (app.asgiRequests env codec comp).err ≠ some .cancelled := by
  unfold App.asgiRequests
  dsimp only
  intro h
  split at h
  · split at h
    · cases h
    · dsimp only at h
      split at h
      · rename_i e _
        cases e <;> cases h
      · cases hb : (asgiBody env.receive).2 with
        | none => rw [hb] at h; cases h
        | some e => rw [hb] at h; cases e <;> cases h
  · dsimp only at h
    split at h
    · rename_i e _
      cases e <;> cases h
    · cases hb : (asgiBody env.receive).2 with
      | none => rw [hb] at h; cases h
      | some e => rw [hb] at h; cases e <;> cases h

theorem badGrpcTimeout {v : Str} (h : BadGrpcTimeout v) : v ≠ [] ∧ ∃ m, parseTimeout v = .error (.other .valueError m) := by
  obtain ⟨s, u, rfl, h⟩ := h
  refine ⟨by simp, ?_⟩
  rcases h with h | h | ⟨n, hn, hbig⟩
  · exact Props.C11_unknown_unit_rejected s u h
  · exact Props.C11_non_numeric_rejected s u h
  · by_cases hu : u ∈ unitNanos.map (·.1)
    · unfold parseTimeout
      rw [List.reverse_append, List.reverse_singleton, List.singleton_append]
      dsimp only
      rw [List.reverse_reverse, (parseInt_iff s n).2 hn]
      obtain ⟨⟨u', k⟩, hp, rfl⟩ := List.mem_map.mp hu
      obtain ⟨f, hf, _⟩ := scale_exact u' k hp
      rw [hf]
      dsimp only
      rw [if_pos hbig]
      exact ⟨_, rfl⟩
    · exact Props.C11_unknown_unit_rejected s u hu

theorem serverContext_badGrpc {p : Proto} (hp : p ≠ .connect) (m : MethodInfo) {headers : Headers} {v : Str}
    (hv : headers.get (pys! "grpc-timeout") = some v) (hbad : BadGrpcTimeout v) (scheme : Str) (client : Option Str) :
    ∃ msg, p.serverContext m (pys! "POST") scheme headers client = .error (.other .valueError msg) := by
  obtain ⟨hne, msg, h⟩ := badGrpcTimeout hbad
  have : grpcServerContext m (pys! "POST") scheme headers client = .error (.other .valueError msg) := by
    unfold grpcServerContext
    rw [if_neg (fun h => h rfl), hv]
    unfold grpcTimeout
    dsimp only
    rw [if_neg (by simpa using hne), h]
  cases p with
  | connect => exact absurd rfl hp
  | grpc => exact ⟨_, this⟩
  | grpcWeb => exact ⟨_, this⟩

end Conn
