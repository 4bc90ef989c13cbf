import Verif.Proofs.WireJson
import Verif.Spec.Server
import Verif.Props.Errors
import Verif.Props.Negotiate
/-
Lemmas about what the models of the two servers share.
-/
namespace Conn
open Py Spec

theorem negotiate_grpc (ct : Str) : negotiateServerProtocol ct = .grpc ↔ GrpcType ct := by
  rw [(Props.C27_content_type_decides ct).1]
  unfold Props.IsGrpc GrpcType
  constructor
  · rintro (h | ⟨r, h⟩)
    · exact .inl h
    · exact .inr ⟨r, h.symm⟩
  · rintro (h | ⟨r, h⟩)
    · exact .inl h
    · exact .inr ⟨r, h.symm⟩

theorem negotiate_grpcWeb (ct : Str) : negotiateServerProtocol ct = .grpcWeb ↔ GrpcWebType ct := by
  rw [(Props.C27_content_type_decides ct).2.1]
  unfold Props.IsGrpcWeb GrpcWebType
  constructor
  · rintro (h | ⟨r, h⟩)
    · exact .inl h
    · exact .inr ⟨r, h.symm⟩
  · rintro (h | ⟨r, h⟩)
    · exact .inl h
    · exact .inr ⟨r, h.symm⟩

theorem negotiate_connect (ct : Str) : negotiateServerProtocol ct = .connect ↔ ConnectType ct := by
  unfold ConnectType
  rw [← negotiate_grpc, ← negotiate_grpcWeb]
  cases negotiateServerProtocol ct <;> simp

theorem connectMethodCheck_none {i : Idempotency} {hm : Str} (h : connectMethodCheck i hm = none) :
    hm = pys! "POST" ∨ (hm = pys! "GET" ∧ i = .noSideEffects) := by
  unfold connectMethodCheck at h
  split at h
  · rename_i hi
    split at h
    · rename_i hg
      rcases hg with hg | hg
      · exact .inr ⟨hg, hi⟩
      · exact .inl hg
    · cases h
  · split at h
    · rename_i hp; exact .inl hp
    · cases h

theorem connectTimeout_value {v : Option Str} {t : Option Int} (h : connectTimeout v = .ok t) : t = v.bind parseInt := by
  unfold connectTimeout at h
  split at h
  · cases h; rfl
  · rename_i v
    split at h
    · rename_i hv
      cases h
      cases v with
      | nil => decide +kernel
      | cons a v => cases hv
    · split at h
      · cases h
      · split at h
        · cases h
        · rename_i hn
          cases h
          exact hn.symm

theorem grpcTimeout_value {v : Option Str} {t : Option Int} (h : grpcTimeout v = .ok t) :
    t = v.bind fun v => (parseTimeout v).toOption := by
  unfold grpcTimeout at h
  split at h
  · cases h; rfl
  · rename_i v
    split at h
    · rename_i hv
      cases h
      cases v with
      | nil => rfl
      | cons a v => cases hv
    · split at h
      · cases h
      · rename_i hn
        cases h
        show _ = (parseTimeout v).toOption
        rw [hn]
        rfl

theorem HostPort.colon {h : List Char} (hh : HostPort h) : ':' ∈ h := by
  obtain ⟨a, p, rfl, _⟩ := hh
  simp

theorem serverAddress_of (host : Option Str) (scheme : Str) : ServerAddress scheme host (hostToServerAddress host scheme) := by
  refine ⟨?_, ?_⟩
  · rintro rfl
    rfl
  · rintro h rfl
    unfold hostToServerAddress
    refine ⟨?_, ?_⟩
    · intro hp
      exact if_pos (HostPort.colon hp)
    · intro hp
      refine ⟨?_, ?_⟩
      · rintro rfl
        dsimp only
        rw [if_neg hp.2.2, if_neg (by decide), if_pos rfl]
      · rintro rfl
        dsimp only
        rw [if_neg hp.2.2, if_pos rfl]

theorem serverContext_ok {ct : Str} {m : MethodInfo} {hm scheme : Str} {h : Headers} {client : Option Str}
    {ctx : RequestContext} (hct : ct = h.getD (pys! "content-type") [])
    (he : (negotiateServerProtocol ct).serverContext m hm scheme h client = .ok ctx) :
    CtxIs ctx m hm scheme h client ∧ MayRun m ct hm := by
  have grpc : ¬ ConnectType ct → grpcServerContext m hm scheme h client = .ok ctx →
      CtxIs ctx m hm scheme h client ∧ hm = pys! "POST" := by
    intro hno he
    unfold grpcServerContext at he
    split at he
    · cases he
    · rename_i hp
      split at he
      · cases he
      · rename_i t ht
        cases he
        exact ⟨⟨rfl, rfl, rfl, rfl, serverAddress_of _ _, fun hc => absurd (hct ▸ hc) hno, fun _ => grpcTimeout_value ht⟩, Decidable.not_not.1 hp⟩
  cases hn : negotiateServerProtocol ct with
  | connect =>
    rw [hn] at he
    unfold Proto.serverContext connectServerContext at he
    dsimp only at he
    split at he
    · cases he
    · rename_i hc
      split at he
      · cases he
      · split at he
        · cases he
        · rename_i t ht
          cases he
          refine ⟨⟨rfl, rfl, rfl, rfl, serverAddress_of _ _, fun _ => connectTimeout_value ht, fun hno => ?_⟩, ?_⟩
          · exact absurd (hct ▸ (negotiate_connect ct).1 hn) hno
          rcases connectMethodCheck_none hc with h | h
          · exact .inl h
          · exact .inr ⟨h.1, h.2, (negotiate_connect ct).1 hn⟩
  | grpc =>
    rw [hn] at he
    have hno : ¬ ConnectType ct := fun hc => by rw [(negotiate_connect ct).2 hc] at hn; cases hn
    exact ⟨(grpc hno he).1, .inl (grpc hno he).2⟩
  | grpcWeb =>
    rw [hn] at he
    have hno : ¬ ConnectType ct := fun hc => by rw [(negotiate_connect ct).2 hc] at hn; cases hn
    exact ⟨(grpc hno he).1, .inl (grpc hno he).2⟩

theorem serverContext_405 {ct : Str} {m : MethodInfo} {hm : Str} (hno : ¬ MayRun m ct hm) :
    ∃ a, Allow m ct a ∧ ∀ scheme h client,
      (negotiateServerProtocol ct).serverContext m hm scheme h client = .error (methodNotAllowed a) := by
  have hpost : hm ≠ pys! "POST" := fun e => hno (.inl e)
  have grpc : ∀ scheme h client, grpcServerContext m hm scheme h client = .error (methodNotAllowed (pys! "POST")) := by
    intro scheme h client
    unfold grpcServerContext
    rw [if_pos hpost]
  cases hn : negotiateServerProtocol ct with
  | connect =>
    have hct := (negotiate_connect ct).1 hn
    unfold Proto.serverContext connectServerContext connectMethodCheck
    dsimp only
    by_cases hi : m.idempotency = .noSideEffects
    · rw [if_pos hi, if_neg (by
        rintro (h | h)
        · exact hno (.inr ⟨h, hi, hct⟩)
        · exact hpost h)]
      exact ⟨_, .inl ⟨hi, hct, rfl⟩, fun _ _ _ => rfl⟩
    · rw [if_neg hi, if_neg hpost]
      exact ⟨_, .inr ⟨fun h => hi h.1, rfl⟩, fun _ _ _ => rfl⟩
  | grpc =>
    have hct : ¬ ConnectType ct := by rw [← negotiate_connect, hn]; decide
    exact ⟨_, .inr ⟨fun h => hct h.2, rfl⟩, grpc⟩
  | grpcWeb =>
    have hct : ¬ ConnectType ct := by rw [← negotiate_connect, hn]; decide
    exact ⟨_, .inr ⟨fun h => hct h.2, rfl⟩, grpc⟩

/-- only the gRPC protocol needs trailers -/
theorem usesTrailers_iff (ct : Str) : (negotiateServerProtocol ct).usesTrailers = true ↔ GrpcType ct := by
  rw [← negotiate_grpc]
  cases negotiateServerProtocol ct <;> simp [Proto.usesTrailers]

/-- The response of `errorResponse` for an error of the library. -/
theorem errorResponse_complete (ctname : Str) (hct : lower ctname = pys! "content-type") (e : Exc)
    (he : ∀ s h, e ≠ .http s h) (hd : DebugOk (errorOf e)) (ctx : Option Meta) :
    ErrorResponse ⟨(errorResponse ctname e ctx).1, (errorResponse ctname e ctx).2.1, (errorResponse ctname e ctx).2.2.flatten⟩
      (errorOf e) := by
  rw [errorOf_eq] at hd ⊢
  have h : errorResponse ctname e ctx = ((ConnectErr.fromException e).code.httpStatus.1,
      [(ctname, pys! "application/json")] ++ (match ctx with | some m => m.contextHeaders | none => []),
      [(ConnectErr.fromException e).toJsonBytes]) := by
    cases e with
    | http s h => exact absurd rfl (he s h)
    | connect _ => rfl
    | other _ _ => rfl
    | cancelled => rfl
  rw [h]
  obtain ⟨h1, _⟩ := Props.C17_connect_unary_error (ConnectErr.fromException e) hd []
  refine ⟨h1, ⟨(ctname, pys! "application/json"), List.mem_append_left _ (List.mem_singleton.2 rfl), hct, rfl⟩, ?_⟩
  simpa using errorBody_toJsonBytes _ hd

end Conn
