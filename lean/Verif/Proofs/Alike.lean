import Verif.Spec.Alike
import Verif.Proofs.Transport
import Verif.Proofs.StreamServe
/-
Lemmas for C90.
-/
namespace Conn
open Py Spec

/-! ### header fields -/

/-- all fields, added one after the other -/
def addAll (h : Headers) (l : List (Str × Str)) : Headers := l.foldl (fun h p => h.add p.1 p.2) h

theorem asgiHeaders_addAll : ∀ (l : List (Str × Str)) (h : Headers), asgiHeaders (l.map fun p => (utf8Encode p.1, utf8Encode p.2)) h = .ok (addAll h l)
  | [], _ => rfl
  | p :: l, h => by
    rw [List.map_cons]
    unfold asgiHeaders
    rw [utf8Decode_encode, utf8Decode_encode]
    exact asgiHeaders_addAll l _

theorem contains_set_self (d : Dict Str Str) (k v k' : Str) : Dict.contains (Dict.set d k v) k' = (decide (k = k') || Dict.contains d k') := by
  induction d with
  | nil =>
    by_cases h : k = k' <;> simp [Dict.contains, Dict.set, Dict.get?, h]
  | cons p d ih =>
    obtain ⟨a, b⟩ := p
    unfold Dict.contains at ih ⊢
    unfold Dict.set
    by_cases h : a = k
    · subst h
      rw [if_pos rfl]
      unfold Dict.get?
      by_cases h' : a = k' <;> simp [h']
    · rw [if_neg h]
      unfold Dict.get?
      by_cases h' : a = k'
      · simp [h']
      · rw [if_neg h', if_neg h', ih]

theorem setItem_add {h : Headers} (he : h.extra = none) {k v : Str} (hc : h.contains k = false) : h.setItem k v = h.add k v := by
  obtain ⟨s, e⟩ := h
  have he : e = none := he
  subst he
  unfold Headers.setItem Headers.add
  have hc : Dict.contains s (lower k) = false := hc
  dsimp only
  rw [hc, if_neg (by decide)]
  rfl

theorem add_new {h : Headers} (he : h.extra = none) {k v : Str} (hc : h.contains k = false) :
    (h.add k v).extra = none ∧ ∀ k', (h.add k v).contains k' = (decide (lower k = lower k') || h.contains k') := by
  obtain ⟨s, e⟩ := h
  have he : e = none := he
  subst he
  have hc : Dict.contains s (lower k) = false := hc
  unfold Headers.add
  dsimp only
  rw [hc, if_neg (by decide)]
  exact ⟨rfl, fun k' => contains_set_self ..⟩

/-- setting fields that are not there yet, one after the other, is adding them -/
theorem setAll_addAll (g : Str → Str) : ∀ (l : List (Str × Str)) (h : Headers), h.extra = none → (∀ p ∈ l, lower (g p.1) = lower p.1) →
    (l.map fun p => lower p.1).Nodup → (∀ p ∈ l, h.contains p.1 = false) → l.foldl (fun h p => h.setItem (g p.1) p.2) h = addAll h l
  | [], _, _, _, _, _ => rfl
  | p :: l, h, he, hg, hn, hc => by
    have hp := hc p (List.mem_cons_self ..)
    have e : h.setItem (g p.1) p.2 = h.add p.1 p.2 := by
      rw [← setItem_add he hp]
      unfold Headers.setItem
      rw [hg p (List.mem_cons_self ..)]
    obtain ⟨h1, h2⟩ := add_new (v := p.2) he hp
    rw [List.map_cons, List.nodup_cons] at hn
    show l.foldl _ (h.setItem (g p.1) p.2) = addAll (h.add p.1 p.2) l
    rw [e]
    refine setAll_addAll g l _ h1 (fun q hq => hg q (List.mem_cons_of_mem _ hq)) hn.2 fun q hq => ?_
    rw [h2, hc q (List.mem_cons_of_mem _ hq), Bool.or_false, decide_eq_false_iff_not]
    intro e
    exact hn.1 (List.mem_map.2 ⟨q, hq, e.symm⟩)

theorem foldl_if (f : Headers → Str × Str → Headers) (c : Str × Str → Bool) : ∀ (l : List (Str × Str)) (h : Headers),
    l.foldl (fun h p => if c p then f h p else h) h = (l.filter c).foldl f h
  | [], _ => rfl
  | p :: l, h => by
    rw [List.foldl_cons, List.filter_cons]
    cases hc : c p with
    | true => rw [if_pos rfl, if_pos rfl, List.foldl_cons]; exact foldl_if f c l _
    | false => rw [if_neg (by decide), if_neg (by decide)]; exact foldl_if f c l _

theorem startsWith_take (k : Str) : startsWith (pys! "HTTP_") k = decide (k.take 5 = pys! "HTTP_") := by
  rw [Bool.eq_iff_iff, decide_eq_true_iff]
  unfold startsWith
  rw [List.isPrefixOf_iff_prefix, List.prefix_iff_eq_take]
  exact ⟨Eq.symm, Eq.symm⟩

theorem lower_headerName {n : Str} (h : '_' ∉ n) (hn : lower n ≠ pys! "content-type") : lower (wsgiHeaderName (cgiVar n)) = lower n ∧ startsWith (pys! "HTTP_") (cgiVar n) = true := by
  have h1 := headerOfVar_cgiVar h
  unfold cgiVar at h1 ⊢
  rw [if_neg hn] at h1 ⊢
  unfold headerOfVar at h1
  rw [if_neg (by intro e; cases e), if_neg (by intro e; cases e), if_pos (List.prefix_append _ _)] at h1
  refine ⟨Option.some.inj h1, ?_⟩
  unfold startsWith
  rw [List.isPrefixOf_iff_prefix]
  exact List.prefix_append _ _

/-- both servers see the same header fields -/
theorem wsgiHeaders_same {r : HttpIn} (hr : r.Plain) {env : Environ} (hw : WsgiGets r env) : wsgiHeaders env.vars = addAll Headers.empty r.fields := by
  unfold wsgiHeaders HttpIn.fields
  dsimp only
  rw [hw.type, hw.length, foldl_if (fun h p => h.setItem (wsgiHeaderName p.1) p.2) (fun p => startsWith (pys! "HTTP_") p.1)]
  have hf : (env.vars.filter fun p => startsWith (pys! "HTTP_") p.1) = r.others.map fun p => (cgiVar p.1, p.2) := by
    rw [← hw.fields]
    congr 1
    funext p
    exact startsWith_take p.1
  rw [hf, List.foldl_map]
  unfold addAll
  rw [List.foldl_append, List.foldl_append]
  have key : ∀ h : Headers, h.extra = none → (∀ k, h.contains k = true → lower k = pys! "content-type" ∨ lower k = pys! "content-length") →
      r.others.foldl (fun h p => h.setItem (wsgiHeaderName (cgiVar p.1)) p.2) h = addAll h r.others := by
    intro h he hc
    refine setAll_addAll (fun n => wsgiHeaderName (cgiVar n)) r.others h he (fun p hp => (lower_headerName (hr.names p hp).1 (hr.names p hp).2.1).1) hr.once fun p hp => ?_
    cases hx : h.contains p.1 with
    | false => rfl
    | true =>
      rcases hc _ hx with e | e
      · exact absurd e (hr.names p hp).2.1
      · exact absurd e (hr.names p hp).2.2
  have hempty : ∀ k, Headers.empty.contains k = false := fun _ => rfl
  cases ht : r.contentType with
  | none =>
    cases hd : r.declared with
    | false => exact key Headers.empty rfl (fun k hk => by rw [hempty] at hk; cases hk)
    | true =>
      obtain ⟨h1, h2⟩ := add_new (h := Headers.empty) (k := pys! "content-length") (v := natDigits r.body.length) rfl rfl
      show r.others.foldl _ (Headers.empty.setItem (pys! "content-length") (natDigits r.body.length)) = addAll (Headers.empty.add (pys! "content-length") (natDigits r.body.length)) r.others
      rw [setItem_add (h := Headers.empty) rfl rfl]
      refine key _ h1 fun k hk => ?_
      rw [h2, hempty, Bool.or_false, decide_eq_true_iff] at hk
      exact .inr (by rw [← hk]; rfl)
  | some ct =>
    obtain ⟨h1, h2⟩ := add_new (h := Headers.empty) (k := pys! "content-type") (v := ct) rfl rfl
    dsimp only
    rw [setItem_add (h := Headers.empty) rfl rfl]
    cases hd : r.declared with
    | false =>
      refine key (Headers.empty.add (pys! "content-type") ct) h1 fun k hk => ?_
      rw [h2, hempty, Bool.or_false, decide_eq_true_iff] at hk
      exact .inl (by rw [← hk]; rfl)
    | true =>
      have hno : (Headers.empty.add (pys! "content-type") ct).contains (pys! "content-length") = false := by rw [h2]; rfl
      obtain ⟨h3, h4⟩ := add_new (v := natDigits r.body.length) h1 hno
      show r.others.foldl _ ((Headers.empty.add (pys! "content-type") ct).setItem (pys! "content-length") (natDigits r.body.length)) =
        addAll ((Headers.empty.add (pys! "content-type") ct).add (pys! "content-length") (natDigits r.body.length)) r.others
      rw [setItem_add h1 hno]
      refine key _ h3 fun k hk => ?_
      rw [h4, h2, hempty, Bool.or_false, Bool.or_eq_true, decide_eq_true_iff, decide_eq_true_iff] at hk
      rcases hk with hk | hk
      · exact .inr (by rw [← hk]; rfl)
      · exact .inl (by rw [← hk]; rfl)

theorem addAll_getall (l : List (Str × Str)) (n : Str) : (addAll Headers.empty l).getall n = fieldValues l n := by
  obtain ⟨h', h1, h2⟩ := asgiHeaders_encoded l Headers.empty Headers.inv_empty
  rw [asgiHeaders_addAll] at h1
  cases h1
  rw [h2]
  rfl

theorem addAll_getD (r : HttpIn) (n d : Str) : (addAll Headers.empty r.fields).getD n d = (r.value n).getD d := by
  rw [Headers.getD_eq, addAll_getall]
  rfl

theorem value_type {r : HttpIn} (hr : r.Plain) : (r.value (pys! "content-type")).getD [] = r.type := by
  unfold HttpIn.value HttpIn.type HttpIn.fields
  cases r.contentType with
  | some ct =>
    rw [fieldValues_append, fieldValues_append]
    rfl
  | none =>
    rw [fieldValues_append, fieldValues_append, fieldValues_none (l := r.others) (n := pys! "content-type") (fun p hp => (hr.names p hp).2.1)]
    cases r.declared <;> rfl

/-! ### the way to the endpoint -/

section
variable {Req Res : Type}

theorem wsgiClient_same {r : HttpIn} (hr : r.Plain) {env : Environ} (hw : WsgiGets r env) :
    wsgiClient env.vars = r.client.map fun ca => ca.1 ++ pys! ":" ++ ca.2 := by
  unfold wsgiClient
  rw [hw.host, hw.port]
  cases hc : r.client with
  | none => rfl
  | some ca =>
    obtain ⟨a, b⟩ := ca
    have ha := hr.client a b hc
    cases a with
    | nil => exact absurd rfl ha
    | cons x a => rfl

theorem lookup_same (app : App Req Res) {r : HttpIn} (hr : r.Plain) {env : Environ} (hw : WsgiGets r env) {scope : Scope} {aenv : Env}
    (ha : AsgiGets r scope aenv) : app.wsgiLookup env = app.asgiLookup scope := by
  unfold App.wsgiLookup App.asgiLookup Environ.item
  rw [hw.path, hw.mount, ha.path, ha.mount]
  dsimp only
  have hp : r.path.isEmpty = false := by
    cases h : r.path with
    | nil => exact absurd h hr.path
    | cons => rfl
  rw [hp, if_neg (by decide)]
  cases he : Dict.get? app.endpoints r.path with
  | some ep => rfl
  | none =>
    dsimp only
    by_cases hs : [] = app.path
    · rw [if_pos hs, ← hs, List.nil_append, he]
      rfl
    · rw [if_neg hs]
      rfl

theorem route_same (app : App Req Res) {r : HttpIn} (hr : r.Plain) {env : Environ} (hw : WsgiGets r env) {scope : Scope} {aenv : Env}
    (ha : AsgiGets r scope aenv) (ht : GrpcType r.type → r.trailers = true) : app.wsgiRoute env = app.asgiRoute scope := by
  have hl : app.wsgiLookup env = app.asgiLookup scope := lookup_same app hr hw ha
  unfold App.wsgiRoute App.asgiRoute
  rw [hl]
  cases app.asgiLookup scope with
  | error e => rfl
  | ok kp =>
    obtain ⟨key, ep⟩ := kp
    dsimp only
    unfold Environ.item
    rw [hw.method, hw.scheme, wsgiHeaders_same hr hw, ha.fields, asgiHeaders_addAll, ha.scheme, ha.client, ha.method, ha.trailers, hw.trailers,
      wsgiClient_same hr hw, addAll_getD, value_type hr]
    dsimp only
    rw [addAll_getD, value_type hr]
    have hn : ¬ ((negotiateServerProtocol r.type).usesTrailers = true ∧ ¬ r.trailers = true) := by
      rintro ⟨h1, h2⟩
      refine h2 (ht ?_)
      have : Speaks (negotiateServerProtocol r.type) r.type := (speaks_iff _ _).2 rfl
      cases hq : negotiateServerProtocol r.type with
      | grpc => rw [hq] at this; exact this
      | connect => rw [hq] at h1; cases h1
      | grpcWeb => rw [hq] at h1; cases h1
    rw [if_neg hn, if_neg hn]
    cases (negotiateServerProtocol r.type).serverContext ep.method r.method r.scheme (addAll Headers.empty r.fields) (r.client.map fun ca => ca.1 ++ pys! ":" ++ ca.2) <;> rfl

/-! ### failures -/

theorem sendAll_reliable {env : Env} (hrel : Reliable env) : ∀ (ms : List Sent) (log : List (Sent × Option Exc)), env.sendAll log ms = (log ++ ms.map (·, none), none)
  | [], log => by simp [Env.sendAll]
  | m :: ms, log => by
    unfold Env.sendAll Env.send
    rw [hrel]
    dsimp only
    rw [sendAll_reliable hrel ms, List.append_assoc]
    rfl

theorem wsgiBytes_chunks (bs : List Bytes) : wsgiBytes (bs.map .chunk) = bs.flatten := by
  unfold wsgiBytes
  rw [List.map_map]
  congr 1
  exact List.map_id' bs

theorem wsgiTrailers_chunks (bs : List Bytes) : wsgiTrailers (bs.map .chunk) = [] := by
  unfold wsgiTrailers
  rw [List.filterMap_map]
  exact List.filterMap_eq_nil_iff.2 fun _ _ => rfl

/-- both servers tell of an exception in the same way -/
theorem fail_alike {env : Env} (hrel : Reliable env) (calls : List (Called Req)) (e : Exc) (ctx : Option Meta) :
    Alike (wsgiFail calls e ctx) (asgiFail env calls [] e ctx) := by
  unfold wsgiFail asgiFail
  cases hx : e.isException with
  | false =>
    rw [if_neg (by decide), if_neg (by decide)]
    exact ⟨rfl, rfl, .inr ⟨e, hx, rfl, rfl, rfl, rfl⟩⟩
  | true =>
    rw [if_pos rfl, if_pos rfl]
    unfold wsgiError
    dsimp only
    rw [sendAll_reliable hrel]
    refine ⟨rfl, rfl, .inl ⟨⟨(errorResponse (pys! "Content-Type") e ctx).1, (errorResponse (pys! "Content-Type") e ctx).2.1, (errorResponse (pys! "Content-Type") e ctx).2.2.flatten, []⟩,
      ⟨(errorResponse (pys! "content-type") e ctx).1, (errorResponse (pys! "content-type") e ctx).2.1, (errorResponse (pys! "content-type") e ctx).2.2.flatten, []⟩, ?_, ?_, ?_⟩⟩
    · refine ⟨rfl, (errorResponse (pys! "Content-Type") e ctx).2.2.map .chunk, rfl, ?_, (wsgiBytes_chunks _).symm, (wsgiTrailers_chunks _).symm⟩
      intro s f h
      obtain ⟨b, _, hb⟩ := List.mem_map.1 h
      cases hb
    · refine ⟨false, [.body (errorResponse (pys! "content-type") e ctx).2.2.flatten false], rfl, ?_, ?_, rfl⟩
      · intro s f t h
        cases List.mem_singleton.1 h
      · show _ = List.flatten [_]
        rw [List.flatten_cons, List.flatten_nil, List.append_nil]
    · unfold errorResponse
      dsimp only
      cases e with
      | http s hs => exact ⟨rfl, rfl, rfl, rfl⟩
      | connect c => exact ⟨rfl, rfl, rfl, rfl⟩
      | cancelled => exact ⟨rfl, rfl, rfl, rfl⟩
      | _ => exact ⟨rfl, rfl, rfl, rfl⟩

end
end Conn
