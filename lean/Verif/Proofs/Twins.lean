import Verif.Spec.Twins
import Verif.Props.Client
import Verif.Props.Iteration
/-
Lemmas for C91.
-/
namespace Props
open Conn Py Spec

section
variable {Req Res : Type}

theorem complete_exception (p : Proto) (sc : StatusCodec) (hsc : ∀ b e, sc.fromBinary b = .error e → e.isException)
    (sub : ClientSub) (r : HTTPResponse) (e : Exc) (h : (p.complete sc sub r none).2 = some e) : e.isException = true := by
  have hE : ∀ t st e, errorOfTrailers sc t st none = some e → e.isException = true := by
    intro t st e h
    unfold errorOfTrailers at h
    repeat' split at h
    all_goals first
      | cases h; rfl
      | (cases h; rename_i hb; exact hsc _ _ hb)
      | cases h
  have hG : ∀ rh tr e, (grpcComplete sc sub rh tr none).2 = some e → e.isException = true := by
    intro rh tr e h
    unfold grpcComplete at h
    repeat' split at h
    all_goals first
      | exact hE _ _ _ h
      | (cases h; rfl)
  cases p with
  | connect => cases h
  | grpc => exact hG _ _ _ h
  | grpcWeb => exact hG _ _ _ h

/-- leaving the `with` statement of either client -/
theorem leave_alike (k : StreamCall Req Res) (resp : StreamResponse) (sink : Sink) (log : List Effect) (reader : Option ClientSub)
    (fromFeed : Bool) (e : Option Exc) (he : ∀ x, e = some x → x.isException = true) (hx : ∀ x, resp.exitErr = some x → Definite x) :
    (callOf .sync k).leave resp sink log reader fromFeed e = (callOf .async k).leave resp sink log reader fromFeed e := by
  unfold StreamCall.leave
  dsimp only
  cases hr : resp.exitErr with
  | none =>
    cases e with
    | none => cases fromFeed <;> rfl
    | some x =>
      cases x with
      | connect ce => cases fromFeed <;> rfl
      | http s hs => cases fromFeed <;> rfl
      | other cls msg => cases fromFeed <;> cases cls <;> rfl
      | cancelled => cases he _ rfl
  | some x =>
    rcases hx x hr with ⟨ce, rfl⟩ | ⟨msg, rfl⟩
    · rfl
    · rfl

theorem atEnd_alike (k : StreamCall Req Res) (hd : Decent k.c k.sc) (hs : k.cs.expiredAtEnd = false) (resp : StreamResponse)
    (hb : ∀ e, resp.bodyErr = some e → e.isException) (hx : ∀ x, resp.exitErr = some x → Definite x) (log : List Effect) (sub : ClientSub) :
    (callOf .sync k).atEnd resp log sub = (callOf .async k).atEnd resp log sub := by
  unfold StreamCall.atEnd
  dsimp only
  cases hr : resp.bodyErr with
  | some e => exact leave_alike k resp _ _ _ _ _ (fun x hx => by cases hx; exact hb e hr) hx
  | none =>
    dsimp only
    rw [if_neg (show ¬ ((callOf .sync k).c.flavor = .sync ∧ (callOf .sync k).cs.expiredAtEnd = true) from fun h => by rw [show (callOf .sync k).cs = k.cs from rfl, hs] at h; cases h.2),
      if_neg (show ¬ ((callOf .async k).c.flavor = .sync ∧ (callOf .async k).cs.expiredAtEnd = true) from fun h => by cases h.1)]
    exact leave_alike k resp _ _ _ _ _ (fun x h => complete_exception _ _ hd.status _ _ _ h) hx

theorem reader_alike (f : Flavor) (k : StreamCall Req Res) (comp : Compression) : (callOf f k).c.reader comp = k.c.reader comp := rfl

/-- what the reader raises -/
theorem readNext_exception (c : Client Req Res) (sc : StatusCodec) (hd : Decent c sc) (comp : Compression) (hc : comp = .identity ∨ ∃ n, (n, comp) ∈ c.comps)
    (s s' : ReaderState ClientSub) (e : Exc) (h : readNext (c.reader comp) s = .raised e s') : e.isException = true := by
  have one : ∀ pre n, readOne (c.reader comp) s pre n = .raised e s' → e.isException = true := by
    intro pre n h
    unfold readOne at h
    dsimp only at h
    split at h
    · cases h
    · split at h
      · rename_i hp
        cases h
        rcases payload_error _ _ _ _ hp with ⟨ce, rfl⟩ | hp
        · rfl
        · rcases hc with rfl | ⟨n, hn⟩
          · cases hp
          · exact hd.comps _ hn _ _ hp
      · split at h
        · rename_i he
          cases h
          exact (endHook_plain c.proto _ _ _ _ (congrArg Prod.snd he)).1
        · cases h
        · split at h
          · rename_i he
            cases h
            exact hd.decode _ _ he
          · cases h
  unfold readNext at h
  repeat' split at h
  all_goals first | exact one _ _ h | cases h

theorem chunks_alike (k : StreamCall Req Res) (hd : Decent k.c k.sc) (hs : k.cs.expiredAtEnd = false) (resp : StreamResponse)
    (hb : ∀ e, resp.bodyErr = some e → e.isException) (hx : ∀ x, resp.exitErr = some x → Definite x) (comp : Compression)
    (hc : comp = .identity ∨ ∃ n, (n, comp) ∈ k.c.comps) (rest : List Bytes) (s : ReaderState ClientSub) (log : List Effect) :
    (callOf .sync k).chunks resp comp s rest log = (callOf .async k).chunks resp comp s rest log := by
  induction rest generalizing s log with
  | nil => exact atEnd_alike k hd hs resp hb hx log s.sub
  | cons b rest ih =>
    unfold StreamCall.chunks
    rw [reader_alike, reader_alike]
    cases hr : readNext (k.c.reader comp) { s with buffer := s.buffer ++ b } with
    | message m s' => rfl
    | raised e s' => exact leave_alike k resp _ _ _ _ _ (fun x h => by cases h; exact readNext_exception k.c k.sc hd comp hc _ _ _ hr) hx
    | more s' => exact ih s' _

theorem begin_alike (k : StreamCall Req Res) (hd : Decent k.c k.sc) (hs : k.cs.expiredAtEnd = false) (resp : StreamResponse)
    (hb : ∀ e, resp.bodyErr = some e → e.isException) (hx : ∀ x, resp.exitErr = some x → Definite x) (sink : Sink) (log : List Effect) :
    (callOf .sync k).begin sink resp log = (callOf .async k).begin sink resp log := by
  have exc : ∀ (e : Exc) (b : Bool) (log : List Effect), e.isException = true → (callOf .sync k).leave resp (handleResponseHeaders sink resp.headers) log none b (some e) =
      (callOf .async k).leave resp (handleResponseHeaders sink resp.headers) log none b (some e) :=
    fun e b log he => leave_alike k resp _ _ _ _ _ (fun x h => by cases h; exact he) hx
  unfold StreamCall.begin
  dsimp only
  by_cases h2 : resp.status = 200
  · rw [if_pos h2, if_pos h2]
    cases hv : (callOf .sync k).c.proto.validateStream (callOf .sync k).c.codec.name (resp.headers.getD (pys! "content-type") []) with
    | some e =>
      rw [show (callOf .async k).c.proto.validateStream (callOf .async k).c.codec.name (resp.headers.getD (pys! "content-type") []) = some e from hv]
      obtain ⟨ce, rfl⟩ := validateStream_connect hv
      exact exc _ _ _ rfl
    | none =>
      rw [show (callOf .async k).c.proto.validateStream (callOf .async k).c.codec.name (resp.headers.getD (pys! "content-type") []) = none from hv]
      dsimp only
      cases hr : (callOf .sync k).c.proto.responseCompression resp.headers (callOf .sync k).c.comps true with
      | error e =>
        rw [show (callOf .async k).c.proto.responseCompression resp.headers (callOf .async k).c.comps true = .error e from hr]
        obtain ⟨ce, rfl⟩ := responseCompression_error hr
        exact exc _ _ _ rfl
      | ok comp =>
        rw [show (callOf .async k).c.proto.responseCompression resp.headers (callOf .async k).c.comps true = .ok comp from hr]
        exact chunks_alike k hd hs resp hb hx comp (responseCompression_mem hr) _ _ _
  · rw [if_neg h2, if_neg h2]
    cases hbe : resp.bodyErr with
    | some e => exact exc _ _ _ (hb e hbe)
    | none =>
      dsimp only
      cases hf : ConnectErr.fromResponse resp.status resp.chunks.flatten with
      | error e => exact exc _ _ _ (fromResponse_ordinary hf)
      | ok e => exact exc _ _ _ rfl

/-- A generator that is suspended in the response to its request, read by a compression that the client knows. -/
def Within (k : StreamCall Req Res) (i : Iteration) : Prop :=
  match i.phase with
  | .paused resp comp _ _ => k.http k.request = .ok resp ∧ (comp = .identity ∨ ∃ n, (n, comp) ∈ k.c.comps)
  | _ => True

theorem next_alike (k : StreamCall Req Res) (hd : Decent k.c k.sc) (hs : k.cs.expiredAtEnd = false) (hh : Steady (k.http k.request)) (i : Iteration) (hi : Within k i) :
    (callOf .sync k).next false i = (callOf .async k).next false i := by
  unfold StreamCall.next
  unfold Within at hi
  cases hp : i.phase with
  | over => rfl
  | fresh =>
    dsimp only
    cases hr : (callOf .sync k).http (callOf .sync k).request with
    | ok resp =>
      rw [show (callOf .async k).http (callOf .async k).request = .ok resp from hr]
      exact begin_alike k hd hs resp (fun e => hh.body resp e hr) (fun e => hh.exit resp e hr) _ _
    | error e =>
      rw [show (callOf .async k).http (callOf .async k).request = .error e from hr]
      have he := hh.opened e hr
      cases e with
      | connect ce => rfl
      | http s h => rfl
      | other cls msg => cases cls <;> rfl
      | cancelled => cases he
  | paused resp comp s rest =>
    rw [hp] at hi
    dsimp only
    rw [if_neg (show ¬ ((callOf .sync k).c.flavor = .async ∧ false = true) from fun h => by cases h.2),
      if_neg (show ¬ ((callOf .async k).c.flavor = .async ∧ false = true) from fun h => by cases h.2)]
    have hx := fun e => hh.exit resp e hi.1
    unfold StreamCall.resume
    rw [reader_alike, reader_alike]
    cases hr : readNext (k.c.reader comp) s with
    | message m s' => rfl
    | raised e s' => exact leave_alike k resp _ _ _ _ _ (fun x h => by cases h; exact readNext_exception k.c k.sc hd comp hi.2 _ _ _ hr) hx
    | more s' => exact chunks_alike k hd hs resp (fun e => hh.body resp e hi.1) hx comp hi.2 _ _ _

theorem close_alike (k : StreamCall Req Res) (hh : Steady (k.http k.request)) (i : Iteration) (hi : Within k i) :
    (callOf .sync k).close i = (callOf .async k).close i := by
  unfold StreamCall.close
  unfold Within at hi
  cases hp : i.phase with
  | over => rfl
  | fresh => rfl
  | paused resp comp s rest =>
    rw [hp] at hi
    dsimp only
    rw [leave_alike k resp _ _ _ _ _ (fun x h => by cases h) (fun e => hh.exit resp e hi.1)]

theorem within_leave (k : StreamCall Req Res) (resp : StreamResponse) (sink : Sink) (log : List Effect) (reader : Option ClientSub)
    (fromFeed : Bool) (e : Option Exc) : Within k (k.leave resp sink log reader fromFeed e).1 := by
  unfold StreamCall.leave
  dsimp only
  split <;> trivial

theorem within_chunks (k : StreamCall Req Res) (resp : StreamResponse) (comp : Compression) (hr : k.http k.request = .ok resp)
    (hc : comp = .identity ∨ ∃ n, (n, comp) ∈ k.c.comps) (rest : List Bytes) (s : ReaderState ClientSub) (log : List Effect) :
    Within k (k.chunks resp comp s rest log).1 := by
  induction rest generalizing s log with
  | nil =>
    unfold StreamCall.chunks StreamCall.atEnd
    repeat' split
    all_goals exact within_leave ..
  | cons b rest ih =>
    unfold StreamCall.chunks
    split
    · exact ⟨hr, hc⟩
    · exact within_leave ..
    · exact ih _ _

theorem within_next (k : StreamCall Req Res) (b : Bool) (i : Iteration) (hi : Within k i) : Within k (k.next b i).1 := by
  unfold StreamCall.next
  split
  · exact hi
  · dsimp only
    split
    · split <;> trivial
    · rename_i resp hr
      unfold StreamCall.begin
      dsimp only
      repeat' split
      all_goals first
        | exact within_leave ..
        | (rename_i hc; exact within_chunks k resp _ hr (responseCompression_mem hc) _ _ _)
  · rename_i resp comp s rest hp
    unfold Within at hi
    rw [hp] at hi
    split
    · exact within_leave ..
    · unfold StreamCall.resume
      split
      · exact hi
      · exact within_leave ..
      · exact within_chunks k resp comp hi.1 hi.2 _ _ _

theorem within_close (k : StreamCall Req Res) (i : Iteration) (hi : Within k i) : Within k (k.close i).1 := by
  unfold StreamCall.close
  split
  · exact hi
  · trivial
  · rename_i resp comp s rest hp
    split
    · trivial
    · have := within_leave k resp s.sub.sink i.log (some s.sub) false none
      split
      · rename_i h; rw [h] at this; exact this
      · rename_i h; rw [h] at this; exact this

theorem reply_alike (k : StreamCall Req Res) (hd : Decent k.c k.sc) (hs : k.cs.expiredAtEnd = false) (hh : Steady (k.http k.request)) (i : Iteration) (hi : Within k i)
    (u : Use) (hu : u ≠ .next true) : (callOf .sync k).reply u i = (callOf .async k).reply u i ∧ Within k ((callOf .sync k).reply u i).1 := by
  cases u with
  | close => exact ⟨congrArg (fun r : Iteration × Option Exc => (r.1, Reply.closed r.2)) (close_alike k hh i hi), within_close (callOf .sync k) i hi⟩
  | next b =>
    cases b with
    | true => exact absurd rfl hu
    | false => exact ⟨congrArg (fun r : Iteration × Got Res => (r.1, Reply.got r.2)) (next_alike k hd hs hh i hi), within_next (callOf .sync k) false i hi⟩

theorem yields_alike (k : StreamCall Req Res) (hd : Decent k.c k.sc) (hs : k.cs.expiredAtEnd = false) (hh : Steady (k.http k.request))
    {p : Iteration × Got Res} {ms : List Res} {i : Iteration} {e : Option Exc} (h : Yields (callOf .sync k) p ms i e) (hp : Within k p.1) :
    Yields (callOf .async k) p ms i e := by
  induction h with
  | stop i => exact .stop i
  | raised i e => exact .raised i e
  | message h ih =>
    rename_i i _ _ _ _
    refine .message ?_
    rw [← next_alike k hd hs hh i hp]
    exact ih (within_next (callOf .sync k) false i hp)

theorem yields_determined {k : StreamCall Req Res} {p : Iteration × Got Res} {ms ms' : List Res} {i i' : Iteration} {e e' : Option Exc}
    (h : Yields k p ms i e) (h' : Yields k p ms' i' e') : ms = ms' ∧ i = i' ∧ e = e' := by
  induction h generalizing ms' i' e' with
  | stop i => cases h'; exact ⟨rfl, rfl, rfl⟩
  | raised i e => cases h'; exact ⟨rfl, rfl, rfl⟩
  | message h ih =>
    cases h' with
    | message h' =>
      obtain ⟨h1, h2, h3⟩ := ih h'
      exact ⟨by rw [h1], h2, h3⟩

/-- the call as a whole -/
theorem bidi_alike (k : StreamCall Req Res) (hd : Decent k.c k.sc) (hs : InTime k.cs) (hh : Steady (k.http k.request)) (sink : Sink) :
    (clientOf .sync k.c).bidi k.sc k.http sink k.cs k.ctx k.reqs k.srcErr = (clientOf .async k.c).bidi k.sc k.http sink k.cs k.ctx k.reqs k.srcErr := by
  obtain ⟨i, h1, h2⟩ := C77_whole (callOf .sync k) hs.2 sink
  obtain ⟨i', h1', h2'⟩ := C77_whole (callOf .async k) hs.2 sink
  have h := yields_alike k hd hs.1 hh h1 (within_next (callOf .sync k) false _ trivial)
  rw [next_alike k hd hs.1 hh (.start sink) trivial] at h
  obtain ⟨e1, e2, e3⟩ := yields_determined h h1'
  rw [e2] at h2
  generalize hx : (callOf .sync k).c.bidi (callOf .sync k).sc (callOf .sync k).http sink (callOf .sync k).cs (callOf .sync k).ctx (callOf .sync k).reqs (callOf .sync k).srcErr = x at *
  generalize hy : (callOf .async k).c.bidi (callOf .async k).sc (callOf .async k).http sink (callOf .async k).cs (callOf .async k).ctx (callOf .async k).reqs (callOf .async k).srcErr = y at *
  refine hx.trans (Eq.trans ?_ hy.symm)
  cases x; cases y
  dsimp only at e1 e3 h2 h2'
  rw [e1, e3, ← h2, h2']

/-- Connect unary calls -/
theorem connectUnary_alike (c : Client Req Res) (sc : StatusCodec) (hd : Decent c sc) (http : HttpRequest → Except Exc FullResponse)
    (hh : ∀ r e, http r = .error e → e.isException) (sink : Sink) (ctx : RequestContext) (req : Req) :
    (clientOf .sync c).connectUnary http sink ctx req = (clientOf .async c).connectUnary http sink ctx req := by
  have hm : ∀ e : Exc, e.isException = true → mapUnaryExc .sync e = mapUnaryExc .async e := by
    intro e he
    cases e with
    | connect ce => rfl
    | http s h => rfl
    | other cls msg => cases cls <;> rfl
    | cancelled => cases he
  unfold Client.connectUnary
  dsimp only
  cases he : (clientOf .sync c).codec.encode req with
  | error e =>
    rw [show (clientOf .async c).codec.encode req = .error e from he]
    exact congrArg (fun x => (sink, Except.error x)) (hm e (hd.encode _ _ he))
  | ok data =>
    rw [show (clientOf .async c).codec.encode req = .ok data from he]
    dsimp only
    cases hr : http ((clientOf .sync c).unaryRequest ctx ((clientOf .sync c).send.compress data)) with
    | error e =>
      rw [show http ((clientOf .async c).unaryRequest ctx ((clientOf .async c).send.compress data)) = .error e from hr]
      exact congrArg (fun x => (sink, Except.error x)) (hm e (hh _ _ hr))
    | ok resp =>
      rw [show http ((clientOf .async c).unaryRequest ctx ((clientOf .async c).send.compress data)) = .ok resp from hr]
      dsimp only
      cases hu : (clientOf .sync c).unaryResponse sink resp with
      | mk s r =>
        rw [show (clientOf .async c).unaryResponse sink resp = (s, r) from hu]
        cases r with
        | ok m => rfl
        | error e => exact congrArg (fun x => (s, Except.error x)) (hm e (unaryResponse_error (clientOf .sync c) hd.decode sink resp e (by rw [hu])))

end
end Props
