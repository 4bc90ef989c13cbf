import Verif.Spec.Iteration
import Verif.Props.Envelope
/-
Lemmas for C77.
-/
namespace Conn
open Py Spec

section
variable {M σ : Type}

theorem readOne_next (c : ReaderCfg M σ) (s : ReaderState σ) (pre : UInt8) (n : Nat) (nx : Option Nat) :
    readOne c { s with next := nx } pre n = readOne c s pre n := rfl

/-- reading everything is reading the next message, then everything -/
theorem readMessages_step (c : ReaderCfg M σ) (s : ReaderState σ) :
    readMessages c s = match readNext c s with
      | .more s' => ([], .done, s')
      | .raised e s' => ([], .raised e, s')
      | .message m s' => let r := readMessages c s'; (m :: r.1, r.2) := by
  have one : ∀ (pre : UInt8) (t : Bytes) (n : Nat) (sub : σ), readMessages c ⟨pre :: t, some n, sub⟩ =
      match readOne c ⟨pre :: t, some n, sub⟩ pre n with
      | .more s' => ([], .done, s')
      | .raised e s' => ([], .raised e, s')
      | .message m s' => let r := readMessages c s'; (m :: r.1, r.2) := by
    intro pre t n sub
    rw [readMessages, readOne]
    dsimp only
    by_cases hl : (pre :: t).length < n + 5
    · rw [if_pos hl, if_pos hl]
    · rw [if_neg hl, if_neg hl]
      cases c.payload pre (((pre :: t).drop 5).take n) with
      | error e => rfl
      | ok d =>
        dsimp only
        rcases c.handleEnd sub pre d with ⟨sub', r⟩
        rcases r with e | b
        · rfl
        · cases b with
          | true => rfl
          | false =>
            dsimp only
            cases c.codec.decode d with
            | error e => rfl
            | ok m =>
              dsimp only
              generalize (pre :: t).drop (5 + n) = tail
              by_cases h5 : tail.length < 5
              · rw [readMessages_short c h5]
                match tail, h5 with
                | [], _ => rfl
                | [_], _ => rfl
                | [_, _], _ => rfl
                | [_, _, _], _ => rfl
                | [_, _, _, _], _ => rfl
              · obtain ⟨p, b1, b2, b3, b4, t, rfl⟩ := five_bytes (by omega : 5 ≤ tail.length)
                dsimp only
                rw [readMessages_next]
  rcases s with ⟨b, nx, sub⟩
  cases b with
  | nil => rw [readMessages]; rfl
  | cons pre t =>
    cases nx with
    | some n => exact one pre t n sub
    | none =>
      by_cases h5 : (pre :: t).length < 5
      · rw [readMessages_short c h5]
        match t, h5 with
        | [], _ => rfl
        | [_], _ => rfl
        | [_, _], _ => rfl
        | [_, _, _], _ => rfl
      · obtain ⟨p, b1, b2, b3, b4, t', he⟩ := five_bytes (by omega : 5 ≤ (pre :: t).length)
        cases he
        rw [readMessages_next, one]
        rfl

end

section
variable {Req Res : Type}

/-- the end of the iteration, from the end of the reading -/
def StreamCall.conclude (k : StreamCall Req Res) (resp : StreamResponse) (log : List Effect) : Stop × ReaderState ClientSub → Iteration × Got Res
  | (.raised e, s) => k.leave resp s.sub.sink log (some s.sub) true (some e)
  | (.done, s) => k.atEnd resp log s.sub

theorem next_paused (k : StreamCall Req Res) (resp : StreamResponse) (comp : Compression) (s : ReaderState ClientSub) (rest : List Bytes)
    (sink : Sink) (log : List Effect) : k.next false ⟨.paused resp comp s rest, sink, log⟩ = k.resume resp comp s rest log := by
  unfold StreamCall.next
  dsimp only
  rw [if_neg (by simp)]

theorem leave_over (k : StreamCall Req Res) (resp : StreamResponse) (sink : Sink) (log : List Effect) (reader : Option ClientSub) (fromFeed : Bool)
    (e : Option Exc) : (k.leave resp sink log reader fromFeed e).1.phase = .over ∧
      (k.leave resp sink log reader fromFeed e).1.log = log ++ [.released] ∧ ∀ m, (k.leave resp sink log reader fromFeed e).2 ≠ .message m := by
  unfold StreamCall.leave
  dsimp only
  cases leaveWith k.c.flavor k.cs e resp.exitErr with
  | none => exact ⟨rfl, rfl, nofun⟩
  | some e => exact ⟨rfl, rfl, nofun⟩

theorem atEnd_over (k : StreamCall Req Res) (resp : StreamResponse) (log : List Effect) (sub : ClientSub) :
    (k.atEnd resp log sub).1.phase = .over ∧ (k.atEnd resp log sub).1.log = log ++ [.released] ∧ ∀ m, (k.atEnd resp log sub).2 ≠ .message m := by
  unfold StreamCall.atEnd
  cases resp.bodyErr with
  | some e => exact leave_over ..
  | none =>
    dsimp only
    split
    · exact leave_over ..
    · exact leave_over ..

theorem conclude_over (k : StreamCall Req Res) (resp : StreamResponse) (log : List Effect) (p : Stop × ReaderState ClientSub) :
    (k.conclude resp log p).1.phase = .over ∧ (k.conclude resp log p).1.log = log ++ [.released] ∧ ∀ m, (k.conclude resp log p).2 ≠ .message m := by
  rcases p with ⟨st, s⟩
  cases st with
  | raised e => exact leave_over ..
  | done => exact atEnd_over ..

/-- a `next` that gives no message is the last -/
theorem yields_end {k : StreamCall Req Res} (p : Iteration × Got Res) (h : ∀ m, p.2 ≠ .message m) :
    Yields k p [] p.1 (match p.2 with
      | .raised e => some e
      | _ => none) := by
  rcases p with ⟨i, g⟩
  cases g with
  | message m => exact absurd rfl (h m)
  | stop => exact .stop i
  | raised e => exact .raised i e

/-- the exception of a `next` -/
def Got.exc : Got Res → Option Exc
  | .raised e => some e
  | _ => none

theorem chunks_eq_resume (k : StreamCall Req Res) (resp : StreamResponse) (comp : Compression) (s : ReaderState ClientSub) (b : Bytes) (rest : List Bytes)
    (log : List Effect) : k.chunks resp comp s (b :: rest) log = k.resume resp comp { s with buffer := s.buffer ++ b } rest (log ++ [.chunk b]) := by
  rw [StreamCall.chunks, StreamCall.resume]

/-- the rest of an iteration, chunk after chunk -/
theorem chunks_yields (k : StreamCall Req Res) (resp : StreamResponse) (comp : Compression) : ∀ (rest : List Bytes) (s : ReaderState ClientSub) (log : List Effect),
    ∃ log', let f := feedAll (k.c.reader comp) s rest; let q := k.conclude resp log' f.2
      Yields k (k.chunks resp comp s rest log) f.1 q.1 q.2.exc
  | [], s, log => by
    refine ⟨log, ?_⟩
    dsimp only
    have := yields_end (k := k) _ (atEnd_over k resp log s.sub).2.2
    rw [StreamCall.chunks]
    unfold feedAll
    exact this
  | b :: rest, s, log => by
    have ih := chunks_yields k resp comp rest
    -- within a chunk
    have inner : ∀ (n : Nat) (s : ReaderState ClientSub) (log : List Effect), (readMessages (k.c.reader comp) s).1.length = n →
        ∃ log', let f := (match readMessages (k.c.reader comp) s with
            | (ms, .raised e, s') => (ms, Stop.raised e, s')
            | (ms, .done, s') => let r := feedAll (k.c.reader comp) s' rest; (ms ++ r.1, r.2))
          let q := k.conclude resp log' f.2
          Yields k (k.resume resp comp s rest log) f.1 q.1 q.2.exc := by
      intro n
      induction n with
      | zero =>
        intro s log hn
        rw [readMessages_step] at hn ⊢
        unfold StreamCall.resume
        cases hr : readNext (k.c.reader comp) s with
        | more s' =>
          dsimp only
          obtain ⟨log', h⟩ := ih s' log
          exact ⟨log', h⟩
        | raised e s' =>
          dsimp only
          exact ⟨log, yields_end _ (leave_over ..).2.2⟩
        | message m s' => rw [hr] at hn; simp at hn
      | succ n ihn =>
        intro s log hn
        rw [readMessages_step] at hn ⊢
        unfold StreamCall.resume
        cases hr : readNext (k.c.reader comp) s with
        | more s' => rw [hr] at hn; simp at hn
        | raised e s' => rw [hr] at hn; simp at hn
        | message m s' =>
          rw [hr] at hn
          dsimp only at hn ⊢
          rw [List.length_cons] at hn
          obtain ⟨log', h⟩ := ihn s' log (by omega)
          refine ⟨log', ?_⟩
          rcases hm : readMessages (k.c.reader comp) s' with ⟨ms, st, s2⟩
          rw [hm] at h
          cases st with
          | raised e =>
            dsimp only at h ⊢
            refine .message ?_
            rw [next_paused]
            exact h
          | done =>
            dsimp only at h ⊢
            refine .message ?_
            rw [next_paused]
            exact h
    rw [chunks_eq_resume]
    obtain ⟨log', h⟩ := inner _ { s with buffer := s.buffer ++ b } (log ++ [.chunk b]) rfl
    refine ⟨log', ?_⟩
    unfold feedAll
    rw [show feed (k.c.reader comp) s b = readMessages (k.c.reader comp) { s with buffer := s.buffer ++ b } from rfl]
    rcases hm : readMessages (k.c.reader comp) { s with buffer := s.buffer ++ b } with ⟨ms, st, s2⟩
    rw [hm] at h
    cases st with
    | raised e => exact h
    | done => exact h

/-- the end of `Client.bidi` -/
def StreamCall.settled (k : StreamCall Req Res) (resp : StreamResponse) (x : Inside Res) : StreamResult Res :=
  match leaveWith k.c.flavor k.cs x.exc resp.exitErr with
  | none => ⟨x.sink, x.messages, none⟩
  | some e =>
    let q := k.c.mapStreamExc k.sc x.sink k.cs (match k.c.flavor, x.fromFeed, x.exc with
      | .sync, true, some e => if e.isConnect then some e else none
      | _, _, _ => none) x.reader (some resp) e
    ⟨q.1, x.messages, some q.2⟩

theorem leave_settled (k : StreamCall Req Res) (resp : StreamResponse) (log : List Effect) (x : Inside Res) :
    (k.leave resp x.sink log x.reader x.fromFeed x.exc).1.sink = (k.settled resp x).sink ∧
    (k.leave resp x.sink log x.reader x.fromFeed x.exc).2.exc = (k.settled resp x).exc ∧ (k.settled resp x).messages = x.messages := by
  unfold StreamCall.leave StreamCall.settled
  dsimp only
  cases leaveWith k.c.flavor k.cs x.exc resp.exitErr with
  | none => exact ⟨rfl, rfl, rfl⟩
  | some e => exact ⟨rfl, rfl, rfl⟩

theorem fail_yields (k : StreamCall Req Res) (resp : StreamResponse) (log : List Effect) (sink : Sink) (e : Exc) :
    ∃ i, Yields k (k.leave resp sink log none false (some e)) (k.settled resp ⟨[], some e, false, none, sink⟩).messages i
      (k.settled resp ⟨[], some e, false, none, sink⟩).exc ∧ i.sink = (k.settled resp ⟨[], some e, false, none, sink⟩).sink ∧ i.phase = .over := by
  obtain ⟨h1, h2, h3⟩ := leave_settled k resp log ⟨[], some e, false, none, sink⟩
  obtain ⟨g1, _, g3⟩ := leave_over k resp sink log none false (some e)
  rw [h3, ← h2, ← h1]
  exact ⟨_, yields_end _ g3, rfl, g1⟩

/-- the body of a response that is read -/
theorem body_yields (k : StreamCall Req Res) (hc : k.cs.cancelAfter = none) (sink : Sink) (resp : StreamResponse) (comp : Compression) (log : List Effect) :
    ∃ i, Yields k (k.chunks resp comp (ReaderState.init (ClientSub.init sink)) resp.chunks log)
      (k.settled resp (k.c.readBody k.sc sink comp resp k.cs)).messages i (k.settled resp (k.c.readBody k.sc sink comp resp k.cs)).exc ∧
      i.sink = (k.settled resp (k.c.readBody k.sc sink comp resp k.cs)).sink ∧ i.phase = .over := by
  obtain ⟨log', h⟩ := chunks_yields k resp comp resp.chunks (ReaderState.init (ClientSub.init sink)) log
  rcases hf : feedAll (k.c.reader comp) (ReaderState.init (ClientSub.init sink)) resp.chunks with ⟨ms, st, s⟩
  rw [hf] at h
  dsimp only at h
  have hcan : cancelPoint k.c.flavor k.cs.cancelAfter ms.length = none := by
    rw [hc]; cases k.c.flavor <;> rfl
  -- the conclusion is the one of `readBody`
  have key : ∀ x : Inside Res, k.conclude resp log' (st, s) = k.leave resp x.sink log' x.reader x.fromFeed x.exc →
      x.messages = ms → k.c.readBody k.sc sink comp resp k.cs = x →
      ∃ i, Yields k (k.chunks resp comp (ReaderState.init (ClientSub.init sink)) resp.chunks log)
        (k.settled resp (k.c.readBody k.sc sink comp resp k.cs)).messages i (k.settled resp (k.c.readBody k.sc sink comp resp k.cs)).exc ∧
        i.sink = (k.settled resp (k.c.readBody k.sc sink comp resp k.cs)).sink ∧ i.phase = .over := by
    intro x h1 h2 h3
    obtain ⟨g1, g2, g3⟩ := leave_settled k resp log' x
    rw [h3, g3, h2, ← g1, ← g2, ← h1]
    exact ⟨_, h, rfl, (conclude_over ..).1⟩
  cases st with
  | raised e =>
    refine key ⟨ms, some e, true, some s.sub, s.sub.sink⟩ rfl rfl ?_
    unfold Client.readBody
    dsimp only
    rw [hf]
    dsimp only
    rw [hcan]
  | done =>
    cases hb : resp.bodyErr with
    | some e =>
      refine key ⟨ms, some e, true, some s.sub, s.sub.sink⟩ ?_ rfl ?_
      · unfold StreamCall.conclude StreamCall.atEnd
        dsimp only
        rw [hb]
      · unfold Client.readBody
        dsimp only
        rw [hf]
        dsimp only
        rw [hcan, hb]
    | none =>
      by_cases ht : k.c.flavor = .sync ∧ k.cs.expiredAtEnd = true
      · refine key ⟨ms, some (.other .timeoutError []), false, some s.sub, s.sub.sink⟩ ?_ rfl ?_
        · unfold StreamCall.conclude StreamCall.atEnd
          dsimp only
          rw [hb]
          dsimp only
          rw [if_pos ht]
        · unfold Client.readBody
          dsimp only
          rw [hf]
          dsimp only
          rw [hcan, hb]
          dsimp only
          rw [if_pos ht]
      · refine key ⟨ms, (k.c.proto.complete k.sc s.sub ⟨resp.status, resp.headers, resp.trailers⟩ none).2, false,
          some (s.sub.withSink (k.c.proto.complete k.sc s.sub ⟨resp.status, resp.headers, resp.trailers⟩ none).1),
          (k.c.proto.complete k.sc s.sub ⟨resp.status, resp.headers, resp.trailers⟩ none).1⟩ ?_ rfl ?_
        · unfold StreamCall.conclude StreamCall.atEnd
          dsimp only
          rw [hb]
          dsimp only
          rw [if_neg ht]
        · unfold Client.readBody
          dsimp only
          rw [hf]
          dsimp only
          rw [hcan, hb]
          dsimp only
          rw [if_neg ht]

/-- the whole call, as an iteration to its end -/
theorem call_yields (k : StreamCall Req Res) (hc : k.cs.cancelAfter = none) (sink : Sink) :
    ∃ i, Yields k (k.next false (Iteration.start sink)) (k.c.bidi k.sc k.http sink k.cs k.ctx k.reqs k.srcErr).messages i
      (k.c.bidi k.sc k.http sink k.cs k.ctx k.reqs k.srcErr).exc ∧
      i.sink = (k.c.bidi k.sc k.http sink k.cs k.ctx k.reqs k.srcErr).sink ∧ i.phase = .over := by
  have hreq : k.c.bidi k.sc k.http sink k.cs k.ctx k.reqs k.srcErr = (match k.http k.request with
      | .error e =>
        match leaveWith k.c.flavor k.cs (some e) none with
        | none => ⟨sink, [], none⟩
        | some e => let q := k.c.mapStreamExc k.sc sink k.cs none none none e; ⟨q.1, [], some q.2⟩
      | .ok resp => k.settled resp (k.c.inside k.sc sink resp k.cs)) := by
    unfold Client.bidi StreamCall.settled
    rfl
  rw [hreq]
  unfold StreamCall.next Iteration.start
  dsimp only
  cases hh : k.http k.request with
  | error e =>
    dsimp only
    cases leaveWith k.c.flavor k.cs (some e) none with
    | none => exact ⟨_, .stop _, rfl, rfl⟩
    | some e => exact ⟨_, .raised _ _, rfl, rfl⟩
  | ok resp =>
    dsimp only
    unfold StreamCall.begin Client.inside
    dsimp only
    by_cases hs : resp.status = 200
    · rw [if_pos hs, if_pos hs]
      cases k.c.proto.validateStream k.c.codec.name (resp.headers.getD (pys! "content-type") []) with
      | some e => exact fail_yields ..
      | none =>
        dsimp only
        cases k.c.proto.responseCompression resp.headers k.c.comps true with
        | error e => exact fail_yields ..
        | ok comp => exact body_yields k hc _ resp comp _
    · rw [if_neg hs, if_neg hs]
      cases resp.bodyErr with
      | some e => exact fail_yields ..
      | none =>
        dsimp only
        cases ConnectErr.fromResponse resp.status resp.chunks.flatten with
        | error e => exact fail_yields ..
        | ok e => exact fail_yields ..

theorem tidy_chunks {r : HttpRequest} {log : List Effect} (h : Tidy r true log) (cs : List Bytes) : Tidy r true (log ++ cs.map .chunk) := by
  cases h with
  | held ds => rw [List.append_assoc, ← List.map_append]; exact .held _

theorem tidy_release {r : HttpRequest} {log : List Effect} (h : Tidy r true log) : Tidy r false (log ++ [.released]) := by
  cases h with
  | held ds => exact .released _

/-- the generator and what it has done -/
def Sound (k : StreamCall Req Res) (i : Iteration) : Prop :=
  match i.phase with
  | .fresh => i.log = []
  | .paused resp _ _ _ => Tidy k.request true i.log ∧ k.http k.request = .ok resp
  | .over => Tidy k.request false i.log

/-- what a `next` leaves: it gave a message and holds the response, or it is over -/
def Left' (k : StreamCall Req Res) (p : Iteration × Got Res) : Prop :=
  (∃ m resp comp s rest, p.2 = .message m ∧ p.1.phase = .paused resp comp s rest ∧ Tidy k.request true p.1.log ∧ k.http k.request = .ok resp) ∨
  ((∀ m, p.2 ≠ .message m) ∧ p.1.phase = .over ∧ Tidy k.request false p.1.log)

theorem leave_left (k : StreamCall Req Res) (resp : StreamResponse) (sink : Sink) (log : List Effect) (reader : Option ClientSub) (fromFeed : Bool)
    (e : Option Exc) (h : Tidy k.request true log) : Left' k (k.leave resp sink log reader fromFeed e) := by
  obtain ⟨h1, h2, h3⟩ := leave_over k resp sink log reader fromFeed e
  exact .inr ⟨h3, h1, by rw [h2]; exact tidy_release h⟩

theorem chunks_left (k : StreamCall Req Res) (resp : StreamResponse) (hresp : k.http k.request = .ok resp) (comp : Compression) : ∀ (rest : List Bytes) (s : ReaderState ClientSub) (log : List Effect),
    Tidy k.request true log → Left' k (k.chunks resp comp s rest log)
  | [], s, log, h => by
    rw [StreamCall.chunks]
    obtain ⟨h1, h2, h3⟩ := atEnd_over k resp log s.sub
    exact .inr ⟨h3, h1, by rw [h2]; exact tidy_release h⟩
  | b :: rest, s, log, h => by
    have h' : Tidy k.request true (log ++ [.chunk b]) := tidy_chunks h [b]
    rw [StreamCall.chunks]
    cases readNext (k.c.reader comp) { s with buffer := s.buffer ++ b } with
    | message m s' => exact .inl ⟨m, resp, comp, s', rest, rfl, rfl, h', hresp⟩
    | raised e s' => exact leave_left _ _ _ _ _ _ _ h'
    | more s' => exact chunks_left k resp hresp comp rest s' _ h'

theorem next_left (k : StreamCall Req Res) (b : Bool) (i : Iteration) (h : Sound k i) : Left' k (k.next b i) := by
  unfold Sound at h
  unfold StreamCall.next
  cases hp : i.phase with
  | over =>
    rw [hp] at h
    exact .inr ⟨nofun, hp, h⟩
  | paused resp comp s rest =>
    rw [hp] at h
    dsimp only at h ⊢
    split
    · exact leave_left _ _ _ _ _ _ _ h.1
    · unfold StreamCall.resume
      cases readNext (k.c.reader comp) s with
      | message m s' => exact .inl ⟨m, resp, comp, s', rest, rfl, rfl, h⟩
      | raised e s' => exact leave_left _ _ _ _ _ _ _ h.1
      | more s' => exact chunks_left k resp h.2 comp rest s' _ h.1
  | fresh =>
    rw [hp] at h
    dsimp only at h ⊢
    rw [h]
    cases hresp : k.http k.request with
    | error e =>
      dsimp only
      cases leaveWith k.c.flavor k.cs (some e) none with
      | none => exact .inr ⟨nofun, rfl, .refused⟩
      | some e => exact .inr ⟨nofun, rfl, .refused⟩
    | ok resp =>
      dsimp only
      have h0 : Tidy k.request true (([] ++ [.sent k.request] : List Effect) ++ [.opened]) := .held []
      unfold StreamCall.begin
      dsimp only
      split
      · cases k.c.proto.validateStream k.c.codec.name (resp.headers.getD (pys! "content-type") []) with
        | some e => exact leave_left _ _ _ _ _ _ _ h0
        | none =>
          dsimp only
          cases k.c.proto.responseCompression resp.headers k.c.comps true with
          | error e => exact leave_left _ _ _ _ _ _ _ h0
          | ok comp => exact chunks_left k resp hresp comp _ _ _ h0
      · have h1 := tidy_chunks h0 resp.chunks
        cases resp.bodyErr with
        | some e => exact leave_left _ _ _ _ _ _ _ h1
        | none =>
          dsimp only
          cases ConnectErr.fromResponse resp.status resp.chunks.flatten with
          | error e => exact leave_left _ _ _ _ _ _ _ h1
          | ok e => exact leave_left _ _ _ _ _ _ _ h1

theorem close_over (k : StreamCall Req Res) (i : Iteration) (h : Sound k i) : (k.close i).1.phase = .over ∧ Tidy k.request false (k.close i).1.log := by
  unfold Sound at h
  unfold StreamCall.close
  cases hp : i.phase with
  | over => rw [hp] at h; exact ⟨hp, h⟩
  | fresh => rw [hp] at h; exact ⟨rfl, by dsimp only at h ⊢; rw [h]; exact .nothing⟩
  | paused resp comp s rest =>
    rw [hp] at h
    dsimp only at h ⊢
    cases he : resp.exitErr with
    | none => exact ⟨rfl, tidy_release h.1⟩
    | some e =>
      dsimp only
      obtain ⟨g1, g2, g3⟩ := leave_over k resp s.sub.sink i.log (some s.sub) false none
      rcases hl : k.leave resp s.sub.sink i.log (some s.sub) false none with ⟨j, g⟩
      rw [hl] at g1 g2 g3
      dsimp only at g1 g2 g3
      cases g with
      | message m => exact absurd rfl (g3 m)
      | stop => exact ⟨g1, by dsimp only; rw [g2]; exact tidy_release h.1⟩
      | raised e => exact ⟨g1, by dsimp only; rw [g2]; exact tidy_release h.1⟩

theorem sound_use (k : StreamCall Req Res) (u : Use) (i : Iteration) (h : Sound k i) : Sound k (k.use u i) := by
  cases u with
  | next b =>
    rcases next_left k b i h with ⟨m, resp, comp, s, rest, _, h2, h3⟩ | ⟨_, h2, h3⟩
    · have h2 : (k.use (.next b) i).phase = _ := h2
      unfold Sound; rw [h2]; exact h3
    · have h2 : (k.use (.next b) i).phase = _ := h2
      unfold Sound; rw [h2]; exact h3
  | close =>
    obtain ⟨h2, h3⟩ := close_over k i h
    have h2 : (k.use .close i).phase = _ := h2
    unfold Sound; rw [h2]; exact h3

theorem sound_after (k : StreamCall Req Res) : ∀ (us : List Use) (i : Iteration), Sound k i → Sound k (after k i us)
  | [], _, h => h
  | u :: us, i, h => sound_after k us (k.use u i) (sound_use k u i h)

theorem sound_start (k : StreamCall Req Res) (sink : Sink) : Sound k (Iteration.start sink) := rfl

end

/-! ### a message is delivered when it is there -/

section
variable {M σ : Type}
open Props

theorem readNext_frame (c : ReaderCfg M σ) (f : Frame) (hf : f.Ok) (hd : TreatsAsData c f.flags) {m : M} (hm : (policyOf c).message f = .ok m)
    (s : ReaderState σ) (hs : Consistent s) {tail : Bytes} (hb : s.buffer = f.bytes ++ tail) :
    ∃ sub, readNext c s = .message m ⟨tail, none, sub⟩ := by
  have hbytes : f.bytes ++ tail = f.flags :: UInt8.ofNat (f.payload.length / 16777216 % 256) ::
      UInt8.ofNat (f.payload.length / 65536 % 256) :: UInt8.ofNat (f.payload.length / 256 % 256) ::
      UInt8.ofNat (f.payload.length % 256) :: (f.payload ++ tail) := by
    rw [frame_bytes_eq]; simp [be32Encode]
  have hone : readNext c s = readOne c s f.flags f.payload.length := by
    rcases s with ⟨b, nx, sub⟩
    dsimp only at hb
    subst hb
    rw [hbytes] at hs ⊢
    cases nx with
    | some n =>
      obtain ⟨p, b1, b2, b3, b4, t, h1, h2⟩ := hs n rfl
      cases h1
      rw [be32_roundtrip _ hf] at h2
      subst h2
      rfl
    | none =>
      unfold readNext
      dsimp only
      rw [be32_roundtrip _ hf]
  rw [hone]
  unfold readOne
  have hlen : ¬ s.buffer.length < f.payload.length + 5 := by
    rw [hb, List.length_append, frame_bytes_length]; omega
  have h1 : (s.buffer.drop 5).take f.payload.length = f.payload := by
    rw [hb, hbytes]; simp
  have h2 : s.buffer.drop (5 + f.payload.length) = tail := by
    rw [hb, ← frame_bytes_length, List.drop_left]
  rw [if_neg hlen, h1, h2, payload_eq]
  unfold Policy.message at hm
  cases hi : (policyOf c).inflate f with
  | error e => rw [hi] at hm; cases hm
  | ok d0 =>
    rw [hi] at hm
    dsimp only at hm ⊢
    cases hc : (policyOf c).checkSize d0 with
    | error e => rw [hc] at hm; cases hm
    | ok d =>
      rw [hc] at hm
      dsimp only at hm ⊢
      have hp := hd s.sub d
      rcases hh : c.handleEnd s.sub f.flags d with ⟨sub', r⟩
      rw [hh] at hp
      dsimp only at hp
      subst hp
      dsimp only
      rw [show c.codec.decode d = .ok m from hm]
      exact ⟨sub', rfl⟩

theorem readNext_incomplete (c : ReaderCfg M σ) (s : ReaderState σ) (hs : Consistent s) (hi : Incomplete s.buffer) :
    ∃ nx, readNext c s = .more ⟨s.buffer, nx, s.sub⟩ ∧ Consistent (⟨s.buffer, nx, s.sub⟩ : ReaderState σ) := by
  obtain ⟨nx, h1, h2⟩ := readMessages_incomplete c hi s.sub
  rw [← readMessages_consistent c ⟨s.buffer, s.next, s.sub⟩ hs, readMessages_step] at h1
  refine ⟨nx, ?_, h2⟩
  cases hr : readNext c s with
  | more s' => rw [hr] at h1; cases h1; rfl
  | raised e s' => rw [hr] at h1; cases h1
  | message m s' => rw [hr] at h1; cases h1

/-- less than an envelope -/
theorem incomplete_shorter {f : Frame} (hf : f.Ok) {b x y : Bytes} (h : b ++ x = f.bytes ++ y) (hl : b.length < f.bytes.length) : Incomplete b := by
  rintro g hg ⟨z, rfl⟩
  have := frame_prefix_unique hg hf (r := z ++ x) (s := y) (by rw [← List.append_assoc]; exact h)
  rw [this.1, List.length_append] at hl
  omega

end

section
variable {Req Res : Type}
open Props

theorem chunks_prompt (k : StreamCall Req Res) (resp : StreamResponse) (comp : Compression) {f : Frame} (hf : f.Ok)
    (hd : TreatsAsData (k.c.reader comp) f.flags) {m : Res} (hm : (policyOf (k.c.reader comp)).message f = .ok m) {tail : Bytes} :
    ∀ (rest : List Bytes) (s : ReaderState ClientSub) (log : List Effect), Consistent s → s.buffer ++ rest.flatten = f.bytes ++ tail →
      s.buffer.length < f.bytes.length →
      ∃ read rest' s', rest = read ++ rest' ∧
        k.chunks resp comp s rest log = (⟨.paused resp comp s' rest', s'.sub.sink, log ++ read.map .chunk⟩, .message m) ∧
        s'.next = none ∧ s'.buffer ++ rest'.flatten = tail ∧ f.bytes.length ≤ s.buffer.length + read.flatten.length ∧
        ∀ less, less <+: read → less ≠ read → s.buffer.length + less.flatten.length < f.bytes.length
  | [], s, log, hs, hb, hl => by
    rw [List.flatten_nil, List.append_nil] at hb
    rw [hb, List.length_append] at hl
    omega
  | b :: rest, s, log, hs, hb, hl => by
    rw [chunks_eq_resume]
    unfold StreamCall.resume
    have hs' : Consistent ({ s with buffer := s.buffer ++ b } : ReaderState ClientSub) := by
      intro n hn
      obtain ⟨p, b1, b2, b3, b4, t, h1, h2⟩ := hs n hn
      exact ⟨p, b1, b2, b3, b4, t ++ b, by show s.buffer ++ b = _; rw [h1]; rfl, h2⟩
    have hb' : (s.buffer ++ b) ++ rest.flatten = f.bytes ++ tail := by
      rw [← hb, List.flatten_cons, List.append_assoc]
    rcases Nat.lt_or_ge (s.buffer ++ b).length f.bytes.length with hlt | hge
    · obtain ⟨nx, h1, h2⟩ := readNext_incomplete (k.c.reader comp) { s with buffer := s.buffer ++ b } hs' (incomplete_shorter hf hb' hlt)
      rw [h1]
      dsimp only
      obtain ⟨read, rest', s', e1, e2, e3, e4, e5, e6⟩ := chunks_prompt k resp comp hf hd hm rest ⟨s.buffer ++ b, nx, s.sub⟩ (log ++ [.chunk b]) h2 hb' hlt
      refine ⟨b :: read, rest', s', by rw [e1]; rfl, ?_, e3, e4, ?_, ?_⟩
      · rw [e2, List.append_assoc]; rfl
      · dsimp only at e5
        rw [List.length_append] at e5
        rw [List.flatten_cons, List.length_append]
        omega
      · intro less hless hne
        cases less with
        | nil => exact hl
        | cons x less =>
          obtain ⟨rfl, h3⟩ := List.cons_prefix_cons.1 hless
          have := e6 less h3 (by intro h; exact hne (by rw [h]))
          dsimp only at this
          rw [List.length_append] at this
          rw [List.flatten_cons, List.length_append]
          omega
    · obtain ⟨t, ht⟩ : f.bytes <+: s.buffer ++ b := List.prefix_of_prefix_length_le ⟨tail, rfl⟩ ⟨rest.flatten, hb'⟩ hge
      obtain ⟨sub, h1⟩ := readNext_frame (k.c.reader comp) f hf hd hm { s with buffer := s.buffer ++ b } hs' ht.symm
      rw [h1]
      refine ⟨[b], rest, ⟨t, none, sub⟩, rfl, rfl, rfl, ?_, ?_, ?_⟩
      · rw [← ht, List.append_assoc] at hb'
        exact List.append_cancel_left hb'
      · rw [List.length_append] at hge
        simpa using hge
      · intro less hless hne
        cases less with
        | nil => exact hl
        | cons x less =>
          obtain ⟨rfl, h3⟩ := List.cons_prefix_cons.1 hless
          rw [List.prefix_nil] at h3
          exact absurd (by rw [h3]) hne

/-- the chunks read are the shortest beginning, again after the next message -/
theorem shortest_more {chunks done read rest : List Bytes} {n l b : Nat} (hc : chunks = done ++ (read ++ rest))
    (hd : ∀ less, less <+: done → less ≠ done → less.flatten.length < n) (hb : done.flatten.length = n + b) (hl : b < l) (he : l ≤ b + read.flatten.length)
    (hr : ∀ less, less <+: read → less ≠ read → b + less.flatten.length < l) : Shortest chunks (done ++ read) (n + l) where
  start := ⟨rest, by rw [hc, List.append_assoc]⟩
  enough := by rw [List.flatten_append, List.length_append]; omega
  needed less h1 h2 := by
    rcases Nat.lt_or_ge less.length done.length with hlt | hge
    · have h3 : less <+: done := List.prefix_of_prefix_length_le h1 (List.prefix_append _ _) (by omega)
      have := hd less h3 (by intro h; rw [h] at hlt; omega)
      omega
    · obtain ⟨x, rfl⟩ : done <+: less := List.prefix_of_prefix_length_le (List.prefix_append _ _) h1 hge
      have h3 : x <+: read := (List.prefix_append_right_inj done).1 h1
      have := hr x h3 (by intro h; exact h2 (by rw [h]))
      rw [List.flatten_append, List.length_append]
      omega

theorem resume_takes (k : StreamCall Req Res) (resp : StreamResponse) (comp : Compression) (log0 : List Effect) :
    ∀ (fs : List Frame) (ms : List Res) (done rest : List Bytes) (s : ReaderState ClientSub) (n : Nat) (tail : Bytes),
      (∀ f ∈ fs, f.Ok) → (∀ f ∈ fs, TreatsAsData (k.c.reader comp) f.flags) →
      fs.map (policyOf (k.c.reader comp)).message = ms.map .ok →
      resp.chunks = done ++ rest → s.next = none → s.buffer ++ rest.flatten = fs.flatMap Frame.bytes ++ tail →
      done.flatten.length = n + s.buffer.length → (∀ less, less <+: done → less ≠ done → less.flatten.length < n) →
      ∃ i read, Takes k ⟨.paused resp comp s rest, s.sub.sink, log0 ++ done.map .chunk⟩ ms i ∧ i.log = log0 ++ read.map .chunk ∧
        Shortest resp.chunks read (n + (fs.flatMap Frame.bytes).length)
  | [], ms, done, rest, s, n, tail, _, _, hm, hc, _, _, hb, hd => by
    cases ms with
    | cons m ms => cases hm
    | nil =>
      refine ⟨_, done, .none _, rfl, ⟨⟨rest, hc.symm⟩, ?_, ?_⟩⟩
      · rw [List.flatMap_nil, List.length_nil]; omega
      · intro less h1 h2
        have := hd less h1 h2
        rw [List.flatMap_nil, List.length_nil]; omega
  | f :: fs, ms, done, rest, s, n, tail, hok, hdata, hm, hc, hn, hbuf, hb, hd => by
    cases ms with
    | nil => cases hm
    | cons m ms =>
      rw [List.map_cons, List.map_cons, List.cons.injEq] at hm
      have hf := hok f List.mem_cons_self
      have hs : Consistent s := by intro x hx; rw [hn] at hx; cases hx
      rw [List.flatMap_cons, List.append_assoc] at hbuf
      have hlen : n + (List.flatMap Frame.bytes (f :: fs)).length = (n + f.bytes.length) + (fs.flatMap Frame.bytes).length := by
        rw [List.flatMap_cons, List.length_append]; omega
      rw [hlen]
      rcases Nat.lt_or_ge s.buffer.length f.bytes.length with hlt | hge
      · -- more is needed
        obtain ⟨nx, h1, h2⟩ := readNext_incomplete (k.c.reader comp) s hs (incomplete_shorter hf hbuf hlt)
        obtain ⟨read, rest', s', e1, e2, e3, e4, e5, e6⟩ := chunks_prompt k resp comp hf (hdata f List.mem_cons_self) hm.1 rest ⟨s.buffer, nx, s.sub⟩
          (log0 ++ done.map .chunk) h2 hbuf hlt
        have hsh := shortest_more (chunks := resp.chunks) (by rw [hc, e1]) hd hb hlt e5 e6
        obtain ⟨i, read', g1, g2, g3⟩ := resume_takes k resp comp log0 fs ms (done ++ read) rest' s' (n + f.bytes.length) tail
          (fun g hg => hok g (List.mem_cons_of_mem _ hg)) (fun g hg => hdata g (List.mem_cons_of_mem _ hg)) hm.2
          (by rw [hc, e1, List.append_assoc]) e3 e4
          (by
            have h3 := congrArg List.length e4
            have h4 := congrArg List.length hbuf
            rw [e1, List.flatten_append] at h4
            simp only [List.length_append] at h3 h4
            rw [List.flatten_append, List.length_append]
            omega) hsh.needed
        refine ⟨i, read', .one (i' := ⟨.paused resp comp s' rest', s'.sub.sink, log0 ++ (done ++ read).map .chunk⟩) ?_ g1, g2, g3⟩
        rw [next_paused]
        unfold StreamCall.resume
        rw [h1]
        dsimp only
        rw [e2, List.map_append, List.append_assoc]
      · -- it is there already
        obtain ⟨t, ht⟩ : f.bytes <+: s.buffer := List.prefix_of_prefix_length_le ⟨_, rfl⟩ ⟨rest.flatten, hbuf⟩ hge
        obtain ⟨sub, h1⟩ := readNext_frame (k.c.reader comp) f hf (hdata f List.mem_cons_self) hm.1 s hs ht.symm
        obtain ⟨i, read', g1, g2, g3⟩ := resume_takes k resp comp log0 fs ms done rest ⟨t, none, sub⟩ (n + f.bytes.length) tail
          (fun g hg => hok g (List.mem_cons_of_mem _ hg)) (fun g hg => hdata g (List.mem_cons_of_mem _ hg)) hm.2 hc rfl
          (by rw [← ht, List.append_assoc] at hbuf; exact List.append_cancel_left hbuf)
          (by show _ = n + f.bytes.length + t.length; rw [hb, ← ht, List.length_append]; omega)
          (by intro less h2 h3; have := hd less h2 h3; omega)
        refine ⟨i, read', .one (i' := ⟨.paused resp comp ⟨t, none, sub⟩ rest, sub.sink, log0 ++ done.map .chunk⟩) ?_ g1, g2, g3⟩
        rw [next_paused]
        unfold StreamCall.resume
        rw [h1]

end
end Conn
