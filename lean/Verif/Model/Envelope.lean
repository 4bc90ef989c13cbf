import Verif.Model.Base
/-
Model of `src/connectrpc/_envelope.py`.
-/
namespace Conn
open Py

/-- `int.from_bytes(buf[1:5], "big")` for a buffer of at least 5 bytes — `_envelope.py:84`. -/
def be32Decode (b1 b2 b3 b4 : UInt8) : Nat :=
  ((b1.toNat * 256 + b2.toNat) * 256 + b3.toNat) * 256 + b4.toNat

/-- the 4 bytes of `struct.pack(">I", n)` for `n < 2^32` — `_envelope.py:116`. -/
def be32Encode (n : Nat) : Bytes :=
  [UInt8.ofNat (n / 16777216 % 256), UInt8.ofNat (n / 65536 % 256), UInt8.ofNat (n / 256 % 256), UInt8.ofNat (n % 256)]

/-- `struct.pack(">BI", prefix, len(data)) + data` — `_envelope.py:116`, `_protocol_connect.py:175`,
`_protocol_grpc.py:192`; `struct.error` when the length does not fit in 32 bits. -/
def packEnvelope (pre : UInt8) (data : Bytes) : Except Exc Bytes :=
  if data.length < 4294967296 then .ok (pre :: be32Encode data.length ++ data)
  else .error (.other .structError (pys! "'I' format requires 0 <= number <= 4294967295"))

/-- `_envelope.py:102-108` — `EnvelopeWriter` (`compression: Compression | None`). -/
structure EnvelopeWriter (M : Type) where
  codec : Codec M
  compression : Option Compression

namespace EnvelopeWriter
variable {M : Type}

/-- `_envelope.py:106-108` `_prefix`. -/
def pre (w : EnvelopeWriter M) : UInt8 :=
  match w.compression with
  | none => 0
  | some c => if c.isIdentity then 0 else 1

/-- `if self._compression: data = self._compression.compress(data)` — `_envelope.py:112-113`. -/
def compress (w : EnvelopeWriter M) (data : Bytes) : Bytes :=
  match w.compression with
  | none => data
  | some c => c.compress data

/-- `_envelope.py:110-116` `write`. -/
def write (w : EnvelopeWriter M) (m : M) : Except Exc Bytes :=
  match w.codec.encode m with
  | .error e => .error e
  | .ok data => packEnvelope w.pre (w.compress data)

end EnvelopeWriter

/-- The overridable hook `handle_end_message` (`_envelope.py:86-92` and overrides): new subclass state, and
"handled" or an exception.  `σ` is the state of the subclass. -/
abbrev EndHook (σ : Type) := σ → UInt8 → Bytes → σ × Except Exc Bool

/-- `_envelope.py:24-40` — the immutable part of an `EnvelopeReader`. -/
structure ReaderCfg (M σ : Type) where
  codec : Codec M
  compression : Compression
  readMax : Option Int
  handleEnd : EndHook σ

/-- `_envelope.py:24-40` — the mutable part. -/
structure ReaderState (σ : Type) where
  buffer : Bytes
  next : Option Nat
  sub : σ
deriving DecidableEq

/-- `EnvelopeReader.__init__`. -/
def ReaderState.init {σ : Type} (s : σ) : ReaderState σ := ⟨[], none, s⟩

/-- How an iteration over `feed(...)` ends: the generator returned, or it raised. -/
inductive Stop where
  | done
  | raised (e : Exc)
deriving DecidableEq

/-- message "message is larger than configured max N" — `_envelope.py:70-73`. -/
def tooLarge (n : Int) : Exc :=
  .mk .resourceExhausted (pys! "message is larger than configured max " ++ intStr n)

/-- `_envelope.py:60-63`. -/
def compressedWithoutSupport : Exc :=
  .mk .internal (pys! "protocol error: sent compressed message without compression support")

/-- `_envelope.py:58-73` — decompression and size check of one message. -/
def ReaderCfg.payload {M σ : Type} (c : ReaderCfg M σ) (pre : UInt8) (data : Bytes) : Except Exc Bytes :=
  let data' :=
    if pre &&& 1 != 0 then
      if c.compression.isIdentity then .error compressedWithoutSupport
      else c.compression.decompress data
    else .ok data
  match data' with
  | .error e => .error e
  | .ok d =>
    match c.readMax with
    | some n => if (d.length : Int) > n then .error (tooLarge n) else .ok d
    | none => .ok d

/-- `_envelope.py:46-84` `_read_messages`: the messages yielded, how the generator ended, the reader afterwards.
The generator is run to its end; the code's consumers stop early only when they are themselves abandoned. -/
def readMessages {M σ : Type} (c : ReaderCfg M σ) (s : ReaderState σ) : List M × Stop × ReaderState σ :=
  match _hb : s.buffer with
  | [] => ([], .done, s)
  | pre :: _ =>
    match _hn : s.next with
    | none =>
      match s.buffer with
      | _ :: b1 :: b2 :: b3 :: b4 :: _ =>
        -- line 84, then back to the top of the loop
        readMessages c { s with next := some (be32Decode b1 b2 b3 b4) }
      | _ => ([], .done, s)                                        -- line 81-82
    | some n =>
      if s.buffer.length < n + 5 then ([], .done, s)                -- line 49-50
      else
        let data := (s.buffer.drop 5).take n
        let rest := s.buffer.drop (5 + n)
        let s1 : ReaderState σ := { s with buffer := rest, next := none }
        match c.payload pre data with
        | .error e => ([], .raised e, s1)
        | .ok d =>
          match c.handleEnd s1.sub pre d with
          | (sub, .error e) => ([], .raised e, { s1 with sub })
          | (sub, .ok true) => ([], .done, { s1 with sub })
          | (sub, .ok false) =>
            match c.codec.decode d with
            | .error e => ([], .raised e, { s1 with sub })
            | .ok m =>
              -- after the `yield`: lines 81-84, then the loop test
              match rest with
              | _ :: b1 :: b2 :: b3 :: b4 :: _ =>
                let r := readMessages c { s1 with sub, next := some (be32Decode b1 b2 b3 b4) }
                (m :: r.1, r.2)
              | _ => ([m], .done, { s1 with sub })
termination_by 2 * s.buffer.length + (if s.next.isNone then 1 else 0)
decreasing_by
  · simp [_hn]
  · have : 0 < s.buffer.length := by simp [_hb]
    have : (s.buffer.drop (5 + n)).length ≤ s.buffer.length - 5 := by simp; omega
    simp
    omega

/-- `_envelope.py:42-44` `feed`, iterated to the end. -/
def feed {M σ : Type} (c : ReaderCfg M σ) (s : ReaderState σ) (data : Bytes) : List M × Stop × ReaderState σ :=
  readMessages c { s with buffer := s.buffer ++ data }

/-- Feeding chunk after chunk, as the loops `for chunk in …: yield from reader.feed(chunk)` do
(`_server_sync.py:568-577`, `_server_async.py:561-577`, `_client_sync.py`, `_client_async.py` bidi streams): stops at the
first exception. -/
def feedAll {M σ : Type} (c : ReaderCfg M σ) : ReaderState σ → List Bytes → List M × Stop × ReaderState σ
  | s, [] => ([], .done, s)
  | s, ch :: chs =>
    match feed c s ch with
    | (ms, .raised e, s') => (ms, .raised e, s')
    | (ms, .done, s') =>
      let r := feedAll c s' chs
      (ms ++ r.1, r.2)

/-- The base class hook (`_envelope.py:86-92`): no end message. Used by servers. -/
def noEndHook : EndHook Unit := fun s _ _ => (s, .ok false)

end Conn
