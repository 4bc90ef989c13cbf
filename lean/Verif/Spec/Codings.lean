import Verif.Model.Codings
/-
Specification for C92: compressed messages that are not complete, or not alone.
-/
namespace Spec
open Conn Py

/-- The library does what it is documented to do: what it has written is found, whatever follows it; of a frame that has been cut it finds a beginning of the content; a frame has
at least one byte. -/
structure Sensible (f : Format) : Prop where
  whole : ∀ data rest, f.scan (f.write data ++ rest) = .frame data rest
  cut : ∀ data part, part <+: f.write data → part ≠ f.write data → ∃ known, f.scan part = .incomplete known ∧ known <+: data
  eats : ∀ payload content rest, f.scan payload = .frame content rest → rest.length < payload.length

/-- A payload that has lost its end. -/
def CutShort (c : Compression) (data part : List UInt8) : Prop := part <+: c.compress data ∧ part ≠ c.compress data

/-- A payload with something after it. -/
def Extended (c : Compression) (data longer : List UInt8) : Prop := ∃ more, more ≠ [] ∧ longer = c.compress data ++ more

/-- It cannot be decompressed; the exception is an ordinary one. -/
def Undecompressible (c : Compression) (payload : List UInt8) : Prop := ∃ cls msg, c.decompress payload = .error (.other cls msg)

/-- A sequence of frames with padding after any of them, and their contents. -/
inductive Members (f : Format) : List UInt8 → List UInt8 → Prop where
  | nil : Members f [] []
  | cons {payload content after more : List UInt8} (zeros : Nat) (h : f.scan payload = .frame content (List.replicate zeros 0 ++ after))
      (hz : after.head? ≠ some 0) (hp : payload ≠ []) (hm : Members f after more) : Members f payload (content ++ more)

end Spec
