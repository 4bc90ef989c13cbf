import Verif.Proofs.Url
import Verif.Proofs.Json
import Verif.Model.Base
/-
C22, C23: text and binary encodings used in headers and query strings.
-/
namespace Props
open Py

/-- letters, digits and `% _ . - ~` -/
def HeaderSafe (c : Char) : Prop :=
  c ∈ pys! "ABCDEFGHIJKLMNOPQRSTUVWXYZabcdefghijklmnopqrstuvwxyz0123456789%_.-~"

/-- **C22** Percent-encoding of any text uses only letters, digits and `%_.-~`, and is undone by decoding. -/
theorem C22_quote_safe_and_reversible (s : List Char) :
    (∀ c ∈ quote s, HeaderSafe c) ∧ unquote (quote s) = s := by
  refine ⟨fun c hc => ?_, unquote_quote s⟩
  have h := quote_chars s c hc
  rcases h with h | rfl
  · have hs := h
    simp only [alwaysSafe, Bool.or_eq_true, Bool.and_eq_true, decide_eq_true_eq, beq_iff_eq] at hs
    have hc' : c = Char.ofNat c.toNat := (Char.ofNat_toNat c).symm
    have key : ∀ n < 128, alwaysSafe n = true → HeaderSafe (Char.ofNat n) := by
      unfold HeaderSafe; decide +kernel
    rw [hc']
    exact key _ (alwaysSafe_lt h).1 h
  · unfold HeaderSafe; decide

/-- no character that could end a header line or separate name and value -/
theorem C22_no_line_breaks (s : List Char) :
    ∀ c ∈ quote s, c ≠ '\r' ∧ c ≠ '\n' ∧ c ≠ ':' ∧ c ≠ ' ' ∧ c ≠ '\t' := by
  intro c hc
  have h := (C22_quote_safe_and_reversible s).1 c hc
  unfold HeaderSafe at h
  refine ⟨?_, ?_, ?_, ?_, ?_⟩ <;> (rintro rfl; exact absurd h (by decide))

example : quote (pys! "a b\r\nx: 1é") = pys! "a%20b%0D%0Ax%3A%201%C3%A9" := by decide +kernel

/-- **C23** Base64 with the padding removed, decoded after appending `===`, gives back every byte string
(error details, gRPC status details). -/
theorem C23_unpadded_base64 (b : Bytes) : b64decode (rstripChar '=' (b64encode b) ++ pys! "===") = some b :=
  b64decode_unpadded b

/-- **C23** URL-safe base64, decoded after appending `===` (GET requests). -/
theorem C23_urlsafe_base64 (b : Bytes) : urlsafeB64decode (urlsafeB64encode b ++ pys! "===") = some b :=
  urlsafeB64decode_encode b

example : rstripChar '=' (b64encode [255, 254]) = pys! "//4" ∧ urlsafeB64encode [255, 254] = pys! "__4=" := by
  decide +kernel

end Props
