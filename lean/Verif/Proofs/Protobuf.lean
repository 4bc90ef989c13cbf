import Verif.Py.Protobuf
import Verif.Proofs.Utf8
/-
The wire format of `google.rpc.Status` meets the laws assumed of protobuf.
-/
namespace Conn
open Py

theorem readVarint_varint (k n : Nat) (h : n < 128 ^ (k + 1)) (r : Bytes) :
    readVarint (k + 1) (varint n ++ r) = some (n, r) := by
  induction k generalizing n with
  | zero =>
    have h' : n < 128 := by simpa using h
    rw [varint, if_pos h']
    have : (UInt8.ofNat n).toNat = n := by simp; omega
    simp only [List.cons_append, List.nil_append, readVarint, this, if_pos h']
  | succ k ih =>
    rw [varint]
    by_cases h' : n < 128
    · rw [if_pos h']
      have : (UInt8.ofNat n).toNat = n := by simp; omega
      simp only [List.cons_append, List.nil_append, readVarint, this, if_pos h']
    · rw [if_neg h']
      have h1 : (UInt8.ofNat (n % 128 + 128)).toNat = n % 128 + 128 := by simp; omega
      have h2 : n / 128 < 128 ^ (k + 1) := by
        rw [Nat.div_lt_iff_lt_mul (by decide)]; rw [← Nat.pow_succ]; exact h
      rw [List.cons_append, readVarint, h1, if_neg (by omega), ih _ h2]
      dsimp only
      congr 2
      omega

theorem readVarint_ten (n : Nat) (h : n < 2 ^ 64) (r : Bytes) : readVarint 10 (varint n ++ r) = some (n, r) :=
  readVarint_varint 9 n (by omega) r

theorem readVarint_tag (t : UInt8) (h : t.toNat < 128) (r : Bytes) : readVarint 10 (t :: r) = some (t.toNat, r) := by
  rw [readVarint, if_pos h]

/-- a length-delimited field is read back -/
theorem readField_len (t : UInt8) (h : t.toNat < 128) (h2 : t.toNat % 8 = 2) (b r : Bytes) (hb : b.length < 2 ^ 64) :
    readField (lenField t b ++ r) = some ((t.toNat / 8, .len b), r) := by
  unfold readField lenField
  rw [List.cons_append, List.cons_append, readVarint_tag t h]
  dsimp only
  rw [if_neg (by omega), if_neg (by omega), if_pos h2, List.append_assoc, readVarint_ten _ hb]
  dsimp only
  rw [if_neg (by simp), List.take_left, List.drop_left]

theorem readField_varint (n : Nat) (r : Bytes) (hn : n < 2 ^ 64) :
    readField (8 :: varint n ++ r) = some ((1, .varint n), r) := by
  unfold readField
  rw [List.cons_append, readVarint_tag 8 (by decide)]
  dsimp only
  rw [if_pos (by decide), readVarint_ten _ hn]
  rfl

/-- reading a field and then the rest; more fuel than needed is harmless -/
theorem readFields_cons {b r : Bytes} {f : Nat × WireVal} (h : readField (b ++ r) = some (f, r)) (hb : b ≠ [])
    {fs : List (Nat × WireVal)} (hr : ∀ fuel, r.length ≤ fuel → readFields fuel r = some fs) :
    ∀ fuel, (b ++ r).length ≤ fuel → readFields fuel (b ++ r) = some (f :: fs) := by
  intro fuel hf
  cases b with
  | nil => exact absurd rfl hb
  | cons x b =>
    cases fuel with
    | zero => simp at hf
    | succ fuel =>
      rw [List.cons_append] at h hf ⊢
      rw [readFields, h]
      dsimp only
      rw [hr fuel (by simp at hf; omega)]
      rfl

theorem readFields_nil : ∀ fuel, ([] : Bytes).length ≤ fuel → readFields fuel [] = some [] := by
  intro fuel _; cases fuel <;> rfl

theorem lenField_ne (t : UInt8) (b : Bytes) : lenField t b ≠ [] := by simp [lenField]

theorem varint_length (k n : Nat) (h : n < 128 ^ (k + 1)) : (varint n).length ≤ k + 1 := by
  induction k generalizing n with
  | zero => rw [varint, if_pos (by simpa using h)]; simp
  | succ k ih =>
    rw [varint]
    by_cases h' : n < 128
    · rw [if_pos h']; simp
    · rw [if_neg h']
      have h2 : n / 128 < 128 ^ (k + 1) := by
        rw [Nat.div_lt_iff_lt_mul (by decide)]; rw [← Nat.pow_succ]; exact h
      have := ih _ h2
      simp only [List.length_cons]; omega

theorem lenField_length (t : UInt8) (b : Bytes) (h : b.length < 2 ^ 31) : (lenField t b).length ≤ b.length + 6 := by
  have := varint_length 4 b.length (by omega)
  simp only [lenField, List.cons_append, List.length_cons, List.length_append]
  omega

theorem encodeAny_length (p : Str × Bytes) (h1 : (utf8Encode p.1).length < 2 ^ 31) (h2 : p.2.length < 2 ^ 31) :
    (encodeAny p).length < 2 ^ 64 := by
  have a := lenField_length 10 _ h1
  have b := lenField_length 18 _ h2
  unfold encodeAny
  rw [List.length_append]
  split <;> split <;> (try simp only [List.length_nil]) <;> omega

theorem decodeAny_encode (p : Str × Bytes) (h1 : (utf8Encode p.1).length < 2 ^ 31) (h2 : p.2.length < 2 ^ 31) :
    decodeAny (encodeAny p) = some p := by
  obtain ⟨u, v⟩ := p
  dsimp only at h1 h2
  have hv : ∀ fuel, (if v = [] then [] else lenField 18 v).length ≤ fuel →
      readFields fuel (if v = [] then [] else lenField 18 v) = some (if v = [] then [] else [(2, WireVal.len v)]) := by
    by_cases e : v = []
    · rw [if_pos e, if_pos e]; exact readFields_nil
    · rw [if_neg e, if_neg e]
      have := readFields_cons (readField_len 18 (by decide) (by decide) v [] (by omega)) (lenField_ne _ _) readFields_nil
      rwa [List.append_nil] at this
  have hall : readFields (encodeAny (u, v)).length (encodeAny (u, v)) =
      some ((if u = [] then [] else [(1, .len (utf8Encode u))]) ++ (if v = [] then [] else [(2, .len v)])) := by
    unfold encodeAny
    dsimp only
    by_cases e : u = []
    · rw [if_pos e, if_pos e]
      exact hv _ (Nat.le_refl _)
    · rw [if_neg e, if_neg e]
      exact readFields_cons (readField_len 10 (by decide) (by decide) _ _ (by omega)) (lenField_ne _ _) hv _ (Nat.le_refl _)
  unfold decodeAny
  rw [hall]
  dsimp only
  by_cases e : u = [] <;> by_cases e' : v = [] <;>
    simp [e, e', anyField, utf8Decode_encode]

theorem toInt32_code (c : Int) (h : -2 ^ 31 ≤ c ∧ c < 2 ^ 31) : toInt32 (c % 2 ^ 64).toNat = c := by
  unfold toInt32
  dsimp only
  split <;> omega

theorem foldl_details (ds : List (Str × Bytes)) (h : ∀ d ∈ ds, (utf8Encode d.1).length + d.2.length + 20 < 2 ^ 31)
    (s : Status) :
    (ds.map fun d => (3, WireVal.len (encodeAny d))).foldl statusField (some s) =
      some { s with details := s.details ++ ds } := by
  induction ds generalizing s with
  | nil => simp
  | cons d ds ih =>
    have hd := h d (by simp)
    rw [List.map_cons, List.foldl_cons]
    have : statusField (some s) (3, WireVal.len (encodeAny d)) = some { s with details := s.details ++ [d] } := by
      show (decodeAny (encodeAny d)).map _ = _
      rw [decodeAny_encode d (by omega) (by omega)]; rfl
    rw [this, ih (fun x hx => h x (by simp [hx]))]
    simp

theorem decodeStatus_encode (s : Status) (h : s.Ok) : decodeStatus (encodeStatus s) = .ok s := by
  obtain ⟨c, m, ds⟩ := s
  have hdet : ∀ fuel, (ds.flatMap fun d => lenField 26 (encodeAny d)).length ≤ fuel →
      readFields fuel (ds.flatMap fun d => lenField 26 (encodeAny d)) =
        some (ds.map fun d => (3, WireVal.len (encodeAny d))) := by
    have hd := h.details
    dsimp only at hd
    clear h
    induction ds with
    | nil => exact readFields_nil
    | cons d ds ih =>
      have h1 := hd d (by simp)
      rw [List.flatMap_cons, List.map_cons]
      exact readFields_cons (readField_len 26 (by decide) (by decide) _ _ (encodeAny_length d (by omega) (by omega)))
        (lenField_ne _ _) (ih (fun x hx => hd x (by simp [hx])))
  have hm := h.message
  dsimp only at hm
  have hmsg : ∀ fuel, ((if m = [] then [] else lenField 18 (utf8Encode m)) ++
        ds.flatMap fun d => lenField 26 (encodeAny d)).length ≤ fuel →
      readFields fuel ((if m = [] then [] else lenField 18 (utf8Encode m)) ++ ds.flatMap fun d => lenField 26 (encodeAny d)) =
        some ((if m = [] then [] else [(2, WireVal.len (utf8Encode m))]) ++ ds.map fun d => (3, WireVal.len (encodeAny d))) := by
    by_cases e : m = []
    · rw [if_pos e, if_pos e]; exact hdet
    · rw [if_neg e, if_neg e]
      exact readFields_cons (readField_len 18 (by decide) (by decide) _ _ (by omega)) (lenField_ne _ _) hdet
  have hall : readFields (encodeStatus ⟨c, m, ds⟩).length (encodeStatus ⟨c, m, ds⟩) =
      some ((if c = 0 then [] else [(1, WireVal.varint (c % 2 ^ 64).toNat)]) ++
        ((if m = [] then [] else [(2, WireVal.len (utf8Encode m))]) ++ ds.map fun d => (3, WireVal.len (encodeAny d)))) := by
    unfold encodeStatus
    dsimp only
    rw [List.append_assoc]
    by_cases e : c = 0
    · rw [if_pos e, if_pos e]; exact hmsg _ (Nat.le_refl _)
    · rw [if_neg e, if_neg e]
      exact readFields_cons (readField_varint _ _ (by omega)) (by simp) hmsg _ (Nat.le_refl _)
  unfold decodeStatus
  rw [hall]
  dsimp only
  rw [List.foldl_append, List.foldl_append]
  have s1 : (if c = 0 then [] else [(1, WireVal.varint (c % 2 ^ 64).toNat)]).foldl statusField (some ⟨0, [], []⟩) =
      some ⟨c, [], []⟩ := by
    by_cases e : c = 0
    · simp [e]
    · rw [if_neg e]
      show some (Status.mk (toInt32 _) _ _) = _
      rw [toInt32_code c h.code]
  have s2 : (if m = [] then [] else [(2, WireVal.len (utf8Encode m))]).foldl statusField (some ⟨c, [], []⟩) =
      some ⟨c, m, []⟩ := by
    by_cases e : m = []
    · simp [e]
    · rw [if_neg e]
      show (utf8Decode (utf8Encode m)).map _ = _
      rw [utf8Decode_encode]; rfl
  rw [s1, s2, foldl_details ds h.details]
  simp

theorem protobufStatus_lawful : protobufStatus.Lawful where
  roundtrip := decodeStatus_encode
  empty := rfl

end Conn
