import Verif.Py.Url
import Verif.Proofs.Utf8
import Verif.Proofs.Dict
import Verif.Proofs.Base64
/-
Percent-encoding and query strings round trip.
-/
namespace Py

theorem hexDigit_toNat (n : Nat) (h : n < 16) : (hexDigit n).toNat = if n < 10 then 48 + n else 55 + n := by
  unfold hexDigit; split
  · exact ofNat_toNat' (by omega)
  · exact ofNat_toNat' (by omega)

theorem hexVal_hexDigit (n : Nat) (h : n < 16) : hexVal (hexDigit n).toNat = some n := by
  rw [hexDigit_toNat n h]
  unfold hexVal
  split
  · rw [if_pos (by omega)]; congr 1; omega
  · rw [if_neg (by omega), if_pos (by omega)]; congr 1; omega

/-- printable subset produced by `quote` -/
def QuoteChar (c : Char) : Prop := alwaysSafe c.toNat = true ∨ c = '%'

theorem alwaysSafe_lt {n : Nat} (h : alwaysSafe n = true) : n < 128 ∧ n ≠ 37 ∧ n ≠ 38 ∧ n ≠ 61 ∧ n ≠ 43 ∧ n ≠ 32 := by
  simp only [alwaysSafe, Bool.or_eq_true, Bool.and_eq_true, decide_eq_true_eq, beq_iff_eq] at h
  omega

theorem hexDigit_safe (n : Nat) (h : n < 16) : alwaysSafe (hexDigit n).toNat = true := by
  rw [hexDigit_toNat n h]
  simp only [alwaysSafe, Bool.or_eq_true, Bool.and_eq_true, decide_eq_true_eq, beq_iff_eq]
  split <;> omega

theorem quoteByte_chars (b : UInt8) : ∀ c ∈ quoteByte b, QuoteChar c := by
  have hb : b.toNat < 256 := b.toNat_lt
  unfold quoteByte
  split
  · intro c hc
    simp only [List.mem_singleton] at hc
    subst hc
    rename_i h
    left; rw [ofNat_toNat' (by omega)]; exact h
  · intro c hc
    simp only [List.mem_cons, List.not_mem_nil, or_false] at hc
    rcases hc with rfl | rfl | rfl
    · exact .inr rfl
    · exact .inl (hexDigit_safe _ (by omega))
    · exact .inl (hexDigit_safe _ (by omega))

theorem quote_chars (s : Str) : ∀ c ∈ quote s, QuoteChar c := by
  intro c hc
  simp only [quote, List.mem_flatMap] at hc
  obtain ⟨b, _, hb⟩ := hc
  exact quoteByte_chars b c hb

theorem quoteChar_ascii {c : Char} (h : QuoteChar c) : c.toNat < 128 := by
  rcases h with h | rfl
  · exact (alwaysSafe_lt h).1
  · decide

/-- the ASCII bytes of a string -/
def asBytes (s : Str) : Bytes := s.map fun c => UInt8.ofNat c.toNat

theorem unquoteToBytes_ne (b : UInt8) (h : b.toNat ≠ 37) (r : Bytes) :
    unquoteToBytes (b :: r) = b :: unquoteToBytes r := by
  match r with
  | [] => rfl
  | [b1] => rfl
  | b1 :: b2 :: r => rw [unquoteToBytes, if_neg h]

theorem unquoteToBytes_pct (x : Nat) (hx : x < 256) (r : Bytes) :
    unquoteToBytes (asBytes ['%', hexDigit (x / 16), hexDigit (x % 16)] ++ r) =
      UInt8.ofNat x :: unquoteToBytes r := by
  have e1 : (UInt8.ofNat (hexDigit (x / 16)).toNat).toNat = (hexDigit (x / 16)).toNat := by
    apply ofNat_byte
    have := alwaysSafe_lt (hexDigit_safe (x / 16) (by omega)); omega
  have e2 : (UInt8.ofNat (hexDigit (x % 16)).toNat).toNat = (hexDigit (x % 16)).toNat := by
    apply ofNat_byte
    have := alwaysSafe_lt (hexDigit_safe (x % 16) (by omega)); omega
  simp only [asBytes, List.map_cons, List.map_nil, List.cons_append, List.nil_append]
  rw [unquoteToBytes, if_pos (by decide), e1, e2, hexVal_hexDigit _ (by omega), hexVal_hexDigit _ (by omega)]
  dsimp only
  congr 2; omega

theorem unquoteToBytes_quoteByte (b : UInt8) (r : Bytes) :
    unquoteToBytes (asBytes (quoteByte b) ++ r) = b :: unquoteToBytes r := by
  have hb : b.toNat < 256 := b.toNat_lt
  unfold quoteByte
  split
  · rename_i h
    have := alwaysSafe_lt h
    simp only [asBytes, List.map_cons, List.map_nil, List.cons_append, List.nil_append]
    rw [ofNat_toNat' (by omega), UInt8.ofNat_toNat, unquoteToBytes_ne _ (by omega)]
  · rw [unquoteToBytes_pct _ hb, UInt8.ofNat_toNat]

theorem asBytes_append (a b : Str) : asBytes (a ++ b) = asBytes a ++ asBytes b := by simp [asBytes]

theorem unquoteToBytes_quote (bs : Bytes) : unquoteToBytes (asBytes (bs.flatMap quoteByte)) = bs := by
  induction bs with
  | nil => rfl
  | cons b r ih => rw [List.flatMap_cons, asBytes_append, unquoteToBytes_quoteByte, ih]

theorem unquoteAux_ascii : ∀ (s : Str) (run : Bytes), (∀ c ∈ s, c.toNat < 128) →
    unquoteAux run s = utf8DecodeReplace (unquoteToBytes (run ++ asBytes s)) := by
  intro s
  induction s with
  | nil => intro run _; simp [unquoteAux, asBytes]
  | cons c r ih =>
    intro run h
    rw [unquoteAux, if_pos (h c (by simp)), ih _ (fun x hx => h x (by simp [hx]))]
    simp [asBytes]

/-- `unquote(quote(s, safe="")) == s` -/
theorem unquote_quote (s : Str) : unquote (quote s) = s := by
  unfold unquote
  rw [unquoteAux_ascii _ _ (fun c hc => quoteChar_ascii (quote_chars s c hc)), List.nil_append]
  unfold quote
  rw [unquoteToBytes_quote, utf8DecodeReplace_encode]

/-! ### query strings -/

theorem quotePlus_chars (s : Str) : ∀ c ∈ quotePlus s, QuoteChar c ∨ c = '+' := by
  intro c hc
  simp only [quotePlus, List.mem_flatMap] at hc
  obtain ⟨b, _, hb⟩ := hc
  split at hb
  · simp only [List.mem_singleton] at hb; exact .inr hb
  · exact .inl (quoteByte_chars b c hb)

theorem quoteChar_not_plus {c : Char} (h : QuoteChar c) : c ≠ '+' ∧ c ≠ '&' ∧ c ≠ '=' := by
  rcases h with h | rfl
  · have := alwaysSafe_lt h
    refine ⟨?_, ?_, ?_⟩ <;> rintro rfl <;> revert this <;> decide
  · decide

theorem plus_undo (bs : Bytes) :
    unquoteToBytes (asBytes ((bs.flatMap fun b => if b.toNat = 32 then ['+'] else quoteByte b).map
      fun c => if c = '+' then ' ' else c)) = bs := by
  induction bs with
  | nil => rfl
  | cons b r ih =>
    rw [List.flatMap_cons, List.map_append, asBytes_append]
    split
    · rename_i h
      have : asBytes (List.map (fun c => if c = '+' then ' ' else c) ['+']) = [32] := by decide
      rw [this, List.singleton_append, unquoteToBytes_ne _ (by decide), ih]
      congr 1
      exact (UInt8.toNat.inj h).symm
    · have e : (quoteByte b).map (fun c => if c = '+' then ' ' else c) = quoteByte b := by
        conv => rhs; rw [← List.map_id (quoteByte b)]
        apply List.map_congr_left
        intro c hc
        rw [if_neg (quoteChar_not_plus (quoteByte_chars b c hc)).1]; rfl
      rw [e, unquoteToBytes_quoteByte, ih]

/-- `unquote_plus(quote_plus(s)) == s` -/
theorem unquotePlus_quotePlus (s : Str) : unquotePlus (quotePlus s) = s := by
  unfold unquotePlus unquote
  rw [unquoteAux_ascii, List.nil_append]
  · unfold quotePlus
    rw [plus_undo, utf8DecodeReplace_encode]
  · intro c hc
    rw [List.mem_map] at hc
    obtain ⟨d, hd, rfl⟩ := hc
    split
    · decide
    · rcases quotePlus_chars s d hd with h | rfl
      · exact quoteChar_ascii h
      · contradiction

theorem split_no_sep (c : Char) : ∀ (s : Str), (∀ x ∈ s, x ≠ c) → split c s = [s]
  | [], _ => rfl
  | x :: r, h => by
    rw [split, split_no_sep c r (fun y hy => h y (by simp [hy]))]
    rw [if_neg (by simpa using h x (by simp))]

theorem split_append_sep (c : Char) : ∀ (s t : Str), (∀ x ∈ s, x ≠ c) → split c (s ++ c :: t) = s :: split c t
  | [], t, _ => by simp [split]
  | x :: r, t, h => by
    rw [List.cons_append, split, split_append_sep c r t (fun y hy => h y (by simp [hy]))]
    rw [if_neg (by simpa using h x (by simp))]

theorem split_join (c : Char) : ∀ (ps : List Str), ps ≠ [] → (∀ p ∈ ps, ∀ x ∈ p, x ≠ c) → split c (join [c] ps) = ps
  | [], h, _ => absurd rfl h
  | [p], _, h => by simpa [join] using split_no_sep c p (h p (by simp))
  | p :: q :: r, _, h => by
    rw [join, List.append_assoc, List.singleton_append, split_append_sep c _ _ (h p (by simp)),
      split_join c (q :: r) (by simp) (fun x hx => h x (List.mem_cons_of_mem _ hx))]

theorem takeWhile_sep (a b : Str) (h : ∀ x ∈ a, x ≠ '=') :
    partitionEq (a ++ ['='] ++ b) = (a, b) := by
  unfold partitionEq
  have h1 : (a ++ ['='] ++ b).takeWhile (· != '=') = a := by
    induction a with
    | nil => simp
    | cons x r ih =>
      simp only [List.cons_append, List.takeWhile_cons]
      rw [if_pos (by simpa using h x (by simp)), ih (fun y hy => h y (by simp [hy]))]
  have h2 : (a ++ ['='] ++ b).dropWhile (· != '=') = '=' :: b := by
    clear h1
    induction a with
    | nil => simp
    | cons x r ih =>
      simp only [List.cons_append, List.dropWhile_cons]
      rw [if_pos (by simpa using h x (by simp)), ih (fun y hy => h y (by simp [hy]))]
  rw [h1, h2]; rfl

/-- `parse_qsl(urlencode(params), keep_blank_values=True) == list(params.items())` for non-empty `params` -/
theorem parseQsl_urlencode (params : Dict Str Str) (hne : params ≠ []) : parseQsl (urlencode params) = params := by
  unfold parseQsl urlencode
  rw [split_join '&' _ (by simpa using hne)]
  · rw [List.filterMap_map]
    have e : ((fun nv : Str => if nv.isEmpty then none
        else some (unquotePlus (partitionEq nv).1, unquotePlus (partitionEq nv).2)) ∘
        fun kv : Str × Str => quotePlus kv.1 ++ ['='] ++ quotePlus kv.2) = some := by
      funext kv
      simp only [Function.comp]
      rw [if_neg (by simp), takeWhile_sep, unquotePlus_quotePlus, unquotePlus_quotePlus]
      intro x hx
      rcases quotePlus_chars _ x hx with h | rfl
      · exact (quoteChar_not_plus h).2.2
      · decide
    rw [e, List.filterMap_some]
  · intro p hp x hx
    rw [List.mem_map] at hp
    obtain ⟨kv, _, rfl⟩ := hp
    simp only [List.mem_append, List.mem_singleton] at hx
    rcases hx with (hx | rfl) | hx
    · rcases quotePlus_chars _ x hx with h | rfl
      · exact (quoteChar_not_plus h).2.1
      · decide
    · decide
    · rcases quotePlus_chars _ x hx with h | rfl
      · exact (quoteChar_not_plus h).2.1
      · decide

theorem foldl_parseQs (l : List (Str × Str)) : ∀ (d : Dict Str (List Str)), (l.map (·.1)).Nodup →
    (∀ k ∈ l.map (·.1), k ∉ d.keys) →
    l.foldl (fun (d : Dict Str (List Str)) kv => d.set kv.1 ((d.get? kv.1).getD [] ++ [kv.2])) d =
      d ++ l.map fun kv => (kv.1, [kv.2]) := by
  induction l with
  | nil => intro d _ _; simp
  | cons kv r ih =>
    intro d hn hd
    rw [List.map_cons, List.nodup_cons] at hn
    have hk : kv.1 ∉ d.keys := hd kv.1 (by simp)
    have hg : d.get? kv.1 = none := by rw [Dict.get?_eq_none_iff]; exact hk
    rw [List.foldl_cons, hg, Option.getD_none, List.nil_append, Dict.set_of_not_mem hk, ih _ hn.2]
    · simp
    · intro k hkr hkd
      simp only [Dict.keys, List.map_append, List.map_cons, List.map_nil, List.mem_append, List.mem_singleton] at hkd
      rcases hkd with hkd | rfl
      · exact hd k (by simp [hkr]) hkd
      · exact hn.1 hkr

/-- `parse_qs(urlencode(params), keep_blank_values=True)` maps each key to the list of its single value. -/
theorem parseQs_urlencode (params : Dict Str Str) (hne : params ≠ []) (hn : params.keys.Nodup) :
    parseQs (urlencode params) = params.map fun kv => (kv.1, [kv.2]) := by
  unfold parseQs
  rw [parseQsl_urlencode params hne, foldl_parseQs params [] hn (by simp [Dict.keys])]
  rfl

end Py
