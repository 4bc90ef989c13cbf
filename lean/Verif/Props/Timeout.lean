import Verif.Proofs.Timeout
import Verif.Proofs.IntText
import Verif.Spec.Timeout
/-
C09–C11: gRPC timeouts.
-/
namespace Props
open Conn Py Spec

/-- Rendering of a number of at most eight digits with a unit. -/
theorem legal_of_lt (n : Int) (h0 : 0 ≤ n) (h : n < 100000000) (u : Char) (hu : u ∈ unitNanos.map (·.1)) :
    LegalGrpcTimeout (intStr n ++ [u]) := by
  obtain ⟨n, rfl⟩ := Int.eq_ofNat_of_zero_le h0
  refine ⟨natDigits n, u, rfl, ?_, natDigits_length_le n 8 (by omega) (by omega), natDigits_digits n, hu⟩
  have := natDigits_ne_nil n
  exact List.length_pos_iff.mpr this

/-- **C09** Every timeout below 3.6e14 ms is sent as one to eight digits and a legal unit; a non-positive one as `0n`. -/
theorem C09_timeout_header_legal (t : Int) (ht : t < 360000000000000) :
    LegalGrpcTimeout (serializeTimeout t) ∧ (t ≤ 0 → serializeTimeout t = pys! "0n") := by
  refine ⟨?_, fun h => by unfold serializeTimeout; rw [if_pos h]⟩
  unfold serializeTimeout
  split
  · exact ⟨['0'], 'n', rfl, by decide, by decide, by decide, by decide⟩
  split
  · exact legal_of_lt _ (by omega) (by omega) _ (by decide)
  split
  · exact legal_of_lt _ (by omega) (by omega) _ (by decide)
  split
  · exact legal_of_lt _ (by omega) (by omega) _ (by decide)
  · exact legal_of_lt _ (by omega) (by omega) _ (by decide)

/-- the bound is the best possible: at 3.6e14 ms a ninth digit appears -/
example : ¬ LegalGrpcTimeout (serializeTimeout 360000000000000) := by
  rintro ⟨ds, u, e, _, h8, _⟩
  have := congrArg List.length e
  rw [show (serializeTimeout 360000000000000).length = 10 from by decide +kernel] at this
  simp at this; omega

/-- in range and beyond: 359999999999999 ms is `99999999H` -/
example : serializeTimeout 359999999999999 = pys! "99999999H" ∧ (359999999999999 : Int) < 360000000000000 := by
  decide +kernel

/-- **C11** A header of one to eight digits and a unit is read as the exact number of milliseconds, rounded down. -/
theorem C11_parse_exact (ds : List Char) (u : Char) (k : Nat) (hd : ∀ c ∈ ds, IsDigit c) (h1 : 1 ≤ ds.length)
    (h8 : ds.length ≤ 8) (hu : (u, k) ∈ unitNanos) :
    parseTimeout (ds ++ [u]) = .ok ((decimal ds * k / 1000000 : Nat) : Int) := by
  have hne : ds ≠ [] := by intro e; simp [e] at h1
  have hv : decimal ds < 100000000 := by
    have := decimal_lt ds hd
    have h2 : 10 ^ ds.length ≤ 10 ^ 8 := Nat.pow_le_pow_right (by omega) h8
    omega
  rw [parseTimeout_digits ds u hd hne]
  obtain ⟨f, hf, hs⟩ := scale_exact u k hu
  rw [hf]
  dsimp only
  rw [if_neg (by omega), hs _ (by omega)]

example : parseTimeout (pys! "99999999u") = .ok 99999 ∧ parseTimeout (pys! "1000000n") = .ok 1 ∧
    parseTimeout (pys! "2H") = .ok 7200000 := by decide +kernel

/-- **C11** A header whose last character is no unit is rejected, whatever precedes it. -/
theorem C11_unknown_unit_rejected (s : List Char) (u : Char) (hu : u ∉ unitNanos.map (·.1)) :
    ∃ m, parseTimeout (s ++ [u]) = .error (.other .valueError m) := by
  obtain ⟨m, hm⟩ := lookup_unknown u hu
  refine ⟨m, ?_⟩
  unfold parseTimeout
  rw [List.reverse_append, List.reverse_singleton, List.singleton_append]
  dsimp only
  rw [hm]

example : 's' ∉ unitNanos.map (·.1) := by decide

/-- **C11** A value above 99999999 is rejected, with any unit. -/
theorem C11_large_value_rejected (ds : List Char) (u : Char) (hd : ∀ c ∈ ds, IsDigit c)
    (hbig : 99999999 < decimal ds) : ∃ m, parseTimeout (ds ++ [u]) = .error (.other .valueError m) := by
  have hne : ds ≠ [] := by intro e; subst e; exact absurd hbig (by decide)
  rw [parseTimeout_digits ds u hd hne]
  by_cases hu : u ∈ unitNanos.map (·.1)
  · obtain ⟨⟨u', k⟩, hp, rfl⟩ := List.mem_map.mp hu
    obtain ⟨f, hf, _⟩ := scale_exact u' k hp
    rw [hf]
    dsimp only
    rw [if_pos (by omega)]
    exact ⟨_, rfl⟩
  · obtain ⟨m, hm⟩ := lookup_unknown u hu
    rw [hm]
    exact ⟨m, rfl⟩

example : 99999999 < decimal (pys! "100000000") := by decide

/-- **C11** Anything that is not the text of an integer before the unit is rejected. -/
theorem C11_non_numeric_rejected (s : List Char) (u : Char) (h : ∀ n, ¬ IntText s n) :
    ∃ m, parseTimeout (s ++ [u]) = .error (.other .valueError m) := by
  unfold parseTimeout
  rw [List.reverse_append, List.reverse_singleton, List.singleton_append]
  dsimp only
  rw [List.reverse_reverse, (parseInt_none s).2 h]
  by_cases hu : u ∈ unitNanos.map (·.1)
  · obtain ⟨⟨u', k⟩, hp, rfl⟩ := List.mem_map.mp hu
    obtain ⟨f, hf, _⟩ := scale_exact u' k hp
    rw [hf]; exact ⟨_, rfl⟩
  · obtain ⟨m, hm⟩ := lookup_unknown u hu
    rw [hm]; exact ⟨m, rfl⟩

example : (∀ n, ¬ IntText (pys! "12x") n) ∧ ∀ n, ¬ IntText (pys! "") n :=
  ⟨(parseInt_none _).1 (by decide +kernel), (parseInt_none _).1 (by decide +kernel)⟩

/-- Observation: `int()` also accepts a sign, blanks, underscores and the digits of any script: `-5m` is read as minus five milliseconds, ` 1_0m` as ten,
and so is `１０m`, with full-width digits. -/
example : parseTimeout (pys! "-5m") = .ok (-5) ∧ parseTimeout (pys! " 1_0m") = .ok 10 ∧ parseTimeout (pys! "１０m") = .ok 10 := by decide +kernel

/-- The unit the client chooses for a timeout of `t` ms, in milliseconds. -/
def chosenUnitMs (t : Int) : Int :=
  if t < 100000000 then 1 else if t < 100000000000 then 1000 else if t < 6000000000000 then 60000 else 3600000

theorem parse_intStr (n : Int) (h0 : 0 ≤ n) (h : n < 100000000) (u : Char) (k : Nat) (hu : (u, k) ∈ unitNanos) :
    parseTimeout (intStr n ++ [u]) = .ok ((n.toNat * k / 1000000 : Nat) : Int) := by
  obtain ⟨n, rfl⟩ := Int.eq_ofNat_of_zero_le h0
  have := C11_parse_exact (natDigits n) u k (natDigits_digits n)
    (List.length_pos_iff.mpr (natDigits_ne_nil n)) (natDigits_length_le n 8 (by omega) (by omega)) hu
  rw [decimal_natDigits] at this
  exact this

/-- **C10** What the server reads from the header the client sent for `t` ms: never more than `t` (or zero, an
already expired deadline, for negative `t`), equal to it below 1e8 ms, and short by less than one second, minute or
hour otherwise. -/
theorem C10_never_lengthened (t : Int) (ht : t < 360000000000000) :
    ∃ s, parseTimeout (serializeTimeout t) = .ok s ∧
      (t ≤ 0 → s = 0) ∧
      (0 ≤ t → 0 ≤ s ∧ s ≤ t ∧ t < s + chosenUnitMs t) ∧
      (0 ≤ t → t < 100000000 → s = t) := by
  unfold serializeTimeout chosenUnitMs
  by_cases h0 : t ≤ 0
  · refine ⟨0, ?_, ?_, ?_, ?_⟩
    · rw [if_pos h0]; decide +kernel
    · intro _; rfl
    · intro h; rw [if_pos (by omega)]; omega
    · intro h; omega
  rw [if_neg h0]
  by_cases h1 : t < 100000000
  · rw [if_pos h1, if_pos h1]
    refine ⟨_, parse_intStr _ (by omega) (by omega) 'm' 1000000 (by decide), ?_, ?_, ?_⟩ <;> omega
  rw [if_neg h1, if_neg h1]
  by_cases h2 : t < 100000000000
  · rw [if_pos h2, if_pos h2]
    refine ⟨_, parse_intStr _ (by omega) (by omega) 'S' 1000000000 (by decide), ?_, ?_, ?_⟩ <;> omega
  rw [if_neg h2, if_neg h2]
  by_cases h3 : t < 6000000000000
  · rw [if_pos h3, if_pos h3]
    refine ⟨_, parse_intStr _ (by omega) (by omega) 'M' 60000000000 (by decide), ?_, ?_, ?_⟩ <;> omega
  · rw [if_neg h3, if_neg h3]
    refine ⟨_, parse_intStr _ (by omega) (by omega) 'H' 3600000000000 (by decide), ?_, ?_, ?_⟩ <;> omega

example : parseTimeout (serializeTimeout 100000000) = .ok 100000000 ∧
    parseTimeout (serializeTimeout 123456789) = .ok 123456000 ∧
    parseTimeout (serializeTimeout 99999999) = .ok 99999999 := by decide +kernel

end Props
