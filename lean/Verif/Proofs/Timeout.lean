import Verif.Model.Timeout
import Verif.Proofs.Int
/-
Lemmas about gRPC timeouts.
-/
namespace Conn
open Py Spec

/-- `int(v * (1/1000))` is exact for 8-digit values. -/
theorem milli_exact (v : Nat) (h : v ≤ 99999999) : mulDoubleTrunc v 4611686018427388 62 = v / 1000 := by
  unfold mulDoubleTrunc
  rw [round53_small v (by omega)]
  dsimp only [round53]
  rw [Nat.zero_add]
  generalize hN : v * 4611686018427388 = N
  generalize hs : N.log2 - 52 = s
  have hs26 : s ≤ 26 := by
    rcases Nat.eq_zero_or_pos N with h0 | hp
    · subst h0; simp at hs; omega
    · have := (Nat.log2_lt (n := N) (k := 79) (by omega)).mpr (by omega); omega
  have hlo := roundShift_lower N s
  have hhi := roundShift_upper N s
  have hP : 0 < 2 ^ s := Nat.two_pow_pos s
  have hP26 : 2 ^ s ≤ 2 ^ 26 := Nat.pow_le_pow_right (by omega) hs26
  -- M = roundShift N s * 2^s
  have hM : roundShift N s * 2 ^ s ≤ N + 2 ^ s := by
    calc roundShift N s * 2 ^ s ≤ (N / 2 ^ s + 1) * 2 ^ s := Nat.mul_le_mul_right _ hhi
      _ = N / 2 ^ s * 2 ^ s + 2 ^ s := by rw [Nat.add_mul, Nat.one_mul]
      _ ≤ N + 2 ^ s := Nat.add_le_add_right (Nat.div_mul_le_self ..) _
  have hq : (v / 1000) * 2 ^ 62 ≤ N := by omega
  have hL : (v / 1000) * 2 ^ 62 ≤ roundShift N s * 2 ^ s := by
    have e : 2 ^ 62 = 2 ^ (62 - s) * 2 ^ s := by rw [← Nat.pow_add]; congr 1; omega
    rw [e, ← Nat.mul_assoc] at hq ⊢
    exact Nat.mul_le_mul_right _ (Nat.le_trans ((Nat.le_div_iff_mul_le hP).mpr hq) hlo)
  generalize roundShift N s * 2 ^ s = M at *
  have : M < (v / 1000 + 1) * 2 ^ 62 := by omega
  exact Nat.div_eq_of_lt_le (by omega) (by omega)

/-- `int(v * (1/1000/1000))` is exact for 8-digit values. -/
theorem micro_exact (v : Nat) (h : v ≤ 99999999) : mulDoubleTrunc v 4722366482869645 72 = v / 1000000 := by
  unfold mulDoubleTrunc
  rw [round53_small v (by omega)]
  dsimp only [round53]
  rw [Nat.zero_add]
  generalize hN : v * 4722366482869645 = N
  generalize hs : N.log2 - 52 = s
  have hs27 : s ≤ 27 := by
    rcases Nat.eq_zero_or_pos N with h0 | hp
    · subst h0; simp at hs; omega
    · have := (Nat.log2_lt (n := N) (k := 80) (by omega)).mpr (by omega); omega
  have hlt : N < 2 ^ 53 * 2 ^ s := by
    rcases Nat.eq_zero_or_pos N with h0 | hp
    · have := Nat.two_pow_pos s; omega
    · have h1 : N < 2 ^ (N.log2 + 1) := Nat.lt_log2_self
      have h2 : 2 ^ (N.log2 + 1) ≤ 2 ^ (53 + s) := Nat.pow_le_pow_right (by omega) (by omega)
      have h3 := Nat.lt_of_lt_of_le h1 h2
      rwa [Nat.pow_add] at h3
  have hlo := roundShift_lower N s
  have hhi := roundShift_upper N s
  have hnear := roundShift_near N s
  have hP : 0 < 2 ^ s := Nat.two_pow_pos s
  have hP27 : 2 ^ s ≤ 2 ^ 27 := Nat.pow_le_pow_right (by omega) hs27
  have hM : roundShift N s * 2 ^ s ≤ N + 2 ^ s := by
    calc roundShift N s * 2 ^ s ≤ (N / 2 ^ s + 1) * 2 ^ s := Nat.mul_le_mul_right _ hhi
      _ = N / 2 ^ s * 2 ^ s + 2 ^ s := by rw [Nat.add_mul, Nat.one_mul]
      _ ≤ N + 2 ^ s := Nat.add_le_add_right (Nat.div_mul_le_self ..) _
  have e : 2 ^ 72 = 2 ^ (72 - s) * 2 ^ s := by rw [← Nat.pow_add]; congr 1; omega
  have hL : (v / 1000000) * 2 ^ 72 ≤ roundShift N s * 2 ^ s := by
    by_cases hr : v % 1000000 = 0
    · -- the exact product is slightly below an integer: rounding brings it back
      by_cases hcon : (v / 1000000) * 2 ^ 72 ≤ roundShift N s * 2 ^ s
      · exact hcon
      · exfalso
        have hstep : roundShift N s * 2 ^ s + 2 ^ s ≤ (v / 1000000) * 2 ^ 72 := by
          rw [e, ← Nat.mul_assoc] at hcon ⊢
          have : roundShift N s < v / 1000000 * 2 ^ (72 - s) := by
            apply Nat.lt_of_mul_lt_mul_right (a := 2 ^ s); omega
          calc roundShift N s * 2 ^ s + 2 ^ s = (roundShift N s + 1) * 2 ^ s := by rw [Nat.add_mul, Nat.one_mul]
            _ ≤ _ := Nat.mul_le_mul_right _ this
        generalize roundShift N s * 2 ^ s = M at *
        generalize 2 ^ s = P at *
        clear e hlo hhi
        omega
    · have hq : (v / 1000000) * 2 ^ 72 ≤ N := by omega
      rw [e, ← Nat.mul_assoc] at hq ⊢
      exact Nat.mul_le_mul_right _ (Nat.le_trans ((Nat.le_div_iff_mul_le hP).mpr hq) hlo)
  generalize roundShift N s * 2 ^ s = M at *
  have : M < (v / 1000000 + 1) * 2 ^ 72 := by omega
  exact Nat.div_eq_of_lt_le (by omega) (by omega)

/-- Parsing a header made of digits and a known unit. -/
theorem parseTimeout_digits (ds : Str) (u : Char) (hd : ∀ c ∈ ds, IsDigit c) (hne : ds ≠ []) :
    parseTimeout (ds ++ [u]) =
      match lookupTimeoutUnit u with
      | .error e => .error e
      | .ok f =>
        if (decimal ds : Int) > 99999999 then
          .error (.other .valueError (pys! "protocol error: timeout '" ++ (ds ++ [u]) ++ pys! "' is too long"))
        else .ok (f.scale (decimal ds : Int)) := by
  unfold parseTimeout
  rw [List.reverse_append, List.reverse_singleton, List.singleton_append]
  dsimp only
  rw [List.reverse_reverse, parseInt_digits ds hd hne]
  cases lookupTimeoutUnit u <;> rfl

theorem scale_exact (u : Char) (k : Nat) (hu : (u, k) ∈ unitNanos) :
    ∃ f, lookupTimeoutUnit u = .ok f ∧
      ∀ v : Nat, v ≤ 99999999 → f.scale (v : Int) = ((v * k / 1000000 : Nat) : Int) := by
  simp only [unitNanos, List.mem_cons, Prod.mk.injEq, List.not_mem_nil, or_false] at hu
  rcases hu with ⟨rfl, rfl⟩ | ⟨rfl, rfl⟩ | ⟨rfl, rfl⟩ | ⟨rfl, rfl⟩ | ⟨rfl, rfl⟩ | ⟨rfl, rfl⟩
  · exact ⟨.int 3600000, rfl, fun v _ => by simp only [UnitFactor.scale]; omega⟩
  · exact ⟨.int 60000, rfl, fun v _ => by simp only [UnitFactor.scale]; omega⟩
  · exact ⟨.int 1000, rfl, fun v _ => by simp only [UnitFactor.scale]; omega⟩
  · exact ⟨.int 1, rfl, fun v _ => by simp only [UnitFactor.scale]; omega⟩
  · refine ⟨milliDouble, rfl, fun v hv => ?_⟩
    simp only [UnitFactor.scale, milliDouble, Int.natAbs_natCast]
    rw [if_neg (by omega), milli_exact v hv]; omega
  · refine ⟨microDouble, rfl, fun v hv => ?_⟩
    simp only [UnitFactor.scale, microDouble, Int.natAbs_natCast]
    rw [if_neg (by omega), micro_exact v hv]; omega

theorem lookup_unknown (u : Char) (hu : u ∉ unitNanos.map (·.1)) : ∃ m, lookupTimeoutUnit u = .error (.other .valueError m) := by
  simp only [unitNanos, List.map_cons, List.map_nil, List.mem_cons, List.not_mem_nil, or_false, not_or] at hu
  obtain ⟨h1, h2, h3, h4, h5, h6⟩ := hu
  exact ⟨_, by unfold lookupTimeoutUnit; rw [if_neg h1, if_neg h2, if_neg h3, if_neg h4, if_neg h5, if_neg h6]⟩

end Conn
