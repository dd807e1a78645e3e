import Verif.Lemmas.Pow
import Verif.Spec.Pow
/-!
# Odd and whole exponents
-/
namespace Pok.Libm
open Pok.Float Pok.Fpu

theorem whole_nat {y : Nat} (h : y < 2 ^ 64) : (∃ k : ℤ, value y = k) ↔ ∃ q : ℕ, units (mag y) = q * 2 ^ 1074 := by
  have hD : (2 : ℚ) ^ 1074 ≠ 0 := pow_ne_zero _ (by norm_num)
  have hDp : (0 : ℤ) < 2 ^ 1074 := pow_pos (by norm_num) _
  have e : ∀ k : ℤ, value y = k ↔ sunits y = k * 2 ^ 1074 := by
    intro k
    rw [value_units, div_eq_iff hD]
    exact_mod_cast Iff.rfl
  simp only [e, sunits_eq h]
  constructor
  · rintro ⟨k, hk⟩
    refine ⟨k.natAbs, ?_⟩
    have := congrArg Int.natAbs hk
    rw [Int.natAbs_mul, Int.natAbs_pow] at this
    split at this
    · rw [Int.natAbs_neg, Int.natAbs_natCast] at this; exact this
    · rw [Int.natAbs_natCast] at this; exact this
  · rintro ⟨q, hq⟩
    rw [hq]
    split
    · exact ⟨-q, by push_cast; ring⟩
    · exact ⟨q, by push_cast; ring⟩

theorem odd_nat {y : Nat} (h : y < 2 ^ 64) : (∃ k : ℤ, value y = 2 * k + 1) ↔ ∃ q : ℕ, units (mag y) = q * 2 ^ 1074 ∧ q % 2 = 1 := by
  have hD : (2 : ℚ) ^ 1074 ≠ 0 := pow_ne_zero _ (by norm_num)
  have e : ∀ k : ℤ, value y = 2 * k + 1 ↔ sunits y = (2 * k + 1) * 2 ^ 1074 := by
    intro k
    rw [value_units, div_eq_iff hD]
    exact_mod_cast Iff.rfl
  simp only [e, sunits_eq h]
  constructor
  · rintro ⟨k, hk⟩
    refine ⟨(2 * k + 1).natAbs, ?_, by omega⟩
    have := congrArg Int.natAbs hk
    rw [Int.natAbs_mul, Int.natAbs_pow] at this
    split at this
    · rw [Int.natAbs_neg, Int.natAbs_natCast] at this; exact this
    · rw [Int.natAbs_natCast] at this; exact this
  · rintro ⟨q, hq, h1⟩
    rw [hq]
    obtain ⟨j, rfl⟩ : ∃ j, q = 2 * j + 1 := ⟨q / 2, by omega⟩
    split
    · exact ⟨-j - 1, by push_cast; ring⟩
    · exact ⟨j, by push_cast; ring⟩

theorem intM_units {m : Nat} (h0 : m ≠ 0) :
    (intM m = 0 ↔ ¬ ∃ q : ℕ, units m = q * 2 ^ 1074) ∧ (intM m = 1 ↔ ∃ q : ℕ, units m = q * 2 ^ 1074 ∧ q % 2 = 1) := by
  have hD : 0 < 2 ^ 1074 := Nat.two_pow_pos _
  have small : ∀ u, 0 < u → u < 2 ^ 1074 → ¬ ∃ q : ℕ, u = q * 2 ^ 1074 := by
    rintro u hu hlt ⟨q, hq⟩
    rw [hq] at hu hlt
    rcases Nat.eq_zero_or_pos q with h | h
    · rw [h, Nat.zero_mul] at hu; exact Nat.lt_irrefl 0 hu
    · exact absurd hlt (Nat.not_lt.2 (Nat.le_mul_of_pos_left _ h))
  have hf : m % 2 ^ 52 < 2 ^ 52 := Nat.mod_lt _ (by norm_num)
  have hm := Nat.div_add_mod m (2 ^ 52)
  have hun : units m = if m / 2 ^ 52 = 0 then m else (2 ^ 52 + m % 2 ^ 52) * 2 ^ (m / 2 ^ 52 - 1) := rfl
  unfold intM
  rw [hun]
  generalize m / 2 ^ 52 = E at *
  generalize m % 2 ^ 52 = f at *
  by_cases h1 : E ≥ 1076
  · rw [if_pos h1, if_neg (show ¬ E = 0 by omega)]
    have e : (2 ^ 52 + f) * 2 ^ (E - 1) = (2 * ((2 ^ 52 + f) * 2 ^ (E - 1076))) * 2 ^ 1074 := by
      rw [show E - 1 = (E - 1076) + 1 + 1074 by omega, Nat.pow_add, Nat.pow_succ]; ring
    constructor
    · simp only [OfNat.ofNat_ne_zero, false_iff, not_not]
      exact ⟨_, e⟩
    · constructor
      · intro h; omega
      · rintro ⟨q, hq, h2⟩
        rw [e] at hq
        have := Nat.eq_of_mul_eq_mul_right hD hq
        omega
  rw [if_neg h1]
  by_cases h2 : E ≥ 1023
  · rw [if_pos h2, if_neg (show ¬ E = 0 by omega)]
    have hp : 0 < 2 ^ (E - 1) := Nat.two_pow_pos _
    have ht : 0 < 2 ^ (1075 - E) := Nat.two_pow_pos _
    have e : ∀ q, (2 ^ 52 + f) * 2 ^ (E - 1) = q * 2 ^ 1074 ↔ 2 ^ 52 + f = q * 2 ^ (1075 - E) := by
      intro q
      rw [show 1074 = (1075 - E) + (E - 1) by omega, Nat.pow_add, ← Nat.mul_assoc]
      exact Nat.mul_left_inj hp.ne'
    simp only [e]
    have w := Nat.div_add_mod (2 ^ 52 + f) (2 ^ (1075 - E))
    have wl := Nat.mod_lt (2 ^ 52 + f) ht
    have key : ∀ q, 2 ^ 52 + f = q * 2 ^ (1075 - E) → (2 ^ 52 + f) % 2 ^ (1075 - E) = 0 ∧ (2 ^ 52 + f) / 2 ^ (1075 - E) = q := by
      intro q hq
      rw [hq]
      exact ⟨Nat.mul_mod_left _ _, Nat.mul_div_cancel _ ht⟩
    constructor
    · constructor
      · intro h
        rintro ⟨q, hq⟩
        rw [if_pos (key q hq).1] at h
        omega
      · intro h
        rw [if_neg]
        intro h3
        refine h ⟨(2 ^ 52 + f) / 2 ^ (1075 - E), ?_⟩
        rw [Nat.mul_comm]
        omega
    · constructor
      · intro h
        split at h
        · next h3 =>
          refine ⟨(2 ^ 52 + f) / 2 ^ (1075 - E), ?_, by omega⟩
          rw [Nat.mul_comm]
          omega
        · omega
      · rintro ⟨q, hq, h3⟩
        rw [if_pos (key q hq).1, (key q hq).2]
        omega
  rw [if_neg h2]
  have lt : (if E = 0 then m else (2 ^ 52 + f) * 2 ^ (E - 1)) < 2 ^ 1074 := by
    split
    · have : (2 : Nat) ^ 52 ≤ 2 ^ 1074 := Nat.pow_le_pow_right (by norm_num) (by norm_num)
      omega
    · have a : (2 ^ 52 + f) * 2 ^ (E - 1) < 2 ^ 53 * 2 ^ (E - 1) := Nat.mul_lt_mul_of_pos_right (by omega) (Nat.two_pow_pos _)
      rw [← Nat.pow_add] at a
      have : (2 : Nat) ^ (53 + (E - 1)) ≤ 2 ^ 1074 := Nat.pow_le_pow_right (by norm_num) (by omega)
      omega
  have pos : 0 < (if E = 0 then m else (2 ^ 52 + f) * 2 ^ (E - 1)) := by
    split
    · omega
    · exact Nat.mul_pos (by omega) (Nat.two_pow_pos _)
  have no := small _ pos lt
  constructor
  · simp only [true_iff]; exact no
  · constructor
    · intro h; omega
    · rintro ⟨q, hq, _⟩; exact absurd ⟨q, hq⟩ no

theorem intM_zero {y : Nat} (h : y < 2 ^ 64) (h0 : mag y ≠ 0) (hf : mag y < inf) : intM (mag y) = 0 ↔ ¬ IsWhole y := by
  unfold IsWhole
  rw [(intM_units h0).1, whole_nat h, and_iff_right ((finite_iff y).2 hf)]

theorem intM_one {y : Nat} (h : y < 2 ^ 64) (h0 : mag y ≠ 0) (hf : mag y < inf) : intM (mag y) = 1 ↔ IsOdd y := by
  unfold IsOdd
  rw [(intM_units h0).2, odd_nat h, and_iff_right ((finite_iff y).2 hf)]

theorem nan_iff (x : Nat) : IsNaN x ↔ inf < mag x := by
  have h := mag_eq x; have := frac_lt x; have := expo_lt x
  unfold IsNaN; rw [h]; unfold inf; omega

theorem inf_iff (x : Nat) : IsInf x ↔ mag x = inf := by
  have h := mag_eq x; have := frac_lt x; have := expo_lt x
  unfold IsInf; rw [h]; unfold inf; omega

theorem zero_iff (x : Nat) : IsZero x ↔ mag x = 0 := by
  have h := mag_eq x; have := frac_lt x; have := expo_lt x
  unfold IsZero; rw [h]; omega

theorem units_one' : units one = 2 ^ 1074 := by
  have e : one = 1023 * 2 ^ 52 + 0 := rfl
  rw [e, units_make (by omega) (by omega), Nat.add_zero, ← Nat.pow_add]

theorem abs_cmp {x : Nat} (h : x < 2 ^ 64) : (1 < |value x| ↔ one < mag x) ∧ (|value x| < 1 ↔ mag x < one) ∧ (|value x| = 1 ↔ mag x = one) := by
  have hD : (0 : ℚ) < 2 ^ 1074 := pow_pos (by norm_num) _
  have e : |value x| = (units (mag x) : ℚ) / (units one : ℚ) := by rw [abs_value' h, units_one']; push_cast; rfl
  have hu : (0 : ℚ) < (units one : ℚ) := by rw [units_one']; push_cast; exact hD
  rw [e]
  refine ⟨?_, ?_, ?_⟩
  · rw [lt_div_iff₀ hu, one_mul, Nat.cast_lt, units_lt]
  · rw [div_lt_iff₀ hu, one_mul, Nat.cast_lt, units_lt]
  · rw [div_eq_iff hu.ne', one_mul, Nat.cast_inj, units_inj]

end Pok.Libm
