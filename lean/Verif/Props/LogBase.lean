import Verif.Lemmas.LogBase
import Mathlib.Analysis.SpecialFunctions.Log.Base
/-!
# Logarithms to the bases 10 and 2 (C129)

`log10` and `log2` of the mathematical library, over doubles with correctly rounded operations.  The specification is Mathlib's `Real.logb`.
-/
namespace Pok.Log
open Pok.Err Pok.Float Pok.Fpu Pok.Poly Pok.Exp

theorem positive {x : Nat} (hx : x < 2 ^ 64) (h : 0 < value x) : x < 2 ^ 63 ∧ ¬ (Libm.neg32 (Libm.hi x) = true) ∧ (expo x = 0 → frac x ≠ 0) := by
  have s0 : x < 2 ^ 63 := by
    by_contra c
    have : sign x = 1 := by unfold sign; omega
    have v := value_self hx
    rw [this] at v
    have : (0 : ℚ) ≤ (units (mag x) : ℚ) / 2 ^ 1074 := by positivity
    rw [pow_one] at v
    linarith only [v, this, h]
  refine ⟨s0, by unfold Libm.neg32 Libm.hi; simp; omega, ?_⟩
  intro c f
  unfold value at h
  rw [if_pos c, f] at h
  norm_num at h

/-- A positive double is brought to a normal one, with the exponent that makes up for it. -/
theorem either {x : Nat} (hx : x < 2 ^ 64) (fx : IsFinite x) (h : 0 < value x) :
    ∃ (y : Nat) (k : Int), y < 2 ^ 63 ∧ 1 ≤ expo y ∧ expo y ≤ 2046 ∧ (log10 x = ends10 y k ∧ log2 x = split2 y k) ∧ -54 ≤ k ∧ k ≤ 0 ∧ (k < 0 → expo y ≤ 106) ∧
      (value x : ℝ) = (2 : ℝ) ^ k * value y := by
  obtain ⟨s0, n0, f0⟩ := positive hx h
  have E := expo_lt x
  have fE : expo x ≠ 2047 := fx
  by_cases c : expo x = 0
  · obtain ⟨a1, a2, a3, a4⟩ := scaled s0 c (f0 c)
    have z : ¬ (Libm.hi x &&& 0x7fffffff ||| Libm.lo x) = 0 := by
      rw [hi31 hx, Nat.or_eq_zero_iff]
      have f0 := f0 c
      unfold Libm.lo mag
      unfold frac at f0
      omega
    have sm : Libm.neg32 (Libm.hi x) ∨ Libm.hi x < 0x00100000 := Or.inr (by unfold Libm.hi; unfold expo at c; omega)
    refine ⟨mul x two54, -54, a1, a2, by omega, ⟨?_, ?_⟩, by omega, by omega, fun _ => by omega, ?_⟩
    · unfold log10; rw [if_pos sm, if_neg z, if_neg n0]
    · unfold log2; rw [if_pos sm, if_neg z, if_neg n0]
    · rw [a4]
      push_cast
      rw [show ((2 : ℝ) ^ (-54 : ℤ)) = 1 / 2 ^ 54 by norm_num]
      field_simp
  · have sm : ¬ (Libm.neg32 (Libm.hi x) ∨ Libm.hi x < 0x00100000) := by
      rintro (q | q)
      · exact n0 q
      · unfold Libm.hi at q; unfold expo at c; omega
    refine ⟨x, 0, s0, by omega, by omega, ⟨?_, ?_⟩, by omega, by omega, by omega, by simp⟩
    · unfold log10; rw [if_neg sm]
    · unfold log2; rw [if_neg sm]

/-- **Base 10.**  For every finite double above zero, normal or not, the result is a number within `6 · 2^-53` of the logarithm to the base 10, relative
to the logarithm. -/
theorem C129_log10 {x : Nat} (hx : x < 2 ^ 64) (fx : IsFinite x) (h : 0 < value x) :
    IsFinite (log10 x) ∧ |(value (log10 x) : ℝ) - Real.logb 10 (value x)| ≤ 6 / 2 ^ 53 * |Real.logb 10 (value x)| := by
  obtain ⟨y, k, y1, y2, y3, ⟨e, -⟩, k1, k2, -, v⟩ := either hx fx h
  have p : (0 : ℝ) < value y := by
    have : (0 : ℝ) < value x := by exact_mod_cast h
    rw [v] at this
    exact pos_of_mul_pos_right this (by positivity)
  have r := ends10_near y1 y2 y3 k k1 k2
  rw [e, Real.logb, v, Real.log_mul (by positivity) p.ne', Real.log_zpow, mul_comm (6 / 2 ^ 53)]
  exact r

/-- **Base 2.**  For every finite double above zero, normal or not, the result is a number within `5 · 2^-53` of the logarithm to the base 2, relative
to the logarithm. -/
theorem C129_log2 {x : Nat} (hx : x < 2 ^ 64) (fx : IsFinite x) (h : 0 < value x) :
    IsFinite (log2 x) ∧ |(value (log2 x) : ℝ) - Real.logb 2 (value x)| ≤ 5 / 2 ^ 53 * |Real.logb 2 (value x)| := by
  obtain ⟨y, k, y1, y2, y3, ⟨-, e⟩, k1, k2, k3, v⟩ := either hx fx h
  obtain ⟨f, g, F, j, ⟨-, e'⟩, s, e3, j1, j2⟩ := split_both y1 y2 y3 k
  have m := main2_near s (k := k + j) (by omega)
  have p : 0 < 1 + F := by have := s.lo; norm_num at *; linarith
  rw [e, e', Real.logb, v, e3, ← mul_assoc, ← zpow_add₀ (by norm_num), log_scaled _ p, mul_comm (5 / 2 ^ 53)]
  exact ⟨m.1, m.2.1⟩

/-- **Powers of two.**  The logarithm to the base 2 of every power of two among the doubles, subnormal ones too, is its exponent, exactly. -/
theorem C129_log2_exact {x : Nat} (hx : x < 2 ^ 64) (fx : IsFinite x) {n : Int} (h : value x = (2 : ℚ) ^ n) : value (log2 x) = n := by
  obtain ⟨y, k, y1, y2, y3, ⟨-, e⟩, k1, k2, k3, v⟩ := either hx fx (by rw [h]; positivity)
  obtain ⟨f, g, F, j, ⟨-, e'⟩, s, e3, j1, j2⟩ := split_both y1 y2 y3 k
  have m := main2_near s (k := k + j) (by omega)
  have hr : (value x : ℝ) = (2 : ℝ) ^ n := by rw [h]; push_cast; rfl
  rw [v, e3, ← mul_assoc, ← zpow_add₀ (by norm_num)] at hr
  have q : 1 + F = (2 : ℝ) ^ (n - (k + j)) := by
    rw [zpow_sub₀ (by norm_num), ← hr]; field_simp
  have l := s.lo
  have u := s.hi
  have z : n - (k + j) = 0 := by
    by_contra c
    rcases lt_or_gt_of_ne c with c | c
    · have : (2 : ℝ) ^ (n - (k + j)) ≤ 2 ^ (-1 : ℤ) := zpow_le_zpow_right₀ (by norm_num) (by omega)
      rw [← q] at this
      norm_num at *; linarith
    · have : (2 : ℝ) ^ (1 : ℤ) ≤ 2 ^ (n - (k + j)) := zpow_le_zpow_right₀ (by norm_num) (by omega)
      rw [← q] at this
      norm_num at *; linarith
  rw [z, zpow_zero] at q
  rw [e, e', m.2.2 (by linarith)]
  congr 1
  omega

theorem same {x y : Nat} (hx : x < 2 ^ 63) (hy : y < 2 ^ 63) (h : value x = value y) : x = y := by
  have a := value_self (d := x) (by omega)
  have b := value_self (d := y) (by omega)
  rw [show sign x = 0 by unfold sign; omega, pow_zero, one_mul, Trig.mag_self hx] at a
  rw [show sign y = 0 by unfold sign; omega, pow_zero, one_mul, Trig.mag_self hy] at b
  rw [a, b, div_left_inj' (by positivity)] at h
  exact units_inj.1 (by exact_mod_cast h)

theorem tens {n : Nat} (h : n ≤ 22) : ∃ y, y < 2 ^ 63 ∧ IsFinite y ∧ value y = 10 ^ n ∧ value (log10 y) = n := by
  interval_cases n
  · exact ⟨0x3ff0000000000000, by decide, by decide, by unfold value sign expo frac; norm_num, by rw [show log10 0x3ff0000000000000 = 0x0 by decide +kernel]; unfold value sign expo frac; norm_num⟩
  · exact ⟨0x4024000000000000, by decide, by decide, by unfold value sign expo frac; norm_num, by rw [show log10 0x4024000000000000 = 0x3ff0000000000000 by decide +kernel]; unfold value sign expo frac; norm_num⟩
  · exact ⟨0x4059000000000000, by decide, by decide, by unfold value sign expo frac; norm_num, by rw [show log10 0x4059000000000000 = 0x4000000000000000 by decide +kernel]; unfold value sign expo frac; norm_num⟩
  · exact ⟨0x408f400000000000, by decide, by decide, by unfold value sign expo frac; norm_num, by rw [show log10 0x408f400000000000 = 0x4008000000000000 by decide +kernel]; unfold value sign expo frac; norm_num⟩
  · exact ⟨0x40c3880000000000, by decide, by decide, by unfold value sign expo frac; norm_num, by rw [show log10 0x40c3880000000000 = 0x4010000000000000 by decide +kernel]; unfold value sign expo frac; norm_num⟩
  · exact ⟨0x40f86a0000000000, by decide, by decide, by unfold value sign expo frac; norm_num, by rw [show log10 0x40f86a0000000000 = 0x4014000000000000 by decide +kernel]; unfold value sign expo frac; norm_num⟩
  · exact ⟨0x412e848000000000, by decide, by decide, by unfold value sign expo frac; norm_num, by rw [show log10 0x412e848000000000 = 0x4018000000000000 by decide +kernel]; unfold value sign expo frac; norm_num⟩
  · exact ⟨0x416312d000000000, by decide, by decide, by unfold value sign expo frac; norm_num, by rw [show log10 0x416312d000000000 = 0x401c000000000000 by decide +kernel]; unfold value sign expo frac; norm_num⟩
  · exact ⟨0x4197d78400000000, by decide, by decide, by unfold value sign expo frac; norm_num, by rw [show log10 0x4197d78400000000 = 0x4020000000000000 by decide +kernel]; unfold value sign expo frac; norm_num⟩
  · exact ⟨0x41cdcd6500000000, by decide, by decide, by unfold value sign expo frac; norm_num, by rw [show log10 0x41cdcd6500000000 = 0x4022000000000000 by decide +kernel]; unfold value sign expo frac; norm_num⟩
  · exact ⟨0x4202a05f20000000, by decide, by decide, by unfold value sign expo frac; norm_num, by rw [show log10 0x4202a05f20000000 = 0x4024000000000000 by decide +kernel]; unfold value sign expo frac; norm_num⟩
  · exact ⟨0x42374876e8000000, by decide, by decide, by unfold value sign expo frac; norm_num, by rw [show log10 0x42374876e8000000 = 0x4026000000000000 by decide +kernel]; unfold value sign expo frac; norm_num⟩
  · exact ⟨0x426d1a94a2000000, by decide, by decide, by unfold value sign expo frac; norm_num, by rw [show log10 0x426d1a94a2000000 = 0x4028000000000000 by decide +kernel]; unfold value sign expo frac; norm_num⟩
  · exact ⟨0x42a2309ce5400000, by decide, by decide, by unfold value sign expo frac; norm_num, by rw [show log10 0x42a2309ce5400000 = 0x402a000000000000 by decide +kernel]; unfold value sign expo frac; norm_num⟩
  · exact ⟨0x42d6bcc41e900000, by decide, by decide, by unfold value sign expo frac; norm_num, by rw [show log10 0x42d6bcc41e900000 = 0x402c000000000000 by decide +kernel]; unfold value sign expo frac; norm_num⟩
  · exact ⟨0x430c6bf526340000, by decide, by decide, by unfold value sign expo frac; norm_num, by rw [show log10 0x430c6bf526340000 = 0x402e000000000000 by decide +kernel]; unfold value sign expo frac; norm_num⟩
  · exact ⟨0x4341c37937e08000, by decide, by decide, by unfold value sign expo frac; norm_num, by rw [show log10 0x4341c37937e08000 = 0x4030000000000000 by decide +kernel]; unfold value sign expo frac; norm_num⟩
  · exact ⟨0x4376345785d8a000, by decide, by decide, by unfold value sign expo frac; norm_num, by rw [show log10 0x4376345785d8a000 = 0x4031000000000000 by decide +kernel]; unfold value sign expo frac; norm_num⟩
  · exact ⟨0x43abc16d674ec800, by decide, by decide, by unfold value sign expo frac; norm_num, by rw [show log10 0x43abc16d674ec800 = 0x4032000000000000 by decide +kernel]; unfold value sign expo frac; norm_num⟩
  · exact ⟨0x43e158e460913d00, by decide, by decide, by unfold value sign expo frac; norm_num, by rw [show log10 0x43e158e460913d00 = 0x4033000000000000 by decide +kernel]; unfold value sign expo frac; norm_num⟩
  · exact ⟨0x4415af1d78b58c40, by decide, by decide, by unfold value sign expo frac; norm_num, by rw [show log10 0x4415af1d78b58c40 = 0x4034000000000000 by decide +kernel]; unfold value sign expo frac; norm_num⟩
  · exact ⟨0x444b1ae4d6e2ef50, by decide, by decide, by unfold value sign expo frac; norm_num, by rw [show log10 0x444b1ae4d6e2ef50 = 0x4035000000000000 by decide +kernel]; unfold value sign expo frac; norm_num⟩
  · exact ⟨0x4480f0cf064dd592, by decide, by decide, by unfold value sign expo frac; norm_num, by rw [show log10 0x4480f0cf064dd592 = 0x4036000000000000 by decide +kernel]; unfold value sign expo frac; norm_num⟩

/-- **Powers of ten.**  The powers of ten from `10^0` to `10^22`, which are all that doubles hold exactly, have exactly their exponents as logarithms
to the base 10. -/
theorem C129_log10_powers {x n : Nat} (hx : x < 2 ^ 64) (hn : n ≤ 22) (h : value x = 10 ^ n) : value (log10 x) = n := by
  obtain ⟨y, hy, -, v, r⟩ := tens hn
  obtain ⟨s0, -, -⟩ := positive hx (by rw [h]; positivity)
  rw [same s0 hy (by rw [h, v])]
  exact r

/-! ## The other arguments -/

theorem others {x : Nat} (hx : x < 2 ^ 64) (h : mag x = 0 ∨ sign x = 1 ∨ expo x = 2047) : log10 x = log x ∧ log2 x = log x := by
  by_cases c : Libm.neg32 (Libm.hi x) ∨ Libm.hi x < 0x00100000
  · unfold log10 log2 log
    simp only [if_pos c]
    by_cases z : (Libm.hi x &&& 0x7fffffff ||| Libm.lo x) = 0
    · simp only [if_pos z]; exact ⟨trivial, trivial⟩
    · simp only [if_neg z]
      have n : Libm.neg32 (Libm.hi x) = true := by
        rw [hi31 hx, Nat.or_eq_zero_iff] at z
        unfold Libm.neg32 Libm.hi at *
        unfold Libm.lo mag at z
        unfold mag sign expo at h
        simp at c ⊢
        omega
      simp only [if_pos n]; exact ⟨trivial, trivial⟩
  · have b : 0x7ff00000 ≤ Libm.hi x := by
      unfold Libm.neg32 Libm.hi at *
      unfold mag sign expo at h
      simp at c ⊢
      omega
    unfold log10 log2 log ends10 split split2
    simp only [if_neg c, if_pos b]; exact ⟨trivial, trivial⟩

/-- **Special arguments.**  As for the natural logarithm, and for both bases: the logarithm of zero, of either sign, is minus infinity; that of every
number below zero and of minus infinity is not a number; that of plus infinity is plus infinity; that of what is not a number is not a number. -/
theorem C129_special {x : Nat} (hx : x < 2 ^ 64) :
    (IsZero x → log10 x = 0xfff0000000000000 ∧ log2 x = 0xfff0000000000000) ∧ (IsFinite x → value x < 0 → IsNaN (log10 x) ∧ IsNaN (log2 x)) ∧
    (IsInf x → sign x = 1 → IsNaN (log10 x) ∧ IsNaN (log2 x)) ∧ (IsInf x → sign x = 0 → log10 x = x ∧ log2 x = x) ∧
    (IsNaN x → IsNaN (log10 x) ∧ IsNaN (log2 x)) := by
  obtain ⟨s1, s2, s3, s4, s5⟩ := C126_special hx
  have sx := sign_lt x
  refine ⟨fun h => ?_, fun f v => ?_, fun i s => ?_, fun i s => ?_, fun n => ?_⟩
  · obtain ⟨a, b⟩ := others hx (Or.inl (by rw [mag_eq, h.1, h.2]; rfl))
    rw [a, b]; exact ⟨s1 h, s1 h⟩
  · obtain ⟨a, b⟩ := others hx (Or.inr (Or.inl (by
      by_contra c
      have s : sign x = 0 := by omega
      have v' := value_self hx
      rw [s, pow_zero, one_mul] at v'
      have : (0 : ℚ) ≤ (units (mag x) : ℚ) / 2 ^ 1074 := by positivity
      linarith only [v', v, this])))
    rw [a, b]; exact ⟨s2 f v, s2 f v⟩
  · obtain ⟨a, b⟩ := others hx (Or.inr (Or.inr i.1))
    rw [a, b]; exact ⟨s3 i s, s3 i s⟩
  · obtain ⟨a, b⟩ := others hx (Or.inr (Or.inr i.1))
    rw [a, b]; exact ⟨s4 i s, s4 i s⟩
  · obtain ⟨a, b⟩ := others hx (Or.inr (Or.inr n.1))
    rw [a, b]; exact ⟨s5 n, s5 n⟩

/-! ## The hypotheses are met -/

/-- Logarithms to the base 10 of one half, the least positive double, the largest and minus one; to the base 2 of three and of the least positive double. -/
example : log10 0x3fe0000000000000 = 0xbfd34413509f79ff ∧ log10 1 = 0xc07434e6420f4374 ∧ log10 0x7fefffffffffffff = 0x40734413509f79ff ∧
    log2 0x4008000000000000 = 0x3ff95c01a39fbd68 ∧ log2 1 = 0xc090c80000000000 ∧ log10 0xbff0000000000000 = 0xfff8000000000000 := by decide +kernel

/-- Three, and the least positive double, which is `2^-1074`, are arguments of the theorems. -/
example : IsFinite 0x4008000000000000 ∧ value 0x4008000000000000 = 3 ∧ IsFinite 1 ∧ 0 < value 1 := by
  refine ⟨by decide, ?_, by decide, ?_⟩ <;> unfold value sign expo frac <;> norm_num

example : value 0x3fc0000000000000 = (2 : ℚ) ^ (-3 : ℤ) := by unfold value sign expo frac; norm_num

end Pok.Log
