import Verif.Lemmas.ExpReduce
import Mathlib.Analysis.SpecialFunctions.Pow.Real
/-!
# The exponential function: scaling of the result
-/
namespace Pok.Exp
open Pok.Err Pok.Float Pok.Fpu Pok.Poly Pok.Trig

/-- A number is added to the exponent. -/
theorem scale_spec {y : Nat} {k : Int} (hy : y < 2 ^ 63) (h0 : 1 ≤ expo y) (h1 : 1 ≤ (expo y : Int) + k) (h2 : (expo y : Int) + k ≤ 2046) :
    let z := Libm.setHi y ((((Libm.hi y : Nat) : Int) + k * 2 ^ 20) % 2 ^ 32).toNat
    z < 2 ^ 64 ∧ IsFinite z ∧ value z = value y * (2 : ℚ) ^ k := by
  intro z
  obtain ⟨h, hh⟩ : ∃ h, h = ((((Libm.hi y : Nat) : Int) + k * 2 ^ 20) % 2 ^ 32).toNat := ⟨_, rfl⟩
  have hz : z = h * 2 ^ 32 + y % 2 ^ 32 := by rw [hh]; rfl
  have e1 : expo y = y / 2 ^ 52 := by unfold expo; omega
  have hi1 : Libm.hi y = y / 2 ^ 32 := by unfold Libm.hi; omega
  rw [hi1] at hh
  have hv : (h : Int) = (y / 2 ^ 32 : Nat) + k * 2 ^ 20 := by rw [hh]; omega
  have ze : (expo z : Int) = expo y + k := by unfold expo; omega
  have zs : sign z = 0 := by unfold sign; omega
  have ys : sign y = 0 := by unfold sign; omega
  have zf : frac z = frac y := by unfold frac; omega
  refine ⟨by omega, by unfold IsFinite; omega, ?_⟩
  unfold value
  rw [zs, ys, zf, if_neg (by omega), if_neg (by omega), ze, show ((expo y : ℤ) + k - 1023) = ((expo y : ℤ) - 1023) + k by ring, zpow_add₀ (by norm_num)]
  ring

theorem exp_split (X : ℝ) (k : Int) : Real.exp X = Real.exp (X - k * Real.log 2) * (2 : ℝ) ^ k := by
  have : (2 : ℝ) ^ k = Real.exp (k * Real.log 2) := by
    rw [← Real.rpow_intCast, Real.rpow_def_of_pos (by norm_num)]; congr 1; ring
  rw [this, ← Real.exp_add]; congr 1; ring

/-- What is scaled at the end. -/
def core (hi lo : Nat) : Nat := sub Libm.one (sub (sub lo (div (mul (sub hi lo) (primary (sub hi lo))) (sub two (primary (sub hi lo))))) hi)

theorem red_near {X : ℝ} {k : Int} {hi lo : Nat} (h : Red X k hi lo) :
    Near (core hi lo) (Real.exp (X - k * Real.log 2)) (Real.exp (X - k * Real.log 2) * (19995 / 10000 / 2 ^ 53)) ∧
    70 / 100 ≤ Real.exp (X - k * Real.log 2) ∧ Real.exp (X - k * Real.log 2) ≤ 142 / 100 := by
  have sm := abs_le.1 h.small
  have nr := abs_le.1 h.near
  have kn := kernel1 h.hh.1 h.hh.2 h.hl.1 h.hl.2 h.bl (by rw [abs_le]; constructor <;> norm_num at * <;> linarith)
  have b0 : 70 / 100 ≤ Real.exp (X - k * Real.log 2) := by
    have := Real.exp_le_exp.2 (show -(34658 / 100000) ≤ X - k * Real.log 2 by norm_num at *; linarith)
    have := exp_a
    linarith
  have b1 : Real.exp (X - k * Real.log 2) ≤ 142 / 100 := by
    have := Real.exp_le_exp.2 (show X - k * Real.log 2 ≤ 34658 / 100000 by norm_num at *; linarith)
    have := exp_c
    linarith
  refine ⟨?_, b0, b1⟩
  have nr2 := h.near
  generalize X - k * Real.log 2 = r at *
  generalize (value hi : ℝ) - value lo = s at *
  have e1 := Real.abs_exp_sub_one_le (x := s - r) (by norm_num at *; linarith)
  have es : Real.exp s = Real.exp r * Real.exp (s - r) := by rw [← Real.exp_add]; congr 1; ring
  generalize Real.exp r = E at *
  have e2 : |Real.exp s - E| ≤ E * (4 / 10 ^ 22) := by
    rw [es, show E * Real.exp (s - r) - E = E * (Real.exp (s - r) - 1) by ring, abs_mul, abs_of_pos (by linarith)]
    exact mul_le_mul_of_nonneg_left (by norm_num at *; linarith) (by linarith)
  have e2' := abs_le.1 e2
  refine (kn.move e2).weaken ?_
  norm_num at *
  linarith

/-- The exponent of a number around 1. -/
theorem expo_around {y : Nat} (hy : y < 2 ^ 64) (h0 : 1 / 2 ≤ value y) (h1 : value y < 2) :
    y < 2 ^ 63 ∧ 1022 ≤ expo y ∧ expo y ≤ 1023 ∧ (value y < 1 → expo y = 1022) := by
  have ys : sign y = 0 := by
    by_contra c
    have s1 : sign y = 1 := by have := sign_lt y; omega
    have := value_self hy
    rw [s1, pow_one] at this
    have un : (0 : ℚ) ≤ (units (mag y) : ℚ) / 2 ^ 1074 := div_nonneg (Nat.cast_nonneg _) (pow_nonneg (by norm_num) _)
    linarith
  have y63 : y < 2 ^ 63 := by unfold sign at ys; omega
  have vp := value_pos y63
  have he : 1022 ≤ expo y := by
    by_contra c
    have m : mag y ≤ 0x3fe0000000000000 - 1 := by rw [mag_eq]; have := frac_lt y; omega
    have := value_mono hy (by norm_num) m
    have v : value (0x3fe0000000000000 - 1) < 1 / 2 := by unfold value sign expo frac; norm_num
    linarith
  have he1 : expo y ≤ 1023 := by
    by_contra c
    have m : 0x4000000000000000 ≤ mag y := by rw [mag_eq]; omega
    have := value_mono' hy (by norm_num) m
    have v : value 0x4000000000000000 = 2 := by unfold value sign expo frac; norm_num
    linarith
  refine ⟨y63, he, he1, fun l => ?_⟩
  by_contra c
  have m : 0x3ff0000000000000 ≤ mag y := by rw [mag_eq]; omega
  have := value_mono' hy (by norm_num) m
  have v : value 0x3ff0000000000000 = 1 := by unfold value sign expo frac; norm_num
  linarith

theorem v_twom1000 : twom1000 < 2 ^ 64 ∧ IsFinite twom1000 ∧ value twom1000 = (2 : ℚ) ^ (-1000 : ℤ) := by
  refine ⟨by decide, by decide, ?_⟩
  unfold twom1000 value sign expo frac; norm_num

/-- The result of a reduced argument. -/
theorem finish_near {X : ℝ} {k : Int} {hi lo : Nat} (h : Red X k hi lo) (k0 : k ≠ 0) (k1 : -1075 ≤ k) (k2 : k ≤ 1024)
    (k3 : k = 1024 → X - 1024 * Real.log 2 ≤ -(1 / 10 ^ 14)) :
    IsFinite (finish (sub hi lo) hi lo k) ∧
    |(value (finish (sub hi lo) hi lo k) : ℝ) - Real.exp X| ≤ Real.exp X / 2 ^ 52 + (if k < -1021 then 1 / 2 ^ 1075 else 0) := by
  obtain ⟨nr, b0, b1⟩ := red_near h
  have fe : finish (sub hi lo) hi lo k = if k ≥ -1021 then Libm.setHi (core hi lo) ((((Libm.hi (core hi lo) : Nat) : Int) + k * 2 ^ 20) % 2 ^ 32).toNat
      else mul (Libm.setHi (core hi lo) ((((Libm.hi (core hi lo) : Nat) : Int) + (k + 1000) * 2 ^ 20) % 2 ^ 32).toNat) twom1000 := by
    unfold finish; rw [if_neg k0]; rfl
  rw [fe]
  generalize core hi lo = y at *
  have lt1 : k = 1024 → Real.exp (X - k * Real.log 2) ≤ 1 - 1 / 10 ^ 15 := by
    rintro rfl
    have k3 := k3 rfl
    have m := Real.exp_le_exp.2 (show X - ((1024 : Int) : ℝ) * Real.log 2 ≤ -(1 / 10 ^ 14) by push_cast; exact k3)
    have q := abs_le.1 (Real.abs_exp_sub_one_sub_id_le (x := -(1 / 10 ^ 14)) (by norm_num [abs_le]))
    refine le_trans m ?_
    norm_num at *; linarith
  have sp := exp_split X k
  generalize Real.exp (X - k * Real.log 2) = E at *
  have e := abs_le.1 nr.2.2
  have y0 : 1 / 2 ≤ value y := by
    have : ((1 / 2 : ℚ) : ℝ) ≤ (value y : ℝ) := by push_cast; norm_num at e; linarith only [e.1, b0]
    exact_mod_cast this
  have y1 : value y < 3 / 2 := by
    have : (value y : ℝ) < ((3 / 2 : ℚ) : ℝ) := by push_cast; norm_num at e; linarith only [e.2, b1]
    exact_mod_cast this
  have yl : k = 1024 → value y < 1 := by
    intro c
    have l := lt1 c
    have : (value y : ℝ) < ((1 : ℚ) : ℝ) := by push_cast; norm_num at e l; linarith only [e.2, l]
    exact_mod_cast this
  obtain ⟨y63, x0, x1, x2⟩ := expo_around nr.1 y0 (by linarith)
  have p0 : (0 : ℝ) < (2 : ℝ) ^ k := by positivity
  have main : |(value y : ℝ) * (2 : ℝ) ^ k - Real.exp X| ≤ Real.exp X / 2 ^ 52 := by
    rw [sp, ← sub_mul, abs_mul, abs_of_pos p0]
    have : |(value y : ℝ) - E| ≤ E / 2 ^ 52 := le_trans nr.2.2 (by norm_num; linarith)
    refine le_trans (mul_le_mul_of_nonneg_right this p0.le) (le_of_eq (by ring))
  by_cases c : k ≥ -1021
  · rw [if_pos c, if_neg (by omega), add_zero]
    have hk : (expo y : Int) + k ≤ 2046 := by
      by_cases d : k = 1024
      · have := x2 (yl d); omega
      · omega
    obtain ⟨s1, s2, s3⟩ := scale_spec (k := k) y63 (by omega) (by omega) hk
    refine ⟨s2, ?_⟩
    rw [s3]; push_cast; exact main
  · rw [if_neg c, if_pos (by omega)]
    obtain ⟨s1, s2, s3⟩ := scale_spec (k := k + 1000) y63 (by omega) (by omega) (by omega)
    generalize Libm.setHi y ((((Libm.hi y : Nat) : Int) + (k + 1000) * 2 ^ 20) % 2 ^ 32).toNat = z at *
    have r := Libm.fpu_mul s1 v_twom1000.1 s2 v_twom1000.2.1
    have pv : value z * value twom1000 = value y * (2 : ℚ) ^ k := by
      rw [s3, v_twom1000.2.2, mul_assoc, ← zpow_add₀ (by norm_num)]; congr 2; ring
    rw [pv] at r
    have small : |value y * (2 : ℚ) ^ k| ≤ 1 / 2 ^ 1021 := by
      rw [abs_of_nonneg (mul_nonneg (by linarith) (by positivity))]
      have a : (2 : ℚ) ^ k ≤ 2 ^ (-1022 : ℤ) := zpow_le_zpow_right₀ (by norm_num) (by omega)
      have b : (2 : ℚ) ^ (-1022 : ℤ) = 1 / 2 ^ 1021 / 2 := by
        rw [zpow_neg, show ((2 : ℚ) ^ (1022 : ℤ)) = 2 ^ 1021 * 2 by rw [← pow_succ]; rfl, mul_inv, one_div, div_eq_mul_inv]
      have q0 : (0 : ℚ) ≤ 2 ^ k := by positivity
      rw [b] at a
      generalize (1 : ℚ) / 2 ^ 1021 = Q at *
      calc value y * 2 ^ k ≤ 3 / 2 * (Q / 2) := mul_le_mul y1.le a q0 (by norm_num)
        _ ≤ Q := by linarith
    have lim : (1 : ℚ) / 2 ^ 1021 ≤ 2 ^ 1000 := le_trans (div_le_one_of_le₀ (one_le_pow₀ (by norm_num)) (by positivity)) (one_le_pow₀ (by norm_num))
    obtain ⟨n1, n2⟩ := rounded_near r (le_trans small lim)
    have le := nearest_least n2 small
    refine ⟨n2.1, ?_⟩
    have le' := (Rat.cast_le (K := ℝ)).2 le
    push_cast at le'
    refine le_trans (abs_sub_le _ ((value y : ℝ) * (2 : ℝ) ^ k) _) ?_
    rw [add_comm]
    exact add_le_add main le'

end Pok.Exp
