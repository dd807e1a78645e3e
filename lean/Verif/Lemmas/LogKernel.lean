import Verif.Lemmas.ExpReduce
import Verif.Model.Log
import Mathlib.Analysis.SpecialFunctions.Log.Deriv
/-!
# The logarithm: the polynomial
-/
namespace Pok.Log
open Pok.Err Pok.Float Pok.Fpu Pok.Poly

/-! The constants. -/
def Lg1q : ℚ := 6004799503160723 / 2 ^ 53
theorem v_Lg1 : Lg1 < 2 ^ 64 ∧ IsFinite Lg1 ∧ value Lg1 = Lg1q := by
  refine ⟨by decide, by decide, ?_⟩
  unfold Lg1 Lg1q value sign expo frac; norm_num
theorem n_Lg1 : Nb Lg1 (Lg1q : ℝ) 0 (666666666667 / 10 ^ 12) := Nb.const v_Lg1 (by unfold Lg1q; rw [abs_le]; constructor <;> norm_num)
def Lg2q : ℚ := 1801439850921601 / 2 ^ 52
theorem v_Lg2 : Lg2 < 2 ^ 64 ∧ IsFinite Lg2 ∧ value Lg2 = Lg2q := by
  refine ⟨by decide, by decide, ?_⟩
  unfold Lg2 Lg2q value sign expo frac; norm_num
theorem n_Lg2 : Nb Lg2 (Lg2q : ℝ) 0 (399999999995 / 10 ^ 12) := Nb.const v_Lg2 (by unfold Lg2q; rw [abs_le]; constructor <;> norm_num)
def Lg3q : ℚ := 5146971033736025 / 2 ^ 54
theorem v_Lg3 : Lg3 < 2 ^ 64 ∧ IsFinite Lg3 ∧ value Lg3 = Lg3q := by
  refine ⟨by decide, by decide, ?_⟩
  unfold Lg3 Lg3q value sign expo frac; norm_num
theorem n_Lg3 : Nb Lg3 (Lg3q : ℝ) 0 (285714287437 / 10 ^ 12) := Nb.const v_Lg3 (by unfold Lg3q; rw [abs_le]; constructor <;> norm_num)
def Lg4q : ℚ := 8006390766270639 / 2 ^ 55
theorem v_Lg4 : Lg4 < 2 ^ 64 ∧ IsFinite Lg4 ∧ value Lg4 = Lg4q := by
  refine ⟨by decide, by decide, ?_⟩
  unfold Lg4 Lg4q value sign expo frac; norm_num
theorem n_Lg4 : Nb Lg4 (Lg4q : ℝ) 0 (222221984322 / 10 ^ 12) := Nb.const v_Lg4 (by unfold Lg4q; rw [abs_le]; constructor <;> norm_num)
def Lg5q : ℚ := 3275661152453103 / 2 ^ 54
theorem v_Lg5 : Lg5 < 2 ^ 64 ∧ IsFinite Lg5 ∧ value Lg5 = Lg5q := by
  refine ⟨by decide, by decide, ?_⟩
  unfold Lg5 Lg5q value sign expo frac; norm_num
theorem n_Lg5 : Nb Lg5 (Lg5q : ℝ) 0 (181835721617 / 10 ^ 12) := Nb.const v_Lg5 (by unfold Lg5q; rw [abs_le]; constructor <;> norm_num)
def Lg6q : ℚ := 5517391500461727 / 2 ^ 55
theorem v_Lg6 : Lg6 < 2 ^ 64 ∧ IsFinite Lg6 ∧ value Lg6 = Lg6q := by
  refine ⟨by decide, by decide, ?_⟩
  unfold Lg6 Lg6q value sign expo frac; norm_num
theorem n_Lg6 : Nb Lg6 (Lg6q : ℝ) 0 (153138376993 / 10 ^ 12) := Nb.const v_Lg6 (by unfold Lg6q; rw [abs_le]; constructor <;> norm_num)
def Lg7q : ℚ := 1332903234475153 / 2 ^ 53
theorem v_Lg7 : Lg7 < 2 ^ 64 ∧ IsFinite Lg7 ∧ value Lg7 = Lg7q := by
  refine ⟨by decide, by decide, ?_⟩
  unfold Lg7 Lg7q value sign expo frac; norm_num
theorem n_Lg7 : Nb Lg7 (Lg7q : ℝ) 0 (147981986052 / 10 ^ 12) := Nb.const v_Lg7 (by unfold Lg7q; rw [abs_le]; constructor <;> norm_num)
def halfq : ℚ := 1 / 2 ^ 1
theorem v_half : half < 2 ^ 64 ∧ IsFinite half ∧ value half = halfq := by
  refine ⟨by decide, by decide, ?_⟩
  unfold half halfq value sign expo frac; norm_num
theorem n_half : Nb half (halfq : ℝ) 0 (500000000000 / 10 ^ 12) := Nb.const v_half (by unfold halfq; rw [abs_le]; constructor <;> norm_num)
def thirdq : ℚ := 6004799503160661 / 2 ^ 54
theorem v_third : third < 2 ^ 64 ∧ IsFinite third ∧ value third = thirdq := by
  refine ⟨by decide, by decide, ?_⟩
  unfold third thirdq value sign expo frac; norm_num
theorem n_third : Nb third (thirdq : ℝ) 0 (333333333334 / 10 ^ 12) := Nb.const v_third (by unfold thirdq; rw [abs_le]; constructor <;> norm_num)

/-! ## The polynomial against the logarithm -/

/-- `(log ((1 + s) / (1 - s)) - 2 s) / s` as a polynomial of the square of `s`. -/
def lgT : List ℚ := [0, 2/3, 2/5, 2/7, 2/9, 2/11, 2/13, 2/15, 2/17, 2/19, 2/21, 2/23, 2/25]

theorem series {s : ℝ} (h : |s| ≤ 17158 / 100000) : |Real.log (1 + s) - Real.log (1 - s) - s * (2 + ev lgT (s * s))| ≤ |s| * (1 / 10 ^ 19) := by
  have a := Real.abs_log_sub_add_sum_range_le (x := s) (by linarith) 26
  have b := Real.abs_log_sub_add_sum_range_le (x := -s) (by rw [abs_neg]; linarith) 26
  rw [abs_neg, sub_neg_eq_add] at b
  have e : s * (2 + ev lgT (s * s)) = ∑ i ∈ Finset.range 26, s ^ (i + 1) / (i + 1) - ∑ i ∈ Finset.range 26, (-s) ^ (i + 1) / (i + 1) := by
    simp only [Finset.sum_range_succ, Finset.sum_range_zero, lgT, ev]
    push_cast
    ring
  have t : |s| ^ (26 + 1) / (1 - |s|) ≤ |s| * (4 / 10 ^ 20) := by
    rw [div_le_iff₀ (by linarith), pow_succ, mul_comm (|s| ^ 26), mul_assoc]
    refine mul_le_mul_of_nonneg_left ?_ (abs_nonneg _)
    have p := pow_le_pow_left₀ (abs_nonneg _) h 26
    refine le_trans p ?_
    norm_num at *; linarith
  rw [e]
  have a := abs_le.1 (le_trans a t)
  have b := abs_le.1 (le_trans b t)
  generalize ∑ i ∈ Finset.range 26, s ^ (i + 1) / ((i : ℝ) + 1) = X at *
  generalize ∑ i ∈ Finset.range 26, (-s) ^ (i + 1) / ((i : ℝ) + 1) = Y at *
  have := abs_nonneg s
  rw [abs_le]; constructor <;> norm_num at * <;> linarith

/-- The polynomial of the code. -/
noncomputable def pol (Z : ℝ) : ℝ :=
  Z * (Lg1q + Z * Z * (Lg3q + Z * Z * (Lg5q + Z * Z * Lg7q))) + Z * Z * (Lg2q + Z * Z * (Lg4q + Z * Z * Lg6q))

/-- Its difference from the series. -/
def lgD : List ℚ := plus [0, Lg1q, Lg2q, Lg3q, Lg4q, Lg5q, Lg6q, Lg7q] (lgT.map (-1 * ·))

theorem lgD_eq (Z : ℝ) : ev lgD Z = pol Z - ev lgT Z := by
  unfold lgD
  rw [ev_plus, ev_scale]
  simp only [ev, pol]
  push_cast; ring

theorem lgD_ok : ok lgD 0 (2946 / 12800000) (1 / 2 ^ 58) 64 = true := by decide +kernel

theorem pol_near {s : ℝ} (h : |s| ≤ 17158 / 100000) : |Real.log (1 + s) - Real.log (1 - s) - s * (2 + pol (s * s))| ≤ |s| * (1 / 2 ^ 57) := by
  have z0 := mul_self_nonneg s
  have z1 : s * s ≤ 2945 / 100000 := by
    rw [← abs_mul_abs_self s]
    exact le_trans (mul_le_mul h h (abs_nonneg _) (by norm_num)) (by norm_num)
  have b := ev_ok (t := s * s) (by norm_num) lgD_ok (by push_cast; exact z0) (by push_cast; norm_num at *; linarith)
  rw [lgD_eq] at b
  have a := series h
  rw [show Real.log (1 + s) - Real.log (1 - s) - s * (2 + pol (s * s)) = (Real.log (1 + s) - Real.log (1 - s) - s * (2 + ev lgT (s * s))) -
    s * (pol (s * s) - ev lgT (s * s)) by ring]
  refine le_trans (abs_sub _ _) ?_
  rw [abs_mul]
  have m := mul_le_mul_of_nonneg_left b (abs_nonneg s)
  have n0 := abs_nonneg s
  push_cast at m
  generalize |s| = t at *
  norm_num at m a ⊢; linarith

/-! ## Rounding -/

/-- `R` with bounds that are multiples of the square of `s`. -/
theorem tail_near {s : Nat} {S A : ℝ} (hs : Near s S (A * (2002 / 1000 / 2 ^ 53))) (hA : |S| = A) (h0 : 1 / 2 ^ 22 ≤ A) (h1 : A ≤ 17158 / 100000) :
    Nb (tail s) (pol (S * S)) (A * A * (6125 / 10 ^ 19)) (A * A * (6788 / 10 ^ 4)) := by
  have B0 : 1 / 2 ^ 44 ≤ A * A := le_trans (by norm_num) (mul_le_mul h0 h0 (by norm_num) (by linarith))
  have B1 : A * A ≤ 2945 / 100000 := le_trans (mul_le_mul h1 h1 (by linarith) (by norm_num)) (by norm_num)
  obtain ⟨B, hB⟩ : ∃ B, B = A * A := ⟨_, rfl⟩
  have hz : Nb (mul s s) (S * S) (B * (5562 / 10 ^ 19)) B := by
    have := Nb.mul (B * (5562 / 10 ^ 19)) B ⟨hs, hA.le⟩ ⟨hs, hA.le⟩ (by
      rw [show A * (2002 / 1000 / 2 ^ 53) * A + A * (2002 / 1000 / 2 ^ 53) * A + A * (2002 / 1000 / 2 ^ 53) * (A * (2002 / 1000 / 2 ^ 53)) +
        (A * A + (A * (2002 / 1000 / 2 ^ 53) * A + A * (2002 / 1000 / 2 ^ 53) * A + A * (2002 / 1000 / 2 ^ 53) * (A * (2002 / 1000 / 2 ^ 53)))) / 2 ^ 53 =
        A * A * (2 * (2002 / 1000 / 2 ^ 53) + (2002 / 1000 / 2 ^ 53) ^ 2 + (1 + 2 * (2002 / 1000 / 2 ^ 53) + (2002 / 1000 / 2 ^ 53) ^ 2) / 2 ^ 53) by ring,
        ← hB]
      rw [← hB] at B0 B1
      norm_num at *; linarith) hB.ge (by
      rw [show A * A + (A * (2002 / 1000 / 2 ^ 53) * A + A * (2002 / 1000 / 2 ^ 53) * A + A * (2002 / 1000 / 2 ^ 53) * (A * (2002 / 1000 / 2 ^ 53))) =
        A * A * (1 + 2 * (2002 / 1000 / 2 ^ 53) + (2002 / 1000 / 2 ^ 53) ^ 2) by ring, ← hB]
      rw [← hB] at B0 B1
      norm_num at *; linarith)
    exact this
  rw [← hB] at B0 B1 ⊢
  clear hB hs hA h0 h1
  obtain ⟨z, ez⟩ : ∃ z, z = mul s s := ⟨_, rfl⟩
  rw [← ez] at hz
  have hw := Nb.mul (B * (3607 / 10 ^ 20)) (B * (2945 / 100000)) hz (hz.weaken le_rfl B1) (by
    have q := mul_le_mul_of_nonneg_left B1 (show 0 ≤ B by norm_num at *; linarith)
    norm_num at *; linarith) le_rfl (by
    have q := mul_le_mul_of_nonneg_left B1 (show 0 ≤ B by norm_num at *; linarith)
    norm_num at *; linarith)
  have hw' : Nb (mul z z) (S * S * (S * S)) (1063 / 10 ^ 21) (8674 / 10 ^ 7) := hw.weaken (by norm_num at *; linarith) (by norm_num at *; linarith)
  have e : tail s = add (mul z (add Lg1 (mul (mul z z) (add Lg3 (mul (mul z z) (add Lg5 (mul (mul z z) Lg7)))))))
      (mul (mul z z) (add Lg2 (mul (mul z z) (add Lg4 (mul (mul z z) Lg6))))) := by rw [ez]; rfl

  have h1 := Nb.mul (1776 / 10 ^ 22) (1329 / 10 ^ 7) hw' n_Lg6 (by norm_num) (by norm_num) (by norm_num)
  have h2 := Nb.add (2487 / 10 ^ 20) (2224 / 10 ^ 4) n_Lg4 h1 (by norm_num) (by norm_num) (by norm_num)
  have h3 := Nb.mul (2795 / 10 ^ 22) (1930 / 10 ^ 7) hw' h2 (by norm_num) (by norm_num) (by norm_num)
  have h4 := Nb.add (4471 / 10 ^ 20) (4002 / 10 ^ 4) n_Lg2 h3 (by norm_num) (by norm_num) (by norm_num)
  have h5 := Nb.mul (1716 / 10 ^ 22) (1284 / 10 ^ 7) hw' n_Lg7 (by norm_num) (by norm_num) (by norm_num)
  have h6 := Nb.add (2038 / 10 ^ 20) (1820 / 10 ^ 4) n_Lg5 h5 (by norm_num) (by norm_num) (by norm_num)
  have h7 := Nb.mul (2287 / 10 ^ 22) (1579 / 10 ^ 7) hw' h6 (by norm_num) (by norm_num) (by norm_num)
  have h8 := Nb.add (3197 / 10 ^ 20) (2859 / 10 ^ 4) n_Lg3 h7 (by norm_num) (by norm_num) (by norm_num)
  have h9 := Nb.mul (3592 / 10 ^ 22) (2480 / 10 ^ 7) hw' h8 (by norm_num) (by norm_num) (by norm_num)
  have h10 := Nb.add (7441 / 10 ^ 20) (6670 / 10 ^ 4) n_Lg1 h9 (by norm_num) (by norm_num) (by norm_num)
  have t1 := Nb.mul (B * (1708 / 10 ^ 20)) (B * (1179 / 10 ^ 5)) hw h4 (by norm_num at *; linarith) (by norm_num at *; linarith) (by norm_num at *; linarith)
  have t2 := Nb.mul (B * (5200 / 10 ^ 19)) (B * (6670 / 10 ^ 4)) hz h10 (by norm_num at *; linarith) (by norm_num at * <;> linarith) (by norm_num at *; linarith)
  rw [e]
  exact Nb.add _ _ t2 t1 (by norm_num at *; linarith) (by norm_num at *; linarith) (by norm_num at *; linarith)

end Pok.Log
