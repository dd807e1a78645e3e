import Verif.Lemmas.Atan
/-!
# The arc tangent: the breakpoints
-/
namespace Pok.Atan
open Pok.Err Pok.Float Pok.Fpu Pok.Poly Pok.Trig

/-! ## The four constants -/

theorem pi_q : |(15707963267948966192313216916397514 / 10 ^ 34 : ℝ) - Real.pi / 2| ≤ 5 / 10 ^ 30 := by
  have h := halfPi_near
  rwa [show (halfPi : ℝ) = 15707963267948966192313216916397514 / 10 ^ 34 by unfold halfPi; norm_num] at h

theorem c3 : |(hi3q : ℝ) + lo3q - Real.pi / 2| ≤ 1 / 10 ^ 19 := by
  have h := abs_le.1 pi_q
  unfold hi3q lo3q; push_cast
  rw [abs_le]; constructor <;> norm_num at * <;> linarith

theorem c1 : |(hi1q : ℝ) + lo1q - Real.arctan 1| ≤ 1 / 10 ^ 19 := by
  have h := abs_le.1 pi_q
  rw [Real.arctan_one]
  unfold hi1q lo1q; push_cast
  rw [abs_le]; constructor <;> norm_num at * <;> linarith

theorem c0 : |(hi0q : ℝ) + lo0q - Real.arctan (1 / 2)| ≤ 1 / 10 ^ 19 := by
  have h := abs_le.1 (arctan_series 34 (t := 1 / 2) (b := 1 / 2) (by rw [abs_of_pos] <;> norm_num))
  simp only [Finset.sum_range_succ, Finset.sum_range_zero] at h
  rw [abs_of_pos (show (0 : ℝ) < 1 / 2 by norm_num)] at h
  generalize Real.arctan (1 / 2) = X at *
  unfold hi0q lo0q; push_cast at *
  rw [abs_le]; constructor <;> norm_num at * <;> linarith

/-- The difference of two arc tangents. -/
theorem step {c x : ℝ} (hc : 0 < c) (hx : 0 < x) : Real.arctan c + Real.arctan ((x - c) / (1 + c * x)) = Real.arctan x := by
  have p : 0 < 1 + c * x := by positivity
  have h : c * ((x - c) / (1 + c * x)) < 1 := by
    rw [mul_div_assoc', div_lt_one p]
    have := mul_pos hc hc
    linarith
  rw [Real.arctan_add h]
  congr 1
  rw [div_eq_iff (by linarith)]
  field_simp
  ring

theorem c2 : |(hi2q : ℝ) + lo2q - Real.arctan (3 / 2)| ≤ 1 / 10 ^ 19 := by
  have h := abs_le.1 (arctan_series 15 (t := 1 / 5) (b := 1 / 5) (by rw [abs_of_pos] <;> norm_num))
  have s := step (c := 1) (x := 3 / 2) (by norm_num) (by norm_num)
  rw [show ((3 : ℝ) / 2 - 1) / (1 + 1 * (3 / 2)) = 1 / 5 by norm_num, Real.arctan_one] at s
  have p := abs_le.1 pi_q
  simp only [Finset.sum_range_succ, Finset.sum_range_zero] at h
  rw [abs_of_pos (show (0 : ℝ) < 1 / 5 by norm_num)] at h
  rw [← s]
  generalize Real.arctan (1 / 5) = X at *
  clear s
  unfold hi2q lo2q; push_cast at *
  rw [abs_le]; constructor <;> norm_num at * <;> linarith

theorem arctan_abs (x : ℝ) : |Real.arctan x| ≤ |x| := by
  have := arctan_lip x 0; simpa using this

theorem arctan_ge {x m : ℝ} (hm : 0 ≤ m) (h : -m ≤ x) : -m ≤ Real.arctan x := by
  have a := Real.arctan_mono h
  have b := arctan_abs (-m)
  rw [abs_neg, abs_of_nonneg hm] at b
  linarith [(abs_le.1 b).1]

/-! ## The end -/

/-- `x * (s1 + s2)`. -/
theorem prod_near {t : Nat} {M : ℝ} (ht : t < 2 ^ 64) (ft : IsFinite t) (hM : |(value t : ℝ)| ≤ M) (M1 : M ≤ 4376 / 10000) :
    Nb (mul t (tail t)) ((value t : ℝ) * pol ((value t : ℝ) * value t)) (M * (4252 / 10 ^ 20) + 1 / 10 ^ 50) (M * (723461 / 10 ^ 7)) := by
  have m0 : 0 ≤ M := le_trans (abs_nonneg _) hM
  exact Nb.mul (m := M) _ _ ⟨Near.self ht ft, hM⟩ (tail_near ht ft (le_trans hM M1)) (by norm_num; linarith) le_rfl (by norm_num; linarith)

theorem finish_near {t h l : Nat} {T e M C A : ℝ} {hq lq : ℚ} (ht : t < 2 ^ 64) (ft : IsFinite t) (hM : |(value t : ℝ)| ≤ M) (M1 : M ≤ 4376 / 10000)
    (hT : |(value t : ℝ) - T| ≤ e) (he : e ≤ 1 / 10 ^ 10) (hh : Nb h (hq : ℝ) 0 2) (hl : Nb l (lq : ℝ) 0 (1 / 10 ^ 15)) (hC : |(hq : ℝ) + lq - C| ≤ 1 / 10 ^ 19)
    (hA : C + Real.arctan T = A) (A0 : 4 / 10 ≤ A) (A1 : A ≤ 2) :
    Near (sub h (sub (sub (mul t (tail t)) l) t)) A (A / 2 ^ 53 + M * (184 / 10 ^ 18) + e * (1 + 1 / 10 ^ 10) + 2 / 10 ^ 19) := by
  have m0 : 0 ≤ M := le_trans (abs_nonneg _) hM
  have e0 : 0 ≤ e := le_trans (abs_nonneg _) hT
  have h1 := prod_near ht ft hM M1
  have h2 := Nb.sub (M * (5056 / 10 ^ 20) + 1 / 10 ^ 25) (M * (723461 / 10 ^ 7) + 1 / 10 ^ 15) h1 hl (by norm_num; linarith) (by linarith) (by norm_num; linarith)
  have h3 := Nb.sub (M * (1697 / 10 ^ 19) + 1 / 10 ^ 24) (M * (10723461 / 10 ^ 7) + 1 / 10 ^ 15) h2 ⟨Near.self ht ft, hM⟩ (by norm_num; linarith) (by norm_num; linarith)
    (by norm_num; linarith)
  have p := abs_le.1 (pol_near (le_trans hM M1))
  have q := abs_le.1 (le_trans (arctan_lip (value t : ℝ) T) hT)
  have c := abs_le.1 hC
  have pm : |(value t : ℝ)| * (13 / 10 ^ 18) ≤ M * (13 / 10 ^ 18) := mul_le_mul_of_nonneg_right hM (by norm_num)
  have d : |(hq : ℝ) - ((value t : ℝ) * pol ((value t : ℝ) * value t) - lq - value t) - A| ≤ M * (13 / 10 ^ 18) + e + 1 / 10 ^ 19 := by
    rw [← hA, abs_le]; constructor <;> linarith
  have h4 := hh.1.sub h3.1 (m := A + (M * (13 / 10 ^ 18) + e + 1 / 10 ^ 19)) (g := A / 2 ^ 53 + M * (1698 / 10 ^ 19) + e * (1 / 10 ^ 10) + 1 / 10 ^ 22) (by
    have := abs_add_le ((hq : ℝ) - ((value t : ℝ) * pol ((value t : ℝ) * value t) - lq - value t) - A) A
    rw [sub_add_cancel, abs_of_pos (show 0 < A by linarith)] at this
    linarith) (by norm_num; linarith) (by norm_num at *; linarith)
  exact (h4.move d).weaken (by norm_num; linarith)

end Pok.Atan
