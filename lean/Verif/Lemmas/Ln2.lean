import Verif.Lemmas.Pi
import Mathlib.Analysis.SpecialFunctions.Log.Basic
/-!
# The exponential function as a polynomial, and the logarithm of 2 to thirty digits
-/
namespace Pok.Poly
open Finset

/-- `exp x` as a polynomial. -/
def expT : List ℚ :=
  [1, 1, 1/2, 1/6, 1/24, 1/120, 1/720, 1/5040, 1/40320, 1/362880, 1/3628800, 1/39916800, 1/479001600, 1/6227020800, 1/87178291200, 1/1307674368000,
   1/20922789888000, 1/355687428096000]

theorem exp_poly {x : ℝ} (hx : |x| ≤ 1) : |Real.exp x - ev expT x| ≤ |x| ^ 18 / 2 ^ 52 := by
  have h := Real.exp_bound hx (n := 18) (by omega)
  have e : ∑ m ∈ range 18, x ^ m / m.factorial = ev expT x := by
    simp only [sum_range_succ, sum_range_zero, expT, ev]
    norm_num [Nat.factorial]
    ring
  rw [e] at h
  refine le_trans h ?_
  rw [div_eq_mul_inv (|x| ^ 18)]
  refine mul_le_mul_of_nonneg_left ?_ (by positivity)
  norm_num [Nat.factorial]

/-- Thirty digits of the logarithm of 2. -/
def ln2 : ℚ := 6931471805599453094172321214581766 / 10 ^ 34

/-- The square of a number known with an error. -/
theorem sq_near {a : ℝ} {A e : ℚ} (h : |a - A| ≤ e) (hA : |A| ≤ 2) (he : e ≤ 1) : |a ^ 2 - ((A ^ 2 : ℚ) : ℝ)| ≤ ((5 * e : ℚ) : ℝ) := by
  have hA' : |(A : ℝ)| ≤ 2 := by exact_mod_cast (Rat.cast_le (K := ℝ)).2 hA
  have he' : (e : ℝ) ≤ 1 := by exact_mod_cast he
  push_cast
  rw [show a ^ 2 - (A : ℝ) ^ 2 = (a - A) * ((a - A) + 2 * A) by ring, abs_mul]
  have t : |(a - A) + 2 * (A : ℝ)| ≤ 5 := by
    refine le_trans (abs_add_le _ _) ?_
    rw [abs_mul, abs_two]
    linarith
  calc |a - A| * |(a - A) + 2 * (A : ℝ)| ≤ e * 5 := mul_le_mul h t (abs_nonneg _) (le_trans (abs_nonneg _) h)
    _ = 5 * e := by ring

theorem exp_ln2q : |evq expT (ln2 / 8)| ≤ 2 ∧ |evq expT (ln2 / 8) ^ 2| ≤ 2 ∧ |(evq expT (ln2 / 8) ^ 2) ^ 2| ≤ 2 ∧
    |((evq expT (ln2 / 8) ^ 2) ^ 2) ^ 2 - 2| ≤ 1 / 10 ^ 31 := by decide +kernel

theorem ln2_near : |(ln2 : ℝ) - Real.log 2| ≤ 1 / 10 ^ 30 := by
  obtain ⟨q1, q2, q3, q4⟩ := exp_ln2q
  have b : |((ln2 / 8 : ℚ) : ℝ)| ≤ 87 / 1000 := by push_cast; unfold ln2; rw [abs_le]; constructor <;> norm_num
  have h0 := exp_poly (x := ((ln2 / 8 : ℚ) : ℝ)) (by linarith)
  have e0 : |((ln2 / 8 : ℚ) : ℝ)| ^ 18 / 2 ^ 52 ≤ ((1 / 10 ^ 34 : ℚ) : ℝ) := by
    have := pow_le_pow_left₀ (abs_nonneg _) b 18
    rw [div_le_iff₀ (by positivity)]
    refine le_trans this ?_
    norm_num
  have h1 := le_trans h0 e0
  rw [← evq_cast] at h1
  have h2 := sq_near h1 q1 (by norm_num)
  have h3 := sq_near h2 q2 (by norm_num)
  have h4 := sq_near h3 q3 (by norm_num)
  have ee : ((Real.exp ((ln2 / 8 : ℚ) : ℝ) ^ 2) ^ 2) ^ 2 = Real.exp (ln2 : ℝ) := by
    rw [← pow_mul, ← pow_mul, ← Real.exp_nat_mul]
    congr 1; push_cast; ring
  rw [ee] at h4
  generalize (((evq expT (ln2 / 8)) ^ 2) ^ 2) ^ 2 = K at *
  have q4' : |(K : ℝ) - 2| ≤ 1 / 10 ^ 31 := by
    have := (Rat.cast_le (K := ℝ)).2 q4; push_cast at this ⊢; exact this
  have c : |Real.exp (ln2 : ℝ) - 2| ≤ 2 / 10 ^ 31 := by
    have := abs_sub_le (Real.exp (ln2 : ℝ)) (K : ℝ) 2
    push_cast at h4
    norm_num at *
    linarith
  have hl : Real.exp (Real.log 2) = 2 := Real.exp_log (by norm_num)
  have c' := abs_le.1 c
  rw [abs_le]
  constructor
  · -- `ln2 < log 2`
    have a1 := Real.add_one_le_exp (Real.log 2 - ln2)
    rw [Real.exp_sub, hl] at a1
    have : 2 / Real.exp (ln2 : ℝ) ≤ 1 + 5 / 10 ^ 31 := by
      rw [div_le_iff₀ (Real.exp_pos _)]
      norm_num at *; linarith
    norm_num at *; linarith
  · have a1 := Real.add_one_le_exp ((ln2 : ℝ) - Real.log 2)
    rw [Real.exp_sub, hl] at a1
    have : Real.exp (ln2 : ℝ) / 2 ≤ 1 + 5 / 10 ^ 31 := by
      norm_num at *; linarith
    norm_num at *; linarith

end Pok.Poly
