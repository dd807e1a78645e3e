import Mathlib.Analysis.Complex.Trigonometric
import Mathlib.Tactic.NormNum.NatFactorial
import Verif.Lemmas.Poly
/-!
# Polynomials near sine and cosine
-/
namespace Pok.Poly
open Complex Finset

/-- Partial sums of the series. -/
noncomputable def cosSum (x : ℝ) (n : ℕ) : ℝ := ∑ k ∈ range n, (-1) ^ k * x ^ (2 * k) / (2 * k).factorial
noncomputable def sinSum (x : ℝ) (n : ℕ) : ℝ := ∑ k ∈ range n, (-1) ^ k * x ^ (2 * k + 1) / (2 * k + 1).factorial

theorem exp_sum (x : ℝ) (n : ℕ) : ∑ m ∈ range (2 * n), ((x : ℂ) * I) ^ m / m.factorial = (cosSum x n : ℂ) + (sinSum x n : ℂ) * I := by
  induction n with
  | zero => simp [cosSum, sinSum]
  | succ n ih =>
    have e : ((x : ℂ) * I) ^ (2 * n) = (-1) ^ n * (x : ℂ) ^ (2 * n) := by
      rw [mul_pow, pow_mul I, I_sq]; ring
    rw [show 2 * (n + 1) = 2 * n + 1 + 1 by ring, sum_range_succ, sum_range_succ, ih, pow_succ, e]
    simp only [cosSum, sinSum, sum_range_succ]
    push_cast
    ring

theorem sin_cos_sum {x : ℝ} (hx : |x| ≤ 1) {n : ℕ} (hn : 0 < n) :
    |Real.sin x - sinSum x n| ≤ |x| ^ (2 * n) * (((2 * n).succ : ℝ) * ((2 * n).factorial * (2 * n : ℕ) : ℝ)⁻¹) ∧
    |Real.cos x - cosSum x n| ≤ |x| ^ (2 * n) * (((2 * n).succ : ℝ) * ((2 * n).factorial * (2 * n : ℕ) : ℝ)⁻¹) := by
  have hn' : ‖(x : ℂ) * I‖ = |x| := by simp
  have b := Complex.exp_bound (x := (x : ℂ) * I) (by rw [hn']; exact hx) (n := 2 * n) (by omega)
  rw [hn', exp_sum, exp_mul_I, ← ofReal_cos, ← ofReal_sin] at b
  have e : (Real.cos x : ℂ) + Real.sin x * I - (cosSum x n + sinSum x n * I)
      = ((Real.cos x - cosSum x n : ℝ) : ℂ) + ((Real.sin x - sinSum x n : ℝ) : ℂ) * I := by push_cast; ring
  rw [e] at b
  have g : ∀ a c : ℝ, |c| ≤ ‖(a : ℂ) + (c : ℂ) * I‖ ∧ |a| ≤ ‖(a : ℂ) + (c : ℂ) * I‖ := by
    intro a c
    have h1 := abs_im_le_norm ((a : ℂ) + (c : ℂ) * I)
    have h2 := abs_re_le_norm ((a : ℂ) + (c : ℂ) * I)
    simp only [add_im, add_re, mul_im, mul_re, ofReal_re, ofReal_im, I_re, I_im, mul_zero, mul_one, zero_add, add_zero, sub_zero] at h1 h2
    exact ⟨h1, h2⟩
  exact ⟨le_trans (g _ _).1 b, le_trans (g _ _).2 b⟩

/-- `(sin x / x - 1) / x^2` as a polynomial in `x^2`. -/
def sinT : List ℚ := [-1/6, 1/120, -1/5040, 1/362880, -1/39916800, 1/6227020800, -1/1307674368000, 1/355687428096000, -1/121645100408832000]
/-- `cos x` as a polynomial in `x^2`. -/
def cosT : List ℚ :=
  [1, -1/2, 1/24, -1/720, 1/40320, -1/3628800, 1/479001600, -1/87178291200, 1/20922789888000, -1/6402373705728000]

theorem sin_poly {x : ℝ} (hx : |x| ≤ 1) : |Real.sin x - (x + x * x ^ 2 * ev sinT (x ^ 2))| ≤ |x| ^ 20 / 2 ^ 60 := by
  have h := (sin_cos_sum hx (n := 10) (by omega)).1
  have e : sinSum x 10 = x + x * x ^ 2 * ev sinT (x ^ 2) := by
    simp only [sinSum, sum_range_succ, sum_range_zero, sinT, ev]
    norm_num [Nat.factorial]
    ring
  rw [e] at h
  refine le_trans h ?_
  rw [div_eq_mul_inv]
  refine mul_le_mul_of_nonneg_left ?_ (by positivity)
  norm_num [Nat.factorial]

theorem cos_poly {x : ℝ} (hx : |x| ≤ 1) : |Real.cos x - ev cosT (x ^ 2)| ≤ |x| ^ 20 / 2 ^ 60 := by
  have h := (sin_cos_sum hx (n := 10) (by omega)).2
  have e : cosSum x 10 = ev cosT (x ^ 2) := by
    simp only [cosSum, sum_range_succ, sum_range_zero, cosT, ev]
    norm_num [Nat.factorial]
    ring
  rw [e] at h
  refine le_trans h ?_
  rw [div_eq_mul_inv]
  refine mul_le_mul_of_nonneg_left ?_ (by positivity)
  norm_num [Nat.factorial]

end Pok.Poly
