import Verif.Lemmas.Err
import Verif.Lemmas.Taylor
import Verif.Model.Trig
/-!
# Error of the sine between -pi/4 and pi/4

The steps were written by a small program that adds up the errors; they are checked here.
-/
namespace Pok.Trig
open Pok.Err Pok.Float Pok.Fpu Pok.Poly

/-! The constants. -/
def halfq : ℚ := 1 / 2 ^ 1
theorem v_half : half < 2 ^ 64 ∧ IsFinite half ∧ value half = halfq := by
  refine ⟨by decide, by decide, ?_⟩
  unfold half halfq value sign expo frac; norm_num
theorem n_half : Nb half (halfq : ℝ) 0 (500000000000 / 10 ^ 12) := Nb.const v_half (by unfold halfq; rw [abs_le]; constructor <;> norm_num)
def S1q : ℚ := -6004799503160649 / 2 ^ 55
theorem v_S1 : S1 < 2 ^ 64 ∧ IsFinite S1 ∧ value S1 = S1q := by
  refine ⟨by decide, by decide, ?_⟩
  unfold S1 S1q value sign expo frac; norm_num
theorem n_S1 : Nb S1 (S1q : ℝ) 0 (166666666667 / 10 ^ 12) := Nb.const v_S1 (by unfold S1q; rw [abs_le]; constructor <;> norm_num)
def S2q : ℚ := 2401919801261139 / 2 ^ 58
theorem v_S2 : S2 < 2 ^ 64 ∧ IsFinite S2 ∧ value S2 = S2q := by
  refine ⟨by decide, by decide, ?_⟩
  unfold S2 S2q value sign expo frac; norm_num
theorem n_S2 : Nb S2 (S2q : ℝ) 0 (833333333333 / 10 ^ 14) := Nb.const v_S2 (by unfold S2q; rw [abs_le]; constructor <;> norm_num)
def S3q : ℚ := -7320136532976085 / 2 ^ 65
theorem v_S3 : S3 < 2 ^ 64 ∧ IsFinite S3 ∧ value S3 = S3q := by
  refine ⟨by decide, by decide, ?_⟩
  unfold S3 S3q value sign expo frac; norm_num
theorem n_S3 : Nb S3 (S3q : ℝ) 0 (198412698299 / 10 ^ 15) := Nb.const v_S3 (by unfold S3q; rw [abs_le]; constructor <;> norm_num)
def S4q : ℚ := 6506786730409597 / 2 ^ 71
theorem v_S4 : S4 < 2 ^ 64 ∧ IsFinite S4 ∧ value S4 = S4q := by
  refine ⟨by decide, by decide, ?_⟩
  unfold S4 S4q value sign expo frac; norm_num
theorem n_S4 : Nb S4 (S4q : ℝ) 0 (275573137071 / 10 ^ 17) := Nb.const v_S4 (by unfold S4q; rw [abs_le]; constructor <;> norm_num)
def S5q : ℚ := -7571127717829867 / 2 ^ 78
theorem v_S5 : S5 < 2 ^ 64 ∧ IsFinite S5 ∧ value S5 = S5q := by
  refine ⟨by decide, by decide, ?_⟩
  unfold S5 S5q value sign expo frac; norm_num
theorem n_S5 : Nb S5 (S5q : ℝ) 0 (250507602535 / 10 ^ 19) := Nb.const v_S5 (by unfold S5q; rw [abs_le]; constructor <;> norm_num)
def S6q : ℚ := 1537454791456095 / 2 ^ 83
theorem v_S6 : S6 < 2 ^ 64 ∧ IsFinite S6 ∧ value S6 = S6q := by
  refine ⟨by decide, by decide, ?_⟩
  unfold S6 S6q value sign expo frac; norm_num
theorem n_S6 : Nb S6 (S6q : ℝ) 0 (158969099522 / 10 ^ 21) := Nb.const v_S6 (by unfold S6q; rw [abs_le]; constructor <;> norm_num)

/-- Error of a part of the polynomial. -/
theorem sin_r {z : Nat} {Z : ℝ} (hz : Nb z Z (6852 / 10 ^ 20) (6171 / 10000)) :
    Nb (add S2 (mul z (add S3 (mul z (add S4 (mul z (add S5 (mul z S6)))))))) ((S2q : ℝ) + (Z * ((S3q : ℝ) + (Z * ((S4q : ℝ) + (Z * ((S5q : ℝ) + (Z * (S6q : ℝ))))))))) (9805 / 10 ^ 22) (8457 / 10 ^ 6) := by
  have h1 := Nb.mul (2179 / 10 ^ 29) (9810 / 10 ^ 14) hz n_S6 (by norm_num) (by norm_num) (by norm_num)
  have h2 := Nb.add (2814 / 10 ^ 27) (2515 / 10 ^ 11) n_S5 h1 (by norm_num) (by norm_num) (by norm_num)
  have h3 := Nb.mul (5183 / 10 ^ 27) (1553 / 10 ^ 11) hz h2 (by norm_num) (by norm_num) (by norm_num)
  have h4 := Nb.add (3129 / 10 ^ 25) (2772 / 10 ^ 9) n_S4 h3 (by norm_num) (by norm_num) (by norm_num)
  have h5 := Nb.mul (5730 / 10 ^ 25) (1711 / 10 ^ 9) hz h4 (by norm_num) (by norm_num) (by norm_num)
  have h6 := Nb.add (2280 / 10 ^ 23) (2002 / 10 ^ 7) n_S3 h5 (by norm_num) (by norm_num) (by norm_num)
  have h7 := Nb.mul (4151 / 10 ^ 23) (1236 / 10 ^ 7) hz h6 (by norm_num) (by norm_num) (by norm_num)
  have h8 := Nb.add (9805 / 10 ^ 22) (8457 / 10 ^ 6) n_S2 h7 (by norm_num) (by norm_num) (by norm_num)
  exact h8

/-- Error of a part of the polynomial. -/
theorem sin_w {z r : Nat} {Z R : ℝ} (hz : Nb z Z (6852 / 10 ^ 20) (6171 / 10000)) (hr : Nb r R (9805 / 10 ^ 22) (8457 / 10 ^ 6)) :
    Nb (add S1 (mul z r)) ((S1q : ℝ) + (Z * R)) (2085 / 10 ^ 20) (1719 / 10 ^ 4) := by
  have h9 := Nb.mul (1764 / 10 ^ 21) (5219 / 10 ^ 6) hz hr (by norm_num) (by norm_num) (by norm_num)
  have h10 := Nb.add (2085 / 10 ^ 20) (1719 / 10 ^ 4) n_S1 h9 (by norm_num) (by norm_num) (by norm_num)
  exact h10

/-- The coefficients of the code. -/
def sK : List ℚ := [S1q, S2q, S3q, S4q, S5q, S6q]

theorem sK_ok : ok (0 :: plus sK (sinT.map ((-1) * ·))) 0 (6171 / 640000) (1 / 2 ^ 57) 32 = true := by decide +kernel

/-- The polynomial of the code is near the sine. -/
theorem sin_core {x : ℝ} (hx : |x| ≤ 7855 / 10000) :
    |x + x ^ 2 * x * ev sK (x ^ 2) - Real.sin x| ≤ |x| * (7 / 10 ^ 18) ∧ |x ^ 2 * x * ev sK (x ^ 2)| ≤ |x| * (1062 / 10 ^ 4) := by
  have z0 : 0 ≤ x ^ 2 := sq_nonneg x
  have z1 : x ^ 2 ≤ 61701025 / 10 ^ 8 := by
    rw [← sq_abs]
    have := mul_le_mul hx hx (abs_nonneg x) (by norm_num)
    nlinarith
  have h1 := sin_poly (x := x) (by linarith)
  have h2 := ev_ok (by norm_num) sK_ok (t := x ^ 2) (by push_cast; exact z0) (by push_cast; linarith)
  simp only [ev, ev_plus, ev_scale] at h2
  push_cast at h2
  have p20 : |x| ^ 20 / 2 ^ 60 ≤ |x| * (1 / 10 ^ 20) := by
    have : |x| ^ 19 ≤ (7855 / 10000) ^ 19 := pow_le_pow_left₀ (abs_nonneg x) hx 19
    have e : |x| ^ 20 = |x| * |x| ^ 19 := by ring
    rw [e, mul_div_assoc]
    refine mul_le_mul_of_nonneg_left ?_ (abs_nonneg x)
    rw [div_le_iff₀ (by positivity)]
    refine le_trans this (by norm_num)
  have split : x + x ^ 2 * x * ev sK (x ^ 2) - Real.sin x
      = x * (0 + x ^ 2 * (ev sK (x ^ 2) + -1 * ev sinT (x ^ 2))) - (Real.sin x - (x + x * x ^ 2 * ev sinT (x ^ 2))) := by ring
  constructor
  · rw [split]
    refine le_trans (abs_sub _ _) ?_
    rw [abs_mul]
    have a := mul_le_mul_of_nonneg_left h2 (abs_nonneg x)
    have : |x| * (1 / 2 ^ 57) + |x| * (1 / 10 ^ 20) ≤ |x| * (7 / 10 ^ 18) := by
      rw [← mul_add]
      exact mul_le_mul_of_nonneg_left (by norm_num) (abs_nonneg x)
    linarith
  · have b : |ev sK (x ^ 2)| ≤ 172 / 10 ^ 3 := by
      have hz : Nb 0 (x ^ 2) (x ^ 2) (6171 / 10000) := by
        refine ⟨⟨by norm_num, by decide, ?_⟩, by rw [abs_of_nonneg z0]; linarith⟩
        have : value 0 = 0 := by unfold value sign expo frac; norm_num
        rw [this]; simp
      have k : ∀ {a b c : ℝ} {m n : ℝ}, |a| ≤ m → |b| ≤ n → |a + x ^ 2 * b| ≤ m + 6171 / 10000 * n := by
        intro a b _ m n ha hb
        refine le_trans (abs_add_le _ _) (add_le_add ha ?_)
        rw [abs_mul]
        exact mul_le_mul hz.2 hb (abs_nonneg _) (by norm_num)
      have e := k (c := 0) n_S1.2 (k (c := 0) n_S2.2 (k (c := 0) n_S3.2 (k (c := 0) n_S4.2 (k (c := 0) n_S5.2 (k (c := 0) n_S6.2
        (show |(0 : ℝ)| ≤ 0 by simp))))))
      simp only [sK, ev]
      refine le_trans e (by norm_num)
    rw [abs_mul, abs_mul, abs_of_nonneg z0]
    have := mul_le_mul z1 b (abs_nonneg _) (by norm_num)
    calc x ^ 2 * |x| * |ev sK (x ^ 2)| = |x| * (x ^ 2 * |ev sK (x ^ 2)|) := by ring
      _ ≤ |x| * (1062 / 10 ^ 4) := mul_le_mul_of_nonneg_left (le_trans this (by norm_num)) (abs_nonneg x)

/-- The sine is not much smaller than the angle. -/
theorem sin_ge {x : ℝ} (hx : |x| ≤ 7855 / 10000) : |x| * (8937 / 10 ^ 4) ≤ |Real.sin x| ∧ |Real.sin x| ≤ |x| * (1107 / 10 ^ 3) := by
  obtain ⟨h1, h2⟩ := sin_core hx
  generalize x ^ 2 * x * ev sK (x ^ 2) = q at *
  have a1 := abs_sub_abs_le_abs_sub x (Real.sin x)
  have a2 := abs_sub_abs_le_abs_sub (Real.sin x) x
  have t : |x - Real.sin x| ≤ |x + q - Real.sin x| + |q| := by
    have := abs_sub (x + q - Real.sin x) q
    rwa [show x + q - Real.sin x - q = x - Real.sin x by ring] at this
  rw [abs_sub_comm] at a2
  constructor <;> nlinarith [abs_nonneg x]

/-- The start of `__kernel_sin`. -/
theorem sin_start {x : Nat} (hx : x < 2 ^ 64) (fx : IsFinite x) (b : |(value x : ℝ)| ≤ 7855 / 10000) :
    Nb (mul x x) ((value x : ℝ) * value x) (6852 / 10 ^ 20) (6171 / 10000) ∧
    (1 / 2 ^ 28 ≤ |(value x : ℝ)| →
      Nb (mul (mul x x) x) ((value x : ℝ) * value x * value x) (|(value x : ℝ)| * (1371 / 10 ^ 19)) (|(value x : ℝ)| * (6171 / 10 ^ 4))) := by
  have h : Nb x (value x : ℝ) 0 (7855 / 10000) := ⟨Near.self hx fx, b⟩
  have hX : Nb x (value x : ℝ) 0 |(value x : ℝ)| := ⟨Near.self hx fx, le_rfl⟩
  have z := Nb.mul (6852 / 10 ^ 20) (6171 / 10000) h h (by norm_num) (by norm_num) (by norm_num)
  refine ⟨z, fun lo => ?_⟩
  generalize |(value x : ℝ)| = X at *
  refine Nb.mul _ _ z hX ?_ ?_ ?_
  · have : (1 : ℝ) / 2 ^ 200 ≤ X * (1 / 2 ^ 172) := by
      have : (1 : ℝ) / 2 ^ 200 = 1 / 2 ^ 28 * (1 / 2 ^ 172) := by norm_num
      rw [this]; exact mul_le_mul_of_nonneg_right lo (by positivity)
    norm_num at this ⊢
    linarith
  · linarith
  · norm_num; linarith

end Pok.Trig
