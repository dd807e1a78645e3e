import Verif.Lemmas.Sin
import Mathlib.Analysis.Real.Pi.Bounds
/-!
# Half of pi to thirty digits
-/
namespace Pok.Poly

/-- Thirty digits of pi/2. -/
def halfPi : ℚ := 15707963267948966192313216916397514 / 10 ^ 34

/-- A cosine and the cosine of twice the angle. -/
theorem cos_twice {a : ℝ} {A e : ℚ} (h : |Real.cos a - A| ≤ e) (he : e ≤ 1) : |Real.cos (2 * a) - ((2 * A ^ 2 - 1 : ℚ) : ℝ)| ≤ ((6 * e : ℚ) : ℝ) := by
  have c1 := Real.abs_cos_le_one a
  have he' : (e : ℝ) ≤ 1 := by exact_mod_cast he
  rw [Real.cos_two_mul]
  push_cast
  rw [show 2 * Real.cos a ^ 2 - 1 - (2 * (A : ℝ) ^ 2 - 1) = 2 * (Real.cos a - A) * (2 * Real.cos a - (Real.cos a - A)) by ring, abs_mul, abs_mul, abs_two]
  have t : |2 * Real.cos a - (Real.cos a - A)| ≤ 3 := by
    refine le_trans (abs_sub _ _) ?_
    rw [abs_mul, abs_two]
    linarith
  calc 2 * |Real.cos a - A| * |2 * Real.cos a - (Real.cos a - A)| ≤ 2 * e * 3 :=
        mul_le_mul (by linarith) t (abs_nonneg _) (by linarith [abs_nonneg (Real.cos a - A)])
    _ = 6 * e := by ring

/-- The polynomial on rational numbers. -/
def evq : List ℚ → ℚ → ℚ
  | [], _ => 0
  | a :: l, t => a + t * evq l t

theorem evq_cast (l : List ℚ) (t : ℚ) : ((evq l t : ℚ) : ℝ) = ev l (t : ℝ) := by
  induction l with
  | nil => simp [evq, ev]
  | cons a l ih => simp only [evq, ev]; push_cast; rw [ih]

/-- Three doublings of the polynomial at an eighth of the angle. -/
def cosq : ℚ := 2 * (2 * (2 * evq cosT ((halfPi / 8) ^ 2) ^ 2 - 1) ^ 2 - 1) ^ 2 - 1

theorem cosq_small : |cosq| ≤ 1 / 10 ^ 30 := by decide +kernel

theorem halfPi_near : |(halfPi : ℝ) - Real.pi / 2| ≤ 5 / 10 ^ 30 := by
  have h0 := cos_poly (x := ((halfPi / 8 : ℚ) : ℝ)) (by push_cast; unfold halfPi; rw [abs_le]; constructor <;> norm_num)
  have e0 : |((halfPi / 8 : ℚ) : ℝ)| ^ 20 / 2 ^ 60 ≤ ((1 / 10 ^ 32 : ℚ) : ℝ) := by
    have : |((halfPi / 8 : ℚ) : ℝ)| ≤ 197 / 1000 := by push_cast; unfold halfPi; rw [abs_le]; constructor <;> norm_num
    have := pow_le_pow_left₀ (abs_nonneg _) this 20
    rw [div_le_iff₀ (by positivity)]
    refine le_trans this ?_
    norm_num
  have h1 := le_trans h0 e0
  have e1 : ev cosT (((halfPi / 8 : ℚ) : ℝ) ^ 2) = ((evq cosT ((halfPi / 8) ^ 2) : ℚ) : ℝ) := by
    rw [evq_cast]; push_cast; rfl
  rw [e1] at h1
  have h2 := cos_twice h1 (by norm_num)
  have h3 := cos_twice h2 (by norm_num)
  have h4 := cos_twice h3 (by norm_num)
  have cs : (2 * (2 * (2 * evq cosT ((halfPi / 8) ^ 2) ^ 2 - 1) ^ 2 - 1) ^ 2 - 1 : ℚ) = cosq := rfl
  rw [cs] at h4
  have sm : |((cosq : ℚ) : ℝ)| ≤ 1 / 10 ^ 30 := by
    have := (Rat.cast_le (K := ℝ)).2 cosq_small; push_cast at this ⊢; exact this
  generalize ((cosq : ℚ) : ℝ) = K at *
  have ar : 2 * (2 * (2 * ((halfPi / 8 : ℚ) : ℝ))) = (halfPi : ℝ) := by push_cast; ring
  rw [ar] at h4
  have c : |Real.cos (halfPi : ℝ)| ≤ 4 / 10 ^ 30 := by
    have := abs_sub_abs_le_abs_sub (Real.cos (halfPi : ℝ)) K
    norm_num at *
    linarith
  rw [← Real.sin_pi_div_two_sub] at c
  have p1 := Real.pi_gt_d20
  have p2 := Real.pi_lt_d20
  have hp : (halfPi : ℝ) = 15707963267948966192313216916397514 / 10 ^ 34 := by unfold halfPi; norm_num
  have small : |Real.pi / 2 - halfPi| ≤ 7855 / 10000 := by
    rw [hp, abs_le]; constructor <;> norm_num at * <;> linarith
  have g := (Pok.Trig.sin_ge small).1
  rw [abs_sub_comm]
  norm_num at *
  linarith

end Pok.Poly
