import Verif.Lemmas.RemPio2
import Mathlib.Analysis.SpecialFunctions.Trigonometric.Bounds
/-!
# C124: sine and cosine

The specification is Mathlib's `Real.sin` and `Real.cos`, and `value`, `IsFinite`, `IsNaN` and `IsInf` of `Verif.Spec.Float`.  Angles are in
radians.  `big` is the reduction of angles from 1647100 (`2^20` times pi/2) on, about which nothing is assumed.
-/
namespace Pok.Trig
open Pok.Err Pok.Float Pok.Fpu Pok.Poly

/-! ## Quadrants -/

theorem sin_quadrant (θ : ℝ) (n : Int) : Real.sin (θ + n * (Real.pi / 2)) =
    if n % 4 = 0 then Real.sin θ else if n % 4 = 1 then Real.cos θ else if n % 4 = 2 then - Real.sin θ else - Real.cos θ := by
  have h := Int.emod_add_mul_ediv n 4
  have r0 := Int.emod_nonneg n (by norm_num : (4 : Int) ≠ 0)
  have r1 := Int.emod_lt_of_pos n (by norm_num : (0 : Int) < 4)
  have e : (n : ℝ) = ((n % 4 : Int) : ℝ) + 4 * ((n / 4 : Int) : ℝ) := by exact_mod_cast h.symm
  rw [show θ + (n : ℝ) * (Real.pi / 2) = (θ + ((n % 4 : Int) : ℝ) * (Real.pi / 2)) + ((n / 4 : Int) : ℝ) * (2 * Real.pi) by rw [e]; ring,
    Real.sin_add_int_mul_two_pi]
  rcases (by omega : n % 4 = 0 ∨ n % 4 = 1 ∨ n % 4 = 2 ∨ n % 4 = 3) with c | c | c | c <;> rw [c]
  · simp
  · simp [Real.sin_add_pi_div_two]
  · rw [show θ + ((2 : Int) : ℝ) * (Real.pi / 2) = θ + Real.pi by push_cast; ring]; simp [Real.sin_add_pi]
  · rw [show θ + ((3 : Int) : ℝ) * (Real.pi / 2) = (θ + Real.pi / 2) + Real.pi by push_cast; ring]; simp [Real.sin_add_pi, Real.sin_add_pi_div_two]

theorem cos_quadrant (θ : ℝ) (n : Int) : Real.cos (θ + n * (Real.pi / 2)) =
    if n % 4 = 0 then Real.cos θ else if n % 4 = 1 then - Real.sin θ else if n % 4 = 2 then - Real.cos θ else Real.sin θ := by
  have h := Int.emod_add_mul_ediv n 4
  have r0 := Int.emod_nonneg n (by norm_num : (4 : Int) ≠ 0)
  have r1 := Int.emod_lt_of_pos n (by norm_num : (0 : Int) < 4)
  have e : (n : ℝ) = ((n % 4 : Int) : ℝ) + 4 * ((n / 4 : Int) : ℝ) := by exact_mod_cast h.symm
  rw [show θ + (n : ℝ) * (Real.pi / 2) = (θ + ((n % 4 : Int) : ℝ) * (Real.pi / 2)) + ((n / 4 : Int) : ℝ) * (2 * Real.pi) by rw [e]; ring,
    Real.cos_add_int_mul_two_pi]
  rcases (by omega : n % 4 = 0 ∨ n % 4 = 1 ∨ n % 4 = 2 ∨ n % 4 = 3) with c | c | c | c <;> rw [c]
  · simp
  · simp [Real.cos_add_pi_div_two]
  · rw [show θ + ((2 : Int) : ℝ) * (Real.pi / 2) = θ + Real.pi by push_cast; ring]; simp [Real.cos_add_pi]
  · rw [show θ + ((3 : Int) : ℝ) * (Real.pi / 2) = (θ + Real.pi / 2) + Real.pi by push_cast; ring]; simp [Real.cos_add_pi, Real.cos_add_pi_div_two]

theorem sin_lip (a b : ℝ) : |Real.sin a - Real.sin b| ≤ |a - b| := by
  have := Real.lipschitzWith_sin.dist_le_mul a b
  simpa [Real.dist_eq] using this

theorem cos_lip (a b : ℝ) : |Real.cos a - Real.cos b| ≤ |a - b| := by
  have := Real.lipschitzWith_cos.dist_le_mul a b
  simpa [Real.dist_eq] using this

/-- The kernels on a reduced angle. -/
theorem Red.sin {x : ℝ} {r : Int × Nat × Nat} (h : Red x r) : Near (kernelSin r.2.1 r.2.2 1) (Real.sin (x - r.1 * (Real.pi / 2))) (1 / 2 ^ 52) := by
  have k := kernelSin_one h.h0.1 h.h0.2 h.b0 h.h1.1 h.h1.2 h.b1
  exact (k.move (le_trans (sin_lip _ _) h.near)).weaken (by norm_num)

theorem Red.cos {x : ℝ} {r : Int × Nat × Nat} (h : Red x r) : Near (kernelCos r.2.1 r.2.2) (Real.cos (x - r.1 * (Real.pi / 2))) (1 / 2 ^ 52) := by
  have k := kernelCos_near h.h0.1 h.h0.2 h.b0 h.h1.1 h.h1.2 h.b1
  exact (k.move (le_trans (cos_lip _ _) h.near)).weaken (by norm_num)

/-- Bounds of the high word from a bound of the value. -/
theorem mag_lt_of {x c : Nat} {q : ℚ} (hx : x < 2 ^ 64) (hc : c < 2 ^ 63) (hq : q ≤ value c) (h : |value x| < q) : mag x < c := by
  by_contra k
  have := value_mono' hx hc (by omega)
  linarith

theorem small_angle {x : Nat} (hx : x < 2 ^ 64) (h : mag x / 2 ^ 32 ≤ 0x3fe921fb) : IsFinite x ∧ |(value x : ℝ)| ≤ 7855 / 10000 := by
  constructor
  · unfold IsFinite; have := mag_eq x; have := frac_lt x; omega
  · have := value_mono hx (c := 0x3fe921fc00000000) (by norm_num) (by omega)
    have v : value 0x3fe921fc00000000 ≤ 7855 / 10000 := by unfold value sign expo frac; norm_num
    have := (Rat.cast_le (K := ℝ)).2 (le_trans this v)
    push_cast at this ⊢; exact this

theorem zero_near : (0 : Nat) < 2 ^ 64 ∧ IsFinite 0 ∧ value 0 = 0 := by
  refine ⟨by norm_num, by decide, ?_⟩
  unfold value sign expo frac; norm_num

/-! ## The theorems -/

/-- **Sine, absolute error.**  For every double below 1647100 in magnitude (260 000 turns) the sine comes out as a number within `2^-52` of the sine. -/
theorem C124_sin (big : Nat → Int × Nat × Nat) {x : Nat} (hx : x < 2 ^ 64) (h : |value x| < 1647100) :
    IsFinite (sin big x) ∧ |(value (sin big x) : ℝ) - Real.sin (value x)| ≤ 1 / 2 ^ 52 := by
  suffices Near (sin big x) (Real.sin (value x)) (1 / 2 ^ 52) from this.2
  have hm := mag_lt_of hx (c := 0x413921fc00000000) (by norm_num) (by unfold value sign expo frac; norm_num) h
  unfold sin
  rw [hi31 hx]
  by_cases c : mag x / 2 ^ 32 ≤ 0x3fe921fb
  · rw [if_pos c]
    obtain ⟨fx, b⟩ := small_angle hx c
    refine (kernelSin_zero 0 hx fx b).weaken ?_
    exact div_le_div_of_nonneg_right (Real.abs_sin_le_one _) (by norm_num)
  · rw [if_neg c, if_neg (by omega)]
    have R := remPio2_red big hx (by omega) (by omega)
    generalize remPio2 big x = r at *
    have q := sin_quadrant ((value x : ℝ) - r.1 * (Real.pi / 2)) r.1
    rw [sub_add_cancel] at q
    rw [q]
    simp only []
    split_ifs
    · exact R.sin
    · exact R.cos
    · exact R.sin.neg
    · exact R.cos.neg

/-- **Sine of a small angle, relative error.**  Up to pi/4 the error is at most `2^-52` of the sine itself, however small that is. -/
theorem C124_sin_small (big : Nat → Int × Nat × Nat) {x : Nat} (hx : x < 2 ^ 64) (h : |(value x : ℝ)| ≤ Real.pi / 4) :
    IsFinite (sin big x) ∧ |(value (sin big x) : ℝ) - Real.sin (value x)| ≤ |Real.sin (value x)| / 2 ^ 52 := by
  suffices Near (sin big x) (Real.sin (value x)) (|Real.sin (value x)| / 2 ^ 52) from this.2
  have hq : |value x| < 7853983 / 10 ^ 7 := by
    have p := Real.pi_lt_d20
    have : ((|value x| : ℚ) : ℝ) < ((7853983 / 10 ^ 7 : ℚ) : ℝ) := by push_cast; norm_num at *; linarith
    exact_mod_cast this
  have hm := mag_lt_of hx (c := 0x3fe921fc00000000) (by norm_num) (by unfold value sign expo frac; norm_num) hq
  have c : mag x / 2 ^ 32 ≤ 0x3fe921fb := by omega
  unfold sin
  rw [hi31 hx, if_pos c]
  obtain ⟨fx, b⟩ := small_angle hx c
  exact kernelSin_zero 0 hx fx b

/-- **Cosine, absolute error.**  For every double below 1647100 in magnitude the cosine comes out as a number within `2^-52` of the cosine. -/
theorem C124_cos (big : Nat → Int × Nat × Nat) {x : Nat} (hx : x < 2 ^ 64) (h : |value x| < 1647100) :
    IsFinite (cos big x) ∧ |(value (cos big x) : ℝ) - Real.cos (value x)| ≤ 1 / 2 ^ 52 := by
  suffices Near (cos big x) (Real.cos (value x)) (1 / 2 ^ 52) from this.2
  have hm := mag_lt_of hx (c := 0x413921fc00000000) (by norm_num) (by unfold value sign expo frac; norm_num) h
  unfold cos
  rw [hi31 hx]
  by_cases c : mag x / 2 ^ 32 ≤ 0x3fe921fb
  · rw [if_pos c]
    obtain ⟨fx, b⟩ := small_angle hx c
    obtain ⟨z1, z2, z3⟩ := zero_near
    have k := kernelCos_near hx fx b z1 z2 (by rw [z3]; norm_num)
    rw [z3, Rat.cast_zero, add_zero] at k
    exact k.weaken (by norm_num)
  · rw [if_neg c, if_neg (by omega)]
    have R := remPio2_red big hx (by omega) (by omega)
    generalize remPio2 big x = r at *
    have q := cos_quadrant ((value x : ℝ) - r.1 * (Real.pi / 2)) r.1
    rw [sub_add_cancel] at q
    rw [q]
    simp only []
    split_ifs
    · exact R.cos
    · exact R.sin.neg
    · exact R.cos.neg
    · exact R.sin

theorem sub_self_nan {x : Nat} (hx : x < 2 ^ 64) (h : IsInf x ∨ IsNaN x) : IsNaN (sub x x) := by
  by_cases n : IsNaN x
  · have e := (Libm.isNaN_eq x).2 n
    unfold sub; rw [if_pos e, if_pos e]; exact Libm.quiet_nan n
  · have i := h.resolve_right n
    have e : isNaN x = false := Libm.inf_not_nan i
    have im := (Libm.isInf_mag x).1 i
    have m1 : mag (negate x) = inf := by rw [← im]; unfold negate neg mag; split <;> simp_all <;> omega
    have e1 : isNaN (negate x) = false := by unfold isNaN; rw [m1]; simp
    have ii : isInf x = true := by unfold isInf; rw [im]; simp
    have i1 : isInf (negate x) = true := by unfold isInf; rw [m1]; simp
    have ne : (neg x != neg (negate x)) = true := by
      unfold negate neg
      rcases (by omega : x / 2 ^ 63 % 2 = 0 ∨ x / 2 ^ 63 % 2 = 1) with c | c
      · have : (x + 2 ^ 63) / 2 ^ 63 % 2 = 1 := by omega
        simp; split_ifs <;> omega
      · have : (x - 2 ^ 63) / 2 ^ 63 % 2 = 0 := by omega
        simp; split_ifs <;> omega
    unfold sub add
    rw [e, e1, ii, i1, ne]
    simp only [Bool.false_eq_true, if_false, Bool.and_self, if_true]
    decide

/-- **No sine of the infinite.**  The sine and cosine of an infinite and of what is not a number is not a number. -/
theorem C124_not_finite (big : Nat → Int × Nat × Nat) {x : Nat} (hx : x < 2 ^ 64) (h : IsInf x ∨ IsNaN x) : IsNaN (sin big x) ∧ IsNaN (cos big x) := by
  have he : expo x = 2047 := by rcases h with h | h <;> exact h.1
  have hm : 0x7ff00000 ≤ mag x / 2 ^ 32 := by rw [mag_eq, he]; omega
  unfold sin cos
  simp only []
  rw [hi31 hx, if_neg (by omega), if_pos hm, if_neg (by omega), if_pos hm]
  exact ⟨sub_self_nan hx h, sub_self_nan hx h⟩

/-! ## The hypotheses are met -/

/-- 1.0, 100000.0 (with a reduction in two rounds), the double next to pi and an infinite. -/
example : |value 0x3ff0000000000000| < 1647100 ∧ |value 0x40f86a0000000000| < 1647100 ∧ |value 0x400921fb54442d18| < 1647100
    ∧ sin (fun _ => (0, 0, 0)) 0x3ff0000000000000 = 0x3feaed548f090cee ∧ sin (fun _ => (0, 0, 0)) 0x40f86a0000000000 = 0x3fa24daa9c527e96
    ∧ sin (fun _ => (0, 0, 0)) 0x400921fb54442d18 = 0x3ca1a62633145c07 ∧ cos (fun _ => (0, 0, 0)) 0x3ff0000000000000 = 0x3fe14a280fb5068c
    ∧ cos (fun _ => (0, 0, 0)) 0x400921fb54442d18 = 0xbff0000000000000 ∧ IsNaN (sin (fun _ => (0, 0, 0)) 0x7ff0000000000000) := by
  refine ⟨?_, ?_, ?_, by decide +kernel, by decide +kernel, by decide +kernel, by decide +kernel, by decide +kernel, by decide +kernel⟩
  all_goals unfold value sign expo frac; norm_num

example : |(value 0x3fe0000000000000 : ℝ)| ≤ Real.pi / 4 := by
  have : value 0x3fe0000000000000 = 1 / 2 := by unfold value sign expo frac; norm_num
  rw [this]; have := Real.pi_gt_three; norm_num; linarith

end Pok.Trig
