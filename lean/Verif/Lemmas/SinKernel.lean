import Verif.Lemmas.Sin
/-!
# The kernel of the sine
-/
namespace Pok.Trig
open Pok.Err Pok.Float Pok.Fpu Pok.Poly

/-- A double below 1 is converted to 0. -/
theorem toInt_small {x : Nat} (hx : x < 2 ^ 64) (h : |value x| < 1) : toInt x = 0 := by
  obtain ⟨D, hD⟩ : ∃ D : Nat, D = 2 ^ 1074 := ⟨_, rfl⟩
  have hp : (2 : Int) ^ 1074 = (D : Int) := by rw [hD]; push_cast; rfl
  have d0 : (0 : ℚ) < D := by rw [hD]; exact_mod_cast Nat.two_pow_pos _
  have u : units (mag x) < D := by
    rw [abs_value' hx, show (2 : ℚ) ^ 1074 = (D : ℚ) by rw [hD]; push_cast; rfl, div_lt_one d0] at h
    exact_mod_cast h
  unfold toInt
  rw [hp, sunits_eq hx]
  split
  · rw [Int.neg_tdiv, ← Int.ofNat_tdiv, Nat.div_eq_of_lt u]; rfl
  · rw [← Int.ofNat_tdiv, Nat.div_eq_of_lt u]; rfl

/-- High words and sizes. -/
theorem small_hi {x : Nat} (hx : x < 2 ^ 64) (h : Libm.hi x &&& 0x7fffffff < 0x3e400000) : |value x| ≤ 1 / 2 ^ 27 := by
  rw [hi31 hx] at h
  have := value_mono hx (c := 0x3e40000000000000) (by norm_num) (by omega)
  refine le_trans this (le_of_eq ?_)
  unfold value sign expo frac; norm_num

theorem large_hi {x : Nat} (hx : x < 2 ^ 64) (h : ¬ Libm.hi x &&& 0x7fffffff < 0x3e400000) : 1 / 2 ^ 27 ≤ |value x| := by
  rw [hi31 hx] at h
  have := value_mono' hx (c := 0x3e40000000000000) (by norm_num) (by omega)
  refine le_trans (le_of_eq ?_) this
  unfold value sign expo frac; norm_num

theorem sin_tiny {x : ℝ} (hx : |x| ≤ 1 / 2 ^ 27) : |x - Real.sin x| ≤ |Real.sin x| / 2 ^ 55 := by
  have h := Real.sin_bound (x := x) (le_trans hx (by norm_num))
  have g := (sin_ge (x := x) (le_trans hx (by norm_num))).1
  have z : |x| ^ 2 ≤ (1 / 2 ^ 27) ^ 2 := pow_le_pow_left₀ (abs_nonneg x) hx 2
  have c : |x| ^ 3 ≤ |x| * (1 / 2 ^ 54) := by
    rw [show |x| ^ 3 = |x| * |x| ^ 2 by ring]
    exact mul_le_mul_of_nonneg_left (le_trans z (by norm_num)) (abs_nonneg x)
  have d : |x| ^ 5 ≤ |x| * (1 / 2 ^ 80) := by
    have z3 : |x| ^ 4 ≤ (1 / 2 ^ 27) ^ 4 := pow_le_pow_left₀ (abs_nonneg x) hx 4
    rw [show |x| ^ 5 = |x| * |x| ^ 4 by ring]
    exact mul_le_mul_of_nonneg_left (le_trans z3 (by norm_num)) (abs_nonneg x)
  have t : |x - Real.sin x| ≤ |Real.sin x - (x - x ^ 3 / 6)| + |x| ^ 3 / 6 := by
    have := abs_sub (x ^ 3 / 6) (Real.sin x - (x - x ^ 3 / 6))
    rw [show x ^ 3 / 6 - (Real.sin x - (x - x ^ 3 / 6)) = x - Real.sin x by ring, abs_div, abs_pow, abs_of_pos (show (0 : ℝ) < 6 by norm_num)] at this
    linarith
  have : |x| * (1 / 2 ^ 54) / 6 + |x| * (1 / 2 ^ 80) / 100 ≤ |x| * (8937 / 10 ^ 4) / 2 ^ 55 := by
    have := abs_nonneg x
    norm_num
    linarith
  have := div_le_div_of_nonneg_right g (c := (2 : ℝ) ^ 55) (by positivity)
  linarith

/-- `__kernel_sin` without a tail: relative error below `2^-52`. -/
theorem kernelSin_zero {x : Nat} (y : Nat) (hx : x < 2 ^ 64) (fx : IsFinite x) (b : |(value x : ℝ)| ≤ 7855 / 10000) :
    Near (kernelSin x y 0) (Real.sin (value x)) (|Real.sin (value x)| / 2 ^ 52) := by
  have bq : |value x| < 1 := by
    have : ((|value x| : ℚ) : ℝ) < ((1 : ℚ) : ℝ) := by push_cast; linarith
    exact_mod_cast this
  unfold kernelSin
  rw [toInt_small hx bq]
  by_cases h : Libm.hi x &&& 0x7fffffff < 0x3e400000
  · simp only [h, and_self, if_true]
    have s := small_hi hx h
    have s' : |(value x : ℝ)| ≤ 1 / 2 ^ 27 := by
      have := (Rat.cast_le (K := ℝ)).2 s; push_cast at this ⊢; exact this
    have t := sin_tiny s'
    refine ⟨hx, fx, le_trans t ?_⟩
    exact div_le_div_of_nonneg_left (abs_nonneg _) (by norm_num) (by norm_num)
  · simp only [h, false_and, if_false, if_true]
    have s := large_hi hx h
    have s' : 1 / 2 ^ 28 ≤ |(value x : ℝ)| := by
      have := (Rat.cast_le (K := ℝ)).2 s; push_cast at this ⊢; exact le_trans (by norm_num) this
    obtain ⟨hz, hv⟩ := sin_start hx fx b
    have hv := hv s'
    have hr := sin_r hz
    have hw := sin_w hz hr
    obtain ⟨c1, c2⟩ := sin_core b
    obtain ⟨g1, g2⟩ := sin_ge b
    have e : (value x : ℝ) + value x * value x * value x * ((S1q : ℝ) + ((value x : ℝ) * value x * ((S2q : ℝ) + ((value x : ℝ) * value x * ((S3q : ℝ) +
        ((value x : ℝ) * value x * ((S4q : ℝ) + ((value x : ℝ) * value x * ((S5q : ℝ) + ((value x : ℝ) * value x * (S6q : ℝ)))))))))))
        = (value x : ℝ) + (value x : ℝ) ^ 2 * value x * ev sK ((value x : ℝ) ^ 2) := by
      simp only [sK, ev]; ring
    generalize hX : |(value x : ℝ)| = X at *
    have X0 : 0 ≤ X := by rw [← hX]; exact abs_nonneg _
    have tl : (1 : ℝ) / 2 ^ 200 ≤ X * (1 / 2 ^ 172) := by
      have : (1 : ℝ) / 2 ^ 200 = 1 / 2 ^ 28 * (1 / 2 ^ 172) := by norm_num
      rw [this]; exact mul_le_mul_of_nonneg_right s' (by positivity)
    have hp := Nb.mul (X * (4837 / 10 ^ 20)) (X * (1061 / 10 ^ 4)) hv hw (by norm_num at tl ⊢; linarith) (by linarith) (by norm_num; linarith)
    have hx0 : Nb x (value x : ℝ) 0 X := ⟨Near.self hx fx, hX.le⟩
    generalize hP : (value x : ℝ) + value x * value x * value x * ((S1q : ℝ) + ((value x : ℝ) * value x * ((S2q : ℝ) + ((value x : ℝ) * value x * ((S3q : ℝ) +
        ((value x : ℝ) * value x * ((S4q : ℝ) + ((value x : ℝ) * value x * ((S5q : ℝ) + ((value x : ℝ) * value x * (S6q : ℝ))))))))))) = P at *
    rw [← e] at c1
    have mP : |P| ≤ |Real.sin (value x)| + X * (7 / 10 ^ 18) := by
      have := abs_sub_abs_le_abs_sub P (Real.sin (value x))
      linarith
    generalize |Real.sin (value x)| = s at *
    have hs := Nb.add' (X * (4837 / 10 ^ 20) + (s + X * (8 / 10 ^ 18) + X * (4837 / 10 ^ 20)) / 2 ^ 53) (s + X * (7 / 10 ^ 18)) hx0 hp
      (by rw [hP]; exact mP) (by norm_num; linarith) (by norm_num; linarith)
    rw [hP] at hs
    refine (hs.1.move c1).weaken ?_
    norm_num
    linarith

/-- Error of the sum with the tail. -/
theorem sin_tail {x y z r v : Nat} {X Y Z R V : ℝ} (hx : Nb x X 0 (7855 / 10000)) (hy : Nb y Y 0 (12 / 10 ^ 17))
    (hz : Nb z Z (6852 / 10 ^ 20) (6171 / 10000)) (hr : Nb r R (9805 / 10 ^ 22) (8457 / 10 ^ 6)) (hv : Nb v V (1078 / 10 ^ 19) (4850 / 10 ^ 4)) :
    Nb (sub x (sub (sub (mul z (sub (mul half y) (mul v r))) y) (mul v S1)))
      (X - (((Z * (((halfq : ℝ) * Y) - (V * R))) - Y) - (V * (S1q : ℝ)))) (1350 / 10 ^ 19) (8689 / 10 ^ 4) := by
  have h1 := Nb.mul (6662 / 10 ^ 36) (6000 / 10 ^ 20) n_half hy (by norm_num) (by norm_num) (by norm_num)
  have h2 := Nb.mul (1843 / 10 ^ 21) (4102 / 10 ^ 6) hv hr (by norm_num) (by norm_num) (by norm_num)
  have h3 := Nb.sub (2299 / 10 ^ 21) (4103 / 10 ^ 6) h1 h2 (by norm_num) (by norm_num) (by norm_num)
  have h4 := Nb.mul (1981 / 10 ^ 21) (2532 / 10 ^ 6) hz h3 (by norm_num) (by norm_num) (by norm_num)
  have h5 := Nb.sub (2263 / 10 ^ 21) (2533 / 10 ^ 6) h4 hy (by norm_num) (by norm_num) (by norm_num)
  have h6 := Nb.mul (2695 / 10 ^ 20) (8084 / 10 ^ 5) hv n_S1 (by norm_num) (by norm_num) (by norm_num)
  have h7 := Nb.sub (3847 / 10 ^ 20) (8338 / 10 ^ 5) h5 h6 (by norm_num) (by norm_num) (by norm_num)
  have h8 := Nb.sub (1350 / 10 ^ 19) (8689 / 10 ^ 4) hx h7 (by norm_num) (by norm_num) (by norm_num)
  exact h8

/-- Sine and cosine of a sum with a tiny second part. -/
theorem sin_shift {x y : ℝ} (hx : |x| ≤ 7855 / 10000) (hy : |y| ≤ 12 / 10 ^ 17) :
    |Real.sin x + y * (1 - x ^ 2 / 2) - Real.sin (x + y)| ≤ |y| * (2 / 100) := by
  have c := Real.cos_bound (x := x) (by linarith)
  have p4 : |x| ^ 4 ≤ (7855 / 10000) ^ 4 := pow_le_pow_left₀ (abs_nonneg x) hx 4
  have cy : 1 - y ^ 2 ≤ Real.cos y := by
    have b := Real.cos_bound (x := y) (by linarith [show (12 : ℝ) / 10 ^ 17 ≤ 1 by norm_num])
    have : |y| ^ 4 ≤ |y| ^ 2 := pow_le_pow_of_le_one (abs_nonneg y) (by linarith [show (12 : ℝ) / 10 ^ 17 ≤ 1 by norm_num]) (by norm_num)
    rw [sq_abs] at this
    have := (abs_le.1 b).1
    linarith [sq_nonneg y]
  have cy' := Real.cos_le_one y
  have sy := Real.sin_bound (x := y) (by linarith [show (12 : ℝ) / 10 ^ 17 ≤ 1 by norm_num])
  have y2 : y ^ 2 ≤ |y| * (12 / 10 ^ 17) := by
    rw [← sq_abs, sq]; exact mul_le_mul_of_nonneg_left hy (abs_nonneg y)
  have y3 : |y ^ 3| ≤ |y| * (12 / 10 ^ 17) := by
    rw [abs_pow]
    have : |y| ^ 2 ≤ 12 / 10 ^ 17 := by
      rw [sq_abs]; have := mul_le_mul_of_nonneg_right hy (by norm_num : (0 : ℝ) ≤ 12 / 10 ^ 17); norm_num at this ⊢; linarith
    rw [show |y| ^ 3 = |y| * |y| ^ 2 by ring]
    exact mul_le_mul_of_nonneg_left this (abs_nonneg y)
  have y5 : |y| ^ 5 ≤ |y| * (12 / 10 ^ 17) := by
    have : |y| ^ 4 ≤ 12 / 10 ^ 17 := by
      have := pow_le_pow_left₀ (abs_nonneg y) hy 4
      norm_num at this ⊢; linarith
    rw [show |y| ^ 5 = |y| * |y| ^ 4 by ring]
    exact mul_le_mul_of_nonneg_left this (abs_nonneg y)
  have s1 := Real.abs_sin_le_one x
  have c1 := Real.abs_cos_le_one x
  have e1 : |Real.sin y - y| ≤ |y| * (1 / 10 ^ 15) := by
    have := abs_add_le (Real.sin y - (y - y ^ 3 / 6)) (-(y ^ 3 / 6))
    rw [show Real.sin y - (y - y ^ 3 / 6) + -(y ^ 3 / 6) = Real.sin y - y by ring, abs_neg, abs_div, abs_of_pos (show (0 : ℝ) < 6 by norm_num)] at this
    have := abs_nonneg y
    norm_num at *
    linarith
  have e2 : |1 - Real.cos y| ≤ |y| * (1 / 10 ^ 15) := by
    rw [abs_of_nonneg (by linarith)]
    have := abs_nonneg y
    norm_num at *
    linarith
  have a1 : |Real.sin x * (1 - Real.cos y)| ≤ 1 * (|y| * (1 / 10 ^ 15)) := by
    rw [abs_mul]; exact mul_le_mul s1 e2 (abs_nonneg _) (by norm_num)
  have a2 : |Real.cos x * (Real.sin y - y)| ≤ 1 * (|y| * (1 / 10 ^ 15)) := by
    rw [abs_mul]; exact mul_le_mul c1 e1 (abs_nonneg _) (by norm_num)
  have a3 : |y * (Real.cos x - (1 - x ^ 2 / 2))| ≤ |y| * (199 / 10 ^ 4) := by
    rw [abs_mul]; refine mul_le_mul_of_nonneg_left ?_ (abs_nonneg _)
    norm_num at p4 ⊢; linarith
  rw [Real.sin_add, show Real.sin x + y * (1 - x ^ 2 / 2) - (Real.sin x * Real.cos y + Real.cos x * Real.sin y)
    = Real.sin x * (1 - Real.cos y) - Real.cos x * (Real.sin y - y) - y * (Real.cos x - (1 - x ^ 2 / 2)) by ring]
  have t1 := abs_sub (Real.sin x * (1 - Real.cos y) - Real.cos x * (Real.sin y - y)) (y * (Real.cos x - (1 - x ^ 2 / 2)))
  have t2 := abs_sub (Real.sin x * (1 - Real.cos y)) (Real.cos x * (Real.sin y - y))
  have := abs_nonneg y
  norm_num at *
  linarith

/-- `__kernel_sin` with a tail: absolute error. -/
theorem kernelSin_one {x y : Nat} (hx : x < 2 ^ 64) (fx : IsFinite x) (b : |(value x : ℝ)| ≤ 7855 / 10000)
    (hy : y < 2 ^ 64) (fy : IsFinite y) (b' : |(value y : ℝ)| ≤ 12 / 10 ^ 17) :
    Near (kernelSin x y 1) (Real.sin ((value x : ℝ) + value y)) (1600 / 10 ^ 19) := by
  have bq : |value x| < 1 := by
    have : ((|value x| : ℚ) : ℝ) < ((1 : ℚ) : ℝ) := by push_cast; linarith
    exact_mod_cast this
  have sh := sin_shift b b'
  unfold kernelSin
  rw [toInt_small hx bq]
  by_cases h : Libm.hi x &&& 0x7fffffff < 0x3e400000
  · simp only [h, and_self, if_true]
    have s := small_hi hx h
    have s' : |(value x : ℝ)| ≤ 1 / 2 ^ 27 := by
      have := (Rat.cast_le (K := ℝ)).2 s; push_cast at this ⊢; exact this
    have t := sin_tiny s'
    have g := (sin_ge b).2
    refine ⟨hx, fx, ?_⟩
    have a1 := abs_sub (((value x : ℝ) - Real.sin (value x)) + (Real.sin (value x) + value y * (1 - (value x : ℝ) ^ 2 / 2) - Real.sin ((value x : ℝ) + value y)))
      (value y * (1 - (value x : ℝ) ^ 2 / 2))
    have a2 := abs_add_le ((value x : ℝ) - Real.sin (value x)) (Real.sin (value x) + value y * (1 - (value x : ℝ) ^ 2 / 2) - Real.sin ((value x : ℝ) + value y))
    rw [show ((value x : ℝ) - Real.sin (value x)) + (Real.sin (value x) + value y * (1 - (value x : ℝ) ^ 2 / 2) - Real.sin ((value x : ℝ) + value y))
      - (value y * (1 - (value x : ℝ) ^ 2 / 2)) = value x - Real.sin ((value x : ℝ) + value y) by ring] at a1
    have a3 : |(value y : ℝ) * (1 - (value x : ℝ) ^ 2 / 2)| ≤ |(value y : ℝ)| := by
      rw [abs_mul]
      refine mul_le_of_le_one_right (abs_nonneg _) ?_
      have z0 := sq_nonneg (value x : ℝ)
      have z1 : (value x : ℝ) ^ 2 ≤ 1 := by rw [← sq_abs]; exact pow_le_one₀ (abs_nonneg _) (by linarith)
      rw [abs_le]; constructor <;> linarith
    norm_num at *
    linarith
  · simp only [h, false_and, if_false, one_ne_zero]
    have s := large_hi hx h
    have s' : 1 / 2 ^ 28 ≤ |(value x : ℝ)| := by
      have := (Rat.cast_le (K := ℝ)).2 s; push_cast at this ⊢; exact le_trans (by norm_num) this
    obtain ⟨hz, hv⟩ := sin_start hx fx b
    have hv := (hv s').weaken (f := 1078 / 10 ^ 19) (n := 4850 / 10 ^ 4) (by norm_num; linarith) (by norm_num; linarith)
    have hr := sin_r hz
    have ht := sin_tail ⟨Near.self hx fx, b⟩ ⟨Near.self hy fy, b'⟩ hz hr hv
    obtain ⟨c1, c2⟩ := sin_core b
    refine (ht.1.move (f := 7 / 10 ^ 18 + 24 / 10 ^ 19) ?_).weaken (by norm_num)
    have e : (halfq : ℝ) = 1 / 2 := by norm_num [halfq]
    rw [e]
    have a := abs_add_le ((value x : ℝ) + (value x : ℝ) ^ 2 * value x * ev sK ((value x : ℝ) ^ 2) - Real.sin (value x))
      (Real.sin (value x) + value y * (1 - (value x : ℝ) ^ 2 / 2) - Real.sin ((value x : ℝ) + value y))
    refine le_trans (le_of_eq ?_) (le_trans a ?_)
    · congr 1; simp only [sK, ev]; ring
    · norm_num at *
      linarith

end Pok.Trig
