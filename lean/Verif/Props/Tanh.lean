import Verif.Props.Sinh
/-!
# C143: the hyperbolic tangent

The specification is Mathlib's `Real.tanh`, and `value`, `IsFinite`, `IsNaN` and `sign` of `Verif.Spec.Float`; `2^-1075` is half of the least positive double.
-/
namespace Pok.Sinh
open Pok.Err Pok.Float Pok.Fpu Pok.Poly Pok.Hypot Pok.Cosh

theorem hi_pos {x : Nat} (hx : x < 2 ^ 64) : Libm.hi x < 0x80000000 ↔ x < 2 ^ 63 := by unfold Libm.hi; omega

/-- The hyperbolic tangent of a negative number, except the smallest. -/
theorem tanh_flip {x : Nat} (hx : x < 2 ^ 63) (fx : IsFinite x) (h : 0x3c800000 ≤ x / 2 ^ 32) : tanh (2 ^ 63 + x) = negate (tanh x) := by
  have hinf : inf = 0x7ff00000 * 2 ^ 32 := rfl
  have m : mag (2 ^ 63 + x) = x := by unfold mag; omega
  have mi := (finite_iff x).1 fx
  rw [mag_s hx] at mi
  have e1 : tanh x = if x / 2 ^ 32 < 0x40360000 then
        if 0x3ff00000 ≤ x / 2 ^ 32 then sub Libm.one (div two (add (expm1 (mul two x)) two)) else div (negate (expm1 (mul mtwo x))) (add (expm1 (mul mtwo x)) two)
      else sub Libm.one tiny := by
    unfold tanh
    simp only []
    rw [hi31 (by omega), mag_s hx, Libm.fabs_mag (by omega), mag_s hx, if_neg (by omega), if_neg (by omega), if_pos ((hi_pos (by omega)).2 hx)]
  have e2 : tanh (2 ^ 63 + x) = negate (if x / 2 ^ 32 < 0x40360000 then
        if 0x3ff00000 ≤ x / 2 ^ 32 then sub Libm.one (div two (add (expm1 (mul two x)) two)) else div (negate (expm1 (mul mtwo x))) (add (expm1 (mul mtwo x)) two)
      else sub Libm.one tiny) := by
    unfold tanh
    simp only []
    rw [hi31 (by omega), m, Libm.fabs_mag (by omega), m, if_neg (by omega), if_neg (by omega), if_neg (by rw [hi_pos (by omega)]; omega)]
  rw [e2, e1]

/-- Bounds for negative numbers from those for positive ones. -/
theorem both_tanh {x : Nat} (hx : x < 2 ^ 64) (fx : IsFinite x) (l : 0x3c800000 ≤ mag x / 2 ^ 32) {e : ℝ} (h : Near (tanh (mag x)) (Real.tanh (value (mag x))) e) :
    Near (tanh x) (Real.tanh (value x)) e := by
  have m : mag x < 2 ^ 63 := mag_lt x
  by_cases c : x < 2 ^ 63
  · rw [mag_s c] at h; exact h
  · have fm : IsFinite (mag x) := by rw [finite_iff, mag_s m]; exact (finite_iff x).1 fx
    have e1 : x = 2 ^ 63 + mag x := by unfold mag; omega
    have f := tanh_flip m fm l
    rw [← e1] at f
    have v : (value x : ℝ) = - value (mag x) := by
      have a := Exp.value_neg (x := x) (by omega) hx
      have b := value_mag hx
      have a' := congrArg (fun q : ℚ => (q : ℝ)) a
      push_cast at a'
      rw [← b] at a'
      linarith
    rw [f]
    have := near_neg h
    rw [← Real.tanh_neg, ← v] at this
    exact this

/-- **C143** For every finite double of magnitude 22 or more, `tanh` returns 1 or -1, with the sign of the argument, which is within `2^-60` of the
hyperbolic tangent. -/
theorem C143_large {x : Nat} (hx : x < 2 ^ 64) (fx : IsFinite x) (h : 22 ≤ |(value x : ℝ)|) :
    tanh x = (if sign x = 0 then 0x3ff0000000000000 else 0xbff0000000000000) ∧ |(value (tanh x) : ℝ) - Real.tanh (value x)| ≤ 1 / 2 ^ 60 := by
  have hinf : inf = 0x7ff00000 * 2 ^ 32 := rfl
  have m : mag x < 2 ^ 63 := mag_lt x
  have mi := (finite_iff x).1 fx
  rw [← value_mag hx] at h
  have lo : 0x4036000000000000 ≤ mag x := by
    by_contra c
    have := bits_lt (y := mag x) (c := 0x4035ffffffffffff) (by omega) (by norm_num) (b := 22 - 1 / 2 ^ 50) (by
      rw [show value 0x4035ffffffffffff = 22 - 1 / 2 ^ 48 by unfold value sign expo frac; norm_num]; norm_num)
    linarith only [this, h]
  have fm : IsFinite (mag x) := by rw [finite_iff, mag_s m]; exact mi
  have o : sub Libm.one tiny = 0x3ff0000000000000 := by decide +kernel
  have e1 : tanh (mag x) = 0x3ff0000000000000 := by
    unfold tanh
    simp only []
    rw [hi31 (by omega), mag_s m, if_neg (by omega), if_neg (by omega), if_pos ((hi_pos (by omega)).2 m), if_neg (by omega), o]
  constructor
  · by_cases c : x < 2 ^ 63
    · rw [mag_s c] at e1
      rw [e1, if_pos (by unfold sign; omega)]
    · have e2 : x = 2 ^ 63 + mag x := by unfold mag; omega
      have f := tanh_flip m fm (by omega)
      rw [← e2, e1] at f
      rw [f, if_neg (by unfold sign; omega)]
      decide
  · refine (both_tanh hx fx (by omega) (e := 1 / 2 ^ 60) ?_).2.2
    rw [e1]
    refine ⟨by decide, by decide, ?_⟩
    rw [show value 0x3ff0000000000000 = 1 by unfold value sign expo frac; norm_num]
    generalize (value (mag x) : ℝ) = X at *
    have l2 := Exp.ln2_b
    have e2 : (2 : ℝ) ^ 31 ≤ Real.exp X := by
      have := Exp.exp_pow2 31
      rw [show ((2 : ℝ) ^ (31 : ℤ)) = 2 ^ 31 by norm_cast] at this
      rw [this]; apply Real.exp_le_exp.2; push_cast; linarith only [h, l2.2]
    rw [Real.tanh_eq, Real.exp_neg]
    generalize Real.exp X = E at *
    have Ep : 0 < E := by linarith only [e2]
    have i0 : 0 < E⁻¹ := by positivity
    have i1 : E⁻¹ ≤ E / 2 ^ 62 := by
      rw [inv_le_iff_one_le_mul₀ Ep]
      have := mul_le_mul e2 e2 (by norm_num) Ep.le
      linarith only [this]
    generalize E⁻¹ = J at *
    have s : 0 < E + J := by linarith only [Ep, i0]
    have : ((1 : ℚ) : ℝ) - (E - J) / (E + J) = 2 * J / (E + J) := by push_cast; field_simp; ring
    rw [this, abs_of_pos (by positivity), div_le_iff₀ s]
    linarith only [i0, i1, Ep]

/-- -30. -/
example : tanh 0xc03e000000000000 = 0xbff0000000000000 := by
  have := (C143_large (x := 0xc03e000000000000) (by norm_num) (by decide) (by
    rw [show value 0xc03e000000000000 = -30 by unfold value sign expo frac; norm_num]; norm_num)).1
  rw [this]; decide

/-- Twice the opposite of a number is exact. -/
theorem doubled {y : Nat} (h0 : 2 ^ 52 ≤ y) (h1 : y < 2 ^ 62) : mul mtwo y < 2 ^ 64 ∧ IsFinite (mul mtwo y) ∧ (value (mul mtwo y) : ℝ) = -(2 * value y) ∧ mag (mul mtwo y) = y + 2 ^ 52 := by
  have hinf : inf = 0x7ff00000 * 2 ^ 32 := rfl
  have hl := inf_lt
  have e := val_add (m := y) h0 (j := 1) (by omega)
  rw [one_mul, pow_one] at e
  have fy : IsFinite y := by rw [finite_iff, mag_s (by omega)]; omega
  have vm : value mtwo = -2 := by unfold mtwo value sign expo frac; norm_num
  have md : mag (2 ^ 63 + (y + 2 ^ 52)) = y + 2 ^ 52 := by unfold mag; omega
  have vd : (value (2 ^ 63 + (y + 2 ^ 52)) : ℝ) = -(2 * value y) := by
    have a := Exp.value_neg (x := 2 ^ 63 + (y + 2 ^ 52)) (by omega) (by omega)
    have b := value_mag (x := 2 ^ 63 + (y + 2 ^ 52)) (by omega)
    have a' := congrArg (fun q : ℚ => (q : ℝ)) a
    simp only [Rat.cast_abs, Rat.cast_neg] at a'
    rw [md, e] at b
    linarith only [a', b]
  have hv : (value y : ℝ) ≤ 2 := bits_lt (c := 2 ^ 62) (by omega) (by norm_num) (by
    rw [show value (2 ^ 62) = 2 by unfold value sign expo frac; norm_num]; norm_num)
  have v0 := val_nonneg (show y < 2 ^ 63 by omega)
  obtain ⟨a, b, c⟩ := exact_of (X := -(2 * value y)) (Libm.fpu_mul (a := mtwo) (b := y) (by decide) (by omega) (by decide) fy) (by
    rw [vm]; push_cast; ring) (d := 2 ^ 63 + (y + 2 ^ 52)) (by omega) (by rw [finite_iff, md]; omega) vd (below (by
    rw [abs_neg, abs_of_nonneg (by linarith)]
    have : (2 : ℝ) ^ 10 ≤ 2 ^ 1023 := pow_le_pow_right₀ (by norm_num) (by norm_num)
    refine le_trans ?_ this
    linarith only [hv]))
  refine ⟨a, b, c, ?_⟩
  have w := value_mag a
  rw [c, abs_neg, abs_of_nonneg (by linarith), ← e, val (mag_lt _), val (by omega)] at w
  have w' := (div_left_inj' (by positivity)).1 w
  have w'' : units (mag (mul mtwo y)) = units (y + 2 ^ 52) := by exact_mod_cast w'
  exact units_strictMono.injective w''

theorem small_tanh {y : Nat} (hy : y < 2 ^ 63) (h0 : 0x3c800000 ≤ y / 2 ^ 32) (h : y / 2 ^ 32 ≤ 0x3fc62e42) :
    Near (tanh y) (Real.tanh (value y)) (Real.tanh (value y) * (425 / 100 / 2 ^ 53)) := by
  obtain ⟨a1, a2, a3, a4⟩ := doubled (y := y) (by omega) (by omega)
  have hb : (value y : ℝ) ≤ 17329 / 10 ^ 5 := bits_lt (c := 0x3fc62e4300000000) (by omega) (by norm_num) (by
    rw [show value 0x3fc62e4300000000 = 1453635 / 2 ^ 23 by unfold value sign expo frac; norm_num]; norm_num)
  have p0 := val_nonneg hy
  have t := expm1_rel a1 (by rw [a4]; omega) (by rw [a4]; omega)
  have lb : 1 / 2 ^ 55 ≤ (value y : ℝ) := bits_ge (c := 0x3c80000000000000) (by omega) hy (by
    rw [show value 0x3c80000000000000 = 1 / 2 ^ 55 by unfold value sign expo frac; norm_num]; norm_num)
  have low := arg_le (X := -(2 * (value y : ℝ))) (by rw [abs_neg, abs_of_nonneg (by linarith)]; linarith only [hb])
  rw [abs_neg, abs_of_nonneg (by linarith only [p0] : 0 ≤ 2 * (value y : ℝ))] at low
  rw [a3] at t
  have te : tanh y = div (negate (expm1 (mul mtwo y))) (add (expm1 (mul mtwo y)) two) := by
    unfold tanh
    simp only []
    rw [hi31 (by omega), mag_s hy, Libm.fabs_mag (by omega), mag_s hy, if_neg (by omega), if_neg (by omega), if_pos ((hi_pos (by omega)).2 hy), if_pos (by omega), if_neg (by omega)]
  rw [te]
  generalize expm1 (mul mtwo y) = r at *
  have e1 : Real.exp (-(2 * (value y : ℝ))) ≤ 1 := Real.exp_le_one_iff.2 (by linarith only [p0])
  have e2 : 707 / 1000 ≤ Real.exp (-(2 * (value y : ℝ))) := by
    have : Real.exp (2 * (value y : ℝ)) ≤ 14143 / 10000 := le_trans (Real.exp_le_exp.2 (by norm_num at *; linarith)) Exp.exp_c
    rw [Real.exp_neg, ← one_div, le_div_iff₀ (Real.exp_pos _)]
    linarith only [this]
  have id : -(Real.exp (-(2 * (value y : ℝ))) - 1) / (Real.exp (-(2 * (value y : ℝ))) - 1 + 2) = Real.tanh (value y) := by
    rw [Real.tanh_eq]
    have : Real.exp (-(2 * (value y : ℝ))) = Real.exp (-(value y : ℝ)) * Real.exp (-(value y : ℝ)) := by rw [← Real.exp_add]; congr 1; ring
    rw [this, Real.exp_neg]
    have p := Real.exp_pos (value y : ℝ)
    generalize Real.exp (value y : ℝ) = E at *
    have i : 0 < E⁻¹ := by positivity
    have j : E * E⁻¹ = 1 := mul_inv_cancel₀ p.ne'
    have i2 : 0 < E⁻¹ * E⁻¹ := by positivity
    rw [div_eq_div_iff (by linarith only [i2]) (by linarith only [p, i])]
    linear_combination (-2 * E⁻¹) * j
  generalize Real.exp (-(2 * (value y : ℝ))) = E at *
  have n2 : Nb two 2 0 2 := by
    refine ⟨⟨by decide, by decide, ?_⟩, by norm_num⟩
    rw [show value two = 2 by unfold two value sign expo frac; norm_num]; norm_num
  obtain ⟨Z, hZ⟩ : ∃ Z, Z = 1 - E := ⟨_, rfl⟩
  have az : |E - 1| = Z := by rw [abs_of_nonpos (by linarith only [e1]), hZ]; ring
  rw [az] at t low
  have Z1 : Z ≤ 293 / 1000 := by linarith only [hZ, e2]
  have Z0 : 1 / 2 ^ 56 ≤ Z := by linarith only [low, lb]
  have p : 0 < E - 1 + 2 := by linarith only [e2]
  have nw := t.add n2.1 (m := 2) (g := 2795 / 10 ^ 19) (by rw [abs_of_pos p]; linarith only [e1]) (by linarith only [Z1]) (by linarith only [Z1])
  rw [show -(E - 1) = Z by rw [hZ]; ring] at id
  have nz := t.neg
  rw [show -(E - 1) = Z by rw [hZ]; ring] at nz
  obtain ⟨q, hq⟩ : ∃ q, q = Z / (E - 1 + 2) := ⟨_, rfl⟩
  have qz : q * (E - 1 + 2) = Z := by rw [hq]; field_simp
  have q0 : 0 ≤ q := by rw [hq]; exact div_nonneg (by linarith only [Z0]) p.le
  have q1 : q * (1707 / 1000) ≤ Z := by rw [← qz]; exact mul_le_mul_of_nonneg_left (by linarith only [e2]) q0
  have q2 : Z ≤ q * 2 := by rw [← qz]; exact mul_le_mul_of_nonneg_left (by linarith only [e1]) q0
  rw [← id, ← hq]
  rw [hq]
  refine nz.div nw (l := E - 1 + 2) (q := q) (d := q * (360 / 10 ^ 18)) (le_abs_self _) (by linarith only [e2]) ?_ ?_ ?_ ?_
  · rw [← hq, abs_of_nonneg q0]
  · have e : q * (360 / 10 ^ 18) * (E - 1 + 2 - 2795 / 10 ^ 19) = Z * (360 / 10 ^ 18) - q * (360 / 10 ^ 18 * (2795 / 10 ^ 19)) := by rw [← qz]; ring
    rw [e]
    linarith only [q0, q1]
  · rw [← hq]; linarith only [q2, Z0]
  · linarith only [q1, Z1, q0]

theorem abs_tanh_mag {x : Nat} (hx : x < 2 ^ 64) : |Real.tanh (value x)| = Real.tanh (value (mag x)) := by
  rw [Real.tanh_eq_sinh_div_cosh, Real.tanh_eq_sinh_div_cosh, abs_div, abs_mag hx, abs_of_pos (Real.cosh_pos _), value_mag hx, Real.cosh_abs]

/-- **C143** For every double from `2^-55` to a quarter of the logarithm of two in magnitude, `tanh` returns its hyperbolic tangent with a relative
error of at most `4.25·2^-53`. -/
theorem C143_small {x : Nat} (hx : x < 2 ^ 64) (fx : IsFinite x) (h0 : 1 / 2 ^ 55 ≤ |(value x : ℝ)|) (h1 : |(value x : ℝ)| ≤ Real.log 2 / 4) :
    IsFinite (tanh x) ∧ |(value (tanh x) : ℝ) - Real.tanh (value x)| ≤ |Real.tanh (value x)| * (425 / 100 / 2 ^ 53) := by
  have m : mag x < 2 ^ 63 := mag_lt x
  have l2 := Exp.ln2_b
  rw [← value_mag hx] at h0 h1
  have lo : 0x3c800000 ≤ mag x / 2 ^ 32 := by
    by_contra c
    have := bits_lt (y := mag x) (c := 0x3c7fffffffffffff) (by omega) (by norm_num) (b := 1 / 2 ^ 55 - 1 / 2 ^ 120) (by
      rw [show value 0x3c7fffffffffffff = 1 / 2 ^ 55 - 1 / 2 ^ 108 by unfold value sign expo frac; norm_num]; norm_num)
    exact absurd (le_trans h0 this) (by norm_num)
  rw [abs_tanh_mag hx]
  refine (both_tanh hx fx lo (small_tanh m lo ?_)).2
  by_contra c
  have := bits_ge (c := 0x3fc62e4300000000) (y := mag x) (by omega) m (b := 17328679555 / 10 ^ 11) (by
    rw [show value 0x3fc62e4300000000 = 1453635 / 2 ^ 23 by unfold value sign expo frac; norm_num]; norm_num)
  have t := le_trans this h1
  linarith only [t, l2.2]

example : IsFinite (tanh 0xbfc0000000000000) ∧ |(value (tanh 0xbfc0000000000000) : ℝ) - Real.tanh (value 0xbfc0000000000000)| ≤
    |Real.tanh (value 0xbfc0000000000000)| * (425 / 100 / 2 ^ 53) := by
  have l2 := Exp.ln2_b
  have v : value 0xbfc0000000000000 = -(1 / 8) := by unfold value sign expo frac; norm_num
  refine C143_small (by norm_num) (by decide) ?_ ?_
  · rw [v]; norm_num
  · rw [v, Rat.cast_neg, abs_neg, abs_of_pos (by norm_num)]; push_cast; linarith only [l2.1]

/-- Close to zero the hyperbolic tangent is close to its argument. -/
theorem tanh_tiny {X : ℝ} (h : |X| ≤ 1 / 2 ^ 55) : |Real.tanh X - X| ≤ |X| / 2 ^ 100 ∧ |X| ≤ |Real.tanh X| * (1 + 1 / 2 ^ 100) := by
  obtain ⟨a, b⟩ := sinh_cubic (X := X) (le_trans h (by norm_num))
  have c := abs_le_sinh X
  have z := abs_nonneg X
  have s2 : |X| ^ 2 ≤ 1 / 2 ^ 110 := le_trans (pow_le_pow_left₀ z h 2) (by norm_num)
  have s3 : |X| ^ 3 ≤ |X| * (1 / 2 ^ 110) := by
    rw [show |X| ^ 3 = |X| * |X| ^ 2 by ring]; exact mul_le_mul_of_nonneg_left s2 z
  have d1 : 1 ≤ Real.cosh X := Real.one_le_cosh X
  have d0 : 0 < Real.cosh X := by linarith
  have d2 : Real.cosh X ≤ 1 + 1 / 2 ^ 110 := by linarith only [(abs_le.1 b).2, s2]
  rw [Real.tanh_eq_sinh_div_cosh]
  constructor
  · have e : Real.sinh X / Real.cosh X - X = ((Real.sinh X - X) - X * (Real.cosh X - 1)) / Real.cosh X := by field_simp; ring
    rw [e, abs_div, abs_of_pos d0, div_le_iff₀ d0]
    have t := abs_sub (Real.sinh X - X) (X * (Real.cosh X - 1))
    rw [abs_mul] at t
    have u : |X| * |Real.cosh X - 1| ≤ |X| * (1 / 2 ^ 110) := mul_le_mul_of_nonneg_left (le_trans b s2) z
    have w : |X| / 2 ^ 100 * 1 ≤ |X| / 2 ^ 100 * Real.cosh X := mul_le_mul_of_nonneg_left d1 (by positivity)
    linarith only [t, u, w, a, s3, z]
  · rw [abs_div, abs_of_pos d0, div_mul_eq_mul_div, le_div_iff₀ d0]
    have u : |X| * Real.cosh X ≤ |X| * (1 + 1 / 2 ^ 110) := mul_le_mul_of_nonneg_left d2 z
    linarith only [u, c, z]

/-- 1 and a number below `2^-55` make 1. -/
theorem add_one_tiny {x : Nat} (hx : x < 2 ^ 64) (fx : IsFinite x) (h : |(value x : ℝ)| < 1 / 2 ^ 55) : add Libm.one x = Libm.one := by
  have v1 : value Libm.one = 1 := by unfold Libm.one value sign expo frac; norm_num
  have hb := abs_lt.1 h
  have pos : 0 < value Libm.one + value x := by
    have : (0 : ℝ) < ((value Libm.one + value x : ℚ) : ℝ) := by rw [v1]; push_cast; linarith only [hb.1]
    exact_mod_cast this
  obtain ⟨r1, r2, r3⟩ := Libm.fpu_add (a := Libm.one) (b := x) (by decide) hx (by decide) fx pos.ne'
  rw [if_neg (not_lt.2 pos.le)] at r2
  have big : (2 : ℝ) ^ 10 ≤ 2 ^ 1023 := pow_le_pow_right₀ (by norm_num) (by norm_num)
  have lim := below (X := ((value Libm.one + value x : ℚ) : ℝ)) (le_trans (by rw [v1]; push_cast; rw [abs_le]; constructor <;> linarith only [hb.1, hb.2]) big)
  rw [if_pos (by
    have : ((|value Libm.one + value x| : ℚ) : ℝ) < (((2 ^ 54 - 1) * 2 ^ 970 : ℚ) : ℝ) := by push_cast at lim ⊢; exact lim
    exact Rat.cast_lt.1 this)] at r3
  have n := r3.2.1 Libm.one (by decide) (by decide)
  have n' : |(value (add Libm.one x) : ℝ) - (1 + value x)| ≤ |(value x : ℝ)| := by
    rw [v1, show (1 : ℚ) - (1 + value x) = -value x by ring, abs_neg] at n
    have : ((|value (add Libm.one x) - (1 + value x)| : ℚ) : ℝ) ≤ ((|value x| : ℚ) : ℝ) := Rat.cast_le.2 n
    push_cast at this; exact this
  have n2 := abs_le.1 n'
  have s : add Libm.one x < 2 ^ 63 := by unfold sign at r2; omega
  generalize add Libm.one x = r at *
  have ho : Libm.one = 0x3ff0000000000000 := rfl
  rw [ho]
  by_contra c
  rcases Nat.lt_or_gt_of_ne c with c | c
  · have := bits_lt (y := r) (c := 0x3fefffffffffffff) (by omega) (by norm_num) (b := 1 - 1 / 2 ^ 53) (by
      rw [show value 0x3fefffffffffffff = 1 - 1 / 2 ^ 53 by unfold value sign expo frac; norm_num]; norm_num)
    linarith only [this, n2.1, h, hb.1]
  · have := bits_ge (c := 0x3ff0000000000001) (y := r) (by omega) s (b := 1 + 1 / 2 ^ 52) (by
      rw [show value 0x3ff0000000000001 = 1 + 1 / 2 ^ 52 by unfold value sign expo frac; norm_num]; norm_num)
    linarith only [this, n2.2, h, hb.2]

/-- **C143** For every double below `2^-55` in magnitude, `tanh` returns the number itself, which is within `2^-99` of the hyperbolic tangent, relative to it. -/
theorem C143_tiny {x : Nat} (hx : x < 2 ^ 64) (fx : IsFinite x) (h : |(value x : ℝ)| < 1 / 2 ^ 55) :
    tanh x = x ∧ |(value (tanh x) : ℝ) - Real.tanh (value x)| ≤ |Real.tanh (value x)| / 2 ^ 99 := by
  have hinf : inf = 0x7ff00000 * 2 ^ 32 := rfl
  have m : mag x < 2 ^ 63 := mag_lt x
  have mi := (finite_iff x).1 fx
  have l : mag x < 0x3c80000000000000 := by
    by_contra c
    have := bits_ge (c := 0x3c80000000000000) (y := mag x) (by omega) m (b := 1 / 2 ^ 55) (by
      rw [show value 0x3c80000000000000 = 1 / 2 ^ 55 by unfold value sign expo frac; norm_num]; norm_num)
    rw [value_mag hx] at this
    exact absurd h (not_lt.2 this)
  have e : tanh x = x := by
    unfold tanh
    simp only []
    rw [hi31 hx, if_neg (by omega), if_pos (by omega), add_one_tiny hx fx h]
    exact Libm.mul_one hx fx
  refine ⟨e, ?_⟩
  rw [e]
  obtain ⟨p, q⟩ := tanh_tiny h.le
  rw [abs_sub_comm]
  linarith only [p, q, abs_nonneg (Real.tanh (value x : ℝ)), abs_nonneg (value x : ℝ)]

/-- The least negative number. -/
example : tanh 0x8000000000000001 = 0x8000000000000001 := by
  refine (C143_tiny (by norm_num) (by decide) ?_).1
  rw [← value_mag (by norm_num)]
  refine lt_of_le_of_lt (bits_lt (c := 0x3c00000000000000) (by decide) (by norm_num) (b := 1 / 2 ^ 63) (by
    rw [show value 0x3c00000000000000 = 1 / 2 ^ 63 by unfold value sign expo frac; norm_num]; norm_num)) (by norm_num)

/-! ## Signs, zeros, infinites and what is not a number -/

/-- **C143** **Special values.** Either zero is returned as it is, and the infinites give 1 and -1. -/
theorem C143_special : tanh 0 = 0 ∧ tanh (2 ^ 63) = 2 ^ 63 ∧ tanh inf = 0x3ff0000000000000 ∧ tanh (2 ^ 63 + inf) = 0xbff0000000000000 := by decide +kernel

/-- For every finite double of magnitude `2^-55` or more, the result for its opposite is the opposite of its result, bit for bit. -/
theorem odd_from {x : Nat} (hx : x < 2 ^ 63) (fx : IsFinite x) (h : 1 / 2 ^ 55 ≤ (value x : ℝ)) :
    tanh (2 ^ 63 + x) % 2 ^ 63 = tanh x % 2 ^ 63 ∧ sign (tanh (2 ^ 63 + x)) + sign (tanh x) = 1 := by
  have lo : 0x3c800000 ≤ x / 2 ^ 32 := by
    by_contra c
    have := bits_lt (y := x) (c := 0x3c7fffffffffffff) (by omega) (by norm_num) (b := 1 / 2 ^ 55 - 1 / 2 ^ 120) (by
      rw [show value 0x3c7fffffffffffff = 1 / 2 ^ 55 - 1 / 2 ^ 108 by unfold value sign expo frac; norm_num]; norm_num)
    exact absurd (le_trans h this) (by norm_num)
  rw [tanh_flip hx fx lo]
  obtain ⟨a, b⟩ := neg_flip (tanh x)
  refine ⟨b, ?_⟩
  rw [neg_sign, neg_sign] at a
  have s1 := sign_lt (tanh x)
  have s2 := sign_lt (negate (tanh x))
  by_cases c : sign (tanh x) = 1
  · rw [decide_eq_true c] at a
    simp only [Bool.not_true, decide_eq_false_iff_not] at a
    omega
  · rw [decide_eq_false c] at a
    simp only [Bool.not_false, decide_eq_true_eq] at a
    omega

example : sign (tanh (2 ^ 63 + 0x3ff0000000000000)) + sign (tanh 0x3ff0000000000000) = 1 := by
  refine (odd_from (by norm_num) (by decide) ?_).2
  rw [show value 0x3ff0000000000000 = 1 by unfold value sign expo frac; norm_num]; norm_num

/-- **C143** **Not numbers.** The result for a `NaN` is a `NaN`. -/
theorem C143_nan {x : Nat} (hx : x < 2 ^ 64) (h : IsNaN x) : IsNaN (tanh x) := by
  have hn := h
  rw [Libm.nan_iff] at h
  have hinf : inf = 0x7ff00000 * 2 ^ 32 := rfl
  have n : isNaN x = true := by unfold isNaN; exact decide_eq_true h
  have d : div Libm.one x = quiet x := by
    unfold div
    rw [if_neg (by decide), if_pos n]
  have q : IsNaN (div Libm.one x) := by
    rw [d, Libm.nan_iff]
    have := quiet_nan n
    unfold isNaN at this
    exact of_decide_eq_true this
  unfold tanh
  simp only []
  rw [hi31 hx, if_pos (by omega)]
  split
  · exact add_nan (Or.inl q)
  · unfold sub
    rw [if_neg (by decide)]
    exact add_nan (Or.inl q)

example : IsNaN (tanh 0xfff0000000000001) := C143_nan (by norm_num) (by decide)

end Pok.Sinh
